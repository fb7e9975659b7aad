import Verif.Spec.Slice
import Verif.Lemmas.Container
import Verif.Lemmas.Compress
import Verif.Props.EndRatio

/-!
# Lemmas about slicing
-/

namespace Kwk
open Spec

theorem eq_of_sorted_mem {l l' : List Int} (h : l.Pairwise (· < ·)) (h' : l'.Pairwise (· < ·))
    (hm : ∀ x, x ∈ l ↔ x ∈ l') : l = l' := by
  induction l generalizing l' with
  | nil =>
    cases l' with
    | nil => rfl
    | cons y l' => exact absurd ((hm y).2 (by simp)) (by simp)
  | cons x l ih =>
    cases l' with
    | nil => exact absurd ((hm x).1 (by simp)) (by simp)
    | cons y l' =>
      have hx := List.pairwise_cons.1 h
      have hy := List.pairwise_cons.1 h'
      have exy : x = y := by
        rcases List.mem_cons.1 ((hm x).1 (by simp)) with e | e
        · exact e
        · rcases List.mem_cons.1 ((hm y).2 (by simp)) with e' | e'
          · exact e'.symm
          · have := hx.1 y e'; have := hy.1 x e; omega
      subst exy
      congr 1
      refine ih hx.2 hy.2 fun z => ?_
      constructor
      · intro hz
        rcases List.mem_cons.1 ((hm z).1 (by simp [hz])) with e | e
        · subst e; exact absurd (hx.1 z hz) (by omega)
        · exact e
      · intro hz
        rcases List.mem_cons.1 ((hm z).2 (by simp [hz])) with e | e
        · subst e; exact absurd (hy.1 z hz) (by omega)
        · exact e

theorem upTo_sorted (d : Int) : (upTo d).Pairwise (· < ·) := by
  unfold upTo
  rw [List.pairwise_map]
  exact List.pairwise_lt_range.imp fun h => by simpa using h

/-- Number of steps of size `s` that fit below `v`. -/
def steps (v s : Int) : Int := (if v % s ≠ 0 then 1 else 0) + v / s

theorem lt_steps {v s k : Int} (hs : 0 < s) : k < steps v s ↔ k * s < v := by
  have h1 := Int.mul_ediv_add_emod v s
  have h2 := Int.emod_nonneg v hs.ne'
  have h3 := Int.emod_lt_of_pos v hs
  unfold steps
  generalize v % s = r at *
  generalize v / s = q at *
  split
  · next hr =>
    constructor
    · intro h
      have : k ≤ q := by omega
      have := mul_le_mul_of_nonneg_right this hs.le
      have : q * s = s * q := mul_comm _ _
      omega
    · intro h
      by_contra hn
      have : q + 1 ≤ k := by omega
      have := mul_le_mul_of_nonneg_right this hs.le
      have : (q + 1) * s = s * q + s := by ring
      omega
  · next hr =>
    have hr : r = 0 := by simpa using hr
    subst hr
    constructor
    · intro h
      have : k + 1 ≤ q := by omega
      have := mul_le_mul_of_nonneg_right this hs.le
      have : (k + 1) * s = k * s + s := by ring
      have : q * s = s * q := mul_comm _ _
      omega
    · intro h
      by_contra hn
      have : q ≤ k := by omega
      have := mul_le_mul_of_nonneg_right this hs.le
      have : q * s = s * q := mul_comm _ _
      omega

theorem steps_nonneg {v s : Int} (hs : 0 < s) (hv : 0 ≤ v) : 0 ≤ steps v s := by
  unfold steps
  have := Int.ediv_nonneg hv hs.le
  split <;> omega

theorem sliceEval_pos {v s : Int} (hs : 0 < s) (hv : 0 ≤ v) : sliceEval v s = .ok (steps v s) := by
  unfold sliceEval steps
  split
  · next h => subst h; simp [pure, Except.pure]
  · have h1 : ¬ s < 0 := by omega
    have h2 : s ≠ 0 := by omega
    simp only [h1, if_false, cmod, cdiv, h2, Int.tmod_eq_emod_of_nonneg hv,
      Int.tdiv_eq_ediv_of_nonneg hv]
    rfl

theorem sliceEval_neg {v s : Int} (hs : s < 0) (hv : 0 ≤ v) : sliceEval v s = .ok (steps v (-s)) := by
  have h := sliceEval_pos (v := v) (s := -s) (by omega) hv
  have : sliceEval v s = sliceEval v (-s) := by
    unfold sliceEval
    have h1 : ¬ (-s < 0) := by omega
    simp only [hs, h1, if_true, if_false]
  rw [this, h]

theorem selectUp_eq {d b e s : Int} (hs : 0 < s) (hb : 0 ≤ b) (he : e ≤ d) :
    selectUp d b e s = (upTo (steps (e - b) s)).map fun k => b + k * s := by
  apply eq_of_sorted_mem
  · exact (upTo_sorted d).filter _
  · rw [List.pairwise_map]
    exact (upTo_sorted _).imp fun h => by
      have := mul_lt_mul_of_pos_right h hs; omega
  · intro x
    simp only [selectUp, List.mem_filter, mem_upTo, decide_eq_true_eq, List.mem_map, lt_steps hs]
    constructor
    · rintro ⟨_, h1, h2, h3⟩
      obtain ⟨k, hk⟩ := Int.dvd_of_emod_eq_zero h3
      refine ⟨k, ⟨?_, ?_⟩, ?_⟩
      · by_contra hn
        have : s * k < 0 := mul_neg_of_pos_of_neg hs (by omega)
        omega
      · rw [mul_comm]; omega
      · rw [mul_comm]; omega
    · rintro ⟨k, ⟨h1, h2⟩, rfl⟩
      have := mul_nonneg h1 hs.le
      refine ⟨by omega, by omega, by omega, ?_⟩
      rw [add_sub_cancel_left]; exact Int.mul_emod_left k s

theorem map_neg_sorted {l : List Int} (h : l.Pairwise (· < ·)) : (l.reverse.map fun x => -x).Pairwise (· < ·) := by
  rw [List.pairwise_map, List.pairwise_reverse]
  exact h.imp fun h => by omega

theorem selectDown_eq {d b s : Int} (hs : s < 0) (hb : b < d) :
    selectDown d b s = (upTo (steps (b + 1) (-s))).map fun k => b + k * s := by
  have hinj : Function.Injective (List.map (fun x : Int => -x)) := List.map_injective_iff.2 neg_injective
  apply hinj
  apply eq_of_sorted_mem
  · exact map_neg_sorted ((upTo_sorted d).filter _)
  · rw [List.pairwise_map, List.pairwise_map]
    exact (upTo_sorted _).imp fun {x y} h => by
      have := mul_lt_mul_of_neg_right h hs; omega
  · intro x
    have hs' : 0 < -s := by omega
    simp only [selectDown, List.mem_map, List.mem_reverse, List.mem_filter, mem_upTo,
      decide_eq_true_eq, lt_steps hs']
    constructor
    · rintro ⟨y, ⟨h0, h1, h2⟩, rfl⟩
      refine ⟨y, ?_, rfl⟩
      obtain ⟨k, hk⟩ := Int.dvd_of_emod_eq_zero h2
      refine ⟨-k, ⟨?_, ?_⟩, ?_⟩
      · by_contra hn
        have : s * k < 0 := mul_neg_of_neg_of_pos hs (by omega)
        omega
      · have : -k * -s = s * k := by ring
        omega
      · have : -k * s = -(s * k) := by ring
        omega
    · rintro ⟨y, ⟨k, ⟨h1, h2⟩, rfl⟩, rfl⟩
      have h3 := mul_nonneg h1 hs'.le
      have h4 : k * -s = -(k * s) := by ring
      refine ⟨b + k * s, ⟨by omega, by omega, ?_⟩, rfl⟩
      have : b - (b + k * s) = -k * s := by ring
      rw [this]; exact Int.mul_emod_left (-k) s

theorem getD_upTo_map (n k : Int) (f : Int → Int) (h0 : 0 ≤ k) (hk : k < n) :
    ((upTo n).map f).getD k.toNat 0 = f k := by
  rw [List.getD_eq_getElem?_getD, List.getElem?_map, upTo_getElem?, if_pos (by omega)]
  simp [h0]

theorem value_of_denotes {d v : Int} {b : Bound} (h : Denotes d b v) : b.value d = .ok v := by
  cases h with
  | int => rfl
  | ext e he =>
    rw [Bound.value, EndT.size, cdiv, if_neg he, tdiv_eq_trunc _ _ he]; rfl

/-- Step of a slicer. -/
def stepOf : Slicer → Int
  | .interval _ (some s) _ _ => s
  | _ => 1

theorem restride_eq (g : Int) (s : Slicer) : restride g s = stepOf s * g := by
  cases s with
  | interval b st e l => cases st <;> simp [restride, stepOf]
  | _ => simp [restride, stepOf]

/-- Everything about one axis. -/
theorem picks_axis {d : Int} {sl : Slicer} {l : List Int} (h : Picks d sl l) :
    ∃ o, reindex d sl = .ok o ∧ sliceExtent d sl = .ok (l.length : Int) ∧
      l = (upTo (l.length : Int)).map (fun k => o + k * stepOf sl) ∧ (∀ x ∈ l, 0 ≤ x ∧ x < d) ∧
      stepOf sl ≠ 0 := by
  have len : ∀ (n : Int) (f : Int → Int), 0 ≤ n → ((((upTo n).map f).length : Nat) : Int) = n := by
    intro n f hn; rw [List.length_map, upTo_length]; omega
  cases h with
  | joker hd =>
    refine ⟨0, rfl, ?_, ?_, fun x hx => mem_upTo.1 hx, by simp [stepOf]⟩
    · simp [sliceExtent, upTo_length, hd, pure, Except.pure]
    · simp [stepOf, upTo_length, hd]
  | index h0 h1 =>
    rename_i i
    refine ⟨i, rfl, rfl, ?_, by simp [h0, h1], by simp [stepOf]⟩
    simp [upTo, stepOf]
  | ext he h0 h1 =>
    rename_i e i
    refine ⟨i, value_of_denotes he, rfl, ?_, by simp [h0, h1], by simp [stepOf]⟩
    simp [upTo, stepOf]
  | up hb he hst hs h0 h1 h2 =>
    rename_i begin stop step b e s
    have hstep : stepOf (.interval begin step stop none) = s := by
      subst hst; cases step <;> rfl
    have hl : ((selectUp d b e s).length : Int) = steps (e - b) s := by
      rw [selectUp_eq hs h0 h2, len _ _ (steps_nonneg hs (by omega))]
    have hsel := selectUp_eq (d := d) (b := b) (e := e) hs h0 h2
    refine ⟨b, ?_, ?_, ?_, ?_, by rw [hstep]; omega⟩
    · cases hb with
      | none =>
        cases step with
        | none => rfl
        | some s' => simp at hst; subst hst; simp [reindex, hs, pure, Except.pure]
      | some hb => exact value_of_denotes hb
    · rw [hl, ← sliceEval_pos hs (by omega)]
      have hs0 : s ≥ 0 := by omega
      cases hb with
      | none =>
        cases he with
        | none => cases step <;> (simp at hst; subst hst; simp [sliceExtent])
        | some he =>
          cases step with
          | none =>
            simp at hst; subst hst
            simp [sliceExtent, value_of_denotes he, pure, Except.pure, bind, Except.bind]
          | some s' =>
            simp at hst; subst hst
            simp [sliceExtent, value_of_denotes he, pure, Except.pure, bind, Except.bind, hs0]
      | some hb =>
        cases he with
        | none =>
          cases step with
          | none => simp at hst; subst hst; simp [sliceExtent, value_of_denotes hb, pure, Except.pure, bind, Except.bind]
          | some s' =>
            simp at hst; subst hst
            simp [sliceExtent, value_of_denotes hb, pure, Except.pure, bind, Except.bind, hs0]
        | some he =>
          cases step with
          | none =>
            simp at hst; subst hst
            simp [sliceExtent, value_of_denotes hb, value_of_denotes he, bind, Except.bind]
          | some s' =>
            simp at hst; subst hst
            simp [sliceExtent, value_of_denotes hb, value_of_denotes he, bind, Except.bind, hs0]
    · rw [hl, hstep, hsel]
    · intro x hx
      simp only [selectUp, List.mem_filter, mem_upTo] at hx
      exact hx.1
  | down hb hs h0 h1 =>
    rename_i begin s b
    have hsel := selectDown_eq (d := d) (b := b) hs h1
    have hl : ((selectDown d b s).length : Int) = steps (b + 1) (-s) := by
      rw [hsel, len _ _ (steps_nonneg (by omega) (by omega))]
    have hs0 : ¬ s ≥ 0 := by omega
    refine ⟨b, ?_, ?_, by rw [hl, hsel]; rfl, ?_, by simp [stepOf]; omega⟩
    · cases hb with
      | none =>
        have : ¬ s > 0 := by omega
        simp [reindex, this, pure, Except.pure]
      | some hb => exact value_of_denotes hb
    · rw [hl, ← sliceEval_neg hs (by omega)]
      cases hb with
      | none => simp [sliceExtent]
      | some hb => simp [sliceExtent, value_of_denotes hb, pure, Except.pure, bind, Except.bind, hs0]
    · intro x hx
      simp only [selectDown, List.mem_reverse, List.mem_filter, mem_upTo] at hx
      exact hx.1
  | length hst hs hb hn h0 hin =>
    rename_i begin len' step b n s
    have hstep : stepOf (.interval begin step none (some len')) = s := by
      subst hst; cases step <;> rfl
    refine ⟨b, ?_, ?_, by rw [len _ _ h0, hstep], ?_, by rw [hstep]; exact hs⟩
    · cases hb with
      | none =>
        cases step with
        | none => simp at hst; subst hst; rfl
        | some s' =>
          simp at hst; subst hst
          by_cases hlt : s' < 0
          · have : ¬ s' > 0 := by omega
            simp [reindex, this, hlt, pure, Except.pure]
          · have : s' > 0 := by omega
            simp [reindex, this, hlt, pure, Except.pure]
      | some hb => exact value_of_denotes hb
    · rw [len _ _ h0]; exact value_of_denotes hn
    · intro x hx
      obtain ⟨k, hk, rfl⟩ := List.mem_map.1 hx
      exact hin k (mem_upTo.1 hk).1 (mem_upTo.1 hk).2

theorem Spec.PicksAll.length_eq {ds : List Int} {sl : List Slicer} {ls : List (List Int)}
    (h : PicksAll ds sl ls) : sl.length = ds.length ∧ ls.length = ds.length := by
  induction h with
  | nil => simp
  | cons _ _ ih => simp [ih.1, ih.2]

/-- All axes together: origin, extents and addresses for any strides `g`. -/
theorem picksAll_axes {ds : List Int} {sl : List Slicer} {ls : List (List Int)} (h : PicksAll ds sl ls) :
    ∃ os, (ds.zip sl).mapM (fun x : Int × Slicer => reindex x.1 x.2) = .ok os ∧
      os.length = ds.length ∧
      (ds.zip sl).mapM (fun x : Int × Slicer => sliceExtent x.1 x.2) = .ok (pickShape ls) ∧
      (∀ i, InBox (pickShape ls) i → InBox ds (pickAt ls i) ∧ ∀ g : List Int, g.length = ds.length →
        linearize g os + linearize (g.zipWith restride sl) i = linearize g (pickAt ls i)) ∧
      ((∀ l ∈ ls, l ≠ []) → InBox ds os) ∧
      (∀ i j, InBox (pickShape ls) i → InBox (pickShape ls) j → pickAt ls i = pickAt ls j → i = j) := by
  induction h with
  | nil =>
    refine ⟨[], rfl, rfl, rfl, ?_, fun _ => .nil, ?_⟩
    · intro i hi
      rw [pickShape, List.map_nil, inBox_nil] at hi
      subst hi
      exact ⟨.nil, fun g hg => by simp [linearize, pickAt]⟩
    · intro i j hi hj _
      rw [pickShape, List.map_nil, inBox_nil] at hi hj
      rw [hi, hj]
  | @cons d ds s sl l ls hp _ ih =>
    obtain ⟨os, e1, elen, e2, e3, e4, e5⟩ := ih
    obtain ⟨o, r1, r2, r3, r4, r5⟩ := picks_axis hp
    have hget : ∀ k : Int, 0 ≤ k → k < l.length → l.getD k.toNat 0 = o + k * stepOf s := by
      intro k h0 hk
      have := getD_upTo_map (l.length : Int) k (fun k => o + k * stepOf s) h0 hk
      rw [← r3] at this; exact this
    have hmem : ∀ k : Int, 0 ≤ k → k < l.length → l.getD k.toNat 0 ∈ l := by
      intro k h0 hk
      rw [List.getD_eq_getElem?_getD, List.getElem?_eq_getElem (by omega)]
      exact List.getElem_mem _
    refine ⟨o :: os, ?_, by simp [elen], ?_, ?_, ?_, ?_⟩
    · rw [List.zip_cons_cons, List.mapM_cons]
      simp only [r1, e1]; rfl
    · rw [List.zip_cons_cons, List.mapM_cons]
      simp only [r2, e2]; rfl
    · intro i hi
      rw [pickShape, List.map_cons] at hi
      obtain ⟨k, i, rfl, hk, hi⟩ := inBox_cons_left hi
      obtain ⟨a1, a2⟩ := e3 i hi
      have hpk : pickAt (l :: ls) (k :: i) = l.getD k.toNat 0 :: pickAt ls i := rfl
      rw [hpk]
      refine ⟨inBox_cons.2 ⟨r4 _ (hmem k hk.1 hk.2), a1⟩, ?_⟩
      intro g hg
      cases g with
      | nil => simp at hg
      | cons g0 g =>
        rw [List.zipWith_cons_cons, linearize_cons, linearize_cons, linearize_cons, restride_eq,
          hget k hk.1 hk.2, ← a2 g (by simpa using hg)]
        ring
    · intro hne
      refine inBox_cons.2 ⟨?_, e4 fun l' hl' => hne l' (by simp [hl'])⟩
      have hl : l ≠ [] := hne l (by simp)
      have hpos : 0 < l.length := List.length_pos_iff.2 hl
      have := r4 _ (hmem 0 (by omega) (by omega))
      rw [hget 0 (by omega) (by omega)] at this
      omega
    · intro i j hi hj e
      rw [pickShape, List.map_cons] at hi hj
      obtain ⟨k, i, rfl, hk, hi⟩ := inBox_cons_left hi
      obtain ⟨k', j, rfl, hk', hj⟩ := inBox_cons_left hj
      have e : l.getD k.toNat 0 :: pickAt ls i = l.getD k'.toNat 0 :: pickAt ls j := e
      injection e with ea eb
      rw [hget k hk.1 hk.2, hget k' hk'.1 hk'.2] at ea
      rw [e5 i j hi hj eb]
      congr 1
      exact mul_right_cancel₀ r5 (by omega)

theorem sfx_compress {n : Nat} {s : List Int} (h0 : 0 < n) (h : n ≤ s.length) :
    strideCompress n (sfx s) = sfx (compress n s) := by
  rw [compress_eq h0 h, strideCompress, sfx_length]
  have key : ∀ (k : Nat) (s : List Int) (x : Int), k + 1 ≤ s.length →
      (sfx s).drop k = sfx (x :: s.drop (k + 1)) := by
    intro k
    induction k with
    | zero => intro s x hk; cases s with
      | nil => simp at hk
      | cons d ds => simp [sfx]
    | succ k ih => intro s x hk; cases s with
      | nil => simp at hk
      | cons d ds =>
        rw [sfx, List.drop_succ_cons, List.drop_succ_cons]
        exact ih ds x (by simpa using hk)
  exact key (s.length - n) s _ (by omega)

/-- Slicing any well-formed container whose first `order - n + 1` axes can be merged: the general
statement on addresses.  `g` are the strides used for the merged axes. -/
theorem slice_run (md : Mode) {c : Container} (hw : c.WF) {sl : List Slicer} {ls : List (List Int)}
    (hp : PicksAll (compress sl.length c.shape) sl ls) (hmd : md = .checked → ∀ l ∈ ls, l ≠ [])
    (hn : 0 < sl.length) (hlen : sl.length ≤ c.shape.length) :
    ∃ c' os, c.slice md sl = .ok c' ∧ c'.WF ∧ c'.shape = pickShape ls ∧
      c'.strides = (strideCompress sl.length c.strides).zipWith restride sl ∧
      c'.reach = (c.reach && preservesReachability sl) ∧
      c'.base = c.base.add (linearize (sfx (compress sl.length c.shape)) os) ∧
      ((compress sl.length c.shape).zip sl).mapM (fun x : Int × Slicer => reindex x.1 x.2) = .ok os := by
  obtain ⟨os, e1, elen, e2, e3, e4, e5⟩ := picksAll_axes hp
  obtain ⟨hl1, hl2⟩ := hp.length_eq
  have ho : origin md c.shape sl = .ok (linearize (sfx (compress sl.length c.shape)) os) := by
    simp only [origin, e1, bind, Except.bind]
    cases md with
    | checked => exact linearIndex_ok _ (e4 (hmd rfl))
    | unchecked => rw [linearIndex, asStride_eq_sfx]; rfl
  have hst : c.stride = c.strides := stride_eq hw
  refine ⟨{ base := c.base.add (linearize (sfx (compress sl.length c.shape)) os), shape := pickShape ls,
            strides := strideSlice (strideCompress sl.length c.stride) sl, specific := true,
            reach := c.reach && preservesReachability sl }, os, ?_, ?_, rfl, ?_, rfl, rfl, e1⟩
  · simp only [Container.slice, ho, bind, Except.bind, shapeSlice, e2]; rfl
  · refine ⟨?_, ?_, by simp⟩
    · intro e
      have := congrArg List.length e
      rw [pickShape, List.length_map, hl2, compress_length hn hlen, List.length_nil] at this
      omega
    · simp only [strideSlice, hst, strideCompress, List.length_zipWith, List.length_drop, hw.len,
        pickShape, List.length_map, hl2, compress_length hn hlen]
      omega
  · rw [hst]; rfl

end Kwk
