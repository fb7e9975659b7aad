import Verif.Spec.Custom
import Verif.Lemmas.Slice

/-!
# Lemmas: slices by slicers of the user's own types
-/

namespace Kwk
open Spec

/-- What slicing uses of one axis. -/
structure AxisUse (shp : Shape) (st : Strides) (n : Nat) (s : AnySlicer) (l : List Int) (o t e : Int) : Prop where
  start : (s.reindex shp n).getD (.ok 0) = .ok o
  count : s.reshape shp n = .ok (l.length : Int)
  step : s.restride st n = t * st.getD n 0
  at_ : ∀ k : Int, 0 ≤ k → k < l.length → l.getD k.toNat 0 = o + k * t
  inside : ∀ x ∈ l, 0 ≤ x ∧ x < e

theorem chooses_axis {shp : Shape} {st : Strides} {n : Nat} {s : AnySlicer} {l : List Int} {e : Int} (he : shp[n]? = some e)
    (hs : ∀ c, s = .custom c → c.value = none) (h : Chooses shp st n s l) : ∃ o t, AxisUse shp st n s l o t e := by
  have hg : shp.getD n 0 = e := by rw [List.getD_eq_getElem?_getD, he]; rfl
  cases h with
  | @library s d l hd hp =>
    rw [he] at hd; cases hd
    obtain ⟨o, r1, r2, r3, r4, _⟩ := picks_axis hp
    refine ⟨o, stepOf s, ?_, ?_, ?_, ?_, r4⟩
    · simp only [AnySlicer.reindex, hg, r1]; rfl
    · simp only [AnySlicer.reshape, hg, r2]
    · simp only [AnySlicer.restride, restride_eq]
    · intro k h0 hk
      have := getD_upTo_map (l.length : Int) k (fun k => o + k * stepOf s) h0 hk
      rw [← r3] at this; exact this
  | @custom s b k d e' hsay he' hk hin =>
    rw [he] at he'; cases he'
    have hv := hs s rfl
    have hlen : ((((upTo k).map fun j => b + j * d).length : Nat) : Int) = k := by
      rw [List.length_map, upTo_length]; omega
    refine ⟨b, d, ?_, ?_, ?_, ?_, ?_⟩
    · rcases hsay.start with ⟨f, h1, h2⟩ | ⟨_, h2⟩
      · simp only [AnySlicer.reindex, h1, hv, h2]; rfl
      · rw [hv] at h2; cases h2
    · rw [hlen]
      rcases hsay.count with ⟨f, h1, h2⟩ | ⟨h1, h2⟩
      · simp only [AnySlicer.reshape, h1, h2]
      · simp only [AnySlicer.reshape, h1, h2]
    · obtain ⟨g, hg', h⟩ := hsay.distance
      have hst : st.getD n 0 = g := by rw [List.getD_eq_getElem?_getD, hg']; rfl
      rcases h with ⟨f, h1, h2⟩ | ⟨h1, h2⟩
      · simp only [AnySlicer.restride, h1, h2, hst]
      · simp only [AnySlicer.restride, h1, h2, hst, one_mul]
    · intro j h0 hj
      rw [hlen] at hj
      exact getD_upTo_map k j (fun j => b + j * d) h0 hj
    · intro x hx
      obtain ⟨j, hj, rfl⟩ := List.mem_map.1 hx
      exact hin j (mem_upTo.1 hj).1 (mem_upTo.1 hj).2

/-- All axes from number `m` on. -/
theorem axes_run {shp : Shape} {st : Strides} : ∀ (m : Nat) (sl : List AnySlicer) (ls : List (List Int)) (ds g : List Int),
    ls.length = sl.length → ds.length = sl.length → g.length = sl.length →
    (∀ n, n < sl.length → st.getD (m + n) 0 = g.getD n 0) →
    (∀ n s l e, sl[n]? = some s → ls[n]? = some l → ds[n]? = some e → ∃ o t, AxisUse shp st (m + n) s l o t e) →
    ∃ os, (sl.zipIdx m).mapM (fun (x : AnySlicer × Nat) => (x.1.reindex shp x.2).getD (.ok 0)) = .ok os ∧
      (sl.zipIdx m).mapM (fun (x : AnySlicer × Nat) => x.1.reshape shp x.2) = .ok (pickShape ls) ∧
      (∀ i, InBox (pickShape ls) i → InBox ds (pickAt ls i) ∧
        linearize g os + linearize ((sl.zipIdx m).map fun (x : AnySlicer × Nat) => x.1.restride st x.2) i =
          linearize g (pickAt ls i)) ∧
      ((∀ l ∈ ls, l ≠ []) → InBox ds os) := by
  intro m sl
  induction sl generalizing m with
  | nil =>
    intro ls ds g h1 h2 h3 _ _
    cases ls with
    | cons _ _ => simp at h1
    | nil =>
      cases ds with
      | cons _ _ => simp at h2
      | nil =>
        refine ⟨[], rfl, rfl, ?_, fun _ => .nil⟩
        intro i hi
        rw [pickShape, List.map_nil, inBox_nil] at hi
        subst hi
        exact ⟨.nil, by simp [linearize, pickAt]⟩
  | cons s sl ih =>
    intro ls ds g h1 h2 h3 hst hax
    cases ls with
    | nil => simp at h1
    | cons l ls =>
    cases ds with
    | nil => simp at h2
    | cons e ds =>
    cases g with
    | nil => simp at h3
    | cons g0 g =>
    obtain ⟨o, t, ha⟩ := hax 0 s l e rfl rfl rfl
    rw [Nat.add_zero] at ha
    have hg0 : st.getD m 0 = g0 := by simpa using hst 0 (by simp)
    obtain ⟨os, e1, e2, e3, e4⟩ := ih (m + 1) ls ds g (by simpa using h1) (by simpa using h2) (by simpa using h3)
      (by
        intro n hn
        have := hst (n + 1) (by simpa using hn)
        rw [show m + (n + 1) = m + 1 + n by omega] at this
        simpa using this)
      (by
        intro n s' l' e' a b c
        have := hax (n + 1) s' l' e' (by simpa using a) (by simpa using b) (by simpa using c)
        rw [show m + (n + 1) = m + 1 + n by omega] at this
        exact this)
    have hmem : ∀ k : Int, 0 ≤ k → k < l.length → l.getD k.toNat 0 ∈ l := by
      intro k h0 hk
      rw [List.getD_eq_getElem?_getD, List.getElem?_eq_getElem (by omega)]
      exact List.getElem_mem _
    refine ⟨o :: os, ?_, ?_, ?_, ?_⟩
    · rw [List.zipIdx_cons, List.mapM_cons]
      simp only [ha.start, e1]; rfl
    · rw [List.zipIdx_cons, List.mapM_cons]
      simp only [ha.count, e2]; rfl
    · intro i hi
      rw [pickShape, List.map_cons] at hi
      obtain ⟨k, i, rfl, hk, hi⟩ := inBox_cons_left hi
      obtain ⟨a1, a2⟩ := e3 i hi
      have hpk : pickAt (l :: ls) (k :: i) = l.getD k.toNat 0 :: pickAt ls i := rfl
      rw [hpk]
      refine ⟨inBox_cons.2 ⟨ha.inside _ (hmem k hk.1 hk.2), a1⟩, ?_⟩
      rw [List.zipIdx_cons, List.map_cons, linearize_cons, linearize_cons, linearize_cons, ha.step, hg0,
        ha.at_ k hk.1 hk.2, ← a2]
      ring
    · intro hne
      refine inBox_cons.2 ⟨?_, e4 fun l' hl' => hne l' (by simp [hl'])⟩
      have hpos : 0 < l.length := List.length_pos_iff.2 (hne l (by simp))
      have := ha.inside _ (hmem 0 (by omega) (by omega))
      rw [ha.at_ 0 (by omega) (by omega)] at this
      omega

end Kwk
