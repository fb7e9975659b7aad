import Verif.Lemmas.Walk

/-! # Lemmas: the loops, and slices of 64-bit extents -/

namespace Kwk
open Spec

/-! ## Loops -/

theorem runAll_congr {m : Type → Type} [Monad m] {α : Type} {f g : α → m Unit} {l : List α} (h : ∀ a ∈ l, f a = g a) :
    runAll f l = runAll g l := by
  induction l with
  | nil => rfl
  | cons a l ih => rw [runAll, runAll, h a (by simp), ih fun b hb => h b (by simp [hb])]

theorem runUntil_congr {m : Type → Type} [Monad m] {α : Type} {f g : α → m Bool} {l : List α} (h : ∀ a ∈ l, f a = g a) :
    runUntil f l = runUntil g l := by
  induction l with
  | nil => rfl
  | cons a l ih => rw [runUntil, runUntil, h a (by simp), ih fun b hb => h b (by simp [hb])]

/-- The loops run the function on all positions. -/
theorem walkT_eq {σ : Type} {fuel : Nat} {c0 : ContainerT} {cs : List ContainerT} (hs : ∀ d ∈ c0.shape, d.type.Fits d.value)
    (h0 : 0 < fuel) (hfuel : ∀ d ∈ c0.shape, d.value < fuel) (f : List Int → StateT σ Res Unit) :
    walkT fuel f c0 cs = runAll (callAt f c0 cs) (positions (vals c0.shape)) := by
  unfold walkT
  rw [(C60_loops_terminate (σ := σ) c0.shape hs fuel h0 hfuel).1, forEach_eq]

theorem searchT_eq {σ : Type} {fuel : Nat} {c : ContainerT} (hs : ∀ d ∈ c.shape, d.type.Fits d.value)
    (h0 : 0 < fuel) (hfuel : ∀ d ∈ c.shape, d.value < fuel) (f : List Int → StateT σ Res Bool) :
    searchT fuel f c = runUntil (callAt f c []) (positions (vals c.shape)) := by
  unfold searchT
  rw [(C60_loops_terminate (σ := σ) c.shape hs fuel h0 hfuel).2, forUntil_eq]

theorem callAt_ok {σ β : Type} {f : List Int → StateT σ Res β} {c0 : ContainerT} {cs : List ContainerT} {is : List Int} {os : List Int}
    (h : (c0 :: cs).mapM (fun c => c.at (typedAs c0.shape is)) = .ok os) : callAt f c0 cs is = f os := by
  funext w
  unfold callAt
  rw [h]
  rfl

/-- If one element cannot be reached, the loops fail, whatever is done with the others. -/
theorem runAll_fails {c0 : ContainerT} {cs : List ContainerT} {l : List (List Int)} {p : List Int} (hp : p ∈ l) {e : Fault}
    (h : (c0 :: cs).mapM (fun c => c.at (typedAs c0.shape p)) = .error e) :
    ∃ e', runAll (callAt (σ := Unit) (fun _ => pure ()) c0 cs) l () = .error e' := by
  induction l with
  | nil => simp at hp
  | cons q l ih =>
    rw [runAll]
    simp only [bind, StateT.bind, Except.bind]
    cases hq : (c0 :: cs).mapM (fun c => c.at (typedAs c0.shape q)) with
    | error e' =>
      refine ⟨e', ?_⟩
      have : callAt (σ := Unit) (fun _ => pure ()) c0 cs q () = .error e' := by
        unfold callAt
        rw [hq]
        rfl
      rw [this]
    | ok os =>
      rcases List.mem_cons.1 hp with rfl | hp
      · rw [h] at hq; cases hq
      · obtain ⟨e', he⟩ := ih hp
        refine ⟨e', ?_⟩
        rw [callAt_ok hq]
        exact he

theorem typedAs_vals {s : List Coord} {p : List Int} (h : p.length = s.length) : vals (typedAs s p) = p := by
  induction s generalizing p with
  | nil => cases p <;> simp_all [typedAs]
  | cons d s ih =>
    cases p with
    | nil => simp at h
    | cons i p =>
      simp only [typedAs, vals, List.zipWith_cons_cons, List.map_cons] at ih ⊢
      rw [ih (by simpa using h)]

/-- Counters are numbers of the types of the extents. -/
theorem typedAs_number {P : IntType → Prop} {s : List Coord} {p : List Int} (hs : ∀ d ∈ s, NumberIn P d) (hp : InBox (vals s) p) :
    ∀ c ∈ typedAs s p, NumberIn P c := by
  induction s generalizing p with
  | nil => cases hp; simp [typedAs]
  | cons d s ih =>
    cases p with
    | nil => cases hp
    | cons i p =>
      obtain ⟨⟨h1, h2⟩, h3⟩ := inBox_cons.1 hp
      intro c hc
      simp only [typedAs, List.zipWith_cons_cons, List.mem_cons] at hc
      rcases hc with rfl | hc
      · exact ⟨(hs d (by simp)).1, IntType.fits_between (hs d (by simp)).2 h1 h2.le⟩
      · exact ih (fun d hd => hs d (by simp [hd])) h3 c hc

/-! ## 64-bit extents -/

theorem i64_common {u : IntType} (hu : ComputesSigned u) : IntType.i64.common u = .i64 ∧ u.common .i64 = .i64 := by
  simp only [ComputesSigned, List.mem_cons, List.not_mem_nil, or_false] at hu
  rcases hu with rfl | rfl | rfl | rfl | rfl | rfl <;> decide

theorem eval_i64 {s : IntType} (hs : ComputesSigned s) : evalType .i64 s = .i64 := by
  unfold evalType
  rw [(i64_common (closed_signed.promote _ hs)).1, (i64_common (by decide)).2]

theorem evalType_signed {t s : IntType} (ht : ComputesSigned t) (hs : ComputesSigned s) : ComputesSigned (evalType t s) :=
  closed_signed.common _ _ (by decide) (closed_signed.common _ _ ht (closed_signed.promote _ hs))

theorem stepped_i64 {b s : IntType} (hb : ComputesSigned b) (hs : ComputesSigned s) : steppedType b .i64 s = .i64 := by
  unfold steppedType
  rw [(i64_common hb).1, eval_i64 hs, (i64_common (evalType_signed (closed_signed.common _ _ hb (by decide)) hs)).1]

theorem fits_hull {t : IntType} {s k n : Int} (h0 : t.Fits 0) (hf : t.Fits (s * n)) (hk : 0 ≤ k) (hn : k ≤ n) : t.Fits (s * k) := by
  rcases le_total 0 s with h | h
  · exact IntType.fits_between hf (mul_nonneg h hk) (mul_le_mul_of_nonneg_left hn h)
  · unfold IntType.Fits at h0 hf ⊢
    have h1 : s * n ≤ s * k := mul_le_mul_of_nonpos_left hn h
    have h2 : s * k ≤ 0 := mul_nonpos_of_nonpos_of_nonneg h hk
    omega

/-- What `LastInRange` asks of the coordinates along one axis. -/
def AxisInRange (x : SlicerT) (n : Coord) (l : List Int) : Prop :=
  ∀ k : Int, 0 ≤ k → k < l.length → (x.step.type.common n.type).Fits (x.step.value * k)

theorem long_numbers {x : SlicerT} {d : Int} {g : Int} (h : x.LongAt d g) :
    LongNumber x.step := h.1

theorem axis_range {d : Coord} {g : Int} {x : SlicerT} {xc : SlicerC} {n : Coord} {l : List Int} (hdt : d.type = .i64)
    (hdf : IntType.i64.Fits d.value) (hx : x.LongAt d.value g) (hp : Picks d.value x.erase l) (hne : l ≠ [])
    (hb : x.build = .ok xc) (hn : sliceExtentT d xc = .ok n) (hnv : n.value = l.length) (hnl : LongNumber n) :
    AxisInRange x n l ↔ LastLength [x] [l] := by
  obtain ⟨o, r1, r2, r3, r4, r5⟩ := picks_axis hp
  have hpos : 0 < l.length := List.length_pos_iff.2 hne
  have hstep := hx.1
  -- all products are smaller than the extent
  have hprod : ∀ k : Int, 0 ≤ k → k < l.length → IntType.i64.Fits (x.step.value * k) := by
    intro k hk0 hk
    rw [step_erase] at r3
    have hmem : ∀ j : Int, 0 ≤ j → j < l.length → o + j * x.step.value ∈ l := by
      intro j h0 h1
      rw [r3]
      exact List.mem_map_of_mem (f := fun k => o + k * x.step.value) (mem_upTo.2 ⟨h0, h1⟩)
    have h1 := r4 _ (hmem k hk0 hk)
    have h2 := r4 _ (hmem 0 le_rfl (by omega))
    rw [mul_comm]
    rw [i64_fits] at hdf ⊢
    generalize k * x.step.value = v at h1
    omega
  have one : ∀ x : SlicerT, x.step = ⟨.i32, 1⟩ → AxisInRange x n l := by
    intro x hs k h0 h1
    rw [hs]
    simp only [one_mul]
    refine IntType.fits_between (IntType.common_fits_right hnl.2 (common_signed_true (by decide) hnl.1).1) h0 (by omega)
  have wide : n.type = .i64 → AxisInRange x n l := by
    intro hn k h0 h1
    rw [hn, (i64_common hstep.1).2]
    exact hprod k h0 h1
  cases x with
  | joker => exact ⟨fun _ => trivial, fun _ => one _ rfl⟩
  | index i => exact ⟨fun _ => trivial, fun _ => one _ rfl⟩
  | ext e => exact ⟨fun _ => trivial, fun _ => one _ rfl⟩
  | interval b st e len =>
    cases st with
    | none =>
      refine ⟨fun _ => ?_, fun _ => one _ rfl⟩
      unfold LastLength
      cases len <;> trivial
    | some s =>
    have hstep : LongNumber s := hstep
    simp only [SlicerT.build, bind, Except.bind] at hb
    split at hb
    · cases hb
    rename_i bc eb
    split at hb
    · cases hb
    rename_i ec ee
    split at hb
    · cases hb
    rename_i lc el
    cases hb
    cases len with
    | some len =>
      have hty : n.type = len.type := by
        simp only [SlicerT.buildOpt, bind, Except.bind] at el
        split at el
        · cases el
        rename_i lv elv
        cases el
        cases len with
        | int i => cases elv; cases hn; rfl
        | ext E =>
          have hE : E.LongAt d.value := hx.2.2.2.2.2.1 (.ext E) rfl
          obtain ⟨c, r, h1, h2, -, -, h5⟩ := size_long hdt hdf hE
          simp only [BoundT.build, h1, bind, Except.bind] at elv
          cases elv
          have : c.size d = .ok n := hn
          rw [h2] at this
          cases this
          exact h5
      show AxisInRange _ n l ↔ (s.type.common len.type).Fits (s.value * (l.length - 1))
      rw [← hty]
      refine ⟨fun h => h _ (by omega) (by omega), fun h k h0 h1 => ?_⟩
      exact fits_hull common_fits_zero.1 h h0 (by show k ≤ (l.length : Int) - 1; omega)
    | none =>
      refine ⟨fun _ => trivial, fun _ => ?_⟩
      cases el
      obtain ⟨-, h'⟩ := extent_in hn
      clear hn
      rcases h' with ⟨-, -, h⟩ | ⟨B, E, eB, eE, h⟩
      · refine wide ?_
        rw [h, hdt]
        exact eval_i64 hstep.1
      · rcases h with ⟨h, -⟩ | ⟨s', hs', h⟩
        · cases h
        obtain rfl : s = s' := Option.some.inj hs'
        have hbl := hx.2.2.2.1
        have hel := hx.2.2.2.2.1
        rcases picks_interval hp with ⟨-, bv, ev, hbv, hev, hs, h0, h1, h2, hcount⟩ | ⟨-, hE, s', bv, hS, hbv, hs, h0, h1, hcount⟩ |
          ⟨-, lenB, bv, hL, -⟩
        · have hB : LongNumber B ∧ B.value = bv := by
            rcases opt_long hdt hdf hbl hbv with ⟨rfl, rfl, h'⟩ | ⟨c, r, -, h', h3, h4, h5, -⟩ <;>
              (rw [eb] at h'; cases h')
            · cases eB; exact ⟨by decide, rfl⟩
            · have : c.value d = .ok B := eB
              rw [h3] at this; cases this
              exact ⟨h5, h4⟩
          have hEE : (E.type = .i64) ∨ LongNumber E ∧ E.value = ev := by
            rcases opt_long hdt hdf hel hev with ⟨rfl, rfl, h'⟩ | ⟨c, r, -, h', h3, h4, h5, -⟩ <;>
              (rw [ee] at h'; cases h')
            · cases eE; exact .inl hdt
            · have : c.value d = .ok E := eE
              rw [h3] at this; cases this
              exact .inr ⟨h5, h4⟩
          have hE' : E.type = .i64 ∨ IntType.i32.Fits ev := by
            rcases hEE with h | ⟨h3, h4⟩
            · exact .inl h
            · rcases long_i32 h3 with h5 | h5
              · exact .inr (by rw [← h4]; exact h5)
              · exact .inl h5
          rcases hE' with h3 | h3
          · refine wide ?_
            rw [h, h3]
            exact stepped_i64 hB.1.1 hstep.1
          · intro k hk0 hk
            refine common_fits_of hstep.1 hnl.1 (.inl ?_)
            have hs : 0 < s.value := hs
            have hcount : (l.length : Int) = steps (ev - bv) s.value := hcount
            have : s.value * k < ev - bv := by
              have hst := (lt_steps (v := ev - bv) hs).1 (show k < _ by omega)
              linarith [mul_comm s.value k]
            refine IntType.fits_between h3 (mul_nonneg hs.le hk0) ?_
            show s.value * k ≤ ev
            omega
        · obtain rfl : e = none := by simpa using hE
          cases ee
          cases eE
          refine wide ?_
          rw [h, hdt]
          refine stepped_i64 ?_ hstep.1
          rcases opt_long hdt hdf hbl hbv with ⟨rfl, -, h'⟩ | ⟨c, r, -, h', h3, h4, h5, -⟩ <;>
            (rw [eb] at h'; cases h')
          · cases eB; decide
          · have : c.value d = .ok B := eB
            rw [h3] at this; cases this
            exact h5.1
        · simp at hL

end Kwk
