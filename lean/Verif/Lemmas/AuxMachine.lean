import Verif.Lemmas.Machine

/-!
# Lemmas for `Props/Machine.lean`
-/

namespace Kwk
open Spec

theorem incr_fits {t : IntType} {i ext : Int} (he : t.Fits ext) (h0 : 0 ≤ i) (hi : i < ext) :
    t.incr i = .ok (i + 1) := by
  have hf : t.Fits (i + 1) := IntType.fits_between he (by omega) (by omega)
  unfold IntType.incr
  split
  · rw [IntType.wrap_fits hf]; rfl
  · exact IntType.op_fits hf

theorem forLoopM_aux {σ : Type} {t : IntType} {ext : Int} (he : t.Fits ext) (body : Int → StateT σ Res Unit)
    (k fuel : Nat) (i : Int) (h0 : 0 ≤ i) (hk : ext - i ≤ k) (hfuel : k < fuel) :
    forLoopM t ext body fuel i = forLoopAux ext body (k + 1) i := by
  induction k generalizing fuel i with
  | zero =>
    obtain ⟨fuel, rfl⟩ : ∃ f, fuel = f + 1 := ⟨fuel - 1, by omega⟩
    rw [forLoopM, forLoopAux, if_neg (by omega), if_neg (by omega)]
  | succ k ih =>
    obtain ⟨fuel, rfl⟩ : ∃ f, fuel = f + 1 := ⟨fuel - 1, by omega⟩
    rw [forLoopM, forLoopAux]
    split
    · next hlt =>
      congr 1
      funext _
      rw [← ih fuel (i + 1) (by omega) (by omega) (by omega), incr_fits he h0 hlt]
      rfl
    · rfl

theorem forLoopM_eq {σ : Type} {t : IntType} {ext : Int} (he : t.Fits ext) (body : Int → StateT σ Res Unit)
    (fuel : Nat) (hfuel : ext < fuel) (hpos : 0 < fuel) : forLoopM t ext body fuel 0 = forLoop ext body := by
  rw [forLoop]
  exact forLoopM_aux he body ext.toNat fuel 0 le_rfl (by omega) (by omega)

theorem untilLoopM_aux {σ : Type} {t : IntType} {ext : Int} (he : t.Fits ext)
    (body : Int → Bool → StateT σ Res Bool)
    (k fuel : Nat) (i : Int) (found : Bool) (h0 : 0 ≤ i) (hk : ext - i ≤ k) (hfuel : k < fuel) :
    untilLoopM t ext body fuel i found = untilLoopAux ext body (k + 1) i found := by
  induction k generalizing fuel i found with
  | zero =>
    obtain ⟨fuel, rfl⟩ : ∃ f, fuel = f + 1 := ⟨fuel - 1, by omega⟩
    rw [untilLoopM, untilLoopAux]
    have : ¬ i < ext := by omega
    simp [this]
  | succ k ih =>
    obtain ⟨fuel, rfl⟩ : ∃ f, fuel = f + 1 := ⟨fuel - 1, by omega⟩
    rw [untilLoopM, untilLoopAux]
    split
    · next hlt =>
      simp only [Bool.and_eq_true, decide_eq_true_eq] at hlt
      congr 1
      funext b
      rw [← ih fuel (i + 1) b (by omega) (by omega) (by omega), incr_fits he h0 hlt.2]
      rfl
    · rfl

theorem untilLoopM_eq {σ : Type} {t : IntType} {ext : Int} (he : t.Fits ext)
    (body : Int → Bool → StateT σ Res Bool) (found : Bool)
    (fuel : Nat) (hfuel : ext < fuel) (hpos : 0 < fuel) :
    untilLoopM t ext body fuel 0 found = untilLoop ext body found := by
  rw [untilLoop]
  exact untilLoopM_aux he body ext.toNat fuel 0 found le_rfl (by omega) (by omega)

/-- The type of the counter matters: an 8-bit counter would never reach an extent of 256. -/
theorem forLoopM_narrow_diverges (fuel : Nat) (i : Int) (h0 : 0 ≤ i) (hi : i < 256) (s : Nat) :
    forLoopM .u8 256 (fun _ s => .ok ((), s)) fuel i s = .error .diverges := by
  induction fuel generalizing i with
  | zero => rfl
  | succ fuel ih =>
    rw [forLoopM, if_pos hi]
    have hw : IntType.u8.incr i = .ok (if i = 255 then 0 else i + 1) := by
      have : IntType.u8.wrap (i + 1) = if i = 255 then 0 else i + 1 := by
        simp only [IntType.wrap, IntType.u8, Bool.false_eq_true, false_and, if_false]
        by_cases h : i = 255
        · subst h; rfl
        · rw [if_neg h]; omega
      rw [IntType.incr, if_pos (by decide), this]; rfl
    have := ih (if i = 255 then 0 else i + 1) (by split <;> omega) (by split <;> omega)
    simp only [bind, StateT.bind, Except.bind, hw, pure, Except.pure]
    exact this

/-- The products `numel` computes, from the last extent to the first: all fit or the computation overflows. -/
theorem numelM_fold_exact {t : IntType} (ht : t.signed = true) (h1 : t.Fits 1) (s : List Int) :
    ((∀ r, r <:+ s → t.Fits r.prod) →
      kumiFoldLeft (fun (a : Res Int) b => do t.op ((← a) * b)) s (pure 1) = .ok s.prod) ∧
    ((¬ ∀ r, r <:+ s → t.Fits r.prod) →
      kumiFoldLeft (fun (a : Res Int) b => do t.op ((← a) * b)) s (pure 1) = .error .overflow) := by
  unfold kumiFoldLeft
  induction s with
  | nil =>
    refine ⟨fun _ => rfl, fun h => absurd (fun r hr => ?_) h⟩
    rw [List.suffix_nil.1 hr]; exact h1
  | cons d s ih =>
    by_cases hs : ∀ r, r <:+ s → t.Fits r.prod
    · rw [List.foldr_cons, ih.1 hs]
      simp only [bind, Except.bind]
      rw [mul_comm, ← List.prod_cons]
      constructor
      · intro h; exact IntType.op_fits (h _ (List.suffix_refl _))
      · intro h
        have hn : ¬ t.Fits (d :: s).prod := fun hf => h fun r hr => by
          rcases List.suffix_cons_iff.1 hr with rfl | hr
          · exact hf
          · exact hs r hr
        unfold IntType.op; rw [if_pos ht, if_neg hn]; rfl
    · rw [List.foldr_cons, ih.2 hs]
      exact ⟨fun h => absurd (fun r hr => h r (hr.trans (List.suffix_cons d s))) hs, fun _ => rfl⟩

/-- The products `as_stride` computes, from the last extent to the second: all fit or the computation overflows. -/
theorem asStrideM_fold_exact {t : IntType} (ht : t.signed = true) (h1 : t.Fits 1) (s : List Int) :
    ((∀ r, r <:+ s → t.Fits r.prod) →
      kumiFoldLeft (fun (a : Res Strides) m => do
        let a ← a
        let g ← t.op (m * a.headD 0)
        pure (g :: a)) s (pure [1]) = .ok (s.prod :: sfx s)) ∧
    ((¬ ∀ r, r <:+ s → t.Fits r.prod) →
      kumiFoldLeft (fun (a : Res Strides) m => do
        let a ← a
        let g ← t.op (m * a.headD 0)
        pure (g :: a)) s (pure [1]) = .error .overflow) := by
  unfold kumiFoldLeft
  induction s with
  | nil =>
    refine ⟨fun _ => rfl, fun h => absurd (fun r hr => ?_) h⟩
    rw [List.suffix_nil.1 hr]; exact h1
  | cons d s ih =>
    by_cases hs : ∀ r, r <:+ s → t.Fits r.prod
    · rw [List.foldr_cons, ih.1 hs]
      simp only [bind, Except.bind, List.headD_cons]
      rw [← List.prod_cons]
      constructor
      · intro h
        rw [IntType.op_fits (h _ (List.suffix_refl _))]
        simp [sfx, pure, Except.pure]
      · intro h
        have hn : ¬ t.Fits (d :: s).prod := fun hf => h fun r hr => by
          rcases List.suffix_cons_iff.1 hr with rfl | hr
          · exact hf
          · exact hs r hr
        unfold IntType.op; rw [if_pos ht, if_neg hn]; rfl
    · rw [List.foldr_cons, ih.2 hs]
      exact ⟨fun h => absurd (fun r hr => h r (hr.trans (List.suffix_cons d s))) hs, fun _ => rfl⟩

end Kwk
