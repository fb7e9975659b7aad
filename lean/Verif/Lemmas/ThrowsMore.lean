import Verif.Lemmas.Throws
import Verif.Lemmas.Search
import Verif.Model.Throws

/-! # Helper lemmas: functions that throw, in loops over elements and in binary searches -/

namespace Kwk
open Spec

variable {α β ε σ P : Type}

theorem runAll_code (step : P → σ × Mem α → Res (Except ε Unit × (σ × Mem α))) (p : P) (l : List P) (sm : σ × Mem α) :
    runAll (m := Code ε σ α) step (p :: l) sm = (do
      let r ← step p sm
      match r with
      | (.error e, sm) => pure (.error e, sm)
      | (.ok (), sm) => runAll (m := Code ε σ α) step l sm) := by
  simp only [runAll]
  show (do
    let r ← step p sm
    _) = _
  congr 1
  funext r
  obtain ⟨_ | _, sm⟩ := r <;> rfl

/-- The loop of a search with a condition that may throw: an exception of the condition at an element, or what any condition finds that
gives the same answers where there is one. -/
theorem searchLoopE_run (md : Mode) {m : Mem α} {c : Container} {val : List Int → α} (h : Elems c m val) (hne : c.shape ≠ [])
    (hs : NonNeg c.shape) (adv : α → Except ε Bool) (g : α → Bool)
    (hg : ∀ p, InBox c.shape p → ∀ b, adv (val p) = .ok b → g (val p) = b) :
    ∀ (fuel : Nat) (count first it : Int), 0 ≤ first → 0 ≤ count → first + count ≤ c.numel → count.toNat < fuel →
      (∃ p e, InBox c.shape p ∧ adv (val p) = .error e ∧ searchLoopE md m c adv fuel ⟨count, first, it⟩ = .ok (.error e)) ∨
      ∃ s, searchLoopE md m c adv fuel ⟨count, first, it⟩ = .ok (.ok s) ∧
        searchLoop (σ := Unit) md m c (fun v => pure (g v)) fuel ⟨count, first, it⟩ () = .ok (s, ()) := by
  intro fuel
  induction fuel with
  | zero => intro count first it _ _ _ hf; omega
  | succ fuel ih =>
    intro count first it h0 hc hN hf
    unfold searchLoopE searchLoop
    by_cases hpos : count > 0
    · simp only [hpos, if_true]
      have hst : count.tdiv 2 = count / 2 := Int.tdiv_eq_ediv_of_nonneg hc
      obtain ⟨p, hp, -, hco, hget⟩ := probe md h hne hs (k := first + count.tdiv 2) (by rw [hst]; omega) (by rw [hst]; omega)
      rw [hco]
      simp only [bind, Except.bind, hget, StateT.bind, liftM, monadLift, MonadLift.monadLift, StateT.lift, pure, Except.pure, StateT.pure]
      cases ha : adv (val p) with
      | error e => exact .inl ⟨p, e, hp, ha, rfl⟩
      | ok b =>
        rw [hg p hp b ha]
        cases b with
        | true =>
          simp only [if_true]
          exact ih _ _ _ (by rw [hst]; omega) (by rw [hst]; omega) (by rw [hst]; omega) (by rw [hst]; omega)
        | false =>
          simp only [Bool.false_eq_true, if_false]
          exact ih _ _ _ h0 (by rw [hst]; omega) (by rw [hst]; omega) (by rw [hst]; omega)
    · simp only [hpos, if_false]
      exact .inr ⟨_, rfl, rfl⟩

theorem finishE_run (md : Mode) {m : Mem α} {c : Container} {val : List Int → α} (h : Elems c m val) (hne : c.shape ≠ [])
    (hs : NonNeg c.shape) (adv : α → Except ε Bool) (g : α → Bool)
    (hg : ∀ p, InBox c.shape p → ∀ b, adv (val p) = .ok b → g (val p) = b) :
    (∃ p e, InBox c.shape p ∧ adv (val p) = .error e ∧
      (do let s ← searchLoopE md m c adv (c.numel.toNat + 1) ⟨c.numel, 0, 0⟩; searchEndE md c s) = .ok (.error e)) ∨
    ∃ r, (do let s ← searchLoopE md m c adv (c.numel.toNat + 1) ⟨c.numel, 0, 0⟩; searchEndE md c s) = .ok (.ok r) ∧
      finish (σ := Unit) md m c (fun v => pure (g v)) () = .ok (r, ()) := by
  have hn := numel_nonneg hne hs
  rcases searchLoopE_run md h hne hs adv g hg (c.numel.toNat + 1) c.numel 0 0 (by omega) hn (by omega) (by omega) with
    ⟨p, e, hp, he, hr⟩ | ⟨s, h1, h2⟩
  · exact .inl ⟨p, e, hp, he, by rw [hr]; rfl⟩
  · right
    obtain ⟨r, es, hr, -⟩ := finish_run (σ := Unit) md h hne hs (fun v => pure (g v)) (fun v _ => g v) (fun _ s => s) (fun _ _ _ => rfl) ()
    refine ⟨r, ?_, hr⟩
    unfold finish at hr
    simp only [bind, StateT.bind, h2, Except.bind] at hr
    rw [h1]
    simp only [bind, Except.bind, searchEndE]
    split at hr
    · next hlt =>
      rw [if_pos hlt]
      cases hco : coordinates md s.it c.shape with
      | error f => simp [hco, bind, StateT.bind, liftM, monadLift, MonadLift.monadLift, StateT.lift, Except.bind] at hr
      | ok q =>
        simp only [hco, bind, StateT.bind, liftM, monadLift, MonadLift.monadLift, StateT.lift, Except.bind, pure, StateT.pure,
          Except.pure, Except.ok.injEq, Prod.mk.injEq] at hr
        rw [← hr.1]; rfl
    · next hlt =>
      rw [if_neg hlt]
      simp only [pure, StateT.pure, Except.pure, Except.ok.injEq, Prod.mk.injEq] at hr
      rw [← hr.1]; rfl

end Kwk
