import Verif.Lemmas.Search

/-!
# Lemmas: the search loop on contents that need not be sorted
-/

namespace Kwk
open Spec

variable {α β σ : Type}

/-- The loop ends between an element for which the answer was yes and one for which it was no. -/
theorem searchLoop_boundary (md : Mode) {m : Mem α} {c : Container} {val : List Int → α}
    (h : Elems c m val) (hne : c.shape ≠ []) (hs : NonNeg c.shape) (adv : α → StateT σ Res Bool) (ans : α → Bool)
    (hadv : ∀ p, InBox c.shape p → ∀ s, adv (val p) s = .ok (ans (val p), s)) :
    ∀ (fuel : Nat) (count first it : Int) (s : σ), 0 ≤ first → 0 ≤ count →
      first + count ≤ c.numel → count.toNat < fuel →
      ∃ first' : Int,
        searchLoop md m c adv fuel ⟨count, first, it⟩ s = .ok (⟨0, first', if count = 0 then it else first'⟩, s) ∧
        first ≤ first' ∧ first' ≤ first + count ∧
        (∀ p, InBox c.shape p → linearize (sfx c.shape) p = first' → first' < first + count → ans (val p) = false) ∧
        (∀ p, InBox c.shape p → linearize (sfx c.shape) p = first' - 1 → first < first' → ans (val p) = true) := by
  intro fuel
  induction fuel with
  | zero => intro count first it s _ _ _ h; omega
  | succ fuel ih =>
    intro count first it s hf hc hn hfuel
    by_cases hpos : count > 0
    · have e2 : count.tdiv 2 = count / 2 := Int.tdiv_eq_ediv_of_nonneg (by omega)
      obtain ⟨p, hp, hlin, hco, hget⟩ := probe md h hne hs (k := first + count / 2) (by omega) (by omega)
      have hstep : searchLoop md m c adv (fuel + 1) ⟨count, first, it⟩ s =
          if ans (val p) then
            searchLoop md m c adv fuel ⟨count - (count / 2 + 1), first + count / 2 + 1,
              first + count / 2 + 1⟩ s
          else searchLoop md m c adv fuel ⟨count / 2, first, first + count / 2⟩ s := by
        conv_lhs => unfold searchLoop
        simp only [hpos, if_true, e2, bind, StateT.bind, liftM, monadLift, MonadLift.monadLift,
          StateT.lift, hco, Except.bind, pure, Except.pure, hget, hadv p hp s]
        cases ans (val p) <;> rfl
      have same : ∀ q, InBox c.shape q → linearize (sfx c.shape) q = first + count / 2 → val q = val p := by
        intro q hq e
        rw [lin_inj hq hp (e.trans hlin.symm)]
      have hc0 : ¬ count = 0 := by omega
      rw [hstep]
      cases ha : ans (val p)
      · obtain ⟨first', h1, h2, h3, h4, h5⟩ := ih (count / 2) first (first + count / 2) s hf (by omega) (by omega) (by omega)
        refine ⟨first', ?_, h2, by omega, fun q hq e hlt => ?_, h5⟩
        · simp only [Bool.false_eq_true, if_false]
          rw [h1]
          simp only [hc0, if_false]
          congr 3
          split
          · next h0 => have : first' = first := by omega
                       omega
          · rfl
        · by_cases hb : first' < first + count / 2
          · exact h4 q hq e hb
          · rw [same q hq (by omega), ha]
      · obtain ⟨first', h1, h2, h3, h4, h5⟩ := ih (count - (count / 2 + 1)) (first + count / 2 + 1) (first + count / 2 + 1) s
          (by omega) (by omega) (by omega) (by omega)
        refine ⟨first', ?_, by omega, by omega, fun q hq e hlt => h4 q hq e (by omega), fun q hq e hlt => ?_⟩
        · simp only [if_true]
          rw [h1]
          simp only [hc0, if_false]
          congr 3
          split
          · next h0 => omega
          · rfl
        · by_cases hb : first + count / 2 + 1 < first'
          · exact h5 q hq e hb
          · rw [same q hq (by omega), ha]
    · have : count = 0 := by omega
      subst this
      refine ⟨first, ?_, by omega, by omega, by intros; omega, by intros; omega⟩
      simp [searchLoop, pure, StateT.pure, Except.pure]

/-- What the searches return on any contents. -/
theorem finish_boundary (md : Mode) {m : Mem α} {c : Container} {val : List Int → α}
    (h : Elems c m val) (hne : c.shape ≠ []) (hs : NonNeg c.shape) (adv : α → StateT σ Res Bool) (ans : α → Bool)
    (hadv : ∀ p, InBox c.shape p → ∀ s, adv (val p) s = .ok (ans (val p), s)) (s : σ) :
    ∃ r : Option (List Int), finish md m c adv s = .ok (r, s) ∧
      (∀ p, r = some p → InBox c.shape p ∧ ans (val p) = false ∧
        ∀ q, InBox c.shape q → linearize (sfx c.shape) q = linearize (sfx c.shape) p - 1 → ans (val q) = true) ∧
      (r = none → ∀ q, InBox c.shape q → linearize (sfx c.shape) q = c.numel - 1 → ans (val q) = true) := by
  have hnn := numel_nonneg hne hs
  obtain ⟨first', h1, h2, h3, h4, h5⟩ := searchLoop_boundary md h hne hs adv ans hadv
    (c.numel.toNat + 1) c.numel 0 0 s (by omega) hnn (by omega) (by omega)
  by_cases hlt : first' < c.numel
  · obtain ⟨p, hp, hlin, hco, _⟩ := probe md h hne hs (k := first') (by omega) (by omega)
    refine ⟨some p, ?_, ?_, by simp⟩
    · have : ¬ c.numel = 0 := by omega
      simp only [this, if_false] at h1
      simp only [finish, bind, StateT.bind, h1, Except.bind, hlt, if_true, liftM, monadLift,
        MonadLift.monadLift, StateT.lift, hco, pure, Except.pure, StateT.pure]
    · rintro q ⟨⟩
      refine ⟨hp, h4 p hp hlin (by omega), fun q hq e => h5 q hq (by omega) ?_⟩
      have := (lin_bounds hq).1
      omega
  · refine ⟨none, ?_, by simp, fun _ q hq e => h5 q hq (by omega) ?_⟩
    · simp only [finish, bind, StateT.bind, h1, Except.bind, hlt, if_false, pure, StateT.pure,
        Except.pure]
    · have := (lin_bounds hq).1
      omega

end Kwk
