import Verif.Model.Search
import Verif.Lemmas.Container
import Mathlib.Data.Nat.Log

/-!
# Lemmas: the search loop
-/

namespace Kwk
open Spec

variable {α β σ : Type}

/-- Element of row-major rank `k`: valid position and readable. -/
theorem probe (md : Mode) {m : Mem α} {c : Container} {val : List Int → α} (h : Elems c m val)
    (hne : c.shape ≠ []) (hs : NonNeg c.shape) {k : Int} (h0 : 0 ≤ k) (hk : k < c.numel) :
    ∃ p, InBox c.shape p ∧ linearize (sfx c.shape) p = k ∧ coordinates md k c.shape = .ok p ∧
      c.get m p = .ok (val p) := by
  rw [Container.numel, numel_eq_prod hne] at hk
  obtain ⟨p, hp, rfl⟩ := lin_surj hs h0 hk
  exact ⟨p, hp, rfl, coordinates_lin md hne hp, h p hp⟩

/-- Everything needed about the loop, for a callback that answers `ans e s` and moves its state to
`nxt e s`. `rk` gives the element of each rank. -/
theorem searchLoop_run (md : Mode) {m : Mem α} {c : Container} {val : List Int → α}
    (h : Elems c m val) (hne : c.shape ≠ []) (hs : NonNeg c.shape)
    (adv : α → StateT σ Res Bool) (ans : α → σ → Bool) (nxt : α → σ → σ)
    (hadv : ∀ p, InBox c.shape p → ∀ s, adv (val p) s = .ok (ans (val p) s, nxt (val p) s)) :
    ∀ (fuel : Nat) (count first it : Int) (s : σ), 0 ≤ first → 0 ≤ count →
      first + count ≤ c.numel → count.toNat < fuel →
      ∃ (first' : Int) (es : List α),
        searchLoop md m c adv fuel ⟨count, first, it⟩ s =
          .ok (⟨0, first', if count = 0 then it else first'⟩, es.foldl (fun s e => nxt e s) s) ∧
        (∀ e ∈ es, ∃ p, InBox c.shape p ∧ val p = e) ∧
        (∀ k : Nat, count < 2 ^ k → es.length ≤ k) ∧
        first ≤ first' ∧ first' ≤ first + count ∧
        (∀ j, first ≤ j → j ≤ first + count →
          (∀ p, InBox c.shape p → ∀ s, ans (val p) s = decide (linearize (sfx c.shape) p < j)) →
          first' = j) := by
  intro fuel
  induction fuel with
  | zero => intro count first it s _ _ _ h; omega
  | succ fuel ih =>
    intro count first it s hf hc hn hfuel
    by_cases hpos : count > 0
    · have e2 : count.tdiv 2 = count / 2 := Int.tdiv_eq_ediv_of_nonneg (by omega)
      obtain ⟨p, hp, hlin, hco, hget⟩ := probe md h hne hs (k := first + count / 2) (by omega) (by omega)
      have hstep : searchLoop md m c adv (fuel + 1) ⟨count, first, it⟩ s =
          if ans (val p) s then
            searchLoop md m c adv fuel ⟨count - (count / 2 + 1), first + count / 2 + 1,
              first + count / 2 + 1⟩ (nxt (val p) s)
          else searchLoop md m c adv fuel ⟨count / 2, first, first + count / 2⟩ (nxt (val p) s) := by
        conv_lhs => unfold searchLoop
        simp only [hpos, if_true, e2, bind, StateT.bind, liftM, monadLift, MonadLift.monadLift,
          StateT.lift, hco, Except.bind, pure, Except.pure, hget, hadv p hp s]
        cases ans (val p) s <;> rfl
      rw [hstep]
      cases ha : ans (val p) s
      · obtain ⟨first', es, h1, h2, h3, h4, h5, h6⟩ := ih (count / 2) first (first + count / 2)
          (nxt (val p) s) hf (by omega) (by omega) (by omega)
        refine ⟨first', val p :: es, ?_, ?_, ?_, h4, by omega, ?_⟩
        · simp only [Bool.false_eq_true, if_false]
          rw [h1]
          have : ¬ count = 0 := by omega
          simp only [this, if_false, List.foldl_cons]
          congr 3
          split
          · next h0 => have : first' = first := by omega
                       omega
          · rfl
        · intro e he
          rcases List.mem_cons.1 he with rfl | he
          · exact ⟨p, hp, rfl⟩
          · exact h2 e he
        · intro k hk
          cases k with
          | zero => simp at hk; omega
          | succ k =>
            have := h3 k (by rw [pow_succ] at hk; omega)
            simp; omega
        · intro j hj1 hj2 hall
          have := hall p hp s
          rw [ha, hlin] at this
          have : ¬ (first + count / 2 < j) := by simpa using this
          exact h6 j hj1 (by omega) hall
      · obtain ⟨first', es, h1, h2, h3, h4, h5, h6⟩ := ih (count - (count / 2 + 1))
          (first + count / 2 + 1) (first + count / 2 + 1)
          (nxt (val p) s) (by omega) (by omega) (by omega) (by omega)
        refine ⟨first', val p :: es, ?_, ?_, ?_, by omega, by omega, ?_⟩
        · simp only [if_true]
          rw [h1]
          have : ¬ count = 0 := by omega
          simp only [this, if_false, List.foldl_cons]
          congr 3
          split
          · next h0 => omega
          · rfl
        · intro e he
          rcases List.mem_cons.1 he with rfl | he
          · exact ⟨p, hp, rfl⟩
          · exact h2 e he
        · intro k hk
          cases k with
          | zero => simp at hk; omega
          | succ k =>
            have := h3 k (by rw [pow_succ] at hk; omega)
            simp; omega
        · intro j hj1 hj2 hall
          have := hall p hp s
          rw [ha, hlin] at this
          have : first + count / 2 < j := by simpa using this.symm
          exact h6 j (by omega) (by omega) hall
    · have : count = 0 := by omega
      subst this
      refine ⟨first, [], ?_, by simp, by simp, by omega, by omega, by intros; omega⟩
      simp [searchLoop, pure, StateT.pure, Except.pure]

/-- `lower_bound` and `upper_bound` in one: the final test and conversion. -/
def finish (md : Mode) (m : Mem α) (c : Container) (adv : α → StateT σ Res Bool) :
    StateT σ Res (Option (List Int)) := do
  let s ← searchLoop md m c adv (c.numel.toNat + 1) ⟨c.numel, 0, 0⟩
  if s.first < c.numel then do
    let p ← (coordinates md s.it c.shape : Res (List Int))
    pure (some p)
  else pure none

theorem numel_nonneg {c : Container} (hne : c.shape ≠ []) (hs : NonNeg c.shape) : 0 ≤ c.numel := by
  rw [Container.numel, numel_eq_prod hne]; exact prod_nonneg' hs

theorem lowerBound_eq (md : Mode) (m : Mem α) (c : Container) (value : β)
    (func : α → β → StateT σ Res Bool) :
    lowerBound md m c value func = finish md m c (fun e => func e value) := by
  unfold lowerBound finish
  split
  · next h0 =>
    funext s
    rw [h0]
    simp [searchLoop, pure, StateT.pure, Except.pure, bind, StateT.bind, Except.bind]
  · rfl

theorem upperBound_eq (md : Mode) (m : Mem α) (c : Container) (value : β)
    (func : β → α → StateT σ Res Bool) :
    upperBound md m c value func =
      finish md m c (fun e => do let r ← func value e; pure (!r)) := rfl

/-- The searches always end, with a bounded number of callback calls, all on elements. -/
theorem finish_run (md : Mode) {m : Mem α} {c : Container} {val : List Int → α}
    (h : Elems c m val) (hne : c.shape ≠ []) (hs : NonNeg c.shape)
    (adv : α → StateT σ Res Bool) (ans : α → σ → Bool) (nxt : α → σ → σ)
    (hadv : ∀ p, InBox c.shape p → ∀ s, adv (val p) s = .ok (ans (val p) s, nxt (val p) s)) (s : σ) :
    ∃ (r : Option (List Int)) (es : List α),
      finish md m c adv s = .ok (r, es.foldl (fun s e => nxt e s) s) ∧
      (∀ e ∈ es, ∃ p, InBox c.shape p ∧ val p = e) ∧
      (∀ k : Nat, c.numel < 2 ^ k → es.length ≤ k) ∧
      (∀ p, r = some p → InBox c.shape p) ∧
      (∀ j, 0 ≤ j → j ≤ c.numel →
        (∀ p, InBox c.shape p → ∀ s, ans (val p) s = decide (linearize (sfx c.shape) p < j)) →
        (r = none ↔ j = c.numel) ∧ ∀ p, r = some p → linearize (sfx c.shape) p = j) := by
  have hnn := numel_nonneg hne hs
  obtain ⟨first', es, h1, h2, h3, h4, h5, h6⟩ := searchLoop_run md h hne hs adv ans nxt hadv
    (c.numel.toNat + 1) c.numel 0 0 s (by omega) hnn (by omega) (by omega)
  by_cases hlt : first' < c.numel
  · obtain ⟨p, hp, hlin, hco, _⟩ := probe md h hne hs (k := first') (by omega) (by omega)
    refine ⟨some p, es, ?_, h2, h3, ?_, ?_⟩
    · have : ¬ c.numel = 0 := by omega
      simp only [this, if_false] at h1
      simp only [finish, bind, StateT.bind, h1, Except.bind, hlt, if_true, liftM, monadLift,
        MonadLift.monadLift, StateT.lift, hco, pure, Except.pure, StateT.pure]
    · rintro q ⟨⟩; exact hp
    · intro j hj1 hj2 hall
      have := h6 j hj1 (by omega) hall
      refine ⟨by simp; omega, ?_⟩
      rintro q ⟨⟩; omega
  · refine ⟨none, es, ?_, h2, h3, by simp, ?_⟩
    · simp only [finish, bind, StateT.bind, h1, Except.bind, hlt, if_false, pure, StateT.pure,
        Except.pure]
    · intro j hj1 hj2 hall
      have := h6 j hj1 (by omega) hall
      refine ⟨by simp; omega, by simp⟩

/-- Partition point of a decidable predicate that holds on a prefix of the positions. -/
theorem partition_point {c : Container} (hne : c.shape ≠ []) (hs : NonNeg c.shape)
    (P : List Int → Bool)
    (hP : ∀ p q, InBox c.shape p → InBox c.shape q → p < q → P q = true → P p = true) :
    ∃ j, 0 ≤ j ∧ j ≤ c.numel ∧
      (∀ p, InBox c.shape p → P p = decide (linearize (sfx c.shape) p < j)) ∧
      (j = c.numel ↔ ∀ p, InBox c.shape p → P p = true) ∧
      (∀ p, InBox c.shape p → linearize (sfx c.shape) p = j →
        P p = false ∧ ∀ q, InBox c.shape q → q < p → P q = true) := by
  have hnum : c.numel = c.shape.prod := by rw [Container.numel, numel_eq_prod hne]
  obtain ⟨f1, f2⟩ := find?_positions c.shape fun p => !P p
  cases hf : (positions c.shape).find? (fun p => !P p) with
  | none =>
    have hall : ∀ p, InBox c.shape p → P p = true := by
      intro p hp; simpa using f1.1 hf p hp
    refine ⟨c.numel, numel_nonneg hne hs, le_refl _, ?_, by simpa using hall, ?_⟩
    · intro p hp
      rw [hall p hp, hnum]; simp [(lin_bounds hp).2]
    · intro p hp e
      have := (lin_bounds hp).2; omega
  | some p0 =>
    obtain ⟨hp0, hP0, hmin⟩ := (f2 p0).1 hf
    have hb := lin_bounds hp0
    have hP0 : P p0 = false := by simpa using hP0
    have hchar : ∀ p, InBox c.shape p →
        P p = decide (linearize (sfx c.shape) p < linearize (sfx c.shape) p0) := by
      intro p hp
      by_cases hlt : p < p0
      · have h1 : P p = true := by simpa using hmin p hp hlt
        have h2 := (lin_lt_iff hp hp0).2 hlt
        simp [h1, h2]
      · have h2 := mt (lin_lt_iff hp hp0).1 hlt
        have h1 : P p = false := by
          by_cases e : p = p0
          · rw [e]; exact hP0
          · by_contra hn
            have hgt : p0 < p := by
              rw [← lin_lt_iff hp0 hp]
              have : linearize (sfx c.shape) p ≠ linearize (sfx c.shape) p0 :=
                fun h => e (lin_inj hp hp0 h)
              omega
            have := hP p0 p hp0 hp hgt (by simpa using hn)
            rw [hP0] at this; cases this
        simp only [h1, h2, decide_false]
    refine ⟨linearize (sfx c.shape) p0, hb.1, by omega, hchar, ?_, ?_⟩
    · constructor
      · intro e; omega
      · intro hall; rw [hall p0 hp0] at hP0; cases hP0
    · intro p hp e
      have := lin_inj hp hp0 e
      subst this
      exact ⟨hP0, fun q hq hlt => by simpa using hmin q hq hlt⟩

end Kwk
