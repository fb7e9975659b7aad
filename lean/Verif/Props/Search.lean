import Verif.Lemmas.AuxSearch
import Verif.Lemmas.Search
import Verif.Props.Reading

/-!
# Properties C30-C33: binary searches
-/

namespace Kwk
open Spec

variable {α β σ : Type}

/-- **C30** On a container partitioned by `func(·, value)` in row-major order, `lower_bound` returns
the first position whose element does not satisfy it, or nothing. -/
theorem C30_lower_bound (md : Mode) (m : Mem α) (c : Container) (val : List Int → α)
    (h : Elems c m val) (hne : c.shape ≠ []) (hs : NonNeg c.shape) (func : α → β → Bool) (value : β)
    (hpart : ∀ p q, InBox c.shape p → InBox c.shape q → p < q →
      func (val q) value = true → func (val p) value = true) (s : σ) :
    ∃ r, lowerBound md m c value (fun e v => pure (func e v)) s = .ok (r, s) ∧
      IsFirst c.shape (fun p => func (val p) value = false) r := by
  rw [lowerBound_eq md m c]
  exact finish_isFirst md h hne hs s _ (fun e => func e value) (fun _ _ => rfl) hpart

example := C30_lower_bound .checked exTwo exIn exInVal exIn_elems (by decide) (by decide) (fun a b => decide (a < b)) 3
  (fun p q hp hq h => by have := exInVal_sorted p q hp hq h; simp; omega) ()

/-- **C31** On a container partitioned by `!func(value, ·)`, `upper_bound` returns the first position
whose element is greater than `value`, or nothing. -/
theorem C31_upper_bound (md : Mode) (m : Mem α) (c : Container) (val : List Int → α)
    (h : Elems c m val) (hne : c.shape ≠ []) (hs : NonNeg c.shape) (func : β → α → Bool) (value : β)
    (hpart : ∀ p q, InBox c.shape p → InBox c.shape q → p < q →
      func value (val p) = true → func value (val q) = true) (s : σ) :
    ∃ r, upperBound md m c value (fun v e => pure (func v e)) s = .ok (r, s) ∧
      IsFirst c.shape (fun p => func value (val p) = true) r := by
  rw [upperBound_eq]
  obtain ⟨r, h1, h2⟩ := finish_isFirst md h hne hs s
    (fun e => do let r ← (pure (func value e) : StateT σ Res Bool); pure (!r))
    (fun e => !func value e) (fun _ _ => rfl) (by
      intro p q hp hq hlt hq'
      by_contra hn
      have : func value (val p) = true := by simpa using hn
      rw [hpart p q hp hq hlt this] at hq'; cases hq')
  refine ⟨r, h1, ?_⟩
  simpa using h2

example : let c := Container.ofShape ⟨0, 0⟩ [2, 3]
    let m : Mem Int := oneBlock 0 [1, 3, 3, 3, 5, 7]
    (lowerBound (σ := Unit) .checked m c 3 (fun e v => pure (e < v)) () = .ok (some [0, 1], ())) ∧
    (upperBound (σ := Unit) .checked m c 3 (fun v e => pure (v < e)) () = .ok (some [1, 1], ())) ∧
    (lowerBound (σ := Unit) .checked m c 9 (fun e v => pure (e < v)) () = .ok (none, ())) := by
  decide

/-- **C32** On a container sorted by a strict weak order, `binary_search` answers whether some
element is equivalent to `value`. -/
theorem C32_binary_search (md : Mode) (m : Mem α) (c : Container) (val : List Int → α)
    (h : Elems c m val) (hne : c.shape ≠ []) (hs : NonNeg c.shape) (lt : α → α → Bool)
    (hlt : StrictWeak lt)
    (hsorted : ∀ p q, InBox c.shape p → InBox c.shape q → p < q → lt (val q) (val p) = false)
    (value : α) (s : σ) :
    ∃ b, binarySearch md m c value (fun a b => pure (lt a b)) s = .ok (b, s) ∧
      (b = true ↔ ∃ p, InBox c.shape p ∧ lt (val p) value = false ∧ lt value (val p) = false) := by
  obtain ⟨r, h1, h2, h3⟩ := C30_lower_bound md m c val h hne hs lt value (by
    intro p q hp hq hpq hv
    rcases hlt.split _ _ (val p) hv with h' | h'
    · rw [hsorted p q hp hq hpq] at h'; cases h'
    · exact h') s
  cases r with
  | none =>
    refine ⟨false, ?_, ?_⟩
    · simp only [binarySearch, bind, StateT.bind, h1, Except.bind]; rfl
    · constructor
      · intro e; cases e
      · rintro ⟨p, hp, hp1, _⟩
        exact absurd hp1 (h2.1 rfl p hp)
  | some p0 =>
    obtain ⟨hp0, hP0, hmin⟩ := (h3 p0).1 rfl
    refine ⟨!lt value (val p0), ?_, ?_⟩
    · simp only [binarySearch, bind, StateT.bind, h1, Except.bind, liftM, monadLift,
        MonadLift.monadLift, StateT.lift, h p0 hp0]
      rfl
    · constructor
      · intro e
        exact ⟨p0, hp0, hP0, by simpa using e⟩
      · rintro ⟨p, hp, hp1, hp2⟩
        by_contra hn
        have hn : lt value (val p0) = true := by simpa using hn
        rcases hlt.split _ _ (val p) hn with h' | h'
        · rw [hp2] at h'; cases h'
        · rcases lt_trichotomy (linearize (sfx c.shape) p) (linearize (sfx c.shape) p0) with g | g | g
          · exact hmin p hp ((lin_lt_iff hp hp0).1 g) hp1
          · rw [lin_inj hp hp0 g, hlt.irrefl] at h'; cases h'
          · rw [hsorted p0 p hp0 hp ((lin_lt_iff hp0 hp).1 g)] at h'; cases h'

example : let c := Container.ofShape ⟨0, 0⟩ [2, 3]
    let m : Mem Int := oneBlock 0 [1, 3, 3, 3, 5, 7]
    (binarySearch (σ := Unit) .checked m c 5 (fun a b => pure (a < b)) () = .ok (true, ())) ∧
    (binarySearch (σ := Unit) .checked m c 4 (fun a b => pure (a < b)) () = .ok (false, ())) := by
  decide

/-- A comparison that may answer anything, depending on all elements it was shown before, and records
the elements it is called with. -/
def recording (ans : List α → α → Bool) (e : α) : StateT (List α) Res Bool := fun seen =>
  .ok (ans seen e, seen ++ [e])

/-- **C33** Whatever the contents of the container and whatever the comparison answers,
`lower_bound` and `upper_bound` end without fault, compare only elements of the container, make no
comparison when it is empty and at most `⌊log₂ numel⌋ + 1` otherwise; a returned position is
valid. -/
theorem C33_logarithmic (md : Mode) (m : Mem α) (c : Container) (val : List Int → α)
    (h : Elems c m val) (hne : c.shape ≠ []) (hs : NonNeg c.shape) (value : β)
    (ans : List α → α → Bool) :
    ∀ run ∈ [lowerBound md m c value (fun e _ => recording ans e) [],
             upperBound md m c value (fun _ e => recording ans e) []],
      ∃ r calls, run = .ok (r, calls) ∧ (∀ e ∈ calls, ∃ p, InBox c.shape p ∧ val p = e) ∧
        (∀ p, r = some p → InBox c.shape p) ∧
        (c.numel = 0 → calls = []) ∧ calls.length ≤ Nat.log 2 c.numel.toNat + 1 := by
  have hnn := numel_nonneg hne hs
  have key : ∀ (adv : α → StateT (List α) Res Bool) (ans' : α → List α → Bool),
      (∀ e s, adv e s = .ok (ans' e s, s ++ [e])) →
      ∃ r calls, finish md m c adv [] = .ok (r, calls) ∧
        (∀ e ∈ calls, ∃ p, InBox c.shape p ∧ val p = e) ∧ (∀ p, r = some p → InBox c.shape p) ∧
        (c.numel = 0 → calls = []) ∧ calls.length ≤ Nat.log 2 c.numel.toNat + 1 := by
    intro adv ans' hadv
    obtain ⟨r, es, h1, h2, h3, h4, _⟩ := finish_run md h hne hs adv ans' (fun e s => s ++ [e])
      (fun p _ s => hadv _ s) []
    rw [foldl_append_all, List.nil_append] at h1
    refine ⟨r, es, h1, h2, h4, ?_, ?_⟩
    · intro h0
      have := h3 0 (by rw [h0]; norm_num)
      exact List.length_eq_zero_iff.1 (by omega)
    · apply h3
      have := Nat.lt_pow_succ_log_self (b := 2) (by norm_num) c.numel.toNat
      have h5 : (c.numel.toNat : Int) = c.numel := Int.toNat_of_nonneg hnn
      rw [← h5]
      exact_mod_cast this
  intro run hrun
  simp only [List.mem_cons, List.not_mem_nil, or_false] at hrun
  rcases hrun with rfl | rfl
  · rw [lowerBound_eq md m c]
    exact key _ (fun e s => ans s e) (fun _ _ => rfl)
  · rw [upperBound_eq]
    exact key _ (fun e s => !ans s e) (fun _ _ => rfl)

/-- An unsorted container of six elements: two comparisons. -/
example : lowerBound .checked (oneBlock 0 [5, 1, 4, 2, 6, 3]) (.ofShape ⟨0, 0⟩ [2, 3]) ()
    (fun e _ => recording (fun _ e => decide ((e : Int) < 4)) e) [] = .ok (none, [2, 3]) := by decide

end Kwk
