import Verif.Lemmas.FloatInterp
import Verif.Lemmas.RoundBits
import Verif.Model.FloatSums

/-! # Helper lemmas about sums of floating-point elements -/

namespace Kwk
open Spec

variable {u : ℚ} {ι : Type}

/-- The additions on finite values. -/
theorem foldl_addToF (ra rs : ℚ → ℚ) (xs : List ℚ) (x : ℚ) :
    (xs.map some).foldl (addToF ra rs) (some x) = some (xs.foldl (fun a b => ra (rs (a + b))) x) := by
  induction xs generalizing x with
  | nil => rfl
  | cons y xs ih => exact ih _

theorem foldl_addToF_isSome (ra rs : ℚ → ℚ) (xs : List (Option ℚ)) (x : Option ℚ) :
    (xs.foldl (addToF ra rs) x).isSome ↔ x.isSome ∧ ∀ y ∈ xs, y.isSome := by
  induction xs generalizing x with
  | nil => simp
  | cons y xs ih =>
    rw [List.foldl_cons, ih]
    cases x <;> cases y <;> simp [addToF]

/-- Error of a running sum: each step costs `d` roundings. -/
theorem fold_approx (hu : 0 ≤ u) (d : ℕ) (step : ℚ → ℚ → ℚ)
    (hs : ∀ k x y Y x' y' Y', Approx u k x y Y → Approx u k x' y' Y' → Approx u (k + d) (step x x') (y + y') (Y + Y'))
    (K : ℕ) (f g G : ι → ℚ) (l : List ι) (hl : ∀ i ∈ l, Approx u K (f i) (g i) (G i)) (k : ℕ) (x y Y : ℚ) (hk : K ≤ k)
    (h : Approx u k x y Y) :
    Approx u (k + d * l.length) ((l.map f).foldl step x) (y + (l.map g).sum) (Y + (l.map G).sum) := by
  induction l generalizing k x y Y with
  | nil => simpa using h
  | cons i l ih =>
    have h1 := hs k x y Y _ _ _ h ((hl i (by simp)).mono hu hk)
    have h2 := ih (fun j hj => hl j (by simp [hj])) (k + d) _ _ _ (by omega) h1
    simp only [List.map_cons, List.foldl_cons, List.sum_cons, List.length_cons]
    rw [show k + d * (l.length + 1) = k + d + d * l.length by ring, ← add_assoc, ← add_assoc]
    exact h2

/-- One addition with one rounding. -/
theorem step_one (hu : 0 ≤ u) {r : ℚ → ℚ} (hr : RelError u r) (k : ℕ) (x y Y x' y' Y' : ℚ) (h : Approx u k x y Y)
    (h' : Approx u k x' y' Y') : Approx u (k + 1) (r (x + x')) (y + y') (Y + Y') := (h.add h').rnd hu hr

/-- One addition with two roundings. -/
theorem step_two (hu : 0 ≤ u) {ra rs : ℚ → ℚ} (ha : RelError u ra) (hs : RelError u rs) (k : ℕ) (x y Y x' y' Y' : ℚ)
    (h : Approx u k x y Y) (h' : Approx u k x' y' Y') : Approx u (k + 2) (ra (rs (x + x'))) (y + y') (Y + Y') :=
  ((h.add h').rnd hu hs).rnd hu ha

/-- A sum from zero: the first addition is exact. -/
theorem fold_zero (hu : 0 ≤ u) {r : ℚ → ℚ} (hr : RelError u r) (K : ℕ) (f g G : ι → ℚ) (l : List ι)
    (hl : ∀ i ∈ l, Approx u K (f i) (g i) (G i)) (hf : ∀ i ∈ l, r (f i) = f i) :
    Approx u (K + (l.length - 1)) ((l.map f).foldl (fun a b => r (a + b)) 0) (l.map g).sum (l.map G).sum := by
  cases l with
  | nil => exact ⟨by simp, by simp⟩
  | cons i l =>
    simp only [List.map_cons, List.foldl_cons, List.sum_cons, zero_add, List.length_cons, Nat.add_sub_cancel]
    rw [hf i (by simp)]
    have := fold_approx hu 1 _ (step_one hu hr) K f g G l (fun j hj => hl j (by simp [hj])) K _ _ _ (le_refl K) (hl i (by simp))
    rwa [one_mul] at this

/-- If no partial sum is rounded the result is the exact sum. -/
theorem fold_exact (step : ℚ → ℚ → ℚ) (r : ℚ → ℚ) (hs : ∀ a b, r (a + b) = a + b → step a b = a + b) (l : List ℚ) (x : ℚ)
    (h : ∀ k, 0 < k → k ≤ l.length → r (x + (l.take k).sum) = x + (l.take k).sum) : l.foldl step x = x + l.sum := by
  induction l generalizing x with
  | nil => simp
  | cons y l ih =>
    have h1 : step x y = x + y := hs x y (by have := h 1 (by omega) (by simp); simpa using this)
    rw [List.foldl_cons, h1, ih, List.sum_cons, add_assoc]
    intro k hk hkl
    have := h (k + 1) (by omega) (by simpa using hkl)
    simpa [add_assoc] using this

/-- Sums are monotone if rounding is. -/
theorem fold_mono (step : ℚ → ℚ → ℚ) (hs : ∀ a a' b b', a ≤ a' → b ≤ b' → step a b ≤ step a' b') (f f' : ι → ℚ) (l : List ι)
    (h : ∀ i ∈ l, f i ≤ f' i) (x x' : ℚ) (hx : x ≤ x') : (l.map f).foldl step x ≤ (l.map f').foldl step x' := by
  induction l generalizing x x' with
  | nil => simpa using hx
  | cons i l ih =>
    exact ih (fun j hj => h j (by simp [hj])) _ _ (hs _ _ _ _ hx (h i (by simp)))

end Kwk
