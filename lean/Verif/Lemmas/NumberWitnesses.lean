import Verif.Lemmas.Witnesses
import Verif.Lemmas.Numbers

/-! # Objects for the examples: containers of 2x2 floating-point numbers -/

namespace Kwk

open Spec

/-- Two arrays of 2x2 `float`s: 0.5 1 1.5 2, and zeros. -/
def exHalves : Mem Num := fun a => (exTwo a).map fun v => .flt (roundBits 24) (.num (v / 2))

/-- The elements of the input. -/
def exHalf (p : List Int) : Num := .flt (roundBits 24) (.num (exInVal p / 2))

/-- The same as rational numbers. -/
def exRats : Mem (Option ℚ) := fun a => (exTwo a).map fun v => some (v / 2)

theorem ex_cases {p : List Int} (h : InBox [2, 2] p) : p = [0, 0] ∨ p = [0, 1] ∨ p = [1, 0] ∨ p = [1, 1] := by
  have : p ∈ [[0, 0], [0, 1], [1, 0], [1, 1]] := mem_positions.2 h
  simpa using this

theorem exHalves_elems : Elems exIn exHalves exHalf := fun p hp => by
  rcases ex_cases hp with rfl | rfl | rfl | rfl <;> rfl

theorem exHalves_out : Elems exOut exHalves fun _ => .flt (roundBits 24) (.num ((0 : Int) / 2)) := fun p hp => by
  rcases ex_cases hp with rfl | rfl | rfl | rfl <;> rfl

theorem exHalves_valid : Valid exOut exHalves := fun p hp => ⟨_, exHalves_out p hp⟩

theorem exHalves_typed : ∀ p, InBox [2, 2] p → OfType 24 (.flt (roundBits 24)) (exHalf p) := fun p hp =>
  ⟨rfl, exInVal p, -1, by rcases ex_cases hp with rfl | rfl | rfl | rfl <;> decide, by rw [zpow_neg_one]; rfl⟩

theorem exHalves_numbers : ∀ p, ¬ IsNaN (exHalf p) := fun p h => by simp [IsNaN, exHalf, number] at h

theorem exHalves_sorted : ∀ p q, InBox [2, 2] p → InBox [2, 2] q → p < q → ¬ Below (exHalf q) (exHalf p) := by
  rintro p q hp hq h ⟨x, y, hx, hy, hxy⟩
  have := exInVal_sorted p q hp hq h
  simp only [exHalf, number, Option.some.injEq] at hx hy
  subst hx hy
  have h2 : ((exInVal q : ℚ)) / 2 < exInVal p / 2 := by exact_mod_cast hxy
  have : (exInVal p : ℚ) < exInVal q := by exact_mod_cast this
  linarith

theorem exRats_elems : Elems exIn exRats fun p => some (exInVal p / 2 : ℚ) := fun p hp => by
  rcases ex_cases hp with rfl | rfl | rfl | rfl <;> rfl

theorem exRats_valid : Valid exOut exRats := fun p hp => by
  rcases ex_cases hp with rfl | rfl | rfl | rfl <;> exact ⟨_, rfl⟩

end Kwk
