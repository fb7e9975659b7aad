import Mathlib.Data.Rat.Floor
import Mathlib.Data.Int.Log
import Mathlib.Algebra.Order.Round

/-!
# Specification: floating-point numbers and the cell around a point
-/

namespace Kwk.Spec

/-- The integer positions around a point: on each axis the coordinate rounded down, or that plus one. -/
def Corner (ps : List ℚ) (q : List Int) : Prop := List.Forall₂ (fun v i => i = ⌊v⌋ ∨ i = ⌊v⌋ + 1) ps q

/-- Numbers of a binary floating-point format with `p` significant bits (and unbounded exponent). -/
def Representable (p : ℕ) (x : ℚ) : Prop := ∃ m e : ℤ, |m| < 2 ^ p ∧ x = m * (2 : ℚ) ^ e

/-- Rounding to the nearest number with `p` significant bits; ties go up. -/
def roundBits (p : ℕ) (x : ℚ) : ℚ :=
  if x = 0 then 0 else
    let s : ℚ := 2 ^ (Int.log 2 |x| - p + 1)
    (round (x / s) : ℤ) * s

/-- Rounding with relative error at most `u`. -/
def RelError (u : ℚ) (rnd : ℚ → ℚ) : Prop := ∀ x, |rnd x - x| ≤ u * |x|

end Kwk.Spec
