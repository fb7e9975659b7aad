import Mathlib.Data.Rat.Floor
import Verif.Model.Container

/-!
# Model: interpolators

Coordinates and values are rational numbers: floating-point rounding is left out (simplification).
-/

namespace Kwk

/-- `static_cast<int>(v)` for a floating-point `v`: truncation toward zero.
Used at `include/kwk/utility/container/interpolator.hpp:18-38, 65-69`. -/
def truncQ (v : ℚ) : Int := if 0 ≤ v then ⌊v⌋ else ⌈v⌉

/-- One step of `setup_linear_interpolation`; `include/kwk/utility/container/interpolator.hpp:18-38`. -/
def interpStep (acc : List (List Int) × List ℚ) (v : ℚ) : List (List Int) × List ℚ :=
  let mp := truncQ v
  let b := v - mp
  let a := 1 - b
  let cf0 := acc.2.map fun e => e * a
  let cf1 := acc.2.map fun e => e * b
  let cmp := acc.1.map fun e => e ++ [mp]
  let cnp := acc.1.map fun e => e ++ [mp + 1]
  (cmp ++ cnp, cf0 ++ cf1)

/-- `setup_linear_interpolation(p...)`: `fold_right` over the coordinates, first to last;
`include/kwk/utility/container/interpolator.hpp:14-42`. -/
def interpSetup (ps : List ℚ) : List (List Int) × List ℚ := ps.foldl interpStep ([[]], [1])

/-- `inner_product(pop_front(pos), pop_front(coeff), front(pos)*front(coeff))`;
`include/kwk/utility/container/interpolator.hpp:59`. -/
def interpProduct (pos coeff : List ℚ) : ℚ :=
  (List.zipWith (· * ·) pos.tail coeff.tail).foldl (· + ·) (pos.headD 0 * coeff.headD 0)

/-- `linear_::interpolate(data, p...)`; `include/kwk/utility/container/interpolator.hpp:46-60`. -/
def interpLinear (data : List Int → Res ℚ) (ps : List ℚ) : Res ℚ := do
  let (coord, coeff) := interpSetup ps
  let pos ← coord.mapM data
  return interpProduct pos coeff

/-- `floor_::interpolate(data, p...)`; `include/kwk/utility/container/interpolator.hpp:65-69`. -/
def interpFloor (data : List Int → Res ℚ) (ps : List ℚ) : Res ℚ := data (ps.map truncQ)

end Kwk
