import Verif.Model.Interp
import Verif.Model.Machine

/-!
# Model: linear interpolation in floating-point arithmetic

The model of `Model.Interp` computes with exact rational numbers.  Here every floating-point operation is rounded, and the
conversions to `int` and the increment of an `int` can overflow.

A floating-point type is given by its rounding function: the result of an operation is the rounded exact result.  A value that
is infinite or not a number is `none`; arithmetic on such a value never gives a finite one.

Simplifications: overflow and underflow of floating-point results are left out (the exponent is not bounded); products and sums
are not contracted (fused); all coordinates have the same type, at least as precise as `float`.
-/

namespace Kwk

/-- `static_cast<int>(v)` for a floating-point `v`: undefined if the integral part does not fit in an `int`;
`include/kwk/utility/container/interpolator.hpp:21`. -/
def castInt (v : ℚ) : Res Int := IntType.i32.op (truncQ v)

/-- One step of `setup_linear_interpolation`, with the rounding `rc` of the type of the coordinates and coefficients: `mp` is
converted to that type before the subtraction; `include/kwk/utility/container/interpolator.hpp:18-38`. -/
def interpStepF (rc : ℚ → ℚ) (acc : List (List Int) × List ℚ) (v : ℚ) : Res (List (List Int) × List ℚ) := do
  let mp ← castInt v
  let b := rc (v - rc mp)
  let a := rc (1 - b)
  let cf0 := acc.2.map fun e => rc (e * a)
  let cf1 := acc.2.map fun e => rc (e * b)
  let np ← IntType.i32.op (mp + 1)
  let cmp := acc.1.map fun e => e ++ [mp]
  let cnp := acc.1.map fun e => e ++ [np]
  return (cmp ++ cnp, cf0 ++ cf1)

/-- `setup_linear_interpolation(p...)`; `include/kwk/utility/container/interpolator.hpp:14-42`. -/
def interpSetupF (rc : ℚ → ℚ) (ps : List ℚ) : Res (List (List Int) × List ℚ) :=
  ps.foldlM (interpStepF rc) ([[]], [1])

/-- An element times a coefficient: the element is converted to the common type of both, whose rounding is `rv`, then multiplied;
`include/kwk/utility/container/interpolator.hpp:59`. -/
def mulF (rv : ℚ → ℚ) (x : Option ℚ) (e : ℚ) : Option ℚ := x.map fun x => rv (rv x * e)

/-- Sum of two floating-point numbers; `include/kwk/utility/container/interpolator.hpp:59`. -/
def addF (rv : ℚ → ℚ) (x y : Option ℚ) : Option ℚ := do
  let x ← x
  let y ← y
  return rv (x + y)

/-- `inner_product(pop_front(pos), pop_front(coeff), front(pos)*front(coeff))`;
`include/kwk/utility/container/interpolator.hpp:59`. -/
def interpProductF (rv : ℚ → ℚ) (pos : List (Option ℚ)) (coeff : List ℚ) : Option ℚ :=
  (List.zipWith (mulF rv) pos.tail coeff.tail).foldl (addF rv) (mulF rv (pos.headD (some 0)) (coeff.headD 0))

/-- `linear_::interpolate(data, p...)`; `include/kwk/utility/container/interpolator.hpp:46-60`. -/
def interpLinearF (rc rv : ℚ → ℚ) (data : List Int → Res (Option ℚ)) (ps : List ℚ) : Res (Option ℚ) := do
  let (coord, coeff) ← interpSetupF rc ps
  let pos ← coord.mapM data
  return interpProductF rv pos coeff

end Kwk
