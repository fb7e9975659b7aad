import Verif.Model.FloatInterp
import Verif.Model.Walk

/-!
# Model: interpolation at points with coordinates of any arithmetic types

`Model.FloatInterp` takes coordinates of one floating-point type.  Here every coordinate has its own type: integers of any type and
floating-point numbers of any precision, at least that of `float`, can be mixed.  `rnd p` is the rounding of the floating-point
type with `p` significant bits; an operand is converted to the more precise type of both before an operation.

Simplifications: as in `Model.FloatInterp` (no overflow or underflow of floating-point results, no contraction).
-/

namespace Kwk

/-- A coordinate of a point: an integer with its type, or a floating-point number of a type with `p` significant bits (24 for
`float`, 53 for `double`); the `Coords... p` of `include/kwk/utility/container/interpolator.hpp:14-15, 47, 66`. -/
inductive PointCoord where
  | int (c : Coord)
  | flt (p : ℕ) (v : ℚ)

/-- `static_cast<int>(v)`: integers are converted modulo `2^32`; `include/kwk/utility/container/interpolator.hpp:21`. -/
def PointCoord.castInt : PointCoord → Res Int
  | .int c => pure (IntType.i32.wrap c.value)
  | .flt _ v => IntType.i32.op (truncQ v)

/-- `b = v-mp` and `a = 1-b`, as `(a, b)`, in the common type of `int` and the type of the coordinate;
`include/kwk/utility/container/interpolator.hpp:24-25`. -/
def PointCoord.weights (rnd : ℕ → ℚ → ℚ) (mp : Int) : PointCoord → Res (ℚ × ℚ)
  | .int c => do
    let b ← constSub c ⟨.i32, mp⟩
    let a ← constSub ⟨.i32, 1⟩ b
    pure ((a.value : ℚ), (b.value : ℚ))
  | .flt p v =>
    let b := rnd p (v - rnd p mp)
    pure (rnd p (1 - b), b)

/-- The precision of the product of a coefficient with `k` bits and a number of the type of the coordinate;
`include/kwk/utility/container/interpolator.hpp:30-31`. -/
def PointCoord.productBits (k : ℕ) : PointCoord → ℕ
  | .int _ => k
  | .flt p _ => max k p

/-- `e*a` in the type with `k` bits; `include/kwk/utility/container/interpolator.hpp:30-31`. -/
def mulBits (rnd : ℕ → ℚ → ℚ) (k : ℕ) (e a : ℚ) : ℚ := rnd k (rnd k e * rnd k a)

/-- What the fold hands on: the discrete coordinates, the coefficients, and the precision of the type of these;
`include/kwk/utility/container/interpolator.hpp:27, 37`. -/
structure Cell where
  coord : List (List Int)
  coeff : List ℚ
  bits : ℕ

/-- One step of `setup_linear_interpolation`; `include/kwk/utility/container/interpolator.hpp:18-38`. -/
def interpStepX (rnd : ℕ → ℚ → ℚ) (acc : Cell) (v : PointCoord) : Res Cell := do
  let mp ← v.castInt
  let (a, b) ← v.weights rnd mp
  let k := v.productBits acc.bits
  let cf0 := acc.coeff.map fun e => mulBits rnd k e a
  let cf1 := acc.coeff.map fun e => mulBits rnd k e b
  let np ← IntType.i32.op (mp + 1)
  let cmp := acc.coord.map fun e => e ++ [mp]
  let cnp := acc.coord.map fun e => e ++ [np]
  return ⟨cmp ++ cnp, cf0 ++ cf1, k⟩

/-- `setup_linear_interpolation(p...)`: the first coefficient is `1.f`; `include/kwk/utility/container/interpolator.hpp:14-42`. -/
def interpSetupX (rnd : ℕ → ℚ → ℚ) (ps : List PointCoord) : Res Cell := ps.foldlM (interpStepX rnd) ⟨[[]], [1], 24⟩

/-- The precision of the type of an element times a coefficient: elements with `some p` bits, or integers (`none`);
`include/kwk/utility/container/interpolator.hpp:59`. -/
def resultBits (elem : Option ℕ) (k : ℕ) : ℕ :=
  match elem with
  | none => k
  | some p => max k p

/-- `linear_::interpolate(data, p...)`; `include/kwk/utility/container/interpolator.hpp:46-60`. -/
def interpLinearX (rnd : ℕ → ℚ → ℚ) (elem : Option ℕ) (data : List Int → Res (Option ℚ)) (ps : List PointCoord) :
    Res (Option ℚ) := do
  let c ← interpSetupX rnd ps
  let pos ← c.coord.mapM data
  return interpProductF (rnd (resultBits elem c.bits)) pos c.coeff

/-- `data(v)` for a tuple of `int`: the element of a container of given extents and strides, whose values are those of `m`;
`include/kwk/utility/container/interpolator.hpp:54`, `include/kwk/container/container.hpp:114-138`. -/
def ContainerT.read {β : Type} (m : Int → Res β) (c : ContainerT) (is : List Coord) : Res β := do m (← c.at is)

/-- `linear.interpolate(c, p...)`; `include/kwk/utility/container/interpolator.hpp:46-60`. -/
def ContainerT.linear (rnd : ℕ → ℚ → ℚ) (elem : Option ℕ) (m : Int → Res (Option ℚ)) (c : ContainerT) (ps : List PointCoord) :
    Res (Option ℚ) :=
  interpLinearX rnd elem (fun q => c.read m (q.map fun i => ⟨.i32, i⟩)) ps

/-- `static_cast<std::ptrdiff_t>(p)`; `include/kwk/utility/container/interpolator.hpp:68`. -/
def PointCoord.castPtrdiff : PointCoord → Res Coord
  | .int c => pure ⟨.i64, IntType.i64.wrap c.value⟩
  | .flt _ v => do pure ⟨.i64, ← IntType.i64.op (truncQ v)⟩

/-- `floor.interpolate(c, p...)`; `include/kwk/utility/container/interpolator.hpp:65-69`. -/
def ContainerT.floor {β : Type} (m : Int → Res β) (c : ContainerT) (ps : List PointCoord) : Res β := do
  c.read m (← ps.mapM PointCoord.castPtrdiff)

end Kwk
