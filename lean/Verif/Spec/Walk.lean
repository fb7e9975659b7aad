import Verif.Spec.LongAxes
import Verif.Model.Walk

/-!
# Specification: visiting the elements of containers of all integer types
-/

namespace Kwk.Spec

/-- The numbers written in an expression on `end`. -/
def EndExprT.numbers : EndExprT → List Coord
  | all => []
  | add e o => o :: e.numbers
  | sub e o => o :: e.numbers
  | rsub o e => o :: e.numbers
  | mul e o => o :: e.numbers
  | div e o => o :: e.numbers

/-- The numbers written in a bound. -/
def BoundT.numbers : BoundT → List Coord
  | int i => [i]
  | ext e => e.numbers

/-- The numbers written in a slicer. -/
def SlicerT.numbers : SlicerT → List Coord
  | joker => []
  | index i => [i]
  | ext e => e.numbers
  | interval b s e l => (b.map (·.numbers)).getD [] ++ s.toList ++ (e.map (·.numbers)).getD [] ++ (l.map (·.numbers)).getD []

/-- The type of a bound of a 64-bit extent. -/
def BoundT.type : BoundT → IntType
  | int i => i.type
  | ext _ => .i64

/-- If a length and a step are given for the last axis: the step times the last coordinate is a number of the type in which C++
multiplies the step by a number of the type of the length. -/
def LastLength : List SlicerT → List (List Int) → Prop
  | [.interval _ (some s) _ (some len)], [l] => (s.type.common len.type).Fits (s.value * (l.length - 1))
  | _ :: xs, _ :: ls => LastLength xs ls
  | _, _ => True

/-- A container with row-major strides over positive extents that their types represent; either there are less than `2^31` elements,
or all extents have 64 bits and there are less than `2^63` elements. -/
def RowMajorT (c : ContainerT) : Prop :=
  asStrideT c.shape = .ok c.stride ∧ (∀ d ∈ c.shape, 0 < d.value ∧ d.type.Fits d.value) ∧
  ((c.shape.map (·.value)).prod < 2 ^ 31 ∨ (∀ d ∈ c.shape, 64 ≤ d.type.bits) ∧ (c.shape.map (·.value)).prod < 2 ^ 63)

end Kwk.Spec
