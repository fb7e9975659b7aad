import Verif.Spec.TypedSlice

/-!
# Specification: views of more than `2^31` elements

Extents of a 64-bit type.  Numbers given by the user may have any type that C++ computes with as signed numbers, and every
number is one of its type.
-/

namespace Kwk.Spec

/-- A number of a type that C++ computes with as signed numbers, possibly of 64 bits. -/
def LongNumber (c : Coord) : Prop := ComputesSigned c.type ∧ c.type.Fits c.value

instance (c : Coord) : Decidable (LongNumber c) := by unfold LongNumber; infer_instance

/-- Strictly between `-2^63` and `2^63`. -/
def I64 (v : Int) : Prop := -9223372036854775808 < v ∧ v < 9223372036854775808

instance (v : Int) : Decidable (I64 v) := by unfold I64; infer_instance

/-- The expression can be evaluated for the 64-bit extent `d`: the constants in it are moderate, nothing leaves the range of 64
bits, and no negative number is divided. -/
def EndExprT.LongAt (d : Int) (e : EndExprT) : Prop :=
  e.Moderate ComputesSigned ∧ I64 (d * e.factor) ∧ 0 ≤ d * e.factor + e.offset ∧
    d * e.factor + e.offset < 9223372036854775808 ∧ 0 < e.divisor

/-- See `EndExprT.LongAt`. -/
def BoundT.LongAt (d : Int) : BoundT → Prop
  | int i => LongNumber i
  | ext e => e.LongAt d

/-- The slicer can be evaluated for the 64-bit extent `d`: the step can be negated and multiplied by the stride `g` of the axis;
an integer from which one counts down is not the last of its type. -/
def SlicerT.LongAt (d g : Int) (x : SlicerT) : Prop :=
  LongNumber x.step ∧ x.step.type.Fits (-x.step.value) ∧ I64 (x.step.value * g) ∧
  match x with
  | joker => True
  | index i => LongNumber i
  | ext e => e.LongAt d
  | interval b s e l => (∀ y ∈ b, y.LongAt d) ∧ (∀ y ∈ e, y.LongAt d) ∧ (∀ y ∈ l, y.LongAt d) ∧
      ∀ i, b = some (.int i) → (s.map (·.value)).getD 1 < 0 → i.type.promote.Fits (i.value + 1)

/-- See `LongAt`: one slicer per axis, `g` are the strides. -/
def SlicerT.LongAll : List Int → List Int → List SlicerT → Prop
  | d :: s, g :: gs, x :: xs => x.LongAt d g ∧ LongAll s gs xs
  | _, _, _ => True

/-- Along the last axis, the step times the coordinate is a number of the type in which C++ multiplies them. -/
def LastInRange : List SlicerT → List Coord → Prop
  | [x], [c] => (x.step.type.common c.type).Fits (x.step.value * c.value)
  | _ :: xs, _ :: p => LastInRange xs p
  | _, _ => True

end Kwk.Spec
