import Mathlib.Algebra.BigOperators.Group.List.Basic
import Verif.Model.IntType

/-! # Specification: bounds on sizes, types of results -/

namespace Kwk.Spec

/-- The number of elements of a box, where empty axes count as one. -/
def paddedCount (s : List Int) : Int := (s.map fun d => max 1 d).prod

/-- `c` is the type in which C++ computes with operands of types `t` and `u`: as wide as the widest of `int`, `t` and
`u`, and unsigned exactly if an operand of that width is. -/
def IsCommonType (t u c : IntType) : Prop :=
  c.bits = max 32 (max t.bits u.bits) ∧
  (c.signed = false ↔ (t.bits = c.bits ∧ t.signed = false) ∨ (u.bits = c.bits ∧ u.signed = false))

instance (t u c : IntType) : Decidable (IsCommonType t u c) := by unfold IsCommonType; infer_instance

/-- Strictly between `-2^31` and `2^31`. -/
def I32 (v : Int) : Prop := -2147483648 < v ∧ v < 2147483648

instance (v : Int) : Decidable (I32 v) := by unfold I32; infer_instance

/-- The integer types, except the unsigned type of the width of `int`. -/
def NotUnsignedInt (t : IntType) : Prop := t ∈ [.i8, .u8, .i16, .u16, .i32, .i64, .u64]

instance (t : IntType) : Decidable (NotUnsignedInt t) := by unfold NotUnsignedInt; infer_instance

/-- The integer types whose values are computed with as signed numbers. -/
def ComputesSigned (t : IntType) : Prop := t ∈ [.i8, .u8, .i16, .u16, .i32, .i64]

instance (t : IntType) : Decidable (ComputesSigned t) := by unfold ComputesSigned; infer_instance

/-- Numbers of type `t` equal `v` after conversion to the type `c` only if they are equal: `c` is signed, or `v` is neither
negative nor one of the values that the negative numbers of type `t` are converted to. -/
def EqualsByValue (t c : IntType) (v : Int) : Prop :=
  c.signed = true ∨ 0 ≤ v ∧ (t.signed = true → v < 2 ^ c.bits - 2 ^ t.bits / 2)

instance (t c : IntType) (v : Int) : Decidable (EqualsByValue t c v) := by unfold EqualsByValue; infer_instance

/-- Numbers of type `t` compare with `v` after conversion to the type `c` as they compare before: `c` is signed, or no
negative number takes part. -/
def OrdersByValue (t c : IntType) (v : Int) : Prop := c.signed = true ∨ t.signed = false ∧ 0 ≤ v

instance (t c : IntType) (v : Int) : Decidable (OrdersByValue t c v) := by unfold OrdersByValue; infer_instance

end Kwk.Spec
