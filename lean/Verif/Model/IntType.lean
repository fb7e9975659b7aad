import Verif.Model.Base

/-! # Model: C++ integer types -/

namespace Kwk

/-- An integral type: width in bits and signedness.
Types of extents: `include/kwk/settings/axis.hpp:29-30`, `include/kwk/utility/fixed.hpp:30-60`. -/
structure IntType where
  bits : Nat
  signed : Bool
  deriving DecidableEq, Repr

namespace IntType

/-- `std::int32_t`. Default type of extents, `include/kwk/settings/axis.hpp:30`. -/
def i32 : IntType := ⟨32, true⟩
/-- `std::uint32_t`. `include/kwk/utility/fixed.hpp:66`. -/
def u32 : IntType := ⟨32, false⟩
/-- `std::int8_t`. An extent type, `include/kwk/utility/fixed.hpp:30-60`. -/
def i8 : IntType := ⟨8, true⟩
/-- `std::uint8_t`. `include/kwk/utility/fixed.hpp:64`. -/
def u8 : IntType := ⟨8, false⟩
/-- `std::uint16_t`. `include/kwk/utility/fixed.hpp:65`. -/
def u16 : IntType := ⟨16, false⟩
/-- `std::int16_t`. An extent type, `include/kwk/utility/fixed.hpp:30-60`. -/
def i16 : IntType := ⟨16, true⟩
/-- `std::int64_t`. An extent type, `include/kwk/utility/fixed.hpp:30-60`. -/
def i64 : IntType := ⟨64, true⟩
/-- `std::uint64_t`, also `std::size_t` (64-bit platform, see DESIGN.md).
`include/kwk/utility/fixed.hpp:67`. -/
def u64 : IntType := ⟨64, false⟩

/-- Smallest value. C++ [basic.fundamental]; for `IntType`, `include/kwk/utility/fixed.hpp:30-60`. -/
def lo (t : IntType) : Int := if t.signed then -(2 ^ t.bits / 2) else 0

/-- One more than the largest value.
C++ [basic.fundamental]; for `IntType`, `include/kwk/utility/fixed.hpp:30-60`. -/
def hi (t : IntType) : Int := if t.signed then 2 ^ t.bits / 2 else 2 ^ t.bits

/-- The type can represent the value. For `IntType`, `include/kwk/utility/fixed.hpp:30-60`. -/
def Fits (t : IntType) (v : Int) : Prop := t.lo ≤ v ∧ v < t.hi

instance (t : IntType) (v : Int) : Decidable (t.Fits v) := by unfold Fits; infer_instance

/-- Integral conversion (C++20 [conv.integral]): the representable value congruent modulo `2^bits`.
Used e.g. by `static_cast<Idx>` at `include/kwk/utility/coordinates.hpp:51-52`. -/
def wrap (t : IntType) (v : Int) : Int :=
  let r := v % (2 ^ t.bits)
  if t.signed ∧ t.hi ≤ r then r - 2 ^ t.bits else r

end IntType
end Kwk
