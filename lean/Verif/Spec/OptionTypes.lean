import Verif.Model.OptionTypes

/-! # Specification vocabulary for the types of options -/

namespace Kwk.Spec

/-- Structural types, as in C++ [temp.param]. -/
inductive Structural : CppType → Prop
  | arithmetic : Structural .arithmetic
  | pointer : Structural .pointer
  | reference : Structural .reference
  | array {t} (h : Structural t) : Structural (.array t)
  | cls {d ms} (h : ∀ m ∈ ms, Structural m) : Structural (.cls true d ms)

/-- A value of the type can be made without arguments, at compile time. -/
inductive HasDefault : CppType → Prop
  | arithmetic : HasDefault .arithmetic
  | pointer : HasDefault .pointer
  | array {t} (h : HasDefault t) : HasDefault (.array t)
  | cls {a ms} : HasDefault (.cls a true ms)

/-- The constraint on the value is met: labels convert to `std::string`, allocators have their two functions. -/
def AcceptableOption : OptionArg → Prop
  | .label v => v.toString = true
  | .allocator v => v.allocates = true
  | .own => True

/-- The value is of a structural type with a default. -/
def UsableOption : OptionArg → Prop
  | .label v => Structural v.type ∧ HasDefault v.type
  | .allocator v => Structural v.type ∧ HasDefault v.type
  | .own => True

end Kwk.Spec
