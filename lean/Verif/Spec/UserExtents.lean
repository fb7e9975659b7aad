import Verif.Model.UserExtents
import Verif.Spec.Build

/-!
# Specification: what the author of a type of extents expects

An object represents a number: it converts to it, and `as_dimension` gives it whatever the default.  No mention of how shapes are stored.
-/

namespace Kwk.Spec

/-- The object stands for the number `v`. -/
structure Represents (u : UserExtent) (v : Int) : Prop where
  /-- converting the object gives the number -/
  size : u.size = some v
  /-- so does `as_dimension`, whatever the default -/
  dimension : ∃ f, u.dimension = some f ∧ ∀ d, f d = v

/-- The argument means the same as an extent of the library: the number as a run-time size of the type declared by `to_descriptor` (`int` for a
joker), or as the compile-time size that `to_descriptor` gives; under a name, a
type with a constant `value` means this constant. -/
def SameAs : UserArg → BuildArg → Prop
  | .lib b, b' => b = b'
  | .own u, .int t v => Represents u v ∧ (u.descriptor = some (.type t) ∨ t = .i32 ∧ u.descriptor = some .joker)
  | .own u, .const v => Represents u v ∧ u.descriptor = some (.int v)
  | .ownNamed a u, .named a' (.const v) => a = a' ∧ u.constant = some v ∧ u.size = some v
  | _, _ => False

/-- The argument, without a name, gives this value for its axis. -/
def GivesValue : UserArg → Arg → Prop
  | .lib b, v => ¬ IsNamed b ∧ v = b.arg
  | .own u, .val v => Represents u v
  | _, _ => False

/-- What a type must provide for `of_size`: the conversion to `std::size_t` that the concept `extent` asks for, a descriptor, and a dimension unless the
descriptor is a compile-time size. -/
def Usable (u : UserExtent) : Prop :=
  u.size.isSome ∧ ∃ e, (u.descriptor = some e ∨ u.descriptor = none ∧ ∃ v, u.constant = some v ∧ e = .int v) ∧
    (writtenSize e = none → u.dimension.isSome ∨ u.constant.isSome)

/-- The argument is the value `v` under the name `a`. -/
def GivesNamed : UserArg → AxisId × Arg → Prop
  | .lib (.named a v), x => x = (a, v.arg)
  | .ownNamed a u, (a', .val v) => a = a' ∧ Represents u v
  | _, _ => False

/-- The argument is a value, with or without a name. -/
def GivesMixed : UserArg → MixedArg → Prop
  | .lib b, x => x = b.mixed
  | .own u, .plain (.val v) => Represents u v
  | .ownNamed a u, .named a' (.val v) => a = a' ∧ Represents u v
  | _, _ => False

/-- What a type must provide for a value under the name of an axis declared by `e`: a dimension if the axis is stored; if its size is written, the
conversion that compares the value with it, in checked builds. -/
def NamedUsable (md : Mode) (e : Extent) (u : UserExtent) : Prop :=
  (writtenSize e = none → u.dimension.isSome ∨ u.constant.isSome) ∧ (∀ x, writtenSize e = some x → md = .checked → u.size.isSome)

/-- In `of_size<T>`: an extent of the library, or an object whose type is a constant for the library. -/
def SameConstant : UserArg → BuildArg → Prop
  | .lib b, b' => b = b'
  | .own u, .const v => u.constant = some v ∧ u.size.isSome
  | _, _ => False

end Kwk.Spec
