import Verif.Model.Prefilled

/-!
# Specification: extents of shapes with compile-time and run-time axes

What a caller expects to read back from an axis; no mention of how extents are stored.
-/

namespace Kwk.Spec

/-- The extent of an axis initialized by `v`: its compile-time value if it has one, otherwise the
value given, or the default for a joker. -/
def extentOf (dflt : Int) (a : Axis) (v : Arg) : Int :=
  match a.content, v with
  | .static x, _ => x
  | .dynamic _, .val v => v
  | .dynamic _, .joker => dflt

/-- The storage type of a run-time axis can represent its extent. -/
def Storable (dflt : Int) (a : Axis) (v : Arg) : Prop :=
  ∀ t, a.content = .dynamic t → t.Fits (extentOf dflt a v)

/-- `w` is the value `v` converted to the type `t`: the value of `t` that is congruent to `v`. -/
def ConvertedTo (t : IntType) (v w : Int) : Prop := t.Fits w ∧ ∃ k : Int, w = v + k * 2 ^ t.bits

/-- The types of the run-time axes have at least one bit. -/
def ProperTypes (d : Desc) : Prop := ∀ a ∈ d, ∀ t, a.content = .dynamic t → 0 < t.bits

/-- The value does not contradict a compile-time extent. -/
def Consistent (a : Axis) (v : Arg) : Prop :=
  ∀ x w, a.content = .static x → v = .val w → w = x

/-- The compile-time size written in a template argument, if any. -/
def writtenSize : Extent → Option Int
  | .int v => some v
  | .axis _ (some (.static v)) => some v
  | _ => none

/-- The type in which a template argument asks to store a run-time extent: `std::int32_t` unless
another one is written. -/
def writtenType : Extent → IntType
  | .type t => t
  | .axis _ (some (.dynamic t)) => t
  | _ => .i32

/-- The name written in a template argument, if any. -/
def writtenName : Extent → Option AxisId
  | .axis a _ => some a
  | _ => none

/-- The names written are distinct, and are names that a user can write. -/
def ProperNames (es : List Extent) : Prop :=
  (es.filterMap writtenName).Nodup ∧ ∀ a ∈ es.filterMap writtenName, ∀ n, a ≠ .implicit n

/-- The name in front of a value, if any. -/
def givenName : MixedArg → Option AxisId
  | .plain _ => none
  | .named a _ => some a

/-- The value without its name. -/
def givenValue : MixedArg → Arg
  | .plain v => v
  | .named _ v => v

/-- What a caller reads back from an axis declared by `e` and initialized by `v`. -/
def readBack (dflt : Int) (e : Extent) (v : Arg) : Int :=
  match writtenSize e, v with
  | some x, _ => x
  | none, .val w => w
  | none, .joker => dflt

/-- The declared storage type can represent the value to read back. -/
def CanHold (dflt : Int) (e : Extent) (v : Arg) : Prop :=
  writtenSize e = none → (writtenType e).Fits (readBack dflt e v)

/-- The value does not contradict a declared compile-time size. -/
def NoConflict (e : Extent) (v : Arg) : Prop :=
  ∀ x w, writtenSize e = some x → v = .val w → w = x

end Kwk.Spec
