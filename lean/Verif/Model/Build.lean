import Verif.Model.Prefilled
import Verif.Model.Machine

/-!
# Model: building shapes and strides from lists of extents

`of_size`, `of_size<T>`, `with_strides`, `as_stride` on shapes whose axes have names and compile-time sizes, and the
conversion of shapes to arrays.
-/

namespace Kwk

/-- The value on the right of `axis = value`; `include/kwk/utility/traits/to_descriptor.hpp:91-105`. -/
inductive NamedValue where
  | int (t : IntType) (v : Int)
  | const (v : Int)
  | joker
  deriving DecidableEq, Repr

/-- An argument of `of_size` or `with_strides`: an integer with its type, a compile-time constant, a joker, an axis
without size (`width`), an axis with a size (`width[3]`), or a named extent (`width = 3`);
`include/kwk/concepts/extent.hpp:16-46`.
Simplification: the key of a named extent is an axis without size. -/
inductive BuildArg where
  | int (t : IntType) (v : Int)
  | const (v : Int)
  | joker
  | axis (a : AxisId)
  | axisSize (a : AxisId) (t : IntType) (v : Int)
  | named (a : AxisId) (v : NamedValue)
  deriving DecidableEq, Repr

/-- `to_descriptor` of a named extent: the content of the axis, `none` for a joker;
`include/kwk/utility/traits/to_descriptor.hpp:91-105`. -/
def NamedValue.descriptor : NamedValue → Option Content
  | .int t _ => some (.dynamic t)
  | .const v => some (.static v)
  | .joker => none

/-- `to_descriptor(D{})`: the descriptor is computed from the type of the argument.
`include/kwk/utility/traits/to_descriptor.hpp:74-106`. -/
def toDescriptor : BuildArg → Extent
  | .int t _ => .type t
  | .const v => .int v
  | .joker => .joker
  | .axis a => .axis a none
  | .axisSize a t _ => .axis a (some (.dynamic t))
  | .named a v => .axis a v.descriptor

/-- The argument is a `named_extent`; `include/kwk/concepts/extent.hpp:20-26`. -/
def BuildArg.isNamed : BuildArg → Bool
  | .named _ _ => true
  | _ => false

/-- What `as_dimension` makes of the value of a named extent; `include/kwk/utility/traits/as_dimension.hpp:71-91`. -/
def NamedValue.arg : NamedValue → Arg
  | .int _ v => .val v
  | .const v => .val v
  | .joker => .joker

/-- What `as_dimension` makes of an argument: an axis, with or without size, is replaced by the default value;
`include/kwk/utility/traits/as_dimension.hpp:71-91`. -/
def BuildArg.arg : BuildArg → Arg
  | .int _ v => .val v
  | .const v => .val v
  | .joker => .joker
  | .axis _ => .joker
  | .axisSize _ _ _ => .joker
  | .named _ v => v.arg

/-- The name and value of a named extent; `include/kwk/detail/sequence/prefilled.hpp:148-153`. -/
def BuildArg.option : BuildArg → Option (AxisId × Arg)
  | .named a v => some (a, v.arg)
  | _ => none

/-- The argument as seen by the constructors of `prefilled`: named or not;
`include/kwk/detail/sequence/prefilled.hpp:148-185`. -/
def BuildArg.mixed : BuildArg → MixedArg
  | .named a v => .named a v.arg
  | b => .plain b.arg

/-- `axis_::is_implicit`; `include/kwk/settings/axis.hpp:36-39`. -/
def Axis.isImplicit (a : Axis) : Bool :=
  match a.id with
  | .implicit _ => true
  | _ => false

/-- Conversion functions of `all_uniques` to `box<k>`: one from each base class `unique<I, box<k>>`, none of which hides another;
`include/kwk/detail/traits.hpp:22, 34-35`. -/
def conversionsTo (ks : List AxisId) (k : AxisId) : List AxisId := ks.filter (· == k)

/-- `all_unique<Ts...>`: every one of the conversions `static_cast<box<T>>(all_uniques())` is unambiguous; the empty list has its own
specialisation; `include/kwk/detail/traits.hpp:24-45`. -/
def allUnique : List AxisId → Bool
  | [] => true
  | k :: ks => (k :: ks).all fun i => (conversionsTo (k :: ks) i).length == 1

/-- `prefilled_t::duplicate_axis()`; `include/kwk/detail/sequence/prefilled.hpp:445-451`. -/
def duplicateAxis (d : Desc) : Bool := !allUnique (d.map (·.id))

/-- `prefilled<to_descriptor(D{})...>{def, d...}`: overload resolution among the constructors of `prefilled`; `none`
when no constructor accepts the arguments; `include/kwk/detail/sequence/prefilled.hpp:132-185`. -/
def buildPrefilled (md : Mode) (dflt : Int) (args : List BuildArg) : Option (Res Prefilled) :=
  let d := normalizeExtents (args.map toDescriptor)
  if args.all fun b => !b.isNamed then some (Prefilled.ofExtents md d dflt (args.map (·.arg)))
  else if args.all (·.isNamed) then
    some (Prefilled.ofNamed md d dflt (args.filterMap (·.option)))
  else if !d.all Axis.isImplicit && !d.all (fun a => !a.isImplicit) && isOrdered d (args.map (·.mixed)) then
    some (Prefilled.ofMixed md d dflt (args.map (·.mixed)))
  else none

/-- `of_size(d...)`; `none`: the program is ill-formed.
`include/kwk/utility/container/shape.hpp:82-87, 170-174, 338-342`. -/
def ofSize (md : Mode) (args : List BuildArg) : Option (Res Prefilled) :=
  if duplicateAxis (normalizeExtents (args.map toDescriptor)) then none else buildPrefilled md 0 args

/-- `with_strides(d...)`: the default is 1, and nothing looks for duplicates;
`include/kwk/utility/container/stride.hpp:106-107, 149-160`. -/
def withStrides (md : Mode) (args : List BuildArg) : Option (Res Prefilled) := buildPrefilled md 1 args

/-- `force_type<T>` on arguments without name; `include/kwk/detail/sequence/helpers.hpp:91-111`.
Simplification: named extents are outside the model of `of_size<T>` and left alone (their key becomes a typed axis, under which
the constructors do not look for it). -/
def forceType (t : IntType) : BuildArg → BuildArg
  | .int _ v => .int t (t.wrap v)
  | .const v => .const (t.wrap v)
  | .joker => .int t 0
  | .axis a => .axisSize a t 0
  | .axisSize a _ v => .axisSize a t (t.wrap v)
  | .named a v => .named a v

/-- `of_size<T>(d...)` without named extents; `include/kwk/utility/container/shape.hpp:349-353`. -/
def ofSizeT (md : Mode) (t : IntType) (args : List BuildArg) : Option (Res Prefilled) :=
  ofSize md (args.map (forceType t))

/-- A value together with whether it is a compile-time constant, as read through `get<N>`;
`include/kwk/detail/sequence/prefilled.hpp:214-240`. -/
structure KnownValue where
  value : Int
  static : Bool
  deriving DecidableEq, Repr

/-- The product is a constant if both factors are; `include/kwk/utility/fixed.hpp:96-97`, otherwise a constant is
converted to its value.  Simplification: computed in `ℤ`; the types of the products are modelled by `Verif.Model.Mixed`. -/
def KnownValue.mul (a b : KnownValue) : KnownValue := ⟨a.value * b.value, a.static && b.static⟩

/-- `get<N>(s)`; `include/kwk/detail/sequence/prefilled.hpp:214-240`. -/
def Prefilled.known (s : Prefilled) : List KnownValue :=
  (List.range s.desc.length).map fun n => ⟨s.get n, !hasStorage s.desc n⟩

/-- `axis = value` for a computed value; run-time values have type `t`;
`include/kwk/utility/container/stride.hpp:176, 186`. -/
def KnownValue.named (t : IntType) (a : AxisId) (k : KnownValue) : BuildArg :=
  .named a (if k.static then .const k.value else .int t k.value)

/-- `as_stride(shape)`: products of the extents, from the innermost axis, each under the name of its axis;
`include/kwk/utility/container/stride.hpp:171-189`. `t` is the type of the run-time products. -/
def asStrideP (md : Mode) (t : IntType) (s : Prefilled) : Option (Res Prefilled) :=
  if s.desc.length = 1 then
    withStrides md (s.desc.map fun a => (⟨1, true⟩ : KnownValue).named t a.id)
  else
    let d := kumiFoldLeft (fun a m => m.mul (a.headD ⟨1, true⟩) :: a) s.known.tail [⟨1, true⟩]
    withStrides md (List.zipWith (fun a k => k.named t a.id) s.desc d)

/-- `stride::is_unit`; `include/kwk/utility/container/stride.hpp:74-79`. -/
def isUnit (d : Desc) : Bool :=
  match d.getLast? with
  | some a => decide (a.content = .static 1)
  | none => false

/-- `largest_type`: the first of the largest types; `include/kwk/utility/fixed.hpp:44-56`. -/
def largestType : IntType → List IntType → IntType
  | t, [] => t
  | t, u :: us => largestType (if t.bits < u.bits then u else t) us

/-- `prefilled::as_array()` on the extents with their types;
`include/kwk/detail/sequence/prefilled.hpp:356-366`. -/
def asArray : List Coord → List Coord
  | [] => []
  | c :: cs =>
    let t := largestType c.type (cs.map (·.type))
    (c :: cs).map fun m => ⟨t, t.wrap m.value⟩

end Kwk
