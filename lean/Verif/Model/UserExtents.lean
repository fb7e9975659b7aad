import Verif.Model.Build

/-!
# Model: extents of the user's own types

`to_descriptor` and `as_dimension` can be customised for other types through `tag_invoke`
(`include/kwk/utility/invoke/tag_invoke.hpp:20-31`, `include/kwk/utility/invoke/protocol.hpp:70-79`,
`test/unit/utility/extensions/as_dimension.cpp:21-31`, `test/unit/utility/extensions/to_descriptor.cpp:24-34`).
Here objects of such types are passed to the functions that build shapes and strides.
-/

namespace Kwk

/-- An object of a class or arithmetic type that the library does not know, and what its type provides: an implicit conversion to `std::size_t`,
overloads of `tag_invoke` for `to_descriptor` and `as_dimension`, and members `value` and `value_type`.
`include/kwk/concepts/extent.hpp:28-34`, `include/kwk/concepts/values.hpp:12-17`,
`include/kwk/utility/invoke/tag_invoke.hpp:22-32`. -/
structure UserExtent where
  /-- the object converted to `std::size_t` -/
  size : Option Int
  /-- `tag_invoke(to_descriptor, U{})`: it has only the type to go by -/
  descriptor : Option Extent
  /-- `tag_invoke(as_dimension, u, d)` -/
  dimension : Option (Int → Int)
  /-- `U::value`, for types that the library takes for constants -/
  constant : Option Int

/-- An argument of `of_size`, `with_strides` or a constructor: of the library's types, of a type of the user, or a value of such a type under the
name of an axis; `include/kwk/concepts/extent.hpp:20-46`. -/
inductive UserArg where
  | lib (b : BuildArg)
  | own (u : UserExtent)
  | ownNamed (a : AxisId) (u : UserExtent)

/-- `concepts::extent`; `include/kwk/concepts/extent.hpp:20-46`. -/
def UserArg.isExtent : UserArg → Bool
  | .lib _ => true
  | .own u => u.size.isSome
  | .ownNamed _ _ => true

/-- `concepts::named_extent`; `include/kwk/concepts/extent.hpp:20-26`. -/
def UserArg.isNamed : UserArg → Bool
  | .lib b => b.isNamed
  | .own _ => false
  | .ownNamed _ _ => true

/-- `to_descriptor(u)`: the call of `tag_invoke` finds the overload of the user and the template that forwards to `to_descriptor_`; the first is
more specialised.  The template is left out unless an overload of `to_descriptor_` takes the argument.  Without either, the
deleted overload is chosen (`none`). `include/kwk/utility/traits/to_descriptor.hpp:18-32, 88-89`,
`include/kwk/utility/invoke/protocol.hpp:70-79, 110-117`. -/
def UserExtent.toDescriptor (u : UserExtent) : Option Extent :=
  match u.descriptor, u.constant with
  | some e, _ => some e
  | none, some v => some (.int v)
  | none, none => none

/-- `as_dimension(u, d)` in the same way; `include/kwk/utility/traits/as_dimension.hpp:18-32, 75-78`. -/
def UserExtent.asDimension (u : UserExtent) (d : Int) : Option Int :=
  match u.dimension, u.constant with
  | some f, _ => some (f d)
  | none, some v => some v
  | none, none => none

/-- `to_descriptor(D{})` for any argument.  The overload for options (`axis = value`) takes every value but has a result only for
jokers, integers and constants: for others it returns `void`, which is no template argument.
`include/kwk/utility/traits/to_descriptor.hpp:74-106`. -/
def UserArg.toDescriptor : UserArg → Option Extent
  | .lib b => some (Kwk.toDescriptor b)
  | .own u => u.toDescriptor
  | .ownNamed a u =>
    match u.constant with
    | some v => some (.axis a (some (.static v)))
    | none => none

/-- What the constructor makes of a user's value for an axis: the result of `as_dimension` if the axis is stored, otherwise
the value compared with the compile-time size, in checked builds.  The comparison goes through the conversion to `std::size_t`.
`none`: the constructor does not compile. `include/kwk/detail/sequence/prefilled.hpp:84-98, 111-125`.
Simplification: the type of the user has no `operator==` of its own. -/
def UserExtent.seen (md : Mode) (dflt : Int) (u : UserExtent) : Content → Option Arg
  | .dynamic _ => (u.asDimension dflt).map .val
  | .static g =>
    match md, u.size with
    | _, some n => some (.val (if (n - g) % 2 ^ 64 = 0 then g else n))
    | .checked, none => none
    | .unchecked, none => some .joker

/-- The value of an argument for an axis; `include/kwk/detail/sequence/prefilled.hpp:81-129`. -/
def UserArg.seen (md : Mode) (dflt : Int) (c : Content) : UserArg → Option Arg
  | .lib b => some b.arg
  | .own u => u.seen md dflt c
  | .ownNamed _ u => u.seen md dflt c

/-- The argument as seen by the constructor for plain and named extents, which does nothing if no axis of `d` is stored;
`include/kwk/detail/sequence/prefilled.hpp:103-107, 177-185`. -/
def UserArg.mixed (md : Mode) (dflt : Int) (d : Desc) (c : Content) : UserArg → Option MixedArg
  | .lib b => some b.mixed
  | .own u => if dynamicSize d = 0 then some (.plain .joker) else (u.seen md dflt c).map .plain
  | .ownNamed a u => if dynamicSize d = 0 then some (.named a .joker) else (u.seen md dflt c).map (.named a)

/-- The argument as seen by the constructor for named extents, which finds the axis by its name and does nothing if no axis is stored;
`include/kwk/detail/sequence/prefilled.hpp:103-129`.  `none`: there is no such axis, or the constructor does not compile. -/
def UserArg.option (md : Mode) (dflt : Int) (d : Desc) : UserArg → Option (AxisId × Arg)
  | .lib b => b.option
  | .own _ => none
  | .ownNamed a u =>
    if dynamicSize d = 0 then some (a, .joker)
    else
      match d[findAxis d a]? with
      | some x => (u.seen md dflt x.content).map fun v => (a, v)
      | none => none

/-- The names of the arguments, as far as the order of the axes is concerned; `include/kwk/detail/sequence/prefilled.hpp:156-175`. -/
def UserArg.named? : UserArg → MixedArg
  | .lib b => b.mixed
  | .own _ => .plain .joker
  | .ownNamed a _ => .named a .joker

/-- Is one of the constructors of `prefilled<D...>` chosen for the arguments?  This is what `std::is_constructible_v<parent, int, T...>`
asks. `include/kwk/detail/sequence/prefilled.hpp:132-185`, `include/kwk/utility/container/shape.hpp:170-172`. -/
def accepted (d : Desc) (args : List UserArg) : Bool :=
  args.all UserArg.isExtent && decide (args.length ≤ d.length) &&
    (args.all (fun b => !b.isNamed) || args.all UserArg.isNamed ||
      !d.all Axis.isImplicit && !d.all (fun a => !a.isImplicit) && isOrdered d (args.map UserArg.named?))

/-- The body of the constructor chosen; `none`: it does not compile. `include/kwk/detail/sequence/prefilled.hpp:81-185`. -/
def constructUser (md : Mode) (d : Desc) (dflt : Int) (args : List UserArg) : Option (Res Prefilled) :=
  if args.all fun b => !b.isNamed then
    (((d.drop (d.length - args.length)).zip args).mapM fun (ab : Axis × UserArg) => ab.2.seen md dflt ab.1.content).map
      (Prefilled.ofExtents md d dflt)
  else if args.all UserArg.isNamed then
    (args.mapM (UserArg.option md dflt d)).map (Prefilled.ofNamed md d dflt)
  else
    ((d.zip args).mapM fun (ab : Axis × UserArg) => ab.2.mixed md dflt d ab.1.content).map (Prefilled.ofMixed md d dflt)

/-- `shape<es...>(args...)` and, with default 1, `stride<es...>(args...)`; `none`: the program is ill-formed.
`include/kwk/utility/container/shape.hpp:170-172`, `include/kwk/utility/container/stride.hpp:106-107`. -/
def buildUser (md : Mode) (es : List Extent) (dflt : Int) (args : List UserArg) : Option (Res Prefilled) :=
  if accepted (normalizeExtents es) args then constructUser md (normalizeExtents es) dflt args else none

/-- `of_size(d...)`; `include/kwk/utility/container/shape.hpp:82-87, 338-342`. -/
def ofSizeUser (md : Mode) (args : List UserArg) : Option (Res Prefilled) :=
  match args.mapM UserArg.toDescriptor with
  | some es => if duplicateAxis (normalizeExtents es) then none else buildUser md es 0 args
  | none => none

/-- `with_strides(d...)`; `include/kwk/utility/container/stride.hpp:151-162`. -/
def withStridesUser (md : Mode) (args : List UserArg) : Option (Res Prefilled) :=
  match args.mapM UserArg.toDescriptor with
  | some es => buildUser md es 1 args
  | none => none

/-- `force_type<T>`: constants are converted, objects of other types the library does not know stay as they are;
`include/kwk/detail/sequence/helpers.hpp:97-111`.  Simplification: named extents are left alone, as in `forceType`. -/
def forceTypeUser (t : IntType) : UserArg → UserArg
  | .lib b => .lib (forceType t b)
  | .own u =>
    match u.constant with
    | some v => .lib (.const (t.wrap v))
    | none => .own u
  | .ownNamed a u => .ownNamed a u

/-- `of_size<T>(d...)`; `include/kwk/utility/container/shape.hpp:349-353`.  The arguments must be extents. -/
def ofSizeTUser (md : Mode) (t : IntType) (args : List UserArg) : Option (Res Prefilled) :=
  if args.all UserArg.isExtent then ofSizeUser md (args.map (forceTypeUser t)) else none

end Kwk
