import Verif.Model.IntType
import Verif.Model.Shape

/-!
# Model: shapes with compile-time and run-time axes

`prefilled<D...>` stores only the run-time extents.  Descriptors are template arguments in C++; they
are ordinary data here, so a theorem for all `Desc` covers every instantiation.
-/

namespace Kwk

/-- Identifier of an axis: `implicit<N>`, `along<N>` or `axis<"name">`;
`include/kwk/settings/axis.hpp:25-40, 119-120, 126-132`. -/
inductive AxisId where
  | implicit (n : Nat)
  | along (n : Nat)
  | named (s : String)
  deriving DecidableEq, Repr

/-- Content of an axis: a compile-time value, or a run-time value with its storage type
(`stored_t`: a joker is stored as `std::int32_t`); `include/kwk/settings/axis.hpp:29-37`,
`include/kwk/detail/sequence/helpers.hpp:116-120`. -/
inductive Content where
  | static (v : Int)
  | dynamic (t : IntType)
  deriving DecidableEq, Repr

/-- A normalized axis descriptor; `include/kwk/settings/axis.hpp:25-107`. -/
structure Axis where
  id : AxisId
  content : Content
  deriving DecidableEq, Repr

/-- `axis_::is_dynamic`; `include/kwk/settings/axis.hpp:34`. -/
def Axis.isDynamic (a : Axis) : Bool :=
  match a.content with
  | .static _ => false
  | .dynamic _ => true

/-- An extent in the template argument list of `kwk::shape`.
`include/kwk/concepts/extent.hpp`, `include/kwk/detail/sequence/helpers.hpp:64-68`. -/
inductive Extent where
  | joker
  | int (v : Int)
  | type (t : IntType)
  | axis (id : AxisId) (c : Option Content)
  deriving DecidableEq, Repr

/-- The template arguments of `prefilled`, outermost axis first.
`include/kwk/detail/sequence/prefilled.hpp:54-75`. -/
abbrev Desc := List Axis

/-- `normalize_extent<N>`; `include/kwk/detail/sequence/helpers.hpp:64-68`. -/
def normalizeExtent (n : Nat) : Extent → Axis
  | .joker => ⟨.implicit n, .dynamic .i32⟩
  | .int v => ⟨.implicit n, .static v⟩
  | .type t => ⟨.implicit n, .dynamic t⟩
  | .axis id none => ⟨id, .dynamic .i32⟩
  | .axis id (some c) => ⟨id, c⟩

/-- `normalize_extents`; `include/kwk/detail/sequence/helpers.hpp:79-85`. -/
def normalizeExtents (es : List Extent) : Desc :=
  (es.zipIdx).map fun ei => normalizeExtent (es.length - 1 - ei.2) ei.1

/-- The result of `map_descriptor`: how many extents are stored, and where; `index` is `none` for
`-1`; `include/kwk/detail/sequence/helpers.hpp:23-59`. -/
structure DescMap where
  count : Nat := 0
  pos : Nat := 0
  curr : Nat := 0
  index : List (Option Nat) := []
  stored : List Nat := []

/-- One step of `map_descriptor` (lambda `check`); `include/kwk/detail/sequence/helpers.hpp:34-44`. -/
def DescMap.check (m : DescMap) (a : Axis) : DescMap :=
  if a.isDynamic then
    { count := m.count + 1, pos := m.pos + 1, curr := m.curr + 1,
      index := m.index ++ [some m.curr], stored := m.stored ++ [m.pos] }
  else { m with pos := m.pos + 1, index := m.index ++ [none] }

/-- `map_descriptor<D...>()`; `include/kwk/detail/sequence/helpers.hpp:23-59`. -/
def mapDescriptor (d : Desc) : DescMap := d.foldl DescMap.check {}

/-- A value of type `prefilled<D...>`; `include/kwk/detail/sequence/prefilled.hpp:54-75`. -/
structure Prefilled where
  desc : Desc
  storage : List Int
  deriving DecidableEq, Repr

/-- `prefilled::dynamic_size`; `include/kwk/detail/sequence/prefilled.hpp:61`. -/
def dynamicSize (d : Desc) : Nat := (mapDescriptor d).count

/-- `prefilled::contains(i)`; `include/kwk/detail/sequence/prefilled.hpp:74`. -/
def hasStorage (d : Desc) (i : Nat) : Bool := ((mapDescriptor d).index.getD i none).isSome

/-- `prefilled()`: zero-initialized storage; `include/kwk/detail/sequence/prefilled.hpp:77`. -/
def Prefilled.default (d : Desc) : Prefilled := ⟨d, List.replicate (dynamicSize d) 0⟩

/-- `__get<N>()`; `include/kwk/detail/sequence/prefilled.hpp:214-240`. -/
def Prefilled.get (s : Prefilled) (n : Nat) : Int :=
  match (mapDescriptor s.desc).index.getD n none with
  | some k => s.storage.getD k 0
  | none =>
    match (s.desc.map (·.content)).getD n (.static 0) with
    | .static v => v
    | .dynamic _ => 0

/-- The extents of a shape, as seen by structured bindings and `kumi::apply`.
`include/kwk/detail/sequence/prefilled.hpp:214-270`. -/
def Prefilled.values (s : Prefilled) : Shape := (List.range s.desc.length).map s.get

/-- Type in which axis `n` is stored. `include/kwk/detail/sequence/helpers.hpp:116-120`. -/
def storedType (d : Desc) (n : Nat) : IntType :=
  match (d.map (·.content)).getD n (.static 0) with
  | .dynamic t => t
  | .static _ => .i32

/-- Type of the storage cell `k`; `include/kwk/detail/sequence/prefilled.hpp:32-46`. -/
def cellType (d : Desc) (k : Nat) : IntType := storedType d ((mapDescriptor d).stored.getD k 0)

/-- `__get<N>() = v`: conversion to the type of the cell;
`include/kwk/detail/sequence/prefilled.hpp:88, 228-233`. -/
def Prefilled.set (s : Prefilled) (n : Nat) (v : Int) : Prefilled :=
  match (mapDescriptor s.desc).index.getD n none with
  | some k => { s with storage := s.storage.set k ((cellType s.desc k).wrap v) }
  | none => s

/-- An extent passed to a constructor: an integer (or compile-time constant), or a joker.
Simplification: an axis without value, equivalent to a joker in `as_dimension`, is not modelled.
`include/kwk/utility/traits/as_dimension.hpp:71-91`. -/
inductive Arg where
  | val (v : Int)
  | joker
  deriving DecidableEq, Repr

/-- `as_dimension(v, def)`; `include/kwk/utility/traits/as_dimension.hpp:71-91`. -/
def asDimension (v : Arg) (dflt : Int) : Int :=
  match v with
  | .val v => v
  | .joker => dflt

/-- Checks of a compile-time axis: `(v == _) || v == __get<I>()`;
`include/kwk/detail/sequence/prefilled.hpp:92-96, 119-123`. -/
def staticMatches (v : Arg) (g : Int) : Bool :=
  match v with
  | .joker => true
  | .val v => decide (v = g)

/-- Numeric `__construct(def, vs...)`; `include/kwk/detail/sequence/prefilled.hpp:81-101`. -/
def Prefilled.construct (md : Mode) (s : Prefilled) (dflt : Int) (vs : List Arg) : Res Prefilled :=
  (vs.zipIdx).foldlM (init := s) fun s (v, i) =>
    if hasStorage s.desc i then pure (s.set i (asDimension v dflt))
    else do
      kwkAssert md (staticMatches v (s.get i))
      pure s

/-- Constructors from numeric extents: as many as axes, or fewer (ones are put in front);
`include/kwk/detail/sequence/prefilled.hpp:132-146`.  The C++ constraint `sizeof...(vs) <= static_size`
is a hypothesis of the theorems. -/
def Prefilled.ofExtents (md : Mode) (d : Desc) (dflt : Int) (vs : List Arg) : Res Prefilled :=
  if vs.length = d.length then (Prefilled.default d).construct md dflt vs
  else (Prefilled.default d).construct md dflt (List.replicate (d.length - vs.length) (.val 1) ++ vs)

/-- `__find_axis`: first axis with this identifier, or the number of axes;
`include/kwk/detail/sequence/prefilled.hpp:313-317`. -/
def findAxis (d : Desc) (a : AxisId) : Nat := kumiLocate d fun m => decide (m.id = a)

/-- Named `__construct(def, vs...)`; `include/kwk/detail/sequence/prefilled.hpp:103-129`.
Keywords are unique in `rbr::settings`; the C++ rejects unknown axes at compile time. -/
def Prefilled.constructNamed (md : Mode) (s : Prefilled) (dflt : Int) (vs : List (AxisId × Arg)) :
    Res Prefilled :=
  if dynamicSize s.desc = 0 then pure s
  else vs.foldlM (init := s) fun s (a, v) =>
    let idx := findAxis s.desc a
    if hasStorage s.desc idx then pure (s.set idx (asDimension v dflt))
    else do
      kwkAssert md (staticMatches v (s.get idx))
      pure s

/-- Constructor from named extents; `include/kwk/detail/sequence/prefilled.hpp:148-153`. -/
def Prefilled.ofNamed (md : Mode) (d : Desc) (dflt : Int) (vs : List (AxisId × Arg)) : Res Prefilled :=
  (Prefilled.default d).constructNamed md dflt vs

/-- An argument of the mixed constructor: a plain value or a named one.
`include/kwk/detail/sequence/prefilled.hpp:156-185`. -/
inductive MixedArg where
  | plain (v : Arg)
  | named (a : AxisId) (v : Arg)
  deriving DecidableEq, Repr

/-- `normalize_axis`; `include/kwk/detail/sequence/helpers.hpp:70-74`. -/
def normalizeAxis (n : Nat) : MixedArg → AxisId × Arg
  | .plain v => (.implicit n, v)
  | .named a v => (a, v)

/-- Arguments of the mixed constructor after normalization;
`include/kwk/detail/sequence/prefilled.hpp:181-184`. -/
def normalizeArgs (n : Nat) (vs : List MixedArg) : List (AxisId × Arg) :=
  vs.zipIdx.map fun vi => normalizeAxis (n - 1 - vi.2) vi.1

/-- `__is_ordered<V...>()`; `include/kwk/detail/sequence/prefilled.hpp:156-175`. -/
def isOrdered (d : Desc) (vs : List MixedArg) : Bool :=
  if d.all (fun a => match a.id with | .implicit _ => false | _ => true) then true
  else if d.length ≠ vs.length then false
  else ((d.map (·.id)).zip ((normalizeArgs d.length vs).map (·.1))).all fun ab => decide (ab.1 = ab.2)

/-- Constructor from plain and named extents;
`include/kwk/detail/sequence/prefilled.hpp:177-185`. -/
def Prefilled.ofMixed (md : Mode) (d : Desc) (dflt : Int) (vs : List MixedArg) : Res Prefilled :=
  (Prefilled.default d).constructNamed md dflt (normalizeArgs d.length vs)

/-- Constructor from another `prefilled` of the same size, here from its values;
`include/kwk/detail/sequence/prefilled.hpp:188-204`. -/
def Prefilled.ofValues (md : Mode) (d : Desc) (vs : Shape) : Res Prefilled :=
  vs.zipIdx.foldlM (init := Prefilled.default d) fun s (v, i) =>
    if hasStorage s.desc i then pure (s.set i v)
    else do
      kwkAssert md (decide (v = s.get i))
      pure s

/-- `operator[](i)` with a run-time index; `include/kwk/detail/sequence/prefilled.hpp:272-310`.
`members[idx]` indexes the storage, not the axes; an index past the storage is out of bounds. -/
def Prefilled.subscript (md : Mode) (s : Prefilled) (i : Nat) : Res Int := do
  kwkAssert md (decide (i < s.desc.length))
  kwkAssert md (hasStorage s.desc i)
  if dynamicSize s.desc = 1 then pure (s.storage.getD 0 0)
  else
    match s.storage[i]? with
    | some v => pure v
    | none => throw .outOfBounds

/-- `operator[](axis)`; `include/kwk/detail/sequence/prefilled.hpp:319-331`. -/
def Prefilled.at (s : Prefilled) (a : AxisId) : Int := s.get (findAxis s.desc a)

/-- `split<N>`: the last `N` descriptors; `include/kwk/detail/sequence/prefilled.hpp:348-354`. -/
def splitDesc (n : Nat) (d : Desc) : Desc := (List.range n).map fun i => d.getD (d.length - n + i) ⟨.implicit 0, .static 0⟩

/-- `is_equivalent`: same size and axes; `include/kwk/detail/sequence/prefilled.hpp:369-374`,
`include/kwk/settings/axis.hpp:44`. -/
def isEquivalent (d o : Desc) : Bool :=
  if d.length = o.length then (d.zip o).all fun ab => decide (ab.1.id = ab.2.id) else false

/-- `__checker`; `include/kwk/detail/sequence/prefilled.hpp:412-418`. -/
def checker (e f : Axis) (dflt acc : Bool) : Bool :=
  match e.content, f.content with
  | .dynamic _, _ => acc
  | .static _, .dynamic _ => dflt
  | .static v, .static w => acc && decide (v = w)

/-- `is_compatible`; `include/kwk/detail/sequence/prefilled.hpp:377-393`. -/
def isCompatible (d o : Desc) : Bool :=
  if d.length ≠ o.length then false
  else kumiFoldLeft (fun acc ef => checker ef.1 ef.2 acc acc) (d.zip o) true

/-- `is_similar`; `include/kwk/detail/sequence/prefilled.hpp:395-410`. -/
def isSimilar (d o : Desc) : Bool :=
  if d.length ≠ o.length then false
  else kumiFoldLeft (fun acc ef => checker ef.1 ef.2 false acc) (d.zip o) true

/-- `is_fully_dynamic`; `include/kwk/detail/sequence/prefilled.hpp:68`. -/
def isFullyDynamic (d : Desc) : Bool := decide (dynamicSize d = d.length)

/-- `is_fully_static`; `include/kwk/detail/sequence/prefilled.hpp:66`. -/
def isFullyStatic (d : Desc) : Bool := decide (dynamicSize d = 0)

/-- `is_contructible_from<Dst, Src>`; `include/kwk/detail/sequence/shape_constraints.hpp:27-42`. -/
def isConstructibleFrom (dst src : Desc) : Bool :=
  if dst.length = src.length then isEquivalent dst src && isCompatible dst src
  else if src.length < dst.length then
    isEquivalent (splitDesc src.length dst) src && isCompatible (splitDesc src.length dst) src
  else isFullyDynamic dst

/-- `basic_shape_checks::construct`: converting constructor and assignment of shapes;
`include/kwk/detail/sequence/shape_constraints.hpp:44-67`, `include/kwk/utility/container/shape.hpp:190-216`.
When the order decreases, `compress` gives a shape of the same order, which is then converted. -/
def convertPrefilled (md : Mode) (d : Desc) (src : Prefilled) : Res Prefilled :=
  if d.length = src.desc.length then Prefilled.ofValues md d src.values
  else if src.desc.length < d.length then
    Prefilled.ofExtents md d 0 (List.replicate (d.length - src.desc.length) (.val 1) ++
      src.values.map .val)
  else Prefilled.ofValues md d (compress d.length src.values)

/-- `basic_shape_checks::fit_constraints(self, other)`;
`include/kwk/detail/sequence/shape_constraints.hpp:69-84`. -/
def fitConstraints (s o : Prefilled) : Bool :=
  if isFullyDynamic o.desc then true
  else if o.desc.length ≠ s.desc.length then false
  else if isFullyStatic o.desc && isFullyStatic s.desc then isCompatible o.desc s.desc
  else (List.range s.desc.length).all fun n => hasStorage o.desc n || decide (o.get n = s.get n)

end Kwk
