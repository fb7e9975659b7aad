import Verif.Model.AxisOps
import Verif.Model.DataWalk
import Verif.Model.TypedPrint

/-!
# Model: what is reported when an assertion fails

The functions of the library that have assertions, with the reports they make.  Everything but the reports is as in
`Model/Mixed.lean`, `Model/Prefilled.lean` and `Model/DataWalk.lean`.

Simplifications: `std::cerr` has its default format flags; the number of the line is that of the first line of the assertion; the name of the
function, which Boost's handler also gets, is left out; `__debugbreak` (MSVC) is left out.
-/

namespace Kwk

/-! ## Streams -/

/-- `os << t` for a `kumi::tuple`; each element is a constant or not.  Used at `include/kwk/utility/linear_index.hpp:34`,
`include/kwk/detail/sequence/prefilled.hpp:284`. -/
def tuplePrint (l : List (Coord × Bool)) : String :=
  l.foldl (fun os (v, k) => os ++ (v.put false k ++ " ")) "( " ++ ")"

/-- One operand of `stream << ...`; `include/kwk/utility/linear_index.hpp:33-34`, `include/kwk/utility/coordinates.hpp:36-37`,
`include/kwk/detail/sequence/prefilled.hpp:93-95, 197-199, 279, 283-284`, `include/kwk/algorithm/algos/numeric.hpp:95-97`. -/
inductive Put where
  | text (s : String)
  | number (v : Coord) (const : Bool)
  | shape (s : List (Coord × Bool))
  | tuple (l : List (Coord × Bool))
  | axis (a : AxisVal)

/-- What is written; operators of `include/kwk/utility/container/shape.hpp:318-323`, `include/kwk/settings/axis.hpp:73-84`,
`include/kwk/utility/fixed.hpp:81-84`. -/
def Put.write : Put → String
  | .text s => s
  | .number v k => v.put false k
  | .shape s => shapePrint s
  | .tuple l => tuplePrint l
  | .axis a => a.text

/-- A `std::ostringstream`: its characters and the position of the next one that is written; `include/kwk/detail/assert.hpp:43-44`. -/
structure StringStream where
  chars : List Char
  pos : Nat

/-- `std::ostringstream{text}`: opened without `std::ios_base::ate`, so writing begins at the first character;
`include/kwk/detail/assert.hpp:44`. -/
def StringStream.ofText (t : String) : StringStream := ⟨t.toList, 0⟩

/-- `stream << text`: characters are replaced as long as there are some; `include/kwk/detail/assert.hpp:104`. -/
def StringStream.put (s : StringStream) (t : String) : StringStream :=
  ⟨s.chars.take s.pos ++ t.toList ++ s.chars.drop (s.pos + t.toList.length), s.pos + t.toList.length⟩

/-- `stream.str()`; `include/kwk/detail/assert.hpp:53`. -/
def StringStream.str (s : StringStream) : String := String.ofList s.chars

/-! ## Reports -/

/-- What a handler of Boost does; `include/kwk/detail/assert.hpp:51-55`. -/
inductive Handler where
  | ends
  | returns
  | throws
  deriving DecidableEq, Repr

/-- The macros of a build with assertions: `BOOST_ENABLE_ASSERT_HANDLER`, `KIWAKU_ASSERT_USE_DBG_BREAK`, and the directory of the headers;
`include/kwk/detail/assert.hpp:25-30, 91-97`. -/
structure Config where
  boost : Option Handler
  dbgBreak : Bool
  dir : String

/-- How the program ends; `include/kwk/detail/assert.hpp:51-55, 70, 91-97`. -/
inductive Ending where
  | trap
  | abort
  | handler
  | terminate
  | undefined
  deriving DecidableEq, Repr

/-- What is reported: a text on `std::cerr`, or a call of `boost::assertion_failed_msg`; `include/kwk/detail/assert.hpp:53, 67`. -/
inductive Report where
  | stderr (text : String)
  | handler (cond msg file : String) (line : Nat)
  deriving DecidableEq, Repr

/-- `KIWAKU_ASSERT(cond, details)`: the spelling of the condition, the place, and the details; `include/kwk/detail/assert.hpp:99-109`. -/
structure Check where
  cond : String
  file : String
  line : Nat
  details : List Put

/-- A result, or the end of the program; for the functions of `include/kwk/utility/linear_index.hpp:29-37`. -/
inductive Outcome (α : Type) where
  | done (a : α)
  | fault (f : Fault)
  | ended (e : Ending)
  deriving DecidableEq, Repr

/-- An evaluation with its reports; for the functions of `include/kwk/utility/linear_index.hpp:29-37`. -/
structure Told (α : Type) where
  reports : List Report
  outcome : Outcome α
  deriving DecidableEq, Repr

namespace Told

variable {α β : Type}

/-- A part without assertions; for `include/kwk/utility/linear_index.hpp:36`. -/
def ofRes : Res α → Told α
  | .ok a => ⟨[], .done a⟩
  | .error f => ⟨[], .fault f⟩

/-- One part after another; statements of `include/kwk/utility/linear_index.hpp:32-36`. -/
def andThen (x : Told α) (f : α → Told β) : Told β :=
  match x.outcome with
  | .done a => ⟨x.reports ++ (f a).reports, (f a).outcome⟩
  | .fault e => ⟨x.reports, .fault e⟩
  | .ended e => ⟨x.reports, .ended e⟩

instance : Monad Told where
  pure a := ⟨[], .done a⟩
  bind := andThen

end Told

/-- The text on `std::cerr`, operand by operand; `include/kwk/detail/assert.hpp:65-68, 104`. -/
def ownText (c : Check) : String :=
  c.details.foldl (fun os p => os ++ p.write)
    ("[KIWAKU] Assertion '" ++ c.cond ++ "' failed in " ++ c.file ++ ":" ++ toString c.line ++ " - ")

/-- The message for Boost's handler; `include/kwk/detail/assert.hpp:42-45, 53, 104`. -/
def boostText (c : Check) : String :=
  (c.details.foldl (fun os p => os.put p.write) (StringStream.ofText "[KIWAKU] Assertion failed: ")).str

/-- What a handler of Boost leads to: `assert_termination` is `noexcept` and ends with `KWK_UNREACHABLE()`;
`include/kwk/detail/assert.hpp:50-55`. -/
def Handler.ending : Handler → Ending
  | .ends => .handler
  | .returns => .undefined
  | .throws => .terminate

/-- The condition is false: the debugger is called first; `include/kwk/detail/assert.hpp:91-107`. -/
def failCheck {α : Type} (cfg : Config) (c : Check) : Told α :=
  if cfg.dbgBreak then ⟨[], .ended .trap⟩
  else match cfg.boost with
    | none => ⟨[.stderr (ownText c)], .ended .abort⟩
    | some h => ⟨[.handler c.cond (boostText c) c.file c.line], .ended h.ending⟩

/-- `KIWAKU_ASSERT(cond, details)`; `include/kwk/detail/assert.hpp:13-16, 99-109`. -/
def assertTold (cfg : Config) (md : Mode) (cond : Bool) (c : Check) : Told Unit :=
  match md with
  | .checked => if cond then pure () else failCheck cfg c
  | .unchecked => pure ()

/-! ## The functions with assertions -/

/-- The assertion of `linear_index`; `include/kwk/utility/linear_index.hpp:32-35`. -/
def linearCheck (cfg : Config) (s : List (Coord × Bool)) (p : List Coord) : Check where
  cond := "sh.contains(idx...)"
  file := cfg.dir ++ "kwk/utility/linear_index.hpp"
  line := 32
  details := [.text "Linearizing out of bounds indexes ", .tuple (p.map fun c => (c, false)), .text " within shape ", .shape s]

/-- `linear_index(sh, idx...)`; `include/kwk/utility/linear_index.hpp:29-37`. -/
def linearIndexTold (cfg : Config) (md : Mode) (s : List (Coord × Bool)) (p : List Coord) : Told Coord := do
  assertTold cfg md (containsM (s.map (·.1.value)) p) (linearCheck cfg s p)
  Told.ofRes (do linearizeT (← asStrideT (s.map (·.1))) p)

/-- The assertion of `coordinates`; `include/kwk/utility/coordinates.hpp:35-38`. -/
def coordinatesCheck (cfg : Config) (idx : Coord) (s : List (Coord × Bool)) : Check where
  cond := "idx < shp.numel()"
  file := cfg.dir ++ "kwk/utility/coordinates.hpp"
  line := 35
  details := [.text "Converting index ", .number idx false, .text " to an out of bounds coordinates for shape ", .shape s]

/-- `coordinates(idx, shp)`; `include/kwk/utility/coordinates.hpp:31-55`. -/
def coordinatesTold (cfg : Config) (md : Mode) (idx : Coord) (s : List (Coord × Bool)) : Told (List Coord) := do
  match md with
  | .checked => do
    let n ← Told.ofRes (numelT (s.map (·.1)))
    assertTold cfg md (ltT idx n) (coordinatesCheck cfg idx s)
  | .unchecked => pure ()
  Told.ofRes (coordinatesT .unchecked idx (s.map (·.1)))

/-- The assertion of `inner_product`; `include/kwk/algorithm/algos/numeric.hpp:94-98`. -/
def innerCheck (cfg : Config) (s1 s2 : List (Coord × Bool)) : Check where
  cond := "in1.shape() == in2.shape()"
  file := cfg.dir ++ "kwk/algorithm/algos/numeric.hpp"
  line := 94
  details := [.text "[KWK] - Inner product dimensions do not match, container one dimensions are ", .shape s1,
    .text ",  container two dimensions are ", .shape s2, .text "."]

/-- Which extents of a shape are constants: `k i` for the axis `i`; for `include/kwk/algorithm/algos/numeric.hpp:96-97`. -/
def marked (k : Nat → Bool) (s : List Coord) : List (Coord × Bool) := s.zipIdx.map fun ci => (ci.1, k ci.2)

/-- `inner_product(in1, in2, init, f1, f2)`; `include/kwk/algorithm/algos/numeric.hpp:91-101`. -/
def innerProductTold {α β γ : Type} (cfg : Config) (md : Mode) (m : Mem α) (c1 c2 : DataT) (k1 k2 : Nat → Bool) (init : β) (f1 : β → γ → β)
    (f2 : α → α → γ) : Told β := do
  match md with
  | .checked => do
    let same ← Told.ofRes (shapeEqT c1.shape c2.shape)
    assertTold cfg md same (innerCheck cfg (marked k1 c1.shape) (marked k2 c2.shape))
  | .unchecked => pure ()
  Told.ofRes (transformReduceD m c1 c2 init f1 f2)

/-- An extent given to a constructor, with its type; `none`: a joker; `include/kwk/utility/traits/as_dimension.hpp:71-91`. -/
abbrev TypedArg := Option (Coord × Bool)

/-- Without its type; `include/kwk/utility/traits/as_dimension.hpp:71-91`. -/
def TypedArg.erase : TypedArg → Arg
  | some v => .val v.1.value
  | none => .joker

/-- What `stream << v` writes for an argument: a joker is written `_`; `include/kwk/detail/sequence/prefilled.hpp:95, 121`,
`include/kwk/utility/joker.hpp:21`. -/
def TypedArg.put : TypedArg → Put
  | some v => .number v.1 v.2
  | none => .text "_"

/-- What is written for an axis with a compile-time extent; `include/kwk/detail/sequence/prefilled.hpp:94, 121`. -/
def Axis.val (a : Axis) : AxisVal :=
  ⟨a.id, match a.content with
    | .static v => some ⟨.i32, v⟩
    | .dynamic _ => none⟩

/-- The descriptor of axis `i`; `include/kwk/detail/sequence/prefilled.hpp:94, 121`. -/
def descAt (d : Desc) (i : Nat) : AxisVal := (d.getD i ⟨.implicit 0, .static 0⟩).val

/-- The assertion of the constructor from extents; `include/kwk/detail/sequence/prefilled.hpp:92-96`. -/
def extentCheck (cfg : Config) (a : AxisVal) (v : TypedArg) : Check where
  cond := "(v == _) || v == __get<I::value>()"
  file := cfg.dir ++ "kwk/detail/sequence/prefilled.hpp"
  line := 92
  details := [.text "[KWK] - Runtime/Compile-time mismatch for axis ", .axis a, .text " as ", v.put, .text " was provided instead."]

/-- `__construct(def, vs...)` from numbers; `include/kwk/detail/sequence/prefilled.hpp:80-101`. -/
def constructTold (cfg : Config) (md : Mode) (s : Prefilled) (dflt : Int) (vs : List TypedArg) : Told Prefilled :=
  (vs.zipIdx).foldlM (init := s) fun s (v, i) =>
    if hasStorage s.desc i then pure (s.set i (asDimension v.erase dflt))
    else do
      assertTold cfg md (staticMatches v.erase (s.get i)) (extentCheck cfg (descAt s.desc i) v)
      pure s

/-- Constructors from extents; the ones put in front are `int`s; `include/kwk/detail/sequence/prefilled.hpp:131-146`. -/
def ofExtentsTold (cfg : Config) (md : Mode) (d : Desc) (dflt : Int) (vs : List TypedArg) : Told Prefilled :=
  if vs.length = d.length then constructTold cfg md (Prefilled.default d) dflt vs
  else constructTold cfg md (Prefilled.default d) dflt (List.replicate (d.length - vs.length) (some (⟨.i32, 1⟩, false)) ++ vs)

/-- The assertion of the constructor from named extents; `include/kwk/detail/sequence/prefilled.hpp:119-123`. -/
def namedCheck (cfg : Config) (a : AxisVal) (v : TypedArg) : Check where
  cond := "(input[x.base()] == _) || input[x.base()] == (*this)[x]"
  file := cfg.dir ++ "kwk/detail/sequence/prefilled.hpp"
  line := 119
  details := [.text "[KWK] - Runtime/Compile-time mismatch for axis ", .axis a, .text " as ", v.put, .text " was provided instead."]

/-- `__construct(def, vs...)` from named extents; `include/kwk/detail/sequence/prefilled.hpp:103-129`. -/
def constructNamedTold (cfg : Config) (md : Mode) (s : Prefilled) (dflt : Int) (vs : List (AxisId × TypedArg)) : Told Prefilled :=
  if dynamicSize s.desc = 0 then pure s
  else vs.foldlM (init := s) fun s (a, v) =>
    let idx := findAxis s.desc a
    if hasStorage s.desc idx then pure (s.set idx (asDimension v.erase dflt))
    else do
      assertTold cfg md (staticMatches v.erase (s.get idx)) (namedCheck cfg (descAt s.desc idx) v)
      pure s

/-- The assertion of the constructor from a sequence of the same size; `include/kwk/detail/sequence/prefilled.hpp:196-200`. -/
def valuesCheck (cfg : Config) (i : Nat) (g : Int) (v : Coord × Bool) : Check where
  cond := "value == get<i>(*this)"
  file := cfg.dir ++ "kwk/detail/sequence/prefilled.hpp"
  line := 196
  details := [.text "[KWK] - Runtime/Compile-time mismatch at index ", .number ⟨.u64, i⟩ false, .text " - Expected ",
    .number ⟨.i32, g⟩ true, .text " but ", .number v.1 v.2, .text " was provided"]

/-- Constructor from another sequence of the same size; `include/kwk/detail/sequence/prefilled.hpp:188-204`. -/
def ofValuesTold (cfg : Config) (md : Mode) (d : Desc) (vs : List (Coord × Bool)) : Told Prefilled :=
  vs.zipIdx.foldlM (init := Prefilled.default d) fun s (v, i) =>
    if hasStorage s.desc i then pure (s.set i v.1.value)
    else do
      assertTold cfg md (decide (v.1.value = s.get i)) (valuesCheck cfg i (s.get i) v)
      pure s

/-- The elements of a sequence, with their types; `include/kwk/detail/sequence/prefilled.hpp:214-240`. -/
def Prefilled.typed (s : Prefilled) : List (Coord × Bool) :=
  (List.range s.desc.length).map fun i => (⟨storedType s.desc i, s.get i⟩, !hasStorage s.desc i)

/-- The first assertion of `operator[]`; `include/kwk/detail/sequence/prefilled.hpp:278-280`. -/
def rangeCheck (cfg : Config) (i n : Nat) : Check where
  cond := "idx<static_size"
  file := cfg.dir ++ "kwk/detail/sequence/prefilled.hpp"
  line := 278
  details := [.text "[KWK] - Out of bounds access at index: ", .number ⟨.u64, i⟩ false, .text " for a max. of ", .number ⟨.u64, n⟩ false]

/-- The second one; `include/kwk/detail/sequence/prefilled.hpp:282-285`. -/
def storageCheck (cfg : Config) (i : Nat) (s : Prefilled) : Check where
  cond := "contains(idx)"
  file := cfg.dir ++ "kwk/detail/sequence/prefilled.hpp"
  line := 282
  details := [.text "[KWK] - Access at index ", .number ⟨.u64, i⟩ false, .text " overwrites a compile-time value of ", .tuple s.typed]

/-- `operator[](i)`; `include/kwk/detail/sequence/prefilled.hpp:272-290`. -/
def subscriptTold (cfg : Config) (md : Mode) (s : Prefilled) (i : Nat) : Told Int := do
  assertTold cfg md (decide (i < s.desc.length)) (rangeCheck cfg i s.desc.length)
  assertTold cfg md (hasStorage s.desc i) (storageCheck cfg i s)
  Told.ofRes (if dynamicSize s.desc = 1 then pure (s.storage.getD 0 0)
    else match s.storage[i]? with
      | some v => pure v
      | none => throw .outOfBounds)

end Kwk
