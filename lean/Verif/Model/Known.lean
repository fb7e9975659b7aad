import Verif.Model.TypedViews

/-!
# Model: which sizes of a compressed or sliced shape are known at compile time

Numbers with their type, together with whether they are compile-time constants (`kwk::constant<N>`).  An operation on
two constants is a constant; otherwise constants are converted to their value.  `overflow` in an operation on constants
stands for an ill-formed program.
-/

namespace Kwk

/-- A number and whether it is a `kwk::constant`; `include/kwk/utility/fixed.hpp:77-87`,
`include/kwk/detail/sequence/prefilled.hpp:214-240`. -/
structure Known where
  coord : Coord
  static : Bool
  deriving DecidableEq, Repr

/-- An operator applied to constants or run-time numbers; `include/kwk/utility/fixed.hpp:89-100`. -/
def Known.op (f : Coord → Coord → Res Coord) (a b : Known) : Res Known := do
  let v ← f a.coord b.coord
  pure ⟨v, a.static && b.static⟩

/-- `-x`; `include/kwk/utility/fixed.hpp:86`. -/
def Known.neg (a : Known) : Res Known := do
  let v ← constNeg a.coord
  pure ⟨v, a.static⟩

/-- `kwk::fixed<1>`; `include/kwk/utility/fixed.hpp:106-107`. -/
def Known.one : Known := ⟨fixedOne, true⟩

/-- `kwk::end_t`; `include/kwk/utility/end.hpp:26-53`. -/
structure EndK where
  shift : Known
  num : Known
  denum : Known
  deriving DecidableEq, Repr

namespace EndK

/-- `kwk::end`; `include/kwk/utility/end.hpp:98-99`. -/
def all : EndK := ⟨⟨⟨.i32, 0⟩, true⟩, .one, .one⟩

/-- `end_t::size(n)`; `include/kwk/utility/end.hpp:49`. -/
def size (e : EndK) (n : Known) : Res Known := do
  Known.op constDiv (← Known.op constAdd (← Known.op constMul n e.num) e.shift) e.denum

/-- `e + o`; `include/kwk/utility/end.hpp:55-65`. -/
def add (e : EndK) (o : Known) : Res EndK := do
  pure { e with shift := ← Known.op constAdd e.shift (← Known.op constMul o e.denum) }

/-- `e - o`; `include/kwk/utility/end.hpp:67-72`. -/
def sub (e : EndK) (o : Known) : Res EndK := do
  pure { e with shift := ← Known.op constSub e.shift (← Known.op constMul o e.denum) }

/-- `o - e`; `include/kwk/utility/end.hpp:74-78`, `include/kwk/utility/ratio.hpp:30-31`. -/
def rsub (o : Known) (e : EndK) : Res EndK := do
  pure { e with shift := ← Known.op constSub (← Known.op constMul o e.denum) e.shift, num := ← e.num.neg }

/-- `e * o`; `include/kwk/utility/end.hpp:80-90`, `include/kwk/utility/ratio.hpp:55-59`. -/
def mul (e : EndK) (o : Known) : Res EndK := do
  pure { e with shift := ← Known.op constMul e.shift o, num := ← Known.op constMul e.num o }

/-- `e / o`; `include/kwk/utility/end.hpp:92-96`, `include/kwk/utility/ratio.hpp:73-77`. -/
def div (e : EndK) (o : Known) : Res EndK := do
  pure { e with denum := ← Known.op constMul e.denum o }

end EndK

/-- A begin, end or length given to `slice(...)`; `include/kwk/utility/slicer.hpp:48-71`. -/
inductive BoundK where
  | int (i : Known)
  | ext (e : EndK)
  deriving DecidableEq, Repr

/-- Value of a given bound; `include/kwk/utility/slicer.hpp:70-71, 87-92`. -/
def BoundK.value (b : BoundK) (count : Known) : Res Known :=
  match b with
  | .int i => pure i
  | .ext e => e.size count

/-- The lambda `fix_extremum(s, def)` of `slicer::reshape`; `include/kwk/utility/slicer.hpp:87-92`. -/
def fixExtremumK (count : Known) (b : Option BoundK) (dflt : Known) : Res Known :=
  match b with
  | some b => b.value count
  | none => pure dflt

/-- What can be passed for one axis; `include/kwk/utility/slicer.hpp:48-64`. -/
inductive SlicerK where
  | joker
  | index (i : Known)
  | ext (e : EndK)
  | interval (begin : Option BoundK) (step : Option Known) (stop : Option BoundK) (len : Option BoundK)
  deriving DecidableEq, Repr

/-- The lambda `eval(s, b)` of `slicer::reshape`: a constant if both arguments are;
`include/kwk/utility/slicer.hpp:98-108`. -/
def sliceEvalK (s b : Known) : Res Known := do
  let v ← sliceEvalT s.coord b.coord
  pure ⟨v, s.static && b.static⟩

/-- `cond ? x : y` where `x`, the chosen operand, is given, and `y` may not be computable: the result is a constant only if both
operands are the same constant, otherwise both are converted to their values (C++ [expr.cond]);
the type is the common type `t`; `include/kwk/utility/slicer.hpp:119`. -/
def ternaryK (t : IntType) (x : Known) (y : Res Known) : Known :=
  match y with
  | .ok y => ⟨x.coord.convert t, x.static && y.static && decide (x.coord = y.coord)⟩
  | .error _ => ⟨x.coord.convert t, false⟩

/-- `reshape(shape, slicer, index<N>)`; `include/kwk/utility/slicer.hpp:82-131, 206-220`. -/
def sliceExtentK (count : Known) : SlicerK → Res Known
  | .joker => pure count
  | .index _ => pure .one
  | .ext _ => pure .one
  | .interval begin step stop len =>
    match len with
    | some l => l.value count
    | none => do
      let s := step.getD .one
      if begin.isSome || stop.isSome then do
        let b ← fixExtremumK count begin ⟨⟨.i32, 0⟩, true⟩
        let e ← fixExtremumK count stop count
        let up := do sliceEvalK (← Known.op constSub e b) s
        let down := do sliceEvalK (← Known.op constAdd b ⟨⟨.u8, 1⟩, true⟩) s
        if step.isSome then
          let t := steppedType b.coord.type e.coord.type s.coord.type
          if !ltT s.coord ⟨.i32, 0⟩ then do pure (ternaryK t (← up) down)
          else do pure (ternaryK t (← down) up)
        else do sliceEvalK (← Known.op constSub e b) .one
      else sliceEvalK count s

/-- `compress<N>(shape)`; `include/kwk/utility/container/shape.hpp:382-394`. The C++ requires `0 < N <= order`. -/
def compressK (n : Nat) (s : List Known) : Res (List Known) :=
  if n = s.length then pure s
  else
    let tail := s.drop (s.length - n + 1)
    match s.take (s.length - n + 1) with
    | [] => pure tail
    | h0 :: hs => do
      let v ← hs.foldlM (Known.op constMul) h0
      pure (v :: tail)

/-- Extents of `shape(slicers...)`; `include/kwk/utility/container/shape.hpp:305-316`. -/
def sliceShapeK (s : List Known) (sl : List SlicerK) : Res (List Known) := do
  let c ← compressK sl.length s
  (c.zip sl).mapM fun (d, x) => sliceExtentK d x

/-- `reindex(shape, slicer, index<N>)`: the defaults are not constants; `include/kwk/utility/slicer.hpp:66-80, 178-204`. -/
def reindexK (count : Known) : SlicerK → Res Known
  | .joker => pure ⟨⟨.i32, 0⟩, false⟩
  | .ext e => e.size count
  | .index i => pure i
  | .interval begin step _ _ =>
    match begin with
    | some b => b.value count
    | none => do
      let v ← reindexT count.coord (.interval none (step.map (·.coord)) none none)
      pure ⟨v, false⟩

/-- `origin(shape, slicers...)`, where the slices of a container start; `none`: does not compile, because `linear_index` takes
`std::integral` indexes, and constants are not; `include/kwk/utility/slicer.hpp:233-247`, `include/kwk/utility/linear_index.hpp:29-50`. -/
def originK (md : Mode) (s : List Known) (sl : List SlicerK) : Res (Option Coord) := do
  let c ← compressK sl.length s
  let idx ← (c.zip sl).mapM fun (d, x) => reindexK d x
  if idx.all fun i => !i.static then do
    let o ← linearIndexT md (c.map (·.coord)) (idx.map (·.coord))
    pure (some o)
  else pure none

end Kwk
