import Verif.Model.Mixed
import Verif.Model.Slicer

/-!
# Model: memory blocks, reversed views and slices, on extents of any integer types

The functions of `Model/Container.lean`, `Model/EndRatio.lean` and `Model/Slicer.lean` with the types of all numbers.
A compile-time constant is a number of its own type.  Simplification: adding an index to a pointer converts it to
`std::ptrdiff_t` (`i64`), as compilers do, also for unsigned 64-bit indexes.
-/

namespace Kwk

/-- Number of bytes requested by `heap_block`: `static_cast<std::size_t>(s.numel())*sizeof(T)`;
`include/kwk/detail/memory/heap_block.hpp:44-46`. -/
def blockBytes (size : Nat) (s : List Coord) : Res Int := do
  let n ← numelT s
  IntType.u64.op (IntType.u64.wrap n.value * size)

/-- `p + i` for an index `i` with a type, in elements; `include/kwk/container/container.hpp:119-126`. -/
def ptrAdd (off : Int) (i : Coord) : Int := off + IntType.i64.wrap i.value

/-- `reverse(c)`: the strides are negated, the data pointer is `get_data() + numel() - 1`; result: where the view starts,
in elements from the data pointer of `c`, and its strides. `include/kwk/algorithm/views/reverse.hpp:13-23`. -/
def reverseT (s st : List Coord) : Res (Int × List Coord) := do
  let nst ← st.mapM constNeg
  let n ← numelT s
  pure (ptrAdd 0 n - 1, nst)

/-- Offset of the element of a view with explicit strides at a position; `include/kwk/detail/container/accessor.hpp:66-67, 117, 183-184`,
`include/kwk/container/container.hpp:119-126`. -/
def elementT (start : Int) (st p : List Coord) : Res Int := do
  let k ← linearizeT st p
  pure (ptrAdd start k)

/-- Storing a coordinate in a `kwk::position`: converted to `unsigned long`, then to `int`;
`include/kwk/algorithm/algos/find.hpp:47-51`. -/
def storePosition (p : List Coord) : List Int := p.map fun i => IntType.i32.wrap (IntType.u64.wrap i.value)

/-- The position computed by `find_last_if` from the one found in the reversed view: `get<i>(shape) - 1 - res[i]`, converted
to `int`; `include/kwk/algorithm/algos/find.hpp:147-149`. -/
def mirrorPosition (s : List Coord) (res : List Int) : Res (List Int) :=
  (s.zip res).mapM fun (d, r) => do
    let v ← constSub (← constSub d ⟨.i32, 1⟩) ⟨.i32, r⟩
    pure (IntType.i32.wrap v.value)

/-- `kwk::end_t` with typed numbers; `include/kwk/utility/end.hpp:26-53`. -/
structure EndC where
  /-- `offset()` -/
  shift : Coord
  /-- `factor()` -/
  num : Coord
  /-- `divisor()` -/
  denum : Coord
  deriving DecidableEq, Repr

namespace EndC

/-- `kwk::end`; `include/kwk/utility/end.hpp:98-99`. -/
def all : EndC := ⟨⟨.i32, 0⟩, fixedOne, fixedOne⟩

/-- `end_t::size(n)`; `include/kwk/utility/end.hpp:49`. -/
def size (e : EndC) (n : Coord) : Res Coord := do
  constDiv (← constAdd (← constMul n e.num) e.shift) e.denum

/-- `e + o`; `include/kwk/utility/end.hpp:55-65`. -/
def add (e : EndC) (o : Coord) : Res EndC := do
  pure { e with shift := ← constAdd e.shift (← constMul o e.denum) }

/-- `e - o`; `include/kwk/utility/end.hpp:67-72`. -/
def sub (e : EndC) (o : Coord) : Res EndC := do
  pure { e with shift := ← constSub e.shift (← constMul o e.denum) }

/-- `o - e`; `include/kwk/utility/end.hpp:74-78`, `include/kwk/utility/ratio.hpp:30-31`. -/
def rsub (o : Coord) (e : EndC) : Res EndC := do
  pure { e with shift := ← constSub (← constMul o e.denum) e.shift, num := ← constNeg e.num }

/-- `e * o`; `include/kwk/utility/end.hpp:80-90`, `include/kwk/utility/ratio.hpp:55-59`. -/
def mul (e : EndC) (o : Coord) : Res EndC := do
  pure { e with shift := ← constMul e.shift o, num := ← constMul e.num o }

/-- `e / o`; `include/kwk/utility/end.hpp:92-96`, `include/kwk/utility/ratio.hpp:73-77`. -/
def div (e : EndC) (o : Coord) : Res EndC := do
  pure { e with denum := ← constMul e.denum o }

end EndC

/-- A begin, end or length given to `slice(...)`; `include/kwk/utility/slicer.hpp:48-71`. -/
inductive BoundC where
  | int (i : Coord)
  | ext (e : EndC)
  deriving DecidableEq, Repr

/-- Value of a given bound; `include/kwk/utility/slicer.hpp:70-71, 87-92`. -/
def BoundC.value (b : BoundC) (count : Coord) : Res Coord :=
  match b with
  | .int i => pure i
  | .ext e => e.size count

/-- The lambda `fix_extremum(s, def)` of `slicer::reshape`; `include/kwk/utility/slicer.hpp:87-92`. -/
def fixExtremumT (count : Coord) (b : Option BoundC) (dflt : Coord) : Res Coord :=
  match b with
  | some b => b.value count
  | none => pure dflt

/-- What can be passed for one axis; `include/kwk/utility/slicer.hpp:48-64`. -/
inductive SlicerC where
  | joker
  | index (i : Coord)
  | ext (e : EndC)
  | interval (begin : Option BoundC) (step : Option Coord) (stop : Option BoundC) (len : Option BoundC)
  deriving DecidableEq, Repr

/-- `reindex(shape, slicer, index<N>)`; `include/kwk/utility/slicer.hpp:66-80, 178-204`.  `step > 0 ? 0 : count - 1` has
the common type of `int` and `count - 1`. -/
def reindexT (count : Coord) : SlicerC → Res Coord
  | .joker => pure ⟨.i32, 0⟩
  | .ext e => e.size count
  | .index i => pure i
  | .interval begin step _ _ =>
    match begin with
    | some b => b.value count
    | none =>
      match step with
      | some s => do
        let t := IntType.i32.common (count.type.common .i32)
        if ltT ⟨.i32, 0⟩ s then pure ⟨t, 0⟩
        else do
          let v ← constSub count ⟨.i32, 1⟩
          pure ⟨t, t.wrap v.value⟩
      | none => pure ⟨.i32, 0⟩

/-- `n < 0 ? -n : n`, of the promoted type of `n`; `include/kwk/utility/slicer.hpp:102`. -/
def absT (n : Coord) : Res Coord := if ltT n ⟨.i32, 0⟩ then constNeg n else pure ⟨n.type.promote, n.value⟩

/-- The lambda `eval(s, b)` of `slicer::reshape` with its lambda `fix`; `include/kwk/utility/slicer.hpp:98-108`.  The result has the type of `s / w` (`0` and the comparison are `int`). -/
def sliceEvalT (s b : Coord) : Res Coord :=
  if s.value = 0 then pure ⟨IntType.i32.common (s.type.common b.type.promote), 0⟩
  else do
    let w ← absT b
    let r ← modT s w
    let q ← constDiv s w
    constAdd ⟨.i32, if r.value ≠ 0 then 1 else 0⟩ q

/-- The type of `eval(s, b)` for `s` and `b` of these types; `include/kwk/utility/slicer.hpp:98-108`. -/
def evalType (s b : IntType) : IntType := IntType.i32.common (s.common b.promote)

/-- The type of `(s>=0) ? eval(e-b, s) : eval(b+1_c, s)`, the common type of both branches;
`include/kwk/utility/slicer.hpp:119`. -/
def steppedType (b e s : IntType) : IntType := (evalType (e.common b) s).common (evalType (b.common .u8) s)

/-- Conversion of a number to another type; for the conditional expression of `include/kwk/utility/slicer.hpp:119`. -/
def Coord.convert (t : IntType) (c : Coord) : Coord := ⟨t, t.wrap c.value⟩

/-- `reshape(shape, slicer, index<N>)`; `include/kwk/utility/slicer.hpp:82-131, 206-220`. -/
def sliceExtentT (count : Coord) : SlicerC → Res Coord
  | .joker => pure count
  | .index _ => pure fixedOne
  | .ext _ => pure fixedOne
  | .interval begin step stop len =>
    match len with
    | some l => l.value count
    | none => do
      let s := step.getD fixedOne
      if begin.isSome || stop.isSome then do
        let b ← fixExtremumT count begin ⟨.i32, 0⟩
        let e ← fixExtremumT count stop count
        if step.isSome then
          let t := steppedType b.type e.type s.type
          if !ltT s ⟨.i32, 0⟩ then do
            let n ← sliceEvalT (← constSub e b) s
            pure (n.convert t)
          else do
            let n ← sliceEvalT (← constAdd b ⟨.u8, 1⟩) s
            pure (n.convert t)
        else do sliceEvalT (← constSub e b) fixedOne
      else sliceEvalT count s

/-- `restride(stride, slicer, index<N>)`; `include/kwk/utility/slicer.hpp:133-144, 222-230`. -/
def restrideT (original : Coord) : SlicerC → Res Coord
  | .interval _ (some s) _ _ => constMul s original
  | _ => pure original

/-- Start, shape and strides of `c(slicers...)`, with one slicer per axis, for a container of shape `s` and strides `st`;
`include/kwk/container/container.hpp:140-151`, `include/kwk/utility/slicer.hpp:233-247`.
The start is in elements from the data pointer of the container. -/
def sliceT (md : Mode) (s st : List Coord) (sl : List SlicerC) : Res (Int × List Coord × List Coord) := do
  let idx ← (s.zip sl).mapM fun (d, x) => reindexT d x
  let o ← linearIndexT md s idx
  let shp ← (s.zip sl).mapM fun (d, x) => sliceExtentT d x
  let str ← (st.zip sl).mapM fun (g, x) => restrideT g x
  pure (ptrAdd 0 o, shp, str)

/-- `compress<N>(shape)`: the product of the leading extents, from the first on;
`include/kwk/utility/container/shape.hpp:382-394`. The C++ requires `0 < N <= order`. -/
def compressT (n : Nat) (s : List Coord) : Res (List Coord) :=
  if n = s.length then pure s
  else
    let tail := s.drop (s.length - n + 1)
    match s.take (s.length - n + 1) with
    | [] => pure tail
    | h0 :: hs => do
      let v ← hs.foldlM constMul h0
      pure (v :: tail)

/-- Start, shape and strides of `c(slicers...)`, with at most one slicer per axis: leading axes are merged and their strides dropped;
`include/kwk/container/container.hpp:140-151`, `include/kwk/utility/slicer.hpp:233-247`,
`include/kwk/utility/container/shape.hpp:306-316`, `include/kwk/utility/container/stride.hpp:191-196`. -/
def sliceMergedT (md : Mode) (s st : List Coord) (sl : List SlicerC) : Res (Int × List Coord × List Coord) := do
  let c ← compressT sl.length s
  sliceT md c (st.drop (st.length - sl.length)) sl

/-- The `k`-th `*p++` on an iterator of a range; `include/kwk/utility/linear_index.hpp:68`. -/
def derefRange (r : List Coord) (k : Nat) : Res Coord :=
  match r[k]? with
  | some i => pure i
  | none => throw .outOfBounds

/-- `linear_index(shape, indexes)` for a range of indexes: reads as many as there are axes, from the beginning, in order;
`include/kwk/utility/linear_index.hpp:61-72`. -/
def linearIndexRangeT (md : Mode) (s r : List Coord) : Res Coord := do
  let is ← (List.range s.length).mapM (derefRange r)
  linearIndexT md s is

end Kwk
