import Verif.Model.Walk
import Verif.Model.TypedShape
import Verif.Model.Algos

/-!
# Model: algorithms on the elements of containers whose extents and strides have types

The algorithms of `Model/Algos.lean`, with the loops of `Model/Machine.lean` and the accessors of
`include/kwk/detail/container/accessor.hpp` computing in the types of the extents, strides and counters.
Paths are relative to `include/kwk/algorithm/algos` where not given in full.
-/

namespace Kwk

variable {α β : Type}

/-- A container with data, typed extents and typed strides: `include/kwk/container/container.hpp:20-155`.
`specific` and `static` as in `Container`. -/
structure DataT where
  /-- `get_data()` -/
  base : Ptr
  /-- `shape()` -/
  shape : List Coord
  /-- stored strides -/
  strides : List Coord
  /-- explicit strides were given -/
  specific : Bool
  /-- shape and strides are fully static -/
  static : Bool
  deriving DecidableEq, Repr

/-- `accessor::index(is...)`; the specialisation is chosen as in `include/kwk/detail/container/accessor.hpp:19-46` (general),
`51-68` (static), `73-94` (1D default), `99-126` (1D strided), `131-154` (2D default), `159-188` (2D strided). -/
def DataT.index (c : DataT) (is : List Coord) : Res Coord :=
  if c.static then linearizeT c.strides is
  else match c.specific, c.shape, is with
    | false, [_], [i] => pure i
    | true, [_], [i0] => constMul i0 (c.strides.headD fixedOne)
    | false, [_, d1], [i1, i0] => index2T d1 i1 i0
    | _, _, _ => linearizeT c.strides is

/-- `&c(is...)`; `include/kwk/container/container.hpp:128-138`. -/
def DataT.addr (c : DataT) (is : List Coord) : Res Ptr := do
  let k ← c.index is
  pure ⟨c.base.blk, ptrAdd c.base.off k⟩

/-- Enough tests of the conditions of all loops over the shape: one more than the largest extent;
`include/kwk/detail/algorithm/for_each.hpp:31-32`. -/
def loopFuel (s : List Coord) : Nat := (s.map fun d => d.value.toNat).foldr max 0 + 1

/-- `cpu.map(f, c0, cs...)`; the callback receives the addresses of the elements, and the counters have the types of the extents of
`c0`; `include/kwk/context/cpu/context.hpp:18-29`. -/
def mapCtxD {σ : Type} (f : Ptr → List Ptr → σ × Mem α → Res (σ × Mem α)) (c0 : DataT) (cs : List DataT) (s : σ) (m : Mem α) :
    Res (σ × Mem α) := do
  let r ← forEachM (σ := σ × Mem α) (loopFuel c0.shape) (fun is => fun sm => do
    let a0 ← c0.addr (typedAs c0.shape is)
    let as ← cs.mapM fun c => c.addr (typedAs c0.shape is)
    let sm' ← f a0 as sm
    pure ((), sm')) c0.shape (s, m)
  pure r.2

/-- `cpu.map_index(f, c)`: the callback also gets the counters, with their types; `include/kwk/context/cpu/context.hpp:31-36`. -/
def mapIndexCtxD {σ : Type} (f : Ptr → List Coord → σ × Mem α → Res (σ × Mem α)) (c : DataT) (s : σ) (m : Mem α) :
    Res (σ × Mem α) := do
  let r ← forEachM (σ := σ × Mem α) (loopFuel c.shape) (fun is => fun sm => do
    let a ← c.addr (typedAs c.shape is)
    let sm' ← f a (typedAs c.shape is) sm
    pure ((), sm')) c.shape (s, m)
  pure r.2

/-! ## Reading -/

/-- `reduce(in, f, init)`; `include/kwk/algorithm/algos/reduce.hpp:29-36`. -/
def reduceD (m : Mem α) (c : DataT) (f : β → α → β) (init : β) : Res β := do
  let r ← mapCtxD (fun i _ (init, m) => do
    let v ← load m i
    pure (f init v, m)) c [] init m
  pure r.1

/-- `all_of`; `include/kwk/algorithm/algos/predicates.hpp:27-31`. -/
def allOfD (m : Mem α) (c : DataT) (f : α → Bool) : Res Bool := reduceD m c (fun a e => a && f e) true

/-- `any_of`; `include/kwk/algorithm/algos/predicates.hpp:39-43`. -/
def anyOfD (m : Mem α) (c : DataT) (f : α → Bool) : Res Bool := reduceD m c (fun a e => a || f e) false

/-- `none_of`; `include/kwk/algorithm/algos/predicates.hpp:51-55`. -/
def noneOfD (m : Mem α) (c : DataT) (f : α → Bool) : Res Bool := do
  let r ← anyOfD m c f
  pure (!r)

/-- `count_if`; `include/kwk/algorithm/algos/predicates.hpp:75-79`.  Simplification: no wrap-around of `std::size_t`. -/
def countIfD (m : Mem α) (c : DataT) (f : α → Bool) : Res Nat := reduceD m c (fun a e => a + (if f e then 1 else 0)) 0

/-- `count`; `include/kwk/algorithm/algos/predicates.hpp:63-67`.  The same simplification. -/
def countD [DecidableEq α] (m : Mem α) (c : DataT) (value : α) : Res Nat :=
  reduceD m c (fun a e => a + (if e = value then 1 else 0)) 0

/-- `transform_reduce(in1, in2, init, R, T)`; `include/kwk/algorithm/algos/numeric.hpp:28-34`. -/
def transformReduceD {γ : Type} (m : Mem α) (c1 c2 : DataT) (init : β) (R : β → γ → β) (T : α → α → γ) : Res β := do
  let r ← mapCtxD (fun i1 ins (init, m) => do
    let v1 ← load m i1
    let v2 ← load m (ins.headD i1)
    pure (R init (T v1 v2), m)) c1 [c2] init m
  pure r.1

/-- `inner_product(in1, in2, init, f1, f2)`: the assertion compares shapes whose extents have types;
`include/kwk/algorithm/algos/numeric.hpp:91-101`. -/
def innerProductD {γ : Type} (md : Mode) (m : Mem α) (c1 c2 : DataT) (init : β) (f1 : β → γ → β) (f2 : α → α → γ) : Res β := do
  match md with
  | .checked => do
    let same ← shapeEqT c1.shape c2.shape
    kwkAssert md same
  | .unchecked => pure ()
  transformReduceD m c1 c2 init f1 f2

/-! ## Searching -/

/-- `find_if(c, f)`: the position is stored in `int`s; `include/kwk/algorithm/algos/find.hpp:35-63`.  The predicate can fail. -/
def findIfD (m : Mem α) (c : DataT) (f : α → Res Bool) : Res (Option (List Int)) := do
  let (valid, pos) ← forUntilM (σ := List Int) (loopFuel c.shape) (fun is => fun pos => do
    let a ← c.addr (typedAs c.shape is)
    let v ← load m a
    if (← f v) then pure (true, storePosition (typedAs c.shape is)) else pure (false, pos)) c.shape []
  pure (if valid then some pos else none)

/-- `find(c, value)`; `include/kwk/algorithm/algos/find.hpp:72-77`. -/
def findD [DecidableEq α] (m : Mem α) (c : DataT) (value : α) : Res (Option (List Int)) :=
  findIfD m c (fun e => pure (e = value))

/-- `find_if_not(c, f)`; `include/kwk/algorithm/algos/find.hpp:86-91`. -/
def findIfNotD (m : Mem α) (c : DataT) (f : α → Bool) : Res (Option (List Int)) := findIfD m c (fun x => pure (!f x))

/-- `find_first_of(c, values)`; `include/kwk/algorithm/algos/find.hpp:100-110`. -/
def findFirstOfD [DecidableEq α] (m : Mem α) (c vs : DataT) : Res (Option (List Int)) :=
  findIfD m c (fun e => anyOfD m vs (fun x => x = e))

/-- `stride()`; a default 2D accessor writes `get<1>(shape_)` to the type that strides of the container have;
`include/kwk/detail/container/accessor.hpp:27, 61, 88, 115, 146, 175`. -/
def DataT.stride (c : DataT) : List Coord :=
  if c.static then c.strides
  else match c.specific, c.shape with
    | false, [_] => [fixedOne]
    | false, [_, d1] => [d1.convert (d1.type.common .i32), fixedOne]
    | _, _ => c.strides

/-- `reverse(c)`: a view with explicit strides; `include/kwk/algorithm/views/reverse.hpp:13-23`. -/
def reverseD (c : DataT) : Res DataT := do
  let (start, st) ← reverseT c.shape c.stride
  pure ⟨⟨c.base.blk, c.base.off + start⟩, c.shape, st, true, c.static⟩

/-- `c(slicers...)` with one slicer for each axis: a view with explicit strides; `static` if its shape and strides are fully static;
`include/kwk/container/container.hpp:140-151`. -/
def sliceD (md : Mode) (static : Bool) (c : DataT) (sl : List SlicerC) : Res DataT := do
  let (start, shp, str) ← sliceT md c.shape c.stride sl
  pure ⟨⟨c.base.blk, c.base.off + start⟩, shp, str, true, static⟩

/-- `find_last_if(c, f)`; `include/kwk/algorithm/algos/find.hpp:121-164`. -/
def findLastIfD (m : Mem α) (c : DataT) (f : α → Res Bool) : Res (Option (List Int)) := do
  let r ← reverseD c
  match ← findIfD m r f with
  | none => pure none
  | some pos => do
    let pos ← mirrorPosition c.shape pos
    pure (some pos)

/-! ## Writing -/

/-- `fill(out, value)`; `include/kwk/algorithm/algos/generator.hpp:19-23`. -/
def fillD (m : Mem α) (c : DataT) (value : α) : Res (Mem α) := do
  let r ← mapCtxD (fun o _ ((), m) => do
    let m ← store m o value
    pure ((), m)) c [] () m
  pure r.2

/-- `generate(f, out)`: `f` gets the counters; `include/kwk/algorithm/algos/generator.hpp:32-37`. -/
def generateD (m : Mem α) (f : List Coord → α) (c : DataT) : Res (Mem α) := do
  let r ← mapIndexCtxD (fun o is ((), m) => do
    let m ← store m o (f is)
    pure ((), m)) c () m
  pure r.2

/-- `iota(out, value)`; `include/kwk/algorithm/algos/generator.hpp:46-52`. `incr` is the increment of the type of `value`, `conv` the
conversion to the element type. -/
def iotaD (m : Mem α) (c : DataT) (incr : β → β) (conv : β → α) (value : β) : Res (Mem α) := do
  let r ← mapCtxD (fun o _ (value, m) => do
    let m ← store m o (conv value)
    pure (incr value, m)) c [] value m
  pure r.2

/-- `replace_if(out, f, new_value)`; `include/kwk/algorithm/algos/replace.hpp:16-20`. -/
def replaceIfD (m : Mem α) (c : DataT) (f : α → Bool) (newValue : α) : Res (Mem α) := do
  let r ← mapCtxD (fun o _ ((), m) => do
    let v ← load m o
    if f v then do
      let m ← store m o newValue
      pure ((), m)
    else pure ((), m)) c [] () m
  pure r.2

/-- `transform(f, out, c0, cs...)`; `include/kwk/algorithm/algos/transform.hpp:16-24`; `ins` lists `c0, cs...`. -/
def transformD (m : Mem α) (f : List α → α) (out : DataT) (ins : List DataT) : Res (Mem α) := do
  let r ← mapCtxD (fun o is ((), m) => do
    let vs ← is.mapM (fun i => load m i)
    let m ← store m o (f vs)
    pure ((), m)) out ins () m
  pure r.2

/-- `copy(out, in)`; `include/kwk/algorithm/algos/copy.hpp:21-25`. -/
def copyD (m : Mem α) (out inp : DataT) (dflt : α) : Res (Mem α) := transformD m (fun vs => vs.headD dflt) out [inp]

/-- `copy_if(f, out, in)`; `include/kwk/algorithm/algos/copy.hpp:34-39`. -/
def copyIfD (m : Mem α) (f : α → Bool) (out inp : DataT) : Res (Mem α) := do
  let r ← mapCtxD (fun o is ((), m) => do
    let v ← load m (is.headD o)
    if f v then do
      let m ← store m o v
      pure ((), m)
    else pure ((), m)) out [inp] () m
  pure r.2

/-- `transform_exclusive_scan(in, out, init, f1, f2)`; `include/kwk/algorithm/algos/numeric.hpp:142-147`. -/
def transformExclusiveScanD (m : Mem α) (inp out : DataT) (init : α) (f1 : α → β → α) (f2 : α → β) : Res (Mem α) := do
  let r ← mapCtxD (fun i os (sum, m) => do
    let m ← store m (os.headD i) sum
    let v ← load m i
    pure (f1 sum (f2 v), m)) inp [out] init m
  pure r.2

/-- `transform_inclusive_scan(in, out, init, f1, f2)`; `include/kwk/algorithm/algos/numeric.hpp:180-186`. -/
def transformInclusiveScanD (m : Mem α) (inp out : DataT) (init : α) (f1 : α → β → α) (f2 : α → β) : Res (Mem α) := do
  let r ← mapCtxD (fun i os (sum, m) => do
    let v ← load m i
    let sum := f1 sum (f2 v)
    let m ← store m (os.headD i) sum
    pure (sum, m)) inp [out] init m
  pure r.2

end Kwk
