import Verif.Model.Container

/-!
# Model: algorithms on the CPU context

Paths are relative to `include/kwk/algorithm/algos`.  The CPU context is
`include/kwk/context/cpu/context.hpp:18-36`: `map(f, c0, cs...)` runs `for_each` over `c0.shape()` and
calls `f(c0(is...), cs(is...)...)`; elements are passed by reference, so a callback sees addresses.
`in`, `out`, `inout` are identities (`include/kwk/context/base.hpp:24-26`).
The context-less overloads forward to the CPU context and are not repeated.
-/

namespace Kwk

variable {α β : Type}

/-- `cpu.map(f, c0, cs...)` with a callback over captured state `σ` and memory;
`include/kwk/context/cpu/context.hpp:24-29`. The callback receives the addresses of the elements. -/
def mapCtx {σ : Type} (f : Ptr → List Ptr → σ × Mem α → Res (σ × Mem α)) (c0 : Container)
    (cs : List Container) (s : σ) (m : Mem α) : Res (σ × Mem α) :=
  loopState (fun is sm => f (c0.addr is) (cs.map fun c => c.addr is) sm) c0.shape (s, m)

/-- `cpu.map_index(f, c)`; `include/kwk/context/cpu/context.hpp:31-36`. -/
def mapIndexCtx {σ : Type} (f : Ptr → List Int → σ × Mem α → Res (σ × Mem α)) (c : Container)
    (s : σ) (m : Mem α) : Res (σ × Mem α) :=
  loopState (fun is sm => f (c.addr is) is sm) c.shape (s, m)

/-! ## Reading algorithms

Containers are taken by `const&`; the memory returned by the loop is dropped, and
`Props/Reduce.lean` shows that it is the initial one. -/

/-- Loop of `reduce` (with the final memory); `include/kwk/algorithm/algos/reduce.hpp:29-36`. -/
def reduceRun (m : Mem α) (c : Container) (f : β → α → β) (init : β) : Res (β × Mem α) :=
  mapCtx (fun i _ (init, m) => do
    let v ← load m i
    pure (f init v, m)) c [] init m

/-- `reduce(in, f, init)`; `include/kwk/algorithm/algos/reduce.hpp:29-36`. -/
def reduce (m : Mem α) (c : Container) (f : β → α → β) (init : β) : Res β := do
  let r ← reduceRun m c f init
  pure r.1

/-- `reduce(in)`: sum from a value-initialised element; `include/kwk/algorithm/algos/reduce.hpp:44-60`. -/
def reduceSum [Add α] [Zero α] (m : Mem α) (c : Container) : Res α :=
  reduce m c (fun a e => a + e) 0

/-- `all_of`; `include/kwk/algorithm/algos/predicates.hpp:27-31`. -/
def allOf (m : Mem α) (c : Container) (f : α → Bool) : Res Bool :=
  reduce m c (fun a e => a && f e) true

/-- `any_of`; `include/kwk/algorithm/algos/predicates.hpp:39-43`. -/
def anyOf (m : Mem α) (c : Container) (f : α → Bool) : Res Bool :=
  reduce m c (fun a e => a || f e) false

/-- `none_of`; `include/kwk/algorithm/algos/predicates.hpp:51-55`. -/
def noneOf (m : Mem α) (c : Container) (f : α → Bool) : Res Bool := do
  let r ← anyOf m c f
  pure (!r)

/-- `count`; `include/kwk/algorithm/algos/predicates.hpp:63-67`. `std::size_t` is modelled by `Nat` (no wrap-around). -/
def count [DecidableEq α] (m : Mem α) (c : Container) (value : α) : Res Nat :=
  reduce m c (fun a e => a + (if e = value then 1 else 0)) 0

/-- `count_if`; `include/kwk/algorithm/algos/predicates.hpp:75-79`. -/
def countIf (m : Mem α) (c : Container) (f : α → Bool) : Res Nat :=
  reduce m c (fun a e => a + (if f e then 1 else 0)) 0

/-- `transform_reduce(in1, in2, init, R, T)`; `include/kwk/algorithm/algos/numeric.hpp:28-34`. -/
def transformReduce {γ : Type} (m : Mem α) (c1 c2 : Container) (init : β) (R : β → γ → β)
    (T : α → α → γ) : Res β := do
  let r ← mapCtx (fun i1 ins (init, m) => do
    let v1 ← load m i1
    let v2 ← load m (ins.headD i1)
    pure (R init (T v1 v2), m)) c1 [c2] init m
  pure r.1

/-- `inner_product(in1, in2, init, f1, f2)`; `include/kwk/algorithm/algos/numeric.hpp:91-101`. -/
def innerProduct {γ : Type} (md : Mode) (m : Mem α) (c1 c2 : Container) (init : β) (f1 : β → γ → β)
    (f2 : α → α → γ) : Res β := do
  kwkAssert md (shapeEq c1.shape c2.shape)
  let r ← mapCtx (fun i1 ins (init, m) => do
    let v1 ← load m i1
    let v2 ← load m (ins.headD i1)
    pure (f1 init (f2 v1 v2), m)) c1 [c2] init m
  pure r.1

/-! ## Searching -/

/-- `find_if`, with element access `rd` and predicate `f` in an arbitrary monad; `include/kwk/algorithm/algos/find.hpp:35-63`.
The local variable `pos` is the state; it starts uninitialised (here `[]`) and is only returned when
`for_until` reports a hit. -/
def findIfM {m : Type → Type} [Monad m] (rd : List Int → m α) (f : α → m Bool) (shp : Shape) :
    m (Option (List Int)) := do
  let (valid, pos) ← forUntil (m := StateT (List Int) m) (fun is => do
    let v ← rd is
    if (← f v) then
      set is
      pure true
    else pure false) shp []
  pure (if valid then some pos else none)

/-- `find_if(c, f)` for a predicate without side effect; `include/kwk/algorithm/algos/find.hpp:35-63`. -/
def findIf (m : Mem α) (c : Container) (f : α → Bool) : Res (Option (List Int)) :=
  findIfM (m := Res) (fun is => c.get m is) (fun v => pure (f v)) c.shape

/-- `find(c, value)`; `include/kwk/algorithm/algos/find.hpp:72-77`. -/
def find [DecidableEq α] (m : Mem α) (c : Container) (value : α) : Res (Option (List Int)) :=
  findIf m c (fun e => e = value)

/-- `find_if_not(c, f)`; `include/kwk/algorithm/algos/find.hpp:86-91`. -/
def findIfNot (m : Mem α) (c : Container) (f : α → Bool) : Res (Option (List Int)) :=
  findIf m c (fun x => !f x)

/-- `find_first_of(c, values)`; `include/kwk/algorithm/algos/find.hpp:100-110`. The predicate reads memory. -/
def findFirstOf [DecidableEq α] (m : Mem α) (c vs : Container) : Res (Option (List Int)) :=
  findIfM (m := Res) (fun is => c.get m is) (fun e => anyOf m vs (fun x => x = e)) c.shape

/-- `reverse(c)`: negated strides, data moved to the element of index `numel-1`;
`include/kwk/algorithm/views/reverse.hpp:13-21`. -/
def reverse (c : Container) : Container :=
  Container.ofStrides (c.base.add (c.numel - 1)) c.shape (c.stride.map fun m => -m)

/-- `find_last_if(c, f)`; `include/kwk/algorithm/algos/find.hpp:121-164`: `find_if` on `reverse(c)`, then each coordinate `i`
becomes `extent - 1 - i`. -/
def findLastIf (m : Mem α) (c : Container) (f : α → Bool) : Res (Option (List Int)) := do
  let r ← findIf m (reverse c) f
  pure (r.map fun pos => c.shape.zipWith (fun d i => d - 1 - i) pos)

/-- `find_last(c, value)`; `include/kwk/algorithm/algos/find.hpp:173-178`. -/
def findLast [DecidableEq α] (m : Mem α) (c : Container) (value : α) : Res (Option (List Int)) :=
  findLastIf m c (fun e => e = value)

/-- `find_last_if_not(c, f)`; `include/kwk/algorithm/algos/find.hpp:187-192`. -/
def findLastIfNot (m : Mem α) (c : Container) (f : α → Bool) : Res (Option (List Int)) :=
  findLastIf m c (fun x => !f x)

/-! ## Writing algorithms -/

/-- `fill(out, value)`; `include/kwk/algorithm/algos/generator.hpp:19-23`. -/
def fill (m : Mem α) (c : Container) (value : α) : Res (Mem α) := do
  let r ← mapCtx (fun o _ ((), m) => do
    let m ← store m o value
    pure ((), m)) c [] () m
  pure r.2

/-- `generate(f, out)`; `include/kwk/algorithm/algos/generator.hpp:32-37`. -/
def generate (m : Mem α) (f : List Int → α) (c : Container) : Res (Mem α) := do
  let r ← mapIndexCtx (fun o is ((), m) => do
    let m ← store m o (f is)
    pure ((), m)) c () m
  pure r.2

/-- `iota(out, value)`; `include/kwk/algorithm/algos/generator.hpp:46-52`: `o = value++`. `incr` is the increment of the type of
`value`, `conv` the conversion to the element type. -/
def iota (m : Mem α) (c : Container) (incr : β → β) (conv : β → α) (value : β) : Res (Mem α) := do
  let r ← mapCtx (fun o _ (value, m) => do
    let m ← store m o (conv value)
    pure (incr value, m)) c [] value m
  pure r.2

/-- `iota(out)`: from a value-initialised element; `include/kwk/algorithm/algos/generator.hpp:61-67`. -/
def iota0 [Add α] [Zero α] [One α] (m : Mem α) (c : Container) : Res (Mem α) :=
  iota m c (fun v : α => v + 1) (fun v => v) 0

/-- `iota(out, value, step)`; `include/kwk/algorithm/algos/generator.hpp:76-81`: `o = value; value += step`. -/
def iotaStep [Add β] (m : Mem α) (c : Container) (conv : β → α) (value step : β) : Res (Mem α) := do
  let r ← mapCtx (fun o _ (value, m) => do
    let m ← store m o (conv value)
    pure (value + step, m)) c [] value m
  pure r.2

/-- `transform(f, out, c0, cs...)`; `include/kwk/algorithm/algos/transform.hpp:16-24`; `ins` lists `c0, cs...`. -/
def transform (m : Mem α) (f : List α → α) (out : Container) (ins : List Container) :
    Res (Mem α) := do
  let r ← mapCtx (fun o is ((), m) => do
    let vs ← is.mapM (fun i => load m i)
    let m ← store m o (f vs)
    pure ((), m)) out ins () m
  pure r.2

/-- `copy(out, in)`: `transform` with the identity; `include/kwk/algorithm/algos/copy.hpp:21-25`. -/
def copy (m : Mem α) (out inp : Container) (dflt : α) : Res (Mem α) :=
  transform m (fun vs => vs.headD dflt) out [inp]

/-- `copy_if(f, out, in)`; `include/kwk/algorithm/algos/copy.hpp:34-39`. -/
def copyIf (m : Mem α) (f : α → Bool) (out inp : Container) : Res (Mem α) := do
  let r ← mapCtx (fun o is ((), m) => do
    let v ← load m (is.headD o)
    if f v then do
      let m ← store m o v
      pure ((), m)
    else pure ((), m)) out [inp] () m
  pure r.2

/-- `replace_if(out, f, new_value)`; `include/kwk/algorithm/algos/replace.hpp:16-20`. -/
def replaceIf (m : Mem α) (c : Container) (f : α → Bool) (newValue : α) : Res (Mem α) := do
  let r ← mapCtx (fun o _ ((), m) => do
    let v ← load m o
    if f v then do
      let m ← store m o newValue
      pure ((), m)
    else pure ((), m)) c [] () m
  pure r.2

/-- `replace(out, old_value, new_value)`; `include/kwk/algorithm/algos/replace.hpp:28-32`. -/
def replace [DecidableEq α] (m : Mem α) (c : Container) (oldValue newValue : α) : Res (Mem α) :=
  replaceIf m c (fun x => x = oldValue) newValue

/-- `transform_exclusive_scan(in, out, init, f1, f2)`; `include/kwk/algorithm/algos/numeric.hpp:142-147`: loops over the shape of
`in`; writes `o = sum` and only then reads `i`. -/
def transformExclusiveScan (m : Mem α) (inp out : Container) (init : α) (f1 : α → β → α)
    (f2 : α → β) : Res (Mem α) := do
  let r ← mapCtx (fun i os (sum, m) => do
    let m ← store m (os.headD i) sum
    let v ← load m i
    pure (f1 sum (f2 v), m)) inp [out] init m
  pure r.2

/-- `exclusive_scan(in, out, init, f)`; `include/kwk/algorithm/algos/numeric.hpp:155-159`. -/
def exclusiveScan (m : Mem α) (inp out : Container) (init : α) (f : α → α → α) : Res (Mem α) :=
  transformExclusiveScan m inp out init f (fun e => e)

/-- `transform_inclusive_scan(in, out, init, f1, f2)`; `include/kwk/algorithm/algos/numeric.hpp:180-186`: reads `i`, then writes. -/
def transformInclusiveScan (m : Mem α) (inp out : Container) (init : α) (f1 : α → β → α)
    (f2 : α → β) : Res (Mem α) := do
  let r ← mapCtx (fun i os (sum, m) => do
    let v ← load m i
    let sum := f1 sum (f2 v)
    let m ← store m (os.headD i) sum
    pure (sum, m)) inp [out] init m
  pure r.2

/-- `inclusive_scan(in, out, init, f)`; `include/kwk/algorithm/algos/numeric.hpp:194-198`. -/
def inclusiveScan (m : Mem α) (inp out : Container) (init : α) (f : α → α → α) : Res (Mem α) :=
  transformInclusiveScan m inp out init f (fun e => e)

end Kwk
