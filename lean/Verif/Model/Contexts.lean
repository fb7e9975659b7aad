import Verif.Model.Algos

/-!
# Model: algorithms in a context of the user

Algorithms take a context and leave the loop over the positions to its `map`; `include/kwk/context/base.hpp:15-26`.  The library has
`cpu` (`include/kwk/context/cpu/context.hpp:16-39`); users may write others.  A context is described by the order in which its `map`
visits the positions of a shape, one after the other; `cpu` visits them in row-major order.

Simplification: `map` and `map_index` of a context visit in the same order and do nothing else.
-/

namespace Kwk

variable {α β σ : Type}

/-- A context: the positions its `map` visits, in this order; `include/kwk/context/cpu/context.hpp:18-36`. -/
structure Ctx where
  order : Shape → List (List Int)

/-- `ctx.map(f, c0, cs...)` in a user's context; as `include/kwk/context/cpu/context.hpp:24-29`. -/
def Ctx.map (ctx : Ctx) (f : Ptr → List Ptr → σ × Mem α → Res (σ × Mem α)) (c0 : Container) (cs : List Container) (s : σ)
    (m : Mem α) : Res (σ × Mem α) :=
  (ctx.order c0.shape).foldlM (fun sm is => f (c0.addr is) (cs.map fun c => c.addr is) sm) (s, m)

/-- `ctx.map_index(f, c)` in a user's context; as `include/kwk/context/cpu/context.hpp:31-36`. -/
def Ctx.mapIndex (ctx : Ctx) (f : Ptr → List Int → σ × Mem α → Res (σ × Mem α)) (c : Container) (s : σ) (m : Mem α) :
    Res (σ × Mem α) :=
  (ctx.order c.shape).foldlM (fun sm is => f (c.addr is) is sm) (s, m)

/-- `reduce(ctx, in, f, init)`; `include/kwk/algorithm/algos/reduce.hpp:29-36`. -/
def reduceC (ctx : Ctx) (m : Mem α) (c : Container) (f : β → α → β) (init : β) : Res β := do
  let r ← ctx.map (fun i _ (init, m) => do
    let v ← load m i
    pure (f init v, m)) c [] init m
  pure r.1

/-- `all_of(ctx, in, f)`; `include/kwk/algorithm/algos/predicates.hpp:27-31`. -/
def allOfC (ctx : Ctx) (m : Mem α) (c : Container) (f : α → Bool) : Res Bool := reduceC ctx m c (fun a e => a && f e) true

/-- `any_of(ctx, in, f)`; `include/kwk/algorithm/algos/predicates.hpp:39-43`. -/
def anyOfC (ctx : Ctx) (m : Mem α) (c : Container) (f : α → Bool) : Res Bool := reduceC ctx m c (fun a e => a || f e) false

/-- `none_of(ctx, in, f)`; `include/kwk/algorithm/algos/predicates.hpp:51-55`. -/
def noneOfC (ctx : Ctx) (m : Mem α) (c : Container) (f : α → Bool) : Res Bool := do
  let r ← anyOfC ctx m c f
  pure (!r)

/-- `count(ctx, in, value)`; `include/kwk/algorithm/algos/predicates.hpp:63-67`. -/
def countC [DecidableEq α] (ctx : Ctx) (m : Mem α) (c : Container) (value : α) : Res Nat :=
  reduceC ctx m c (fun a e => a + (if e = value then 1 else 0)) 0

/-- `count_if(ctx, in, f)`; `include/kwk/algorithm/algos/predicates.hpp:75-79`. -/
def countIfC (ctx : Ctx) (m : Mem α) (c : Container) (f : α → Bool) : Res Nat :=
  reduceC ctx m c (fun a e => a + (if f e then 1 else 0)) 0

/-- `transform_reduce(ctx, in1, in2, init, R, T)`; `include/kwk/algorithm/algos/numeric.hpp:28-34`. -/
def transformReduceC {γ : Type} (ctx : Ctx) (m : Mem α) (c1 c2 : Container) (init : β) (R : β → γ → β) (T : α → α → γ) : Res β := do
  let r ← ctx.map (fun i1 ins (init, m) => do
    let v1 ← load m i1
    let v2 ← load m (ins.headD i1)
    pure (R init (T v1 v2), m)) c1 [c2] init m
  pure r.1

/-- `inner_product(ctx, in1, in2, init, f1, f2)`; `include/kwk/algorithm/algos/numeric.hpp:91-101`. -/
def innerProductC {γ : Type} (md : Mode) (ctx : Ctx) (m : Mem α) (c1 c2 : Container) (init : β) (f1 : β → γ → β)
    (f2 : α → α → γ) : Res β := do
  kwkAssert md (shapeEq c1.shape c2.shape)
  let r ← ctx.map (fun i1 ins (init, m) => do
    let v1 ← load m i1
    let v2 ← load m (ins.headD i1)
    pure (f1 init (f2 v1 v2), m)) c1 [c2] init m
  pure r.1

/-- `find_first_of(ctx, out, in)`: `find_if` does not use the context, `any_of` does;
`include/kwk/algorithm/algos/find.hpp:33-63, 100-110`. -/
def findFirstOfC [DecidableEq α] (ctx : Ctx) (m : Mem α) (c vs : Container) : Res (Option (List Int)) :=
  findIfM (m := Res) (fun is => c.get m is) (fun e => anyOfC ctx m vs (fun x => x = e)) c.shape

/-- `fill(ctx, out, value)`; `include/kwk/algorithm/algos/generator.hpp:19-23`. -/
def fillC (ctx : Ctx) (m : Mem α) (c : Container) (value : α) : Res (Mem α) := do
  let r ← ctx.map (fun o _ ((), m) => do
    let m ← store m o value
    pure ((), m)) c [] () m
  pure r.2

/-- `generate(ctx, f, out)`; `include/kwk/algorithm/algos/generator.hpp:32-37`. -/
def generateC (ctx : Ctx) (m : Mem α) (f : List Int → α) (c : Container) : Res (Mem α) := do
  let r ← ctx.mapIndex (fun o is ((), m) => do
    let m ← store m o (f is)
    pure ((), m)) c () m
  pure r.2

/-- `iota(ctx, out, value)`; `include/kwk/algorithm/algos/generator.hpp:46-52`. -/
def iotaC (ctx : Ctx) (m : Mem α) (c : Container) (incr : β → β) (conv : β → α) (value : β) : Res (Mem α) := do
  let r ← ctx.map (fun o _ (value, m) => do
    let m ← store m o (conv value)
    pure (incr value, m)) c [] value m
  pure r.2

/-- `iota(ctx, out, value, step)`; `include/kwk/algorithm/algos/generator.hpp:76-81`. -/
def iotaStepC [Add β] (ctx : Ctx) (m : Mem α) (c : Container) (conv : β → α) (value step : β) : Res (Mem α) := do
  let r ← ctx.map (fun o _ (value, m) => do
    let m ← store m o (conv value)
    pure (value + step, m)) c [] value m
  pure r.2

/-- `transform(ctx, f, out, c0, cs...)`; `include/kwk/algorithm/algos/transform.hpp:16-24`. -/
def transformC (ctx : Ctx) (m : Mem α) (f : List α → α) (out : Container) (ins : List Container) : Res (Mem α) := do
  let r ← ctx.map (fun o is ((), m) => do
    let vs ← is.mapM (fun i => load m i)
    let m ← store m o (f vs)
    pure ((), m)) out ins () m
  pure r.2

/-- `copy(ctx, out, in)`; `include/kwk/algorithm/algos/copy.hpp:21-25`. -/
def copyC (ctx : Ctx) (m : Mem α) (out inp : Container) (dflt : α) : Res (Mem α) :=
  transformC ctx m (fun vs => vs.headD dflt) out [inp]

/-- `copy_if(ctx, f, out, in)`; `include/kwk/algorithm/algos/copy.hpp:34-39`. -/
def copyIfC (ctx : Ctx) (m : Mem α) (f : α → Bool) (out inp : Container) : Res (Mem α) := do
  let r ← ctx.map (fun o is ((), m) => do
    let v ← load m (is.headD o)
    if f v then do
      let m ← store m o v
      pure ((), m)
    else pure ((), m)) out [inp] () m
  pure r.2

/-- `replace_if(ctx, out, f, new_value)`; `include/kwk/algorithm/algos/replace.hpp:16-20`. -/
def replaceIfC (ctx : Ctx) (m : Mem α) (c : Container) (f : α → Bool) (newValue : α) : Res (Mem α) := do
  let r ← ctx.map (fun o _ ((), m) => do
    let v ← load m o
    if f v then do
      let m ← store m o newValue
      pure ((), m)
    else pure ((), m)) c [] () m
  pure r.2

/-- `replace(ctx, out, old_value, new_value)`; `include/kwk/algorithm/algos/replace.hpp:28-32`. -/
def replaceC [DecidableEq α] (ctx : Ctx) (m : Mem α) (c : Container) (oldValue newValue : α) : Res (Mem α) :=
  replaceIfC ctx m c (fun x => x = oldValue) newValue

/-- `transform_exclusive_scan(ctx, in, out, init, f1, f2)`; `include/kwk/algorithm/algos/numeric.hpp:142-147`. -/
def transformExclusiveScanC (ctx : Ctx) (m : Mem α) (inp out : Container) (init : α) (f1 : α → β → α) (f2 : α → β) : Res (Mem α) := do
  let r ← ctx.map (fun i os (sum, m) => do
    let m ← store m (os.headD i) sum
    let v ← load m i
    pure (f1 sum (f2 v), m)) inp [out] init m
  pure r.2

/-- `exclusive_scan(ctx, in, out, init, f)`; `include/kwk/algorithm/algos/numeric.hpp:155-159`. -/
def exclusiveScanC (ctx : Ctx) (m : Mem α) (inp out : Container) (init : α) (f : α → α → α) : Res (Mem α) :=
  transformExclusiveScanC ctx m inp out init f (fun e => e)

/-- `transform_inclusive_scan(ctx, in, out, init, f1, f2)`; `include/kwk/algorithm/algos/numeric.hpp:180-186`. -/
def transformInclusiveScanC (ctx : Ctx) (m : Mem α) (inp out : Container) (init : α) (f1 : α → β → α) (f2 : α → β) : Res (Mem α) := do
  let r ← ctx.map (fun i os (sum, m) => do
    let v ← load m i
    let sum := f1 sum (f2 v)
    let m ← store m (os.headD i) sum
    pure (sum, m)) inp [out] init m
  pure r.2

/-- `inclusive_scan(ctx, in, out, init, f)`; `include/kwk/algorithm/algos/numeric.hpp:194-198`. -/
def inclusiveScanC (ctx : Ctx) (m : Mem α) (inp out : Container) (init : α) (f : α → α → α) : Res (Mem α) :=
  transformInclusiveScanC ctx m inp out init f (fun e => e)

end Kwk
