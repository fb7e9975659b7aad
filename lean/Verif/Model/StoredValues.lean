import Verif.Model.FunctionCopies

/-!
# Model: copies of values that are stored or accumulated

The initial value of a reduction or a scan, and the values that `fill`, `replace_if` and `replace` store.  Copies are counted as in
`Model/ComparedValues`, by construction or assignment; moves are not.  Functions given by the user take references; some functions of
the library take values.  `value++` makes one copy, as is usual for types of the user.
-/

namespace Kwk

variable {α β ρ : Type}

/-- A function given by the user, called with the accumulator; e.g. `include/kwk/algorithm/algos/reduce.hpp:32`. -/
def accByReference (f : β → ρ → β) (a : β × Nat) (e : ρ) : β × Nat := (f a.1 e, a.2)

/-- A function of the library whose parameter is a copy of the accumulator; e.g. `include/kwk/algorithm/algos/reduce.hpp:59`. -/
def accByValue (f : β → ρ → β) (a : β × Nat) (e : ρ) : β × Nat := (f a.1 e, a.2 + 1)

/-- `reduce(ctx, in, f, init)`: assigned by moves, and moved when returned; `include/kwk/algorithm/algos/reduce.hpp:29-36`. -/
def reduceAcc (m : Mem α) (c : Container) (f : β → α → β) (init : β) (g : GivenAs) : Copying β := do
  takeValue g
  fun n => reduce m c (accByReference f) (init, n)

/-- `reduce(ctx, in)` and `reduce(in)`: from a new value; `include/kwk/algorithm/algos/reduce.hpp:44-66`. -/
def reduceSumAcc (m : Mem α) (c : Container) (add : α → α → α) (zero : α) : Copying α := do
  takeValue .rvalue
  fun n => reduce m c (accByValue add) (zero, n)

/-- `transform_reduce(ctx, in1, in2, init, R, T)`; `include/kwk/algorithm/algos/numeric.hpp:28-34`. -/
def transformReduceAcc (m : Mem α) (c1 c2 : Container) (init : β) (R : β × Nat → ρ → β × Nat) (T : α → α → ρ) (g : GivenAs) :
    Copying β := do
  takeValue g
  fun n => transformReduce m c1 c2 (init, n) R T

/-- `transform_reduce(ctx, in1, in2, init, T)`: passed on; `include/kwk/algorithm/algos/numeric.hpp:43-48`. -/
def transformReduceTAcc (m : Mem α) (c1 c2 : Container) (init : β) (add : β → ρ → β) (T : α → α → ρ) (g : GivenAs) : Copying β := do
  takeValue g
  transformReduceAcc m c1 c2 init (accByValue add) T .lvalue

/-- `transform_reduce(ctx, in1, in2, init)`: passed on; `include/kwk/algorithm/algos/numeric.hpp:56-62`. -/
def transformReduceInitAcc (m : Mem α) (c1 c2 : Container) (init : β) (add : β → ρ → β) (mul : α → α → ρ) (g : GivenAs) : Copying β := do
  takeValue g
  transformReduceTAcc m c1 c2 init add mul .lvalue

/-- `inner_product(ctx, in1, in2, init, f1, f2)`; `include/kwk/algorithm/algos/numeric.hpp:91-101`. -/
def innerProductAcc (md : Mode) (m : Mem α) (c1 c2 : Container) (init : β) (f1 : β × Nat → ρ → β × Nat) (f2 : α → α → ρ) (g : GivenAs) :
    Copying β := do
  takeValue g
  fun n => innerProduct md m c1 c2 (init, n) f1 f2

/-- `inner_product(ctx, in1, in2, init)`: passed on; `include/kwk/algorithm/algos/numeric.hpp:109-115`. -/
def innerProductInitAcc (md : Mode) (m : Mem α) (c1 c2 : Container) (init : β) (add : β → ρ → β) (mul : α → α → ρ) (g : GivenAs) :
    Copying β := do
  takeValue g
  innerProductAcc md m c1 c2 init (accByValue add) mul .lvalue

/-- `fill(ctx, out, value)`: each element is assigned the value; `include/kwk/algorithm/algos/generator.hpp:19-23`. -/
def fillAcc (m : Mem α) (c : Container) (v : α) (g : GivenAs) : Copying (Mem α) := do
  takeValue g
  fun n => do
    let r ← mapCtx (fun o _ (n, m) => do
      let m ← store m o v
      pure (n + 1, m)) c [] n m
    pure (r.2, r.1)

/-- `iota(ctx, out, value)`: `value++` copies the value, and the copy is moved into the element;
`include/kwk/algorithm/algos/generator.hpp:46-52`. -/
def iotaAcc (m : Mem α) (c : Container) (incr : β → β) (conv : β → α) (v : β) (g : GivenAs) : Copying (Mem α) := do
  takeValue g
  fun n => do
    let r ← mapCtx (fun o _ (v, m) => do
      let m ← store m o (conv v.1)
      pure ((incr v.1, v.2 + 1), m)) c [] (v, n) m
    pure (r.2, r.1.2)

/-- `iota(ctx, out, value, step)`: `o = value` is a copy, `value += step` is not; `include/kwk/algorithm/algos/generator.hpp:76-81`. -/
def iotaStepAcc [Add β] (m : Mem α) (c : Container) (conv : β → α) (v step : β) (g : GivenAs) : Copying (Mem α) := do
  takeValue g
  fun n => do
    let r ← mapCtx (fun o _ (v, m) => do
      let m ← store m o (conv v.1)
      pure ((v.1 + step, v.2 + 1), m)) c [] (v, n) m
    pure (r.2, r.1.2)

/-- `replace_if(ctx, out, f, new_value)`: captured by `[=]`; `include/kwk/algorithm/algos/replace.hpp:16-20`. -/
def replaceIfAcc (m : Mem α) (c : Container) (f : α → Bool) (v : α) (g : GivenAs) : Copying (Mem α) := do
  takeValue g
  takeValue .lvalue
  fun n => do
    let r ← mapCtx (fun o _ (n, m) => do
      let w ← load m o
      if f w then do
        let m ← store m o v
        pure (n + 1, m)
      else pure (n, m)) c [] n m
    pure (r.2, r.1)

/-- `replace(ctx, out, old_value, new_value)`: the new value is passed on; `include/kwk/algorithm/algos/replace.hpp:28-32`. -/
def replaceAcc [DecidableEq α] (m : Mem α) (c : Container) (old v : α) (g : GivenAs) : Copying (Mem α) := do
  takeValue g
  replaceIfAcc m c (fun x => x = old) v .lvalue

/-- `transform_exclusive_scan(ctx, in, out, init, f1, f2)`: `auto sum = init` is a copy, and so is `o = sum`;
`include/kwk/algorithm/algos/numeric.hpp:142-147`. -/
def transformExclusiveAcc (m : Mem α) (inp out : Container) (init : α) (f1 : α × Nat → β → α × Nat) (f2 : α → β) (g : GivenAs) :
    Copying (Mem α) := do
  takeValue g
  takeValue .lvalue
  fun n => do
    let r ← mapCtx (fun i os (sum, m) => do
      let m ← store m (os.headD i) sum.1
      let v ← load m i
      pure (f1 (sum.1, sum.2 + 1) (f2 v), m)) inp [out] (init, n) m
    pure (r.2, r.1.2)

/-- `transform_inclusive_scan(ctx, in, out, init, f1, f2)`; `include/kwk/algorithm/algos/numeric.hpp:180-186`. -/
def transformInclusiveAcc (m : Mem α) (inp out : Container) (init : α) (f1 : α × Nat → β → α × Nat) (f2 : α → β) (g : GivenAs) :
    Copying (Mem α) := do
  takeValue g
  takeValue .lvalue
  fun n => do
    let r ← mapCtx (fun i os (sum, m) => do
      let v ← load m i
      let sum := f1 sum (f2 v)
      let m ← store m (os.headD i) sum.1
      pure ((sum.1, sum.2 + 1), m)) inp [out] (init, n) m
    pure (r.2, r.1.2)

/-- `exclusive_scan(ctx, in, out, init, f)` and `inclusive_scan(ctx, in, out, init, f)` for a scan of the two above: passed on;
`include/kwk/algorithm/algos/numeric.hpp:155-159, 194-198`. -/
def scanAcc (scan : (α × Nat → α → α × Nat) → GivenAs → Copying (Mem α)) (f : α × Nat → α → α × Nat) (g : GivenAs) : Copying (Mem α) := do
  takeValue g
  scan f .lvalue

/-- `exclusive_scan(ctx, in, out, init)` and `inclusive_scan(ctx, in, out, init)`: passed on again, with a function that takes values;
`include/kwk/algorithm/algos/numeric.hpp:167-171, 206-210`. -/
def scanSumAcc (scan : (α × Nat → α → α × Nat) → GivenAs → Copying (Mem α)) (add : α → α → α) (g : GivenAs) : Copying (Mem α) := do
  takeValue g
  scanAcc scan (accByValue add) .lvalue

/-- The algorithms with a value to store or accumulate; those without a value start from a new one, with or without a context;
`include/kwk/algorithm/algos/numeric.hpp:28-215` and the files cited above. -/
inductive Storing where
  | reduce (ctx : Bool) | reduceSum
  | transformReduce (ctx : Bool) | transformReduceT (ctx : Bool) | transformReduceInit (ctx : Bool) | transformReduceNone
  | innerProduct (ctx : Bool) | innerProductInit (ctx : Bool) | innerProductNone
  | fill (ctx : Bool) | iota (ctx : Bool) | iotaNone | iotaStep (ctx : Bool) | replaceIf (ctx : Bool) | replace (ctx : Bool)
  | transformExclusive (ctx : Bool) | exclusiveScan (ctx : Bool) | exclusiveSum (ctx : Bool)
  | transformInclusive (ctx : Bool) | inclusiveScan (ctx : Bool) | inclusiveSum (ctx : Bool)
  deriving DecidableEq, Repr

/-- A call on `c`, or from `c` to `o`, without its result; functions of the user and of the library are all `op`, the increment of
the value is `op old`, and the step of `iota` is `old`;
`include/kwk/algorithm/algos/numeric.hpp:28-215` and the files cited above. -/
def Storing.run [DecidableEq α] [Add α] (md : Mode) (m : Mem α) (c o : Container) (f : α → Bool) (op : α → α → α) (v old : α) (g : GivenAs) :
    Storing → Copying Unit
  | .reduce ctx => do let _ ← viaContext ctx (reduceAcc m c op v) g
  | .reduceSum => do let _ ← reduceSumAcc m c op v
  | .transformReduce ctx => do let _ ← viaContext ctx (transformReduceAcc m c c v (accByReference op) op) g
  | .transformReduceT ctx => do let _ ← viaContext ctx (transformReduceTAcc m c c v op op) g
  | .transformReduceInit ctx => do let _ ← viaContext ctx (transformReduceInitAcc m c c v op op) g
  | .transformReduceNone => do let _ ← transformReduceInitAcc m c c v op op .rvalue
  | .innerProduct ctx => do let _ ← viaContext ctx (innerProductAcc md m c c v (accByReference op) op) g
  | .innerProductInit ctx => do let _ ← viaContext ctx (innerProductInitAcc md m c c v op op) g
  | .innerProductNone => do let _ ← innerProductInitAcc md m c c v op op .rvalue
  | .fill ctx => do let _ ← viaContext ctx (fillAcc m c v) g
  | .iota ctx => do let _ ← viaContext ctx (iotaAcc m c (op old) (fun x => x) v) g
  | .iotaNone => do let _ ← iotaAcc m c (op old) (fun x => x) v .rvalue
  | .iotaStep ctx => do let _ ← viaContext ctx (iotaStepAcc m c (fun x => x) v old) g
  | .replaceIf ctx => do let _ ← viaContext ctx (replaceIfAcc m c f v) g
  | .replace ctx => do let _ ← viaContext ctx (replaceAcc m c old v) g
  | .transformExclusive ctx => do let _ ← viaContext ctx (transformExclusiveAcc m c o v (accByReference op) fun e => e) g
  | .exclusiveScan ctx => do
    let _ ← viaContext ctx (scanAcc (fun f => transformExclusiveAcc m c o v f fun e => e) (accByReference op)) g
  | .exclusiveSum ctx => do let _ ← viaContext ctx (scanSumAcc (fun f => transformExclusiveAcc m c o v f fun e => e) op) g
  | .transformInclusive ctx => do let _ ← viaContext ctx (transformInclusiveAcc m c o v (accByReference op) fun e => e) g
  | .inclusiveScan ctx => do
    let _ ← viaContext ctx (scanAcc (fun f => transformInclusiveAcc m c o v f fun e => e) (accByReference op)) g
  | .inclusiveSum ctx => do let _ ← viaContext ctx (scanSumAcc (fun f => transformInclusiveAcc m c o v f fun e => e) op) g

end Kwk
