import Verif.Model.FunctionObjects

/-!
# Model: function objects of the numeric algorithms

`include/kwk/algorithm/algos/numeric.hpp`: these algorithms take two functions, the same way.  The two objects are a pair; the functions
always answer.
-/

namespace Kwk

variable {α β γ σ τ : Type}

/-- The algorithms; `include/kwk/algorithm/algos/numeric.hpp:28-40, 91-107, 142-165, 181-204`. -/
inductive NumericWith where
  | transformReduce | innerProduct | transformExclusiveScan | exclusiveScan | transformInclusiveScan | inclusiveScan
  deriving DecidableEq, Repr

/-- The way of the functions: parameters by value, used by a function that captures references (`include/kwk/algorithm/algos/numeric.hpp:29-32,
92-99, 143-146, 182-186`); `exclusive_scan` and `inclusive_scan` pass theirs on (`156-158, 195-197`), as do the forms without context
(`37-39, 104-106, 150-152, 162-164, 190-192, 201-203`). -/
def NumericWith.way (a : NumericWith) (ctx : Bool) : List Hold :=
  (if ctx then [] else [.byValue]) ++
    match a with
    | .exclusiveScan | .inclusiveScan => [.byValue, .byValue, .byReference]
    | _ => [.byValue, .byReference]

/-- `transform_reduce(in1, in2, init, R, T)`; `include/kwk/algorithm/algos/numeric.hpp:28-40`. -/
def transformReduceBy (ctx constOp : Bool) (m : Mem α) (c1 c2 : Container) (init : β) (R : σ → β → γ → β × σ) (T : τ → α → α → γ × τ) :
    σ × τ → Option (Res (β × σ × τ)) :=
  withObject (NumericWith.transformReduce.way ctx) constOp fun st => do
    let r ← mapCtx (fun i1 ins ((init, s, t), m) => do
      let v1 ← load m i1
      let v2 ← load m (ins.headD i1)
      let d := T t v1 v2
      let a := R s init d.1
      pure ((a.1, a.2, d.2), m)) c1 [c2] (init, st) m
    pure r.1

/-- `inner_product(in1, in2, init, f1, f2)`; `include/kwk/algorithm/algos/numeric.hpp:91-107`. -/
def innerProductBy (ctx constOp : Bool) (md : Mode) (m : Mem α) (c1 c2 : Container) (init : β) (f1 : σ → β → γ → β × σ)
    (f2 : τ → α → α → γ × τ) : σ × τ → Option (Res (β × σ × τ)) :=
  withObject (NumericWith.innerProduct.way ctx) constOp fun st => do
    kwkAssert md (shapeEq c1.shape c2.shape)
    let r ← mapCtx (fun i1 ins ((init, s, t), m) => do
      let v1 ← load m i1
      let v2 ← load m (ins.headD i1)
      let d := f2 t v1 v2
      let a := f1 s init d.1
      pure ((a.1, a.2, d.2), m)) c1 [c2] (init, st) m
    pure r.1

/-- The loop of `transform_exclusive_scan`; `include/kwk/algorithm/algos/numeric.hpp:145-146`: writes, then reads. -/
def exclusiveLoop (m : Mem α) (inp out : Container) (init : α) (f1 : σ → α → γ → α × σ) (f2 : τ → α → γ × τ) (st : σ × τ) :
    Res (Mem α × σ × τ) := do
  let r ← mapCtx (fun i os ((sum, s, t), m) => do
    let m ← store m (os.headD i) sum
    let v ← load m i
    let d := f2 t v
    let a := f1 s sum d.1
    pure ((a.1, a.2, d.2), m)) inp [out] (init, st) m
  pure (r.2, r.1.2)

/-- The loop of `transform_inclusive_scan`; `include/kwk/algorithm/algos/numeric.hpp:185-186`: reads, then writes. -/
def inclusiveLoop (m : Mem α) (inp out : Container) (init : α) (f1 : σ → α → γ → α × σ) (f2 : τ → α → γ × τ) (st : σ × τ) :
    Res (Mem α × σ × τ) := do
  let r ← mapCtx (fun i os ((sum, s, t), m) => do
    let v ← load m i
    let d := f2 t v
    let a := f1 s sum d.1
    let m ← store m (os.headD i) a.1
    pure ((a.1, a.2, d.2), m)) inp [out] (init, st) m
  pure (r.2, r.1.2)

/-- `transform_exclusive_scan(in, out, init, f1, f2)`; `include/kwk/algorithm/algos/numeric.hpp:142-153`. -/
def transformExclusiveScanBy (ctx constOp : Bool) (m : Mem α) (inp out : Container) (init : α) (f1 : σ → α → γ → α × σ)
    (f2 : τ → α → γ × τ) : σ × τ → Option (Res (Mem α × σ × τ)) :=
  withObject (NumericWith.transformExclusiveScan.way ctx) constOp (exclusiveLoop m inp out init f1 f2)

/-- `transform_inclusive_scan(in, out, init, f1, f2)`; `include/kwk/algorithm/algos/numeric.hpp:181-193`. -/
def transformInclusiveScanBy (ctx constOp : Bool) (m : Mem α) (inp out : Container) (init : α) (f1 : σ → α → γ → α × σ)
    (f2 : τ → α → γ × τ) : σ × τ → Option (Res (Mem α × σ × τ)) :=
  withObject (NumericWith.transformInclusiveScan.way ctx) constOp (inclusiveLoop m inp out init f1 f2)

/-- `exclusive_scan(in, out, init, f)`: the second function is the library's; `include/kwk/algorithm/algos/numeric.hpp:155-165`. -/
def exclusiveScanBy (ctx constOp : Bool) (m : Mem α) (inp out : Container) (init : α) (f : σ → α → α → α × σ) :
    σ × Unit → Option (Res (Mem α × σ × Unit)) :=
  withObject (NumericWith.exclusiveScan.way ctx) constOp (exclusiveLoop m inp out init f fun _ e => (e, ()))

/-- `inclusive_scan(in, out, init, f)`; `include/kwk/algorithm/algos/numeric.hpp:194-204`. -/
def inclusiveScanBy (ctx constOp : Bool) (m : Mem α) (inp out : Container) (init : α) (f : σ → α → α → α × σ) :
    σ × Unit → Option (Res (Mem α × σ × Unit)) :=
  withObject (NumericWith.inclusiveScan.way ctx) constOp (inclusiveLoop m inp out init f fun _ e => (e, ()))

end Kwk
