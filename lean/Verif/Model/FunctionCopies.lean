import Verif.Model.ComparedValues
import Verif.Model.Effects

/-!
# Model: copies of the function given to an algorithm

The way of the user's function object through parameters and captured variables, as in `Model/ComparedValues` for values: copies are
counted, moves are not.  Lambdas of the library that refer to the function may be copied freely.  What the function does is as in
`Model/Algos`: without state, but for `for_each`.
-/

namespace Kwk

variable {α β φ ρ : Type}

/-- `all_of(ctx, in, f)`: captured by `[f]`; `include/kwk/algorithm/algos/predicates.hpp:27-31`. -/
def allOfFn (m : Mem α) (c : Container) (f : α → Bool) (g : GivenAs) : Copying Bool := do
  takeValue g
  takeValue .lvalue
  noCopies (allOf m c f)

/-- `any_of(ctx, in, f)`: captured by `[f]`; `include/kwk/algorithm/algos/predicates.hpp:39-43`. -/
def anyOfFn (m : Mem α) (c : Container) (f : α → Bool) (g : GivenAs) : Copying Bool := do
  takeValue g
  takeValue .lvalue
  noCopies (anyOf m c f)

/-- `none_of(ctx, in, f)`: passed on to `any_of`; `include/kwk/algorithm/algos/predicates.hpp:51-55`. -/
def noneOfFn (m : Mem α) (c : Container) (f : α → Bool) (g : GivenAs) : Copying Bool := do
  takeValue g
  let r ← anyOfFn m c f .lvalue
  pure (!r)

/-- `count_if(ctx, in, f)`: captured by `[f]`; `include/kwk/algorithm/algos/predicates.hpp:75-79`. -/
def countIfFn (m : Mem α) (c : Container) (f : α → Bool) (g : GivenAs) : Copying Nat := do
  takeValue g
  takeValue .lvalue
  noCopies (countIf m c f)

/-- `find_if(ctx, c, f)`: captured by `[&]`; `include/kwk/algorithm/algos/find.hpp:34-63`. -/
def findIfFn (m : Mem α) (c : Container) (f : α → Bool) (g : GivenAs) : Copying (Option (List Int)) := do
  takeValue g
  noCopies (findIf m c f)

/-- `find_if_not(ctx, out, f)`: captured by `[f]` in a lambda that is given up to `find_if`;
`include/kwk/algorithm/algos/find.hpp:86-91`. -/
def findIfNotFn (m : Mem α) (c : Container) (f : α → Bool) (g : GivenAs) : Copying (Option (List Int)) := do
  takeValue g
  takeValue .lvalue
  findIfFn m c (fun x => !f x) .rvalue

/-- `find_last_if(ctx, out, f)`: passed on to `find_if`; `include/kwk/algorithm/algos/find.hpp:121-164`. -/
def findLastIfFn (m : Mem α) (c : Container) (f : α → Bool) (g : GivenAs) : Copying (Option (List Int)) := do
  takeValue g
  let r ← findIfFn m (reverse c) f .lvalue
  pure (r.map fun pos => c.shape.zipWith (fun d i => d - 1 - i) pos)

/-- `find_last_if_not(ctx, out, f)`: captured by `[f]` in a lambda that is given up to `find_last_if`;
`include/kwk/algorithm/algos/find.hpp:187-192`. -/
def findLastIfNotFn (m : Mem α) (c : Container) (f : α → Bool) (g : GivenAs) : Copying (Option (List Int)) := do
  takeValue g
  takeValue .lvalue
  findLastIfFn m c (fun x => !f x) .rvalue

/-- `reduce(ctx, in, f, init)`: captured by `[&]`; `include/kwk/algorithm/algos/reduce.hpp:29-36`. -/
def reduceFn (m : Mem α) (c : Container) (op : β → α → β) (init : β) (g : GivenAs) : Copying β := do
  takeValue g
  noCopies (reduce m c op init)

/-- `reduce(ctx, in, f)`: passed on with `value_type{}`, here `zero`; `include/kwk/algorithm/algos/reduce.hpp:44-48`. -/
def reduceZeroFn (m : Mem α) (c : Container) (op : α → α → α) (zero : α) (g : GivenAs) : Copying α := do
  takeValue g
  reduceFn m c op zero .lvalue

/-- `copy_if(ctx, f, out, in)`: captured by `[f]`; `include/kwk/algorithm/algos/copy.hpp:34-39`. -/
def copyIfFn (m : Mem α) (f : α → Bool) (out inp : Container) (g : GivenAs) : Copying (Mem α) := do
  takeValue g
  takeValue .lvalue
  noCopies (copyIf m f out inp)

/-- `generate(ctx, f, out)`: captured by `[f]`; `include/kwk/algorithm/algos/generator.hpp:32-37`. -/
def generateFn (m : Mem α) (f : List Int → α) (c : Container) (g : GivenAs) : Copying (Mem α) := do
  takeValue g
  takeValue .lvalue
  noCopies (generate m f c)

/-- `replace_if(ctx, out, f, new_value)`: captured by `[=]`; `include/kwk/algorithm/algos/replace.hpp:16-20`. -/
def replaceIfFn (m : Mem α) (c : Container) (f : α → Bool) (v : α) (g : GivenAs) : Copying (Mem α) := do
  takeValue g
  takeValue .lvalue
  noCopies (replaceIf m c f v)

/-- The versions of these algorithms without a context: the function is a parameter, which is passed on as a variable; e.g.
`include/kwk/algorithm/algos/predicates.hpp:33-37`, `include/kwk/algorithm/algos/find.hpp:65-70, 93-98, 166-171, 194-199`,
`include/kwk/algorithm/algos/reduce.hpp:38-42, 50-54`, `include/kwk/algorithm/algos/copy.hpp:41-45`,
`include/kwk/algorithm/algos/generator.hpp:38-43`, `include/kwk/algorithm/algos/replace.hpp:22-26`. -/
def viaContext (ctx : Bool) (f : GivenAs → Copying ρ) (g : GivenAs) : Copying ρ :=
  if ctx then f g else do
    takeValue g
    f .lvalue

/-- `transform(ctx, f, out, c0, cs...)` and `transform(f, out, c0, cs...)`: references only;
`include/kwk/algorithm/algos/transform.hpp:16-33`. -/
def transformFn (m : Mem α) (f : List α → α) (out : Container) (ins : List Container) : Copying (Mem α) :=
  noCopies (transform m f out ins)

/-- `for_each(ctx, f, shape)` and `for_each(f, shape)`: forwarded to `ctx.map`, which passes its parameter on to `__::for_each`, which returns
its own; `include/kwk/algorithm/algos/for_each.hpp:25-29, 49-53`, `include/kwk/context/cpu/context.hpp:18-22`,
`include/kwk/detail/algorithm/for_each.hpp:24-40`. -/
def forEachShapeFn (ctx : Bool) (call : φ → List Int → Res φ) (f : φ) (shp : Shape) (g : GivenAs) : Copying (ForEachOutcome φ) := do
  takeValue g
  takeValue .lvalue
  noCopies (if ctx then forEachShapeCtx call f shp else forEachShape call f shp)

/-- `for_each(ctx, f, c0, cs...)` and `for_each(f, c0, cs...)`: references, then `return f`, which copies a variable and moves what is given
up (C++20, P1825); `include/kwk/algorithm/algos/for_each.hpp:55-60, 80-84`. -/
def forEachFn (call : φ → List Ptr → Mem α → Res (φ × Mem α)) (f : φ) (c0 : Container) (cs : List Container) (m : Mem α) (g : GivenAs) :
    Copying (ForEachOutcome φ × Mem α) := do
  let r ← noCopies (forEachElems call f c0 cs m)
  takeValue g
  pure r

/-- `for_each_index(ctx, f, c)`: references, then `return f`; `include/kwk/algorithm/algos/for_each.hpp:103-112`. -/
def forEachIndexCtxFn (call : φ → Ptr → List Int → Mem α → Res (φ × Mem α)) (f : φ) (c : Container) (m : Mem α) (g : GivenAs) :
    Copying (ForEachOutcome φ × Mem α) := do
  let r ← noCopies (forEachIndexCtx call f c m)
  takeValue g
  pure r

/-- `for_each_index(f, c)`: a parameter, passed on as a variable; `include/kwk/algorithm/algos/for_each.hpp:114-118`. -/
def forEachIndexFn (call : φ → Ptr → List Int → Mem α → Res (φ × Mem α)) (f : φ) (c : Container) (m : Mem α) (g : GivenAs) :
    Copying (ForEachOutcome φ × Mem α) := do
  takeValue g
  let r ← forEachIndexCtxFn call f c m .lvalue
  pure (⟨r.1.returned, f⟩, r.2)

/-- `lower_bound(ctx, out, value, func)`: called where it is; `include/kwk/algorithm/algos/binary_search.hpp:29-58`. -/
def lowerBoundFn (md : Mode) (m : Mem α) (c : Container) (v : α) (lt : α → α → Bool) (g : GivenAs) : Copying (Option (List Int)) := do
  takeValue g
  lowerBound md m c v (byReference lt)

/-- `upper_bound(ctx, out, value, func)`: called where it is; `include/kwk/algorithm/algos/binary_search.hpp:77-103`. -/
def upperBoundFn (md : Mode) (m : Mem α) (c : Container) (v : α) (lt : α → α → Bool) (g : GivenAs) : Copying (Option (List Int)) := do
  takeValue g
  upperBound md m c v (byReference lt)

/-- `binary_search(ctx, out, value, func)`: passed on to `lower_bound`; `include/kwk/algorithm/algos/binary_search.hpp:123-139`. -/
def binarySearchFn (md : Mode) (m : Mem α) (c : Container) (v : α) (lt : α → α → Bool) (g : GivenAs) : Copying Bool := do
  takeValue g
  match ← lowerBoundFn md m c v lt .lvalue with
  | none => pure false
  | some p => do
    let e ← (c.get m p : Res α)
    let r ← byReference lt v e
    pure (!r)

/-- `transform_reduce(ctx, in1, in2, init, R, T)`: captured by `[&]`; both functions are given in the same way;
`include/kwk/algorithm/algos/numeric.hpp:28-34`. -/
def transformReduceFn (m : Mem α) (c1 c2 : Container) (init : β) (R : β → ρ → β) (T : α → α → ρ) (g : GivenAs) : Copying β := do
  takeValue g
  takeValue g
  noCopies (transformReduce m c1 c2 init R T)

/-- `transform_reduce(ctx, in1, in2, init, T)`: passed on, with a sum of the library; `include/kwk/algorithm/algos/numeric.hpp:43-48`. -/
def transformReduceSumFn (m : Mem α) (c1 c2 : Container) (init : β) (R : β → ρ → β) (T : α → α → ρ) (g : GivenAs) : Copying β := do
  takeValue g
  takeValue .rvalue
  takeValue .lvalue
  noCopies (transformReduce m c1 c2 init R T)

/-- `inner_product(ctx, in1, in2, init, f1, f2)`: captured by `[&]`; `include/kwk/algorithm/algos/numeric.hpp:91-101`. -/
def innerProductFn (md : Mode) (m : Mem α) (c1 c2 : Container) (init : β) (f1 : β → ρ → β) (f2 : α → α → ρ) (g : GivenAs) : Copying β := do
  takeValue g
  takeValue g
  noCopies (innerProduct md m c1 c2 init f1 f2)

/-- `transform_exclusive_scan(ctx, in, out, init, f1, f2)`: captured by `[&]`; `include/kwk/algorithm/algos/numeric.hpp:142-147`. -/
def transformExclusiveFn (m : Mem α) (inp out : Container) (init : α) (f1 : α → β → α) (f2 : α → β) (g : GivenAs) : Copying (Mem α) := do
  takeValue g
  takeValue g
  noCopies (transformExclusiveScan m inp out init f1 f2)

/-- `transform_inclusive_scan(ctx, in, out, init, f1, f2)`: captured by `[&]`; `include/kwk/algorithm/algos/numeric.hpp:180-186`. -/
def transformInclusiveFn (m : Mem α) (inp out : Container) (init : α) (f1 : α → β → α) (f2 : α → β) (g : GivenAs) : Copying (Mem α) := do
  takeValue g
  takeValue g
  noCopies (transformInclusiveScan m inp out init f1 f2)

/-- `exclusive_scan(ctx, in, out, init, f)`: passed on; `include/kwk/algorithm/algos/numeric.hpp:155-159`. -/
def exclusiveScanFn (m : Mem α) (inp out : Container) (init : α) (f : α → α → α) (g : GivenAs) : Copying (Mem α) := do
  takeValue g
  takeValue .lvalue
  takeValue .rvalue
  noCopies (transformExclusiveScan m inp out init f fun e => e)

/-- `inclusive_scan(ctx, in, out, init, f)`: passed on; `include/kwk/algorithm/algos/numeric.hpp:194-198`. -/
def inclusiveScanFn (m : Mem α) (inp out : Container) (init : α) (f : α → α → α) (g : GivenAs) : Copying (Mem α) := do
  takeValue g
  takeValue .lvalue
  takeValue .rvalue
  noCopies (transformInclusiveScan m inp out init f fun e => e)

/-- The versions without a context of the algorithms with two functions; `include/kwk/algorithm/algos/numeric.hpp:36-40,
103-107, 149-153, 188-192`. -/
def viaContextTwo (ctx : Bool) (f : GivenAs → Copying ρ) (g : GivenAs) : Copying ρ :=
  if ctx then f g else do
    takeValue g
    takeValue g
    f .lvalue

/-- The algorithms that take a function, with a context or not; `include/kwk/algorithm/algos/for_each.hpp:25-118` and the files cited
above. -/
inductive Calling where
  | allOf (ctx : Bool) | anyOf (ctx : Bool) | noneOf (ctx : Bool) | countIf (ctx : Bool)
  | findIf (ctx : Bool) | findIfNot (ctx : Bool) | findLastIf (ctx : Bool) | findLastIfNot (ctx : Bool)
  | reduce (ctx init : Bool) | copyIf (ctx : Bool) | generate (ctx : Bool) | replaceIf (ctx : Bool)
  | transform (ctx : Bool) | forEachShape (ctx : Bool) | forEach (ctx : Bool) | forEachIndex (ctx : Bool)
  | lowerBound (ctx : Bool) | upperBound (ctx : Bool) | binarySearch (ctx : Bool)
  | transformReduce (ctx both : Bool) | innerProduct (ctx : Bool)
  | exclusiveScan (ctx transform : Bool) | inclusiveScan (ctx transform : Bool)
  deriving DecidableEq, Repr

/-- The number of places where a variable that holds the function is copied, in the code that a call instantiates; e.g.
`include/kwk/algorithm/algos/predicates.hpp:30, 36`. -/
def Calling.places : Calling → Nat
  | .findIf ctx | .lowerBound ctx | .upperBound ctx => if ctx then 0 else 1
  | .allOf ctx | .anyOf ctx | .countIf ctx | .findIfNot ctx | .findLastIf ctx | .copyIf ctx | .generate ctx | .replaceIf ctx
  | .binarySearch ctx | .transformReduce ctx false | .exclusiveScan ctx false | .inclusiveScan ctx false =>
    if ctx then 1 else 2
  | .noneOf ctx | .findLastIfNot ctx => if ctx then 2 else 3
  | .reduce ctx init => (if ctx then 0 else 1) + if init then 0 else 1
  | .innerProduct ctx | .transformReduce ctx true | .exclusiveScan ctx true | .inclusiveScan ctx true => if ctx then 0 else 2
  | .transform _ | .forEach _ => 0
  | .forEachShape _ => 1
  | .forEachIndex ctx => if ctx then 0 else 1

/-- The caller's function is copied or moved; only `transform` leaves it where it is; `include/kwk/algorithm/algos/transform.hpp:16-33`. -/
def Calling.takes : Calling → Bool
  | .transform _ => false
  | _ => true

/-- A call compiles, for a function object that has a copy constructor or only a move constructor; e.g.
`include/kwk/algorithm/algos/predicates.hpp:36`. -/
def Calling.compiles (s : Calling) (g : GivenAs) (copyable : Bool) : Bool :=
  copyable || (s.places = 0 && (!s.takes || g ≠ .lvalue))

/-- A call, without its result; the function given is `f`, `op`, `gen`, `tr`, `lt` or, to `for_each`, an object with state `st` that each call
changes by `step`; `include/kwk/algorithm/algos/for_each.hpp:25-118` and the files cited above. -/
def Calling.run (m : Mem α) (c : Container) (o : Container) (f : α → Bool) (op : α → α → α) (v : α) (gen : List Int → α)
    (tr : List α → α) (st : φ) (step : φ → φ) (lt : α → α → Bool) (md : Mode) (g : GivenAs) : Calling → Copying Unit
  | .allOf ctx => do let _ ← viaContext ctx (allOfFn m c f) g
  | .anyOf ctx => do let _ ← viaContext ctx (anyOfFn m c f) g
  | .noneOf ctx => do let _ ← viaContext ctx (noneOfFn m c f) g
  | .countIf ctx => do let _ ← viaContext ctx (countIfFn m c f) g
  | .findIf ctx => do let _ ← viaContext ctx (findIfFn m c f) g
  | .findIfNot ctx => do let _ ← viaContext ctx (findIfNotFn m c f) g
  | .findLastIf ctx => do let _ ← viaContext ctx (findLastIfFn m c f) g
  | .findLastIfNot ctx => do let _ ← viaContext ctx (findLastIfNotFn m c f) g
  | .reduce ctx true => do let _ ← viaContext ctx (reduceFn m c op v) g
  | .reduce ctx false => do let _ ← viaContext ctx (reduceZeroFn m c op v) g
  | .copyIf ctx => do let _ ← viaContext ctx (copyIfFn m f c c) g
  | .generate ctx => do let _ ← viaContext ctx (generateFn m gen c) g
  | .replaceIf ctx => do let _ ← viaContext ctx (replaceIfFn m c f v) g
  | .transform _ => do let _ ← transformFn m tr c [c]
  | .forEachShape ctx => do let _ ← forEachShapeFn ctx (fun s _ => .ok (step s)) st c.shape g
  | .forEach _ => do let _ ← forEachFn (fun s _ m => .ok (step s, m)) st c [] m g
  | .forEachIndex ctx => do
    let _ ← if ctx then forEachIndexCtxFn (fun s _ _ m => .ok (step s, m)) st c m g else forEachIndexFn (fun s _ _ m => .ok (step s, m)) st c m g
  | .lowerBound ctx => do let _ ← viaContext ctx (lowerBoundFn md m c v lt) g
  | .upperBound ctx => do let _ ← viaContext ctx (upperBoundFn md m c v lt) g
  | .binarySearch ctx => do let _ ← viaContext ctx (binarySearchFn md m c v lt) g
  | .transformReduce ctx true => do let _ ← viaContextTwo ctx (transformReduceFn m c c v op op) g
  | .transformReduce ctx false => do let _ ← viaContext ctx (transformReduceSumFn m c c v op op) g
  | .innerProduct ctx => do let _ ← viaContextTwo ctx (innerProductFn md m c c v op op) g
  | .exclusiveScan ctx true => do let _ ← viaContextTwo ctx (transformExclusiveFn m c o v op fun e => e) g
  | .exclusiveScan ctx false => do let _ ← viaContext ctx (exclusiveScanFn m c o v op) g
  | .inclusiveScan ctx true => do let _ ← viaContextTwo ctx (transformInclusiveFn m c o v op fun e => e) g
  | .inclusiveScan ctx false => do let _ ← viaContext ctx (inclusiveScanFn m c o v op) g

end Kwk
