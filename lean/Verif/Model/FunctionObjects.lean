import Verif.Model.Effects
import Verif.Model.Search

/-!
# Model: function objects with state of their own

A function object may count its calls, as `[n = 0](auto x) mutable { return ++n == 3; }` does.  Its call operator is not const, and the
state is in the object: it matters which object is called.  Algorithms take the object by reference or by value, and their own functions
capture it by reference or by copy; a copy captured by a function that is not `mutable` is const.
-/

namespace Kwk

variable {α β σ : Type}

/-- How a function object is taken on its way from the caller to the call. -/
inductive Hold where
  /-- a parameter `Func&& f`, or a capture `[&]`; `include/kwk/algorithm/algos/transform.hpp:19-21` -/
  | byReference
  /-- a parameter `Func f`; `include/kwk/algorithm/algos/find.hpp:37`.  After a capture: a copy of the function that holds it. -/
  | byValue
  /-- a capture `[f]` or `[=]` of a function that is not `mutable`; `include/kwk/algorithm/algos/predicates.hpp:30` -/
  | captured
  deriving DecidableEq, Repr

/-- The objects around while an algorithm of `include/kwk/algorithm/algos` runs. -/
structure Held (σ : Type) where
  /-- the caller's object -/
  caller : σ
  /-- the object in use, if it is another one -/
  own : Option σ
  /-- the object in use is const -/
  isConst : Bool

/-- The object that is called; e.g. `f` in `include/kwk/algorithm/algos/find.hpp:46`. -/
def Held.object (h : Held σ) : σ := h.own.getD h.caller

/-- One step on the way; e.g. `include/kwk/algorithm/algos/predicates.hpp:28, 30, 34`. -/
def Hold.take (h : Held σ) : Hold → Held σ
  | .byReference => h
  | .byValue => { h with own := some h.object }
  | .captured => { h with own := some h.object, isConst := true }

/-- The algorithms with a function; `include/kwk/algorithm/algos/predicates.hpp:27-83`, `include/kwk/algorithm/algos/find.hpp:34-198`,
`include/kwk/algorithm/algos/reduce.hpp:29-42`, `include/kwk/algorithm/algos/transform.hpp:16-33`,
`include/kwk/algorithm/algos/generator.hpp:32-43`, `include/kwk/algorithm/algos/copy.hpp:34-45`,
`include/kwk/algorithm/algos/replace.hpp:16-26`, `include/kwk/algorithm/algos/binary_search.hpp:29-144`.  Elsewhere: `for_each`
(`Model/Effects`) and the numeric algorithms (`Model/FunctionPairs`). -/
inductive WithFunction where
  | allOf | anyOf | noneOf | countIf | findIf | findIfNot | findLastIf | findLastIfNot | reduce | transform | generate | copyIf | replaceIf
  | lowerBound | upperBound | binarySearch
  deriving DecidableEq, Repr

/-- The way of the function object in the form with a context: `Func f` and `[f]` in
`include/kwk/algorithm/algos/predicates.hpp:28-30`, to `reduce(…, Func f, …)` (`include/kwk/algorithm/algos/reduce.hpp:30-32`);
`none_of` passes it to `any_of` (`include/kwk/algorithm/algos/predicates.hpp:52-54`); `find_if` uses its parameter
(`include/kwk/algorithm/algos/find.hpp:37-46`), `find_if_not` captures it in a function given to `find_if`
(`include/kwk/algorithm/algos/find.hpp:88-90`), the others to or through `find_last_if`
(`include/kwk/algorithm/algos/find.hpp:123-125, 189-191`); `include/kwk/algorithm/algos/transform.hpp:19-21`;
`include/kwk/algorithm/algos/generator.hpp:33-36`; `include/kwk/algorithm/algos/copy.hpp:35-38`;
`include/kwk/algorithm/algos/replace.hpp:17-19`; `include/kwk/algorithm/algos/binary_search.hpp:31, 78, 124`. -/
def WithFunction.wayCtx : WithFunction → List Hold
  | .allOf | .anyOf | .countIf => [.byValue, .captured, .byValue, .byReference]
  | .noneOf => [.byValue, .byValue, .captured, .byValue, .byReference]
  | .findIf => [.byValue, .byReference]
  | .findIfNot => [.byValue, .captured, .byValue, .byReference]
  | .findLastIf => [.byValue, .byValue, .byReference]
  | .findLastIfNot => [.byValue, .captured, .byValue, .byValue, .byReference]
  | .reduce => [.byValue, .byReference]
  | .transform => [.byReference, .byReference]
  | .generate | .copyIf | .replaceIf => [.byValue, .captured, .byValue, .byReference]
  | .lowerBound | .upperBound | .binarySearch => [.byValue]

/-- The way of the function object: the forms without context take it by value once more (`transform`: by reference);
`include/kwk/algorithm/algos/predicates.hpp:34, 46, 58, 82`, `include/kwk/algorithm/algos/find.hpp:67, 95, 168, 196`,
`include/kwk/algorithm/algos/reduce.hpp:39`, `include/kwk/algorithm/algos/transform.hpp:29-31`,
`include/kwk/algorithm/algos/generator.hpp:39`, `include/kwk/algorithm/algos/copy.hpp:42`,
`include/kwk/algorithm/algos/replace.hpp:23`, `include/kwk/algorithm/algos/binary_search.hpp:60, 105, 141`. -/
def WithFunction.way (a : WithFunction) (ctx : Bool) : List Hold :=
  if ctx then a.wayCtx else (if a = .transform then .byReference else .byValue) :: a.wayCtx

/-- A call: `none` if the call operator is not const (`constOp = false`) but the object is, which does not compile.  The result has the
caller's object after the call; e.g. `include/kwk/algorithm/algos/reduce.hpp:29-42`. -/
def withObject (way : List Hold) (constOp : Bool) (body : StateT σ Res β) (s : σ) : Option (Res (β × σ)) :=
  let h := way.foldl Hold.take ⟨s, none, false⟩
  if h.isConst && !constOp then none
  else some do
    let r ← body h.object
    pure (r.1, if h.own.isSome then h.caller else r.2)

/-- `c(is...)`, beside the function object; `include/kwk/container/container.hpp:128-138`. -/
def elemOf (m : Mem α) (c : Container) (is : List Int) : StateT σ Res α := (c.get m is : Res α)

/-- `reduce(in, f, init)`; `include/kwk/algorithm/algos/reduce.hpp:29-42`. -/
def reduceBy (ctx constOp : Bool) (m : Mem α) (c : Container) (f : β → α → StateT σ Res β) (init : β) : σ → Option (Res (β × σ)) :=
  withObject (WithFunction.reduce.way ctx) constOp (reduceM (elemOf m c) f init c.shape)

/-- `find_if(c, f)`; `include/kwk/algorithm/algos/find.hpp:34-70`. -/
def findIfBy (ctx constOp : Bool) (m : Mem α) (c : Container) (f : α → StateT σ Res Bool) : σ → Option (Res (Option (List Int) × σ)) :=
  withObject (WithFunction.findIf.way ctx) constOp (findIfM (elemOf m c) f c.shape)

/-- `find_last_if(c, f)`; `include/kwk/algorithm/algos/find.hpp:121-171`. -/
def findLastIfBy (ctx constOp : Bool) (m : Mem α) (c : Container) (f : α → StateT σ Res Bool) : σ → Option (Res (Option (List Int) × σ)) :=
  withObject (WithFunction.findLastIf.way ctx) constOp do
    let r ← findIfM (elemOf m (reverse c)) f c.shape
    pure (r.map fun pos => c.shape.zipWith (fun d i => d - 1 - i) pos)

/-- `find_if_not(c, f)`; `include/kwk/algorithm/algos/find.hpp:86-98`. -/
def findIfNotBy (ctx constOp : Bool) (m : Mem α) (c : Container) (f : α → StateT σ Res Bool) : σ → Option (Res (Option (List Int) × σ)) :=
  withObject (WithFunction.findIfNot.way ctx) constOp (findIfM (elemOf m c) (fun x => do
    let b ← f x
    pure !b) c.shape)

/-- `all_of(c, f)`; `include/kwk/algorithm/algos/predicates.hpp:27-37`. -/
def allOfBy (ctx constOp : Bool) (m : Mem α) (c : Container) (f : α → StateT σ Res Bool) : σ → Option (Res (Bool × σ)) :=
  withObject (WithFunction.allOf.way ctx) constOp (allOfM (elemOf m c) f c.shape)

/-- `any_of(c, f)`; `include/kwk/algorithm/algos/predicates.hpp:39-49`. -/
def anyOfBy (ctx constOp : Bool) (m : Mem α) (c : Container) (f : α → StateT σ Res Bool) : σ → Option (Res (Bool × σ)) :=
  withObject (WithFunction.anyOf.way ctx) constOp (anyOfM (elemOf m c) f c.shape)

/-- `none_of(c, f)`; `include/kwk/algorithm/algos/predicates.hpp:51-61`. -/
def noneOfBy (ctx constOp : Bool) (m : Mem α) (c : Container) (f : α → StateT σ Res Bool) : σ → Option (Res (Bool × σ)) :=
  withObject (WithFunction.noneOf.way ctx) constOp (noneOfM (elemOf m c) f c.shape)

/-- `count_if(c, f)`; `include/kwk/algorithm/algos/predicates.hpp:75-85`. -/
def countIfBy (ctx constOp : Bool) (m : Mem α) (c : Container) (f : α → StateT σ Res Bool) : σ → Option (Res (Nat × σ)) :=
  withObject (WithFunction.countIf.way ctx) constOp (countIfM (elemOf m c) f c.shape)

/-- `transform(f, out, in...)`; the result has the memory; `include/kwk/algorithm/algos/transform.hpp:16-33`. -/
def transformBy (ctx constOp : Bool) (m : Mem α) (f : σ → List α → Res (α × σ)) (out : Container) (ins : List Container) :
    σ → Option (Res (Mem α × σ)) :=
  withObject (WithFunction.transform.way ctx) constOp fun s => do
    let r ← transformS m f s out ins
    pure (r.2, r.1)

/-- `generate(f, out)`; the result has the memory; `include/kwk/algorithm/algos/generator.hpp:32-43`. -/
def generateBy (ctx constOp : Bool) (m : Mem α) (f : σ → List Int → Res (α × σ)) (out : Container) : σ → Option (Res (Mem α × σ)) :=
  withObject (WithFunction.generate.way ctx) constOp fun s => do
    let r ← generateS m f s out
    pure (r.2, r.1)

/-- `binary_search(out, value, func)`: `lower_bound` is given a copy of `func`, and the last question is asked to `func` itself;
`include/kwk/algorithm/algos/binary_search.hpp:123-144`. -/
def binarySearchBy (ctx constOp : Bool) (md : Mode) (m : Mem α) (c : Container) (value : α) (func : α → α → StateT σ Res Bool) :
    σ → Option (Res (Bool × σ)) :=
  withObject (WithFunction.binarySearch.way ctx) constOp fun s => do
    let first ← lowerBound md m c value func s
    match first.1 with
    | none => pure (false, s)
    | some p => do
      let e ← c.get m p
      let r ← func value e s
      pure (!r.1, r.2)

/-- `find_last_if_not(c, f)`; `include/kwk/algorithm/algos/find.hpp:186-198`. -/
def findLastIfNotBy (ctx constOp : Bool) (m : Mem α) (c : Container) (f : α → StateT σ Res Bool) :
    σ → Option (Res (Option (List Int) × σ)) :=
  withObject (WithFunction.findLastIfNot.way ctx) constOp do
    let r ← findIfM (elemOf m (reverse c)) (fun x => do
      let b ← f x
      pure !b) c.shape
    pure (r.map fun pos => c.shape.zipWith (fun d i => d - 1 - i) pos)

/-- `copy_if(func, out, in)`; the result has the memory; `include/kwk/algorithm/algos/copy.hpp:34-45`. -/
def copyIfBy (ctx constOp : Bool) (m : Mem α) (f : σ → α → Res (Bool × σ)) (out inp : Container) : σ → Option (Res (Mem α × σ)) :=
  withObject (WithFunction.copyIf.way ctx) constOp fun s => do
    let r ← mapCtx (fun o is (s, m) => do
      let v ← load m (is.headD o)
      let b ← f s v
      if b.1 then do
        let m ← store m o v
        pure (b.2, m)
      else pure (b.2, m)) out [inp] s m
    pure (r.2, r.1)

/-- `replace_if(out, func, new_value)`; the result has the memory; `include/kwk/algorithm/algos/replace.hpp:16-26`. -/
def replaceIfBy (ctx constOp : Bool) (m : Mem α) (c : Container) (f : σ → α → Res (Bool × σ)) (newValue : α) :
    σ → Option (Res (Mem α × σ)) :=
  withObject (WithFunction.replaceIf.way ctx) constOp fun s => do
    let r ← mapCtx (fun o _ (s, m) => do
      let v ← load m o
      let b ← f s v
      if b.1 then do
        let m ← store m o newValue
        pure (b.2, m)
      else pure (b.2, m)) c [] s m
    pure (r.2, r.1)

/-- `lower_bound(out, value, func)`; `include/kwk/algorithm/algos/binary_search.hpp:29-65`. -/
def lowerBoundBy (ctx constOp : Bool) (md : Mode) (m : Mem α) (c : Container) (value : α) (func : α → α → StateT σ Res Bool) :
    σ → Option (Res (Option (List Int) × σ)) :=
  withObject (WithFunction.lowerBound.way ctx) constOp (lowerBound md m c value func)

/-- `upper_bound(out, value, func)`; `include/kwk/algorithm/algos/binary_search.hpp:77-110`. -/
def upperBoundBy (ctx constOp : Bool) (md : Mode) (m : Mem α) (c : Container) (value : α) (func : α → α → StateT σ Res Bool) :
    σ → Option (Res (Option (List Int) × σ)) :=
  withObject (WithFunction.upperBound.way ctx) constOp (upperBound md m c value func)

end Kwk
