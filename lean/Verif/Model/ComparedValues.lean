import Verif.Model.Search

/-!
# Model: copies of a value that is only compared

The value of `find`, `find_last`, `count`, the searches in ordered containers and the old value of `replace` is only compared with
elements.  Here its way through parameters and captured variables is followed, and its copies are counted.  Moves are not counted;
copies of elements and of the new value of `replace` are not either.  A function given by the user takes references.

Paths are relative to `include/kwk/algorithm/algos`.
-/

namespace Kwk

variable {α ρ : Type}

/-- How an argument is given to a parameter that takes it by value: a variable is copied, an object that is given up (`std::move`) or
just made is moved or needs neither; e.g. `include/kwk/algorithm/algos/find.hpp:74, 81-83`. -/
inductive GivenAs where
  | lvalue | rvalue
  deriving DecidableEq, Repr

/-- Computations that count copies of the value; bodies of the functions of `include/kwk/algorithm/algos/find.hpp:72-84` and others. -/
abbrev Copying := StateT Nat Res

/-- A parameter, or a variable captured by copy, is initialised; e.g. `include/kwk/algorithm/algos/find.hpp:74`. -/
def takeValue (g : GivenAs) : Copying Unit := fun n => .ok ((), if g = .lvalue then n + 1 else n)

/-- Work that copies no value, e.g. `find_if` with a lambda that refers to the value; `include/kwk/algorithm/algos/find.hpp:76`. -/
def noCopies (r : Res ρ) : Copying ρ := fun n => do
  let x ← r
  pure (x, n)

/-- `find(ctx, out, value)`: the lambda captures by reference; `include/kwk/algorithm/algos/find.hpp:72-77`. -/
def findCtxVal [DecidableEq α] (m : Mem α) (c : Container) (v : α) (g : GivenAs) : Copying (Option (List Int)) := do
  takeValue g
  noCopies (find m c v)

/-- `find(out, value)`; `include/kwk/algorithm/algos/find.hpp:79-84`. -/
def findVal [DecidableEq α] (m : Mem α) (c : Container) (v : α) (g : GivenAs) : Copying (Option (List Int)) := do
  takeValue g
  findCtxVal m c v .lvalue

/-- `find_last(ctx, out, value)`: the lambda captures by reference; `include/kwk/algorithm/algos/find.hpp:173-178`. -/
def findLastCtxVal [DecidableEq α] (m : Mem α) (c : Container) (v : α) (g : GivenAs) : Copying (Option (List Int)) := do
  takeValue g
  noCopies (findLast m c v)

/-- `find_last(out, value)`; `include/kwk/algorithm/algos/find.hpp:180-185`. -/
def findLastVal [DecidableEq α] (m : Mem α) (c : Container) (v : α) (g : GivenAs) : Copying (Option (List Int)) := do
  takeValue g
  findLastCtxVal m c v .lvalue

/-- `count(ctx, in, value)`: `[value]` captures a copy; the function object is given to `reduce` as it is made, and `reduce` refers to
it; `include/kwk/algorithm/algos/predicates.hpp:63-67`, `include/kwk/algorithm/algos/reduce.hpp:29-36`. -/
def countCtxVal [DecidableEq α] (m : Mem α) (c : Container) (v : α) (g : GivenAs) : Copying Nat := do
  takeValue g
  takeValue .lvalue
  noCopies (count m c v)

/-- `count(in, value)`; `include/kwk/algorithm/algos/predicates.hpp:69-73`. -/
def countVal [DecidableEq α] (m : Mem α) (c : Container) (v : α) (g : GivenAs) : Copying Nat := do
  takeValue g
  countCtxVal m c v .lvalue

/-- `replace_if(ctx, out, f, new_value)` for a function object `f` with a copy of the value, just made: `[=]` copies `f`;
`include/kwk/algorithm/algos/replace.hpp:16-20`. -/
def replaceIfVal [DecidableEq α] (m : Mem α) (c : Container) (old new : α) : Copying (Mem α) := do
  takeValue .rvalue
  takeValue .lvalue
  noCopies (replaceIf m c (fun x => x = old) new)

/-- `replace(ctx, out, old_value, new_value)`: `[old_value]` captures a copy; `include/kwk/algorithm/algos/replace.hpp:28-32`. -/
def replaceCtxVal [DecidableEq α] (m : Mem α) (c : Container) (old new : α) (g : GivenAs) : Copying (Mem α) := do
  takeValue g
  takeValue .lvalue
  replaceIfVal m c old new

/-- `replace(out, old_value, new_value)`; `include/kwk/algorithm/algos/replace.hpp:34-38`. -/
def replaceVal [DecidableEq α] (m : Mem α) (c : Container) (old new : α) (g : GivenAs) : Copying (Mem α) := do
  takeValue g
  replaceCtxVal m c old new .lvalue

/-- An order of the user, which takes references; the argument `func` of `include/kwk/algorithm/algos/binary_search.hpp:31`. -/
def byReference (lt : α → α → Bool) : α → α → Copying Bool := fun a b => pure (lt a b)

/-- The order of the library, `[](auto e, auto i){return e<i;}`, one of whose parameters is a copy of the value;
`include/kwk/algorithm/algos/binary_search.hpp:68, 114, 149`. -/
def byCopies (lt : α → α → Bool) : α → α → Copying Bool := fun a b => do
  takeValue .lvalue
  pure (lt a b)

/-- `lower_bound(ctx, out, value, func)`; `include/kwk/algorithm/algos/binary_search.hpp:29-58`. -/
def lowerCtxVal (md : Mode) (m : Mem α) (c : Container) (v : α) (g : GivenAs) (func : α → α → Copying Bool) :
    Copying (Option (List Int)) := do
  takeValue g
  lowerBound md m c v func

/-- `upper_bound(ctx, out, value, func)`; `include/kwk/algorithm/algos/binary_search.hpp:77-103`. -/
def upperCtxVal (md : Mode) (m : Mem α) (c : Container) (v : α) (g : GivenAs) (func : α → α → Copying Bool) :
    Copying (Option (List Int)) := do
  takeValue g
  upperBound md m c v func

/-- `binary_search(ctx, out, value, func)`; `include/kwk/algorithm/algos/binary_search.hpp:123-139`. -/
def binaryCtxVal (md : Mode) (m : Mem α) (c : Container) (v : α) (g : GivenAs) (func : α → α → Copying Bool) : Copying Bool := do
  takeValue g
  match ← lowerCtxVal md m c v .lvalue func with
  | none => pure false
  | some p => do
    let e ← (c.get m p : Res α)
    let r ← func v e
    pure (!r)

/-- The ways to call an ordered search, given the version `f` with a context and an order: `(ctx, out, value, func)`,
`(out, value, func)`, `(ctx, out, value)` and `(out, value)`, each of which calls another one with its own variable `value`;
`include/kwk/algorithm/algos/binary_search.hpp:59-74, 104-120, 140-155`. -/
def orderedVal (f : GivenAs → (α → α → Copying Bool) → Copying ρ) (lt : α → α → Bool) (ctx order : Bool) (g : GivenAs) : Copying ρ :=
  match ctx, order with
  | true, true => f g (byReference lt)
  | false, true => do
    takeValue g
    f .lvalue (byReference lt)
  | true, false => do
    takeValue g
    f .lvalue (byCopies lt)
  | false, false => do
    takeValue g
    takeValue .lvalue
    f .lvalue (byCopies lt)

/-- The algorithms that only compare a value, with a context or not and with an order or not;
`include/kwk/algorithm/algos/find.hpp:72-84, 173-185`, `include/kwk/algorithm/algos/predicates.hpp:63-73`,
`include/kwk/algorithm/algos/replace.hpp:28-38`, `include/kwk/algorithm/algos/binary_search.hpp:29-155`. -/
inductive Comparing where
  | find (ctx : Bool) | findLast (ctx : Bool) | count (ctx : Bool) | replace (ctx : Bool)
  | lowerBound (ctx order : Bool) | upperBound (ctx order : Bool) | binarySearch (ctx order : Bool)
  deriving DecidableEq, Repr

/-- Where a variable with the value is copied: passed on to the version with a context, captured by a lambda, copied with a lambda, passed on to
the version with an order, taken by the order of the library, passed on to `lower_bound`; e.g.
`include/kwk/algorithm/algos/binary_search.hpp:68, 73, 128`, `include/kwk/algorithm/algos/replace.hpp:19, 31`. -/
inductive CopiedFor where
  | context | capture | lambda | order | comparison | lower
  deriving DecidableEq, Repr

/-- The copies in the code that a call instantiates; e.g. `include/kwk/algorithm/algos/binary_search.hpp:68, 73`. -/
def Comparing.copied : Comparing → List CopiedFor
  | .find ctx | .findLast ctx => if ctx then [] else [.context]
  | .count ctx => (if ctx then [] else [.context]) ++ [.capture]
  | .replace ctx => (if ctx then [] else [.context]) ++ [.capture, .lambda]
  | .lowerBound ctx order | .upperBound ctx order => (if ctx then [] else [.context]) ++ (if order then [] else [.order, .comparison])
  | .binarySearch ctx order =>
    (if ctx then [] else [.context]) ++ (if order then [] else [.order, .comparison]) ++ [.lower]

/-- A call compiles, for a value that has a copy constructor or only a move constructor; e.g.
`include/kwk/algorithm/algos/find.hpp:81-83`. -/
def Comparing.compiles (s : Comparing) (g : GivenAs) (copyable : Bool) : Bool :=
  copyable || (s.copied.isEmpty && g ≠ .lvalue)

/-- A call, without its result; `new` is the new value of `replace`; `include/kwk/algorithm/algos/binary_search.hpp:29-155`,
`include/kwk/algorithm/algos/find.hpp:72-84, 173-185`, `include/kwk/algorithm/algos/predicates.hpp:63-73`,
`include/kwk/algorithm/algos/replace.hpp:28-38`. -/
def Comparing.run [DecidableEq α] (md : Mode) (m : Mem α) (c : Container) (v new : α) (lt : α → α → Bool) (g : GivenAs) :
    Comparing → Copying Unit
  | .find ctx => do let _ ← if ctx then findCtxVal m c v g else findVal m c v g
  | .findLast ctx => do let _ ← if ctx then findLastCtxVal m c v g else findLastVal m c v g
  | .count ctx => do let _ ← if ctx then countCtxVal m c v g else countVal m c v g
  | .replace ctx => do let _ ← if ctx then replaceCtxVal m c v new g else replaceVal m c v new g
  | .lowerBound ctx order => do let _ ← orderedVal (lowerCtxVal md m c v) lt ctx order g
  | .upperBound ctx order => do let _ ← orderedVal (upperCtxVal md m c v) lt ctx order g
  | .binarySearch ctx order => do let _ ← orderedVal (binaryCtxVal md m c v) lt ctx order g

end Kwk
