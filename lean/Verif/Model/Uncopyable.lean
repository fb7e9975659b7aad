import Verif.Model.Identity

/-!
# Model: algorithms on elements that cannot be copied

Elements of a type without copy constructor (`std::unique_ptr`, a mutex) can be held by views and looked at.  A call compiles if no
function on the way of the element has a parameter of type `auto` that is initialised with it.
-/

namespace Kwk

variable {α : Type}

/-- The algorithms that only read; `include/kwk/algorithm/algos/predicates.hpp:27-83`, `include/kwk/algorithm/algos/find.hpp:34-198`,
`include/kwk/algorithm/algos/reduce.hpp:29-66`, `include/kwk/algorithm/algos/for_each.hpp:55-84`.  `find_first_of` is apart,
below.  For the searches in ordered containers see `OrderedSearch`. -/
inductive Reader where
  | allOf | anyOf | noneOf | count | countIf | find | findIf | findIfNot | findLast | findLastIf | findLastIfNot | reduce | reduceSum | forEach
  deriving DecidableEq, Repr

/-- How a parameter takes an element: `auto e`, or `auto const& i` and `auto&&`; e.g. `include/kwk/algorithm/algos/reduce.hpp:32, 59`. -/
inductive Passing where
  | value | reference
  deriving DecidableEq, Repr

/-- The parameters of the library's functions that an element goes through, from `c(is...)` on.
`reduce` itself takes it by reference (`include/kwk/algorithm/algos/reduce.hpp:32`), the predicates by value
(`include/kwk/algorithm/algos/predicates.hpp:30, 42, 54, 66, 78`), `find_if` uses `c(is...)` directly
(`include/kwk/algorithm/algos/find.hpp:46`), the other searches have a function that takes it by value
(`include/kwk/algorithm/algos/find.hpp:76, 90, 177, 191`); `for_each` gives `c0(is...)` to the function
(`include/kwk/algorithm/algos/for_each.hpp:58`). -/
def Reader.takes : Reader → List Passing
  | .allOf | .anyOf | .noneOf | .count | .countIf | .reduceSum => [.reference, .value]
  | .find | .findIfNot | .findLast | .findLastIfNot => [.value]
  | .reduce => [.reference]
  | .findIf | .findLastIf | .forEach => []

/-- A call with a function that takes references compiles, for elements that have a copy constructor or not: an `auto` parameter
initialised with an lvalue needs one; `include/kwk/algorithm/algos/predicates.hpp:30`. -/
def Reader.compiles (r : Reader) (copyable : Bool) : Bool :=
  r.takes.all fun p => p = .reference || copyable

/-- `find_last(out, value)`; `include/kwk/algorithm/algos/find.hpp:173-178`. -/
def findLastSeen [DecidableEq α] (m : Mem α) (c : Container) (value : α) : Watched (Option (List Int)) := do
  let r ← findSeen m (reverse c) value
  pure (r.map fun pos => c.shape.zipWith (fun d i => d - 1 - i) pos)

/-- `any_of(in, g)` with one of the library's functions; `include/kwk/algorithm/algos/predicates.hpp:39-43`. -/
def anyOfWith (m : Mem α) (c : Container) (g : Given × α → Watched Bool) : Watched Bool :=
  reduceM (refTo m c) (fun a x => do
    let e ← byValue x
    if a then pure true else g e) false c.shape

/-- `find_first_of(out, in)`; `include/kwk/algorithm/algos/find.hpp:100-110`. -/
def findFirstOfSeen [DecidableEq α] (m : Mem α) (out inp : Container) : Watched (Option (List Int)) :=
  findIfM (refTo m out) (fun x => do
    let e ← byValue x
    anyOfWith m inp fun y => do
      let x ← byValue y
      pure (decide (x.2 = e.2))) out.shape

/-- A call, without its result: `f` is the function of the user, `v` the value looked for; the functions of
`include/kwk/algorithm/algos/predicates.hpp:27-83`, `include/kwk/algorithm/algos/find.hpp:34-198`,
`include/kwk/algorithm/algos/reduce.hpp:29-66`, `include/kwk/algorithm/algos/for_each.hpp:55-84`. -/
def Reader.run [DecidableEq α] [Add α] [Zero α] (m : Mem α) (c : Container) (f : Given → α → Bool) (v : α) : Reader → Watched Unit
  | .allOf => do let _ ← allOfSeen m c f
  | .anyOf => do let _ ← anyOfSeen m c f
  | .noneOf => do let _ ← noneOfSeen m c f
  | .count => do let _ ← countSeen m c v
  | .countIf => do let _ ← countIfSeen m c f
  | .find => do let _ ← findSeen m c v
  | .findIf => do let _ ← findIfSeen m c f
  | .findIfNot => do let _ ← findIfNotSeen m c f
  | .findLast => do let _ ← findLastSeen m c v
  | .findLastIf => do let _ ← findLastIfSeen m c f
  | .findLastIfNot => do let _ ← findLastIfNotSeen m c f
  | .reduce => do let _ ← reduceSeen m c (fun a g x => a || f g x) false
  | .reduceSum => do let _ ← reduceSumSeen m c
  | .forEach => forEachSeen m c fun _ _ => ()

end Kwk
