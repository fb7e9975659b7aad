import Verif.Model.Uncopyable
import Verif.Model.Search

/-!
# Model: what the order of an ordered search is given

`include/kwk/algorithm/algos/binary_search.hpp`.  With a function of the user, `func(out(pos), value)` is given a reference; without,
the library's `[](auto e, auto i){return e<i;}` takes copies.  The value looked for is of a type of its own that can be
copied; its copies are not recorded.
-/

namespace Kwk

variable {α : Type}

/-- The memory, where each element is accompanied by its address: what `out(pos)` refers to, see `refTo`;
`include/kwk/algorithm/algos/binary_search.hpp:48, 93`. -/
def seenMemory (m : Mem α) : Mem (Ptr × α) := fun p => (m p).map fun v => (p, v)

/-- `lower_bound(out, value, func)`, where `f` is `func` with this value as second argument;
`include/kwk/algorithm/algos/binary_search.hpp:29-58`. -/
def lowerBoundSeen (md : Mode) (m : Mem α) (c : Container) (f : Given → α → Bool) : Watched (Option (List Int)) :=
  lowerBound md (seenMemory m) c () fun e _ => ask f (.elem e.1, e.2)

/-- `upper_bound(out, value, func)`, where `g` is `func` with this value as first argument;
`include/kwk/algorithm/algos/binary_search.hpp:77-103`. -/
def upperBoundSeen (md : Mode) (m : Mem α) (c : Container) (g : Given → α → Bool) : Watched (Option (List Int)) :=
  upperBound md (seenMemory m) c () fun _ e => ask g (.elem e.1, e.2)

/-- `binary_search(out, value, func)`; `include/kwk/algorithm/algos/binary_search.hpp:123-139`. -/
def binarySearchSeen (md : Mode) (m : Mem α) (c : Container) (f g : Given → α → Bool) : Watched Bool := do
  match ← lowerBoundSeen md m c f with
  | none => pure false
  | some p => do
    let x ← refTo m c p
    let r ← ask g x
    pure !r

/-- `lower_bound(out, value)`, where `below e` is `e < value`; `include/kwk/algorithm/algos/binary_search.hpp:65-69`. -/
def lowerBoundPlain (md : Mode) (m : Mem α) (c : Container) (below : α → Bool) : Watched (Option (List Int)) :=
  lowerBound md (seenMemory m) c () fun e _ => do
    let x ← byValue (.elem e.1, e.2)
    pure (below x.2)

/-- `upper_bound(out, value)`, where `above e` is `value < e`; `include/kwk/algorithm/algos/binary_search.hpp:111-115`. -/
def upperBoundPlain (md : Mode) (m : Mem α) (c : Container) (above : α → Bool) : Watched (Option (List Int)) :=
  upperBound md (seenMemory m) c () fun _ e => do
    let x ← byValue (.elem e.1, e.2)
    pure (above x.2)

/-- `binary_search(out, value)`; `include/kwk/algorithm/algos/binary_search.hpp:146-150`. -/
def binarySearchPlain (md : Mode) (m : Mem α) (c : Container) (below above : α → Bool) : Watched Bool := do
  match ← lowerBoundPlain md m c below with
  | none => pure false
  | some p => do
    let x ← refTo m c p
    let e ← byValue x
    pure !(above e.2)

/-- The ordered searches, with an order given or not; `include/kwk/algorithm/algos/binary_search.hpp:29-155`. -/
inductive OrderedSearch where
  | lowerBound (order : Bool) | upperBound (order : Bool) | binarySearch (order : Bool)
  deriving DecidableEq, Repr

/-- The parameters of the library's functions that an element goes through;
`include/kwk/algorithm/algos/binary_search.hpp:48, 68, 93, 114, 137, 149`. -/
def OrderedSearch.takes : OrderedSearch → List Passing
  | .lowerBound order | .upperBound order | .binarySearch order => if order then [] else [.value]

/-- A call compiles, for elements that have a copy constructor or not; the order takes references.  E.g.
`include/kwk/algorithm/algos/binary_search.hpp:68`. -/
def OrderedSearch.compiles (s : OrderedSearch) (copyable : Bool) : Bool :=
  s.takes.all fun p => p = .reference || copyable

/-- A call, without its result; `include/kwk/algorithm/algos/binary_search.hpp:29-155`. -/
def OrderedSearch.run (md : Mode) (m : Mem α) (c : Container) (f g : Given → α → Bool) (below above : α → Bool) :
    OrderedSearch → Watched Unit
  | .lowerBound true => do let _ ← lowerBoundSeen md m c f
  | .lowerBound false => do let _ ← lowerBoundPlain md m c below
  | .upperBound true => do let _ ← upperBoundSeen md m c g
  | .upperBound false => do let _ ← upperBoundPlain md m c above
  | .binarySearch true => do let _ ← binarySearchSeen md m c f g
  | .binarySearch false => do let _ ← binarySearchPlain md m c below above

end Kwk
