import Verif.Model.Effects

/-!
# Model: which objects the functions of the user are given

A function may look at the address of what it is given, as in `[&](auto const& x) { return &x == &v(1,2); }`.  An argument is an element
of the container, or a temporary that was copied from an element because the library has a parameter `auto` in between.  The copies
made and the objects given are recorded.

Paths are relative to `include/kwk/algorithm/algos`.
-/

namespace Kwk

variable {α β : Type}

/-- What a function is given: an element (by reference), or a copy of an element, as made by `[f](auto a, auto e)`;
`include/kwk/algorithm/algos/reduce.hpp:32`, `include/kwk/algorithm/algos/predicates.hpp:30`. -/
inductive Given where
  /-- the element at this address -/
  | elem (p : Ptr)
  /-- a temporary copied from the object at this address -/
  | temp (p : Ptr)
  deriving DecidableEq, Repr

/-- The address of the element that an argument is or was copied from, e.g. in `include/kwk/algorithm/algos/predicates.hpp:30`. -/
def Given.source : Given → Ptr
  | .elem p => p
  | .temp p => p

/-- What happens to the elements during a call of an algorithm of `include/kwk/algorithm/algos`. -/
structure Trace where
  /-- the elements that were copied to parameters, in order -/
  copied : List Ptr
  /-- what the user's function was given, in order -/
  given : List Given
  deriving DecidableEq, Repr

/-- Computations that record what happens to the elements: the bodies of the functions of `include/kwk/algorithm/algos`. -/
abbrev Watched := StateT Trace Res

/-- `c(is...)`: a reference to an element; `include/kwk/container/container.hpp:128-138`. -/
def refTo (m : Mem α) (c : Container) (is : List Int) : Watched (Given × α) := do
  let v ← (c.get m is : Res α)
  pure (.elem (c.addr is), v)

/-- A parameter `auto e`; e.g. `include/kwk/algorithm/algos/predicates.hpp:30`, `include/kwk/algorithm/algos/find.hpp:76`. -/
def byValue (x : Given × α) : Watched (Given × α) := fun t =>
  pure ((.temp x.1.source, x.2), { t with copied := t.copied ++ [x.1.source] })

/-- A call of the user's function, whose parameter is a reference; e.g. `f(c(is...))` in `include/kwk/algorithm/algos/find.hpp:46`. -/
def ask (f : Given → α → β) (x : Given × α) : Watched β := fun t =>
  pure (f x.1 x.2, { t with given := t.given ++ [x.1] })

/-- `reduce(in, f, init)`: `init = f(init, i)` where `i` is the element; `include/kwk/algorithm/algos/reduce.hpp:29-36`. -/
def reduceSeen (m : Mem α) (c : Container) (f : β → Given → α → β) (init : β) : Watched β :=
  reduceM (refTo m c) (fun a x => ask (f a) x) init c.shape

/-- `reduce(in)`: both parameters of the function are values; `include/kwk/algorithm/algos/reduce.hpp:56-60`. -/
def reduceSumSeen [Add α] [Zero α] (m : Mem α) (c : Container) : Watched α :=
  reduceM (refTo m c) (fun a x => do
    let e ← byValue x
    pure (a + e.2)) 0 c.shape

/-- `all_of(in, f)`; `include/kwk/algorithm/algos/predicates.hpp:27-31`. -/
def allOfSeen (m : Mem α) (c : Container) (f : Given → α → Bool) : Watched Bool :=
  reduceM (refTo m c) (fun a x => do
    let e ← byValue x
    if a then ask f e else pure false) true c.shape

/-- `any_of(in, f)`; `include/kwk/algorithm/algos/predicates.hpp:39-43`. -/
def anyOfSeen (m : Mem α) (c : Container) (f : Given → α → Bool) : Watched Bool :=
  reduceM (refTo m c) (fun a x => do
    let e ← byValue x
    if a then pure true else ask f e) false c.shape

/-- `none_of(in, f)`; `include/kwk/algorithm/algos/predicates.hpp:51-55`. -/
def noneOfSeen (m : Mem α) (c : Container) (f : Given → α → Bool) : Watched Bool := do
  let b ← anyOfSeen m c f
  pure !b

/-- `count(in, value)`; `include/kwk/algorithm/algos/predicates.hpp:63-67`. -/
def countSeen [DecidableEq α] (m : Mem α) (c : Container) (value : α) : Watched Nat :=
  reduceM (refTo m c) (fun a x => do
    let e ← byValue x
    pure (a + if e.2 = value then 1 else 0)) 0 c.shape

/-- `count_if(in, f)`; `include/kwk/algorithm/algos/predicates.hpp:75-79`. -/
def countIfSeen (m : Mem α) (c : Container) (f : Given → α → Bool) : Watched Nat :=
  reduceM (refTo m c) (fun a x => do
    let e ← byValue x
    let b ← ask f e
    pure (a + if b then 1 else 0)) 0 c.shape

/-- `find_if(c, f)`; `include/kwk/algorithm/algos/find.hpp:34-62`. -/
def findIfSeen (m : Mem α) (c : Container) (f : Given → α → Bool) : Watched (Option (List Int)) :=
  findIfM (refTo m c) (fun x => ask f x) c.shape

/-- `find(out, value)`; `include/kwk/algorithm/algos/find.hpp:72-77`. -/
def findSeen [DecidableEq α] (m : Mem α) (c : Container) (value : α) : Watched (Option (List Int)) :=
  findIfM (refTo m c) (fun x => do
    let e ← byValue x
    pure (decide (e.2 = value))) c.shape

/-- `find_if_not(out, f)`; `include/kwk/algorithm/algos/find.hpp:86-91`. -/
def findIfNotSeen (m : Mem α) (c : Container) (f : Given → α → Bool) : Watched (Option (List Int)) :=
  findIfM (refTo m c) (fun x => do
    let e ← byValue x
    let b ← ask f e
    pure !b) c.shape

/-- `find_last_if(out, f)`; `include/kwk/algorithm/algos/find.hpp:121-164`. -/
def findLastIfSeen (m : Mem α) (c : Container) (f : Given → α → Bool) : Watched (Option (List Int)) := do
  let r ← findIfSeen m (reverse c) f
  pure (r.map fun pos => c.shape.zipWith (fun d i => d - 1 - i) pos)

/-- `find_last_if_not(out, f)`; `include/kwk/algorithm/algos/find.hpp:187-192`. -/
def findLastIfNotSeen (m : Mem α) (c : Container) (f : Given → α → Bool) : Watched (Option (List Int)) := do
  let r ← findIfNotSeen m (reverse c) f
  pure (r.map fun pos => c.shape.zipWith (fun d i => d - 1 - i) pos)

/-- `for_each(f, c)`; `include/kwk/algorithm/algos/for_each.hpp:55-60, 80-84`. -/
def forEachSeen (m : Mem α) (c : Container) (f : Given → α → Unit) : Watched Unit :=
  forEach (fun is => do
    let x ← refTo m c is
    ask f x) c.shape

/-- `replace_if(out, f, new_value)`: `f` is given the element itself; `include/kwk/algorithm/algos/replace.hpp:16-20`. -/
def replaceIfSeen (m : Mem α) (c : Container) (f : Given → α → Bool) (newValue : α) : Res (Mem α) := do
  let r ← mapCtx (fun o _ ((), m) => do
    let v ← load m o
    if f (.elem o) v then do
      let m ← store m o newValue
      pure ((), m)
    else pure ((), m)) c [] () m
  pure r.2

/-- `copy_if(f, out, in)`: `f` is given the element of `in`; `include/kwk/algorithm/algos/copy.hpp:34-39`. -/
def copyIfSeen (m : Mem α) (f : Given → α → Bool) (out inp : Container) : Res (Mem α) := do
  let r ← mapCtx (fun o is ((), m) => do
    let v ← load m (is.headD o)
    if f (.elem (is.headD o)) v then do
      let m ← store m o v
      pure ((), m)
    else pure ((), m)) out [inp] () m
  pure r.2

/-- `transform(f, out, in)`: `f` is given the element of `in`; `include/kwk/algorithm/algos/transform.hpp:16-24`. -/
def transformSeen (m : Mem α) (f : Given → α → α) (out inp : Container) : Res (Mem α) := do
  let r ← mapCtx (fun o is ((), m) => do
    let v ← load m (is.headD o)
    let m ← store m o (f (.elem (is.headD o)) v)
    pure ((), m)) out [inp] () m
  pure r.2

end Kwk
