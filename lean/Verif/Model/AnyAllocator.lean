import Verif.Model.Ownership

/-!
# Model: `any_allocator`

An `any_allocator` holds a pointer to a model of some allocator, or nothing.  An allocator is known
by its identifier; `any_allocator` itself satisfies the allocator concept, so it can be nested.
-/

namespace Kwk

/-- A type-erased allocator; `include/kwk/utility/memory/any_allocator.hpp:26-98`. -/
inductive AnyAlloc where
  /-- `object` is null: default-constructed or moved-from -/
  | empty
  /-- holds `model_t<T>` for an ordinary allocator -/
  | holds (a : AllocId)
  /-- holds `model_t<any_allocator>` -/
  | nested (a : AnyAlloc)
  deriving DecidableEq, Repr

/-- Which of the constructors overload resolution picks depends on the argument.
`include/kwk/utility/memory/any_allocator.hpp:59-79`. -/
inductive ValueCat where
  /-- `any_allocator const&` -/
  | constLvalue
  /-- `any_allocator&` -/
  | lvalue
  /-- `any_allocator&&` -/
  | rvalue
  deriving DecidableEq, Repr

/-- `any_allocator(any_allocator const&)`: `a.object->clone()`, which copies the held allocator
through a `const` reference; `include/kwk/utility/memory/any_allocator.hpp:47, 65`. -/
def AnyAlloc.clone : AnyAlloc → Res AnyAlloc
  | .empty => .error .nullDeref
  | .holds a => .ok (.holds a)
  | .nested a => do return .nested (← a.clone)

/-- Construction from an `any_allocator` argument; `include/kwk/utility/memory/any_allocator.hpp:59, 65,
76-79`.  A non-const lvalue matches the template `any_allocator(T&&)` better than the copy
constructor.  The template makes a `model_t<any_allocator>` (line 78); the constructor of that takes
its argument by value (line 43), so an `any_allocator` is first constructed from the same non-const
lvalue.  `fuel` bounds the number of nested constructor calls; running out is `diverges`. -/
def AnyAlloc.construct (a : AnyAlloc) (c : ValueCat) : Nat → Res AnyAlloc
  | 0 => .error .diverges
  | fuel + 1 =>
    match c with
    | .constLvalue => a.clone
    | .rvalue => .ok a
    | .lvalue => do
      let t ← a.construct .lvalue fuel
      return .nested t

/-- What is left in the argument after the construction: a moved-from object is empty;
`include/kwk/utility/memory/any_allocator.hpp:59`. -/
def AnyAlloc.left (a : AnyAlloc) : ValueCat → AnyAlloc
  | .rvalue => .empty
  | _ => a

/-- Construction from an ordinary allocator; `include/kwk/utility/memory/any_allocator.hpp:76-79`. -/
def AnyAlloc.ofAlloc (a : AllocId) : AnyAlloc := .holds a

/-- Assignment from an `any_allocator`: `any_allocator that(other); swap(that);`;
`include/kwk/utility/memory/any_allocator.hpp:62, 68-73, 82-91`.  Returns the new value of the target. -/
def AnyAlloc.assign (_old : AnyAlloc) (other : AnyAlloc) (c : ValueCat) (fuel : Nat) : Res AnyAlloc :=
  other.construct c fuel

/-- `a.swap(b)`; `include/kwk/utility/memory/any_allocator.hpp:90-91`. -/
def AnyAlloc.swap (a b : AnyAlloc) : AnyAlloc × AnyAlloc := (b, a)

/-- The allocator reached by `allocate(a, n)` and `deallocate(a, p)`;
`include/kwk/utility/memory/any_allocator.hpp:45-46, 107-121`. -/
def AnyAlloc.target : AnyAlloc → Res AllocId
  | .empty => .error .nullDeref
  | .holds a => .ok a
  | .nested a => a.target

/-- The deleter of a `heap_block` built with `allocator = a` for an `any_allocator` `a`: the argument of
`deleter(a)` and the parameter in `deleter(A a) : allocator_(a)` are non-const lvalues;
`include/kwk/detail/memory/heap_block.hpp:30, 43-46`. -/
def deleterOf (a : AnyAlloc) (fuel : Nat) : Res AnyAlloc := do
  let p ← a.construct .lvalue fuel
  p.construct .lvalue fuel

end Kwk
