import Verif.Model.Ownership

/-!
# Model: lifetimes of the elements of tables

What the operations on tables do to the storage and to the lifetimes of the elements, as a list of events.  The values and the addresses are
those of `Model/Ownership.lean`; the events of an operation are those of a run that does not stop.  Elements of a fully static table are inside
the object (`stack_block`); the storage of such an object is a block of its own.

Simplification: the lifetimes of the subobjects of an element are not looked at, and neither are the ones of the objects outside tables.
-/

namespace Kwk

/-- Things that happen to storage and to elements; for `include/kwk/detail/memory/heap_block.hpp:28-63` and
`include/kwk/detail/memory/stack_block.hpp:26-50`. -/
inductive Event where
  /-- storage for `n` elements is obtained -/
  | allocate (b n : Nat)
  /-- a constructor of the element type runs at `p` -/
  | construct (p : Ptr)
  /-- an assignment operator of the element type runs on the element at `p` -/
  | assign (p : Ptr)
  /-- the element at `p` is read: argument of a constructor or of an assignment -/
  | read (p : Ptr)
  /-- the destructor of the element type runs on the element at `p` -/
  | destroy (p : Ptr)
  /-- storage is given back -/
  | release (b : Nat)
  deriving DecidableEq, Repr

/-- `std::copy(src, src + n, dst)`: assignments; `include/kwk/detail/memory/heap_block.hpp:60-63`,
`include/kwk/detail/memory/stack_block.hpp:40-43`. -/
def copyEvents (src dst : Ptr) (n : Nat) : List Event :=
  (List.range n).flatMap fun (k : Nat) => [.read (src.add k), .assign (dst.add k)]

/-! ### Tables with run-time shape: `heap_block` -/

/-- `heap_block(settings)`: `(value_type*)(allocate(a,sz))`, no constructor runs, then the assignments of `std::copy`;
`include/kwk/detail/memory/heap_block.hpp:39-52, 60-63`. -/
def World.buildEvents (w : World α) (s : Shape) (src : Option (Option Ptr)) : List Event :=
  let n := (numel s).toNat
  if n = 0 then []
  else .allocate w.next n :: (match src with
    | some (some p) => copyEvents p ⟨w.next, 0⟩ n
    | _ => [])

/-- `~unique_ptr` with the deleter: `deallocate(allocator_, p)`, no destructor runs;
`include/kwk/detail/memory/heap_block.hpp:31, 34`. -/
def Table.releaseEvents (t : Table) : List Event := match t.data with
  | none => []
  | some b => [.release b]

/-- The events of an operation on tables with run-time shape: moves and swaps exchange the pointers;
`include/kwk/container/table.hpp:54-98`, `include/kwk/detail/memory/heap_block.hpp:37-63`. -/
def World.events (w : World α) : Op α → List Event
  | .dflt _ _ => []
  | .make x _ s src => match w.tables x with
    | some _ => []
    | none => w.buildEvents s src
  | .copy x y => match w.tables x, w.tables y with
    | none, some ty => w.buildEvents ty.shape (some ty.ptr)
    | _, _ => []
  | .copyFrom x c => match w.tables x with
    | some _ => []
    | none => w.buildEvents c.settings.size (some (some c.settings.source))
  | .move _ _ => []
  | .copyAssign x y => match w.tables x, w.tables y with
    | some tx, some ty => w.buildEvents ty.shape (some ty.ptr) ++ tx.releaseEvents
    | _, _ => []
  | .assignFrom x c => match w.tables x with
    | some tx => w.buildEvents c.settings.size (some (some c.settings.source)) ++ tx.releaseEvents
    | none => []
  | .moveAssign x y => match w.tables x, w.tables y with
    | some tx, some _ => if x = y then [] else tx.releaseEvents
    | _, _ => []
  | .swap _ _ => []
  | .destroy x => match w.tables x with
    | some tx => tx.releaseEvents
    | none => []
  | .write x is _ => match w.tables x with
    | none => []
    | some tx => match tx.data with
      | none => []
      | some b => [.assign ((Container.ofShape ⟨b, 0⟩ tx.shape).addr is)]

/-- The events of a program; operations of `include/kwk/container/table.hpp:54-98`. -/
def World.trace (w : World α) : List (Op α) → Res (List Event)
  | [] => .ok []
  | op :: ops => do
    let w1 ← w.step op
    let es ← w1.trace ops
    return w.events op ++ es

/-! ### Tables with fully static shape: `stack_block` -/

/-- A table object of a fully static type: the storage of `data_` and the number of elements, which is part of the type;
`include/kwk/detail/memory/stack_block.hpp:16-26`. -/
structure StackObj where
  /-- where `data_` is -/
  blk : Nat
  /-- `Size` -/
  count : Nat
  deriving DecidableEq, Repr

/-- The table objects by name, and the next unused storage; for `include/kwk/detail/memory/stack_block.hpp:16-57`. -/
structure Frame where
  /-- table objects -/
  objs : Nat → Option StackObj
  /-- next unused storage -/
  next : Nat

/-- What a program can do with tables of fully static types; `include/kwk/container/table.hpp:54-98`. -/
inductive StackOp where
  /-- `table x(size, ...)` or `table x;`, with a source or without; also `table x(c)` for another container `c` -/
  | make (x n : Nat) (src : Option Ptr)
  /-- `table x(y)` -/
  | copy (x y : Nat)
  /-- `table x(std::move(y))` -/
  | move (x y : Nat)
  /-- `x = y` -/
  | copyAssign (x y : Nat)
  /-- `x = c` for another container with the given data pointer -/
  | assignFrom (x : Nat) (src : Ptr)
  /-- `x = std::move(y)` -/
  | moveAssign (x y : Nat)
  /-- `swap(x, y)` -/
  | swap (x y : Nat)
  /-- end of life of `x` -/
  | destroy (x : Nat)
  /-- `x(is...) = v`, the element of index `k` of the array -/
  | write (x k : Nat)
  deriving DecidableEq, Repr

/-- `value_type data_[Size];` without initializer: the default constructor of every element, in order;
`include/kwk/detail/memory/stack_block.hpp:26-35`. -/
def constructEvents (b n : Nat) : List Event := (List.range n).map fun (k : Nat) => .construct ⟨b, k⟩

/-- End of life of `value_type data_[Size];`: every destructor, in reverse order;
`include/kwk/detail/memory/stack_block.hpp:26`. -/
def destroyEvents (b n : Nat) : List Event := (List.range n).reverse.map fun (k : Nat) => .destroy ⟨b, k⟩

/-- `stack_block(settings)`: the array, then the assignments if there is a source;
`include/kwk/detail/memory/stack_block.hpp:28-43`. -/
def stackBuildEvents (b n : Nat) (src : Option Ptr) : List Event :=
  .allocate b n :: (constructEvents b n ++ match src with
    | some p => copyEvents p ⟨b, 0⟩ n
    | none => [])

/-- The default move constructor of an array: every element is constructed from the other one;
`include/kwk/container/table.hpp:69`, `include/kwk/detail/memory/stack_block.hpp:26`. -/
def stackMoveEvents (b n other : Nat) : List Event :=
  .allocate b n :: (List.range n).flatMap fun (k : Nat) => [.read ⟨other, k⟩, .construct ⟨b, k⟩]

/-- `std::swap(x, y)` of two elements, with a local object in storage `tmp`; `include/kwk/detail/memory/stack_block.hpp:45-49`. -/
def swapElementEvents (tmp : Nat) (p q : Ptr) : List Event :=
  [.allocate tmp 1, .read p, .construct ⟨tmp, 0⟩, .read q, .assign p, .read ⟨tmp, 0⟩, .assign q, .destroy ⟨tmp, 0⟩, .release tmp]

/-- `for(i = 0; i < Size; ++i) std::swap(data_[i], other.data_[i])`; `include/kwk/detail/memory/stack_block.hpp:45-49`. -/
def swapEvents (tmp a b n : Nat) : List Event := (List.range n).flatMap fun (k : Nat) => swapElementEvents tmp ⟨a, k⟩ ⟨b, k⟩

/-- End of life of a table object; `include/kwk/detail/memory/stack_block.hpp:26`. -/
def stackEndEvents (b n : Nat) : List Event := destroyEvents b n ++ [.release b]

/-- `table local(other); swap(local);` and the end of life of `local`; `include/kwk/container/table.hpp:85-98`. -/
def stackAssignEvents (f : Frame) (o : StackObj) (src : Ptr) : List Event :=
  stackBuildEvents f.next o.count (some src) ++ swapEvents (f.next + 1) o.blk f.next o.count ++ stackEndEvents f.next o.count

/-- The objects after a new one was made (helper); `include/kwk/container/table.hpp:54-82`. -/
def Frame.add (f : Frame) (x n : Nat) : Frame := ⟨upd f.objs x (some ⟨f.next, n⟩), f.next + 1⟩

/-- One operation on tables of fully static types: its events and the objects afterwards.  Operations that name an object that does not
exist, create an object that exists, use an element outside the array, or involve two different types are not programs; they do nothing.
`include/kwk/container/table.hpp:54-98`, `include/kwk/container/container.hpp:37-63, 134-138`. -/
def Frame.step (f : Frame) : StackOp → List Event × Frame
  | .make x n src => match f.objs x with
    | some _ => ([], f)
    | none => (stackBuildEvents f.next n src, f.add x n)
  | .copy x y => match f.objs x, f.objs y with
    | none, some o => (stackBuildEvents f.next o.count (some ⟨o.blk, 0⟩), f.add x o.count)
    | _, _ => ([], f)
  | .move x y => match f.objs x, f.objs y with
    | none, some o => (stackMoveEvents f.next o.count o.blk, f.add x o.count)
    | _, _ => ([], f)
  | .copyAssign x y => match f.objs x, f.objs y with
    | some o, some o' => if o.count = o'.count then (stackAssignEvents f o ⟨o'.blk, 0⟩, { f with next := f.next + 2 }) else ([], f)
    | _, _ => ([], f)
  | .assignFrom x src => match f.objs x with
    | some o => (stackAssignEvents f o src, { f with next := f.next + 2 })
    | none => ([], f)
  | .moveAssign x y => match f.objs x, f.objs y with
    | some o, some o' => if o.count = o'.count then (copyEvents ⟨o'.blk, 0⟩ ⟨o.blk, 0⟩ o.count, f) else ([], f)
    | _, _ => ([], f)
  | .swap x y => match f.objs x, f.objs y with
    | some o, some o' => if o.count = o'.count then (swapEvents f.next o.blk o'.blk o.count, { f with next := f.next + 1 }) else ([], f)
    | _, _ => ([], f)
  | .destroy x => match f.objs x with
    | some o => (stackEndEvents o.blk o.count, { f with objs := upd f.objs x none })
    | none => ([], f)
  | .write x k => match f.objs x with
    | some o => if k < o.count then ([.assign ⟨o.blk, k⟩], f) else ([], f)
    | none => ([], f)

/-- A program; operations of `include/kwk/container/table.hpp:54-98`. -/
def Frame.trace (f : Frame) : List StackOp → List Event × Frame
  | [] => ([], f)
  | op :: ops =>
    let r := f.step op
    let r' := r.2.trace ops
    (r.1 ++ r'.1, r'.2)

end Kwk
