import Verif.Model.Views

/-!
# Model: tables and the memory they own

Run-time shaped tables (`heap_block`).  A program is a list of operations on named table objects.
Simplifications: element types are merged and blocks are counted in elements; allocation of a
non-zero size succeeds and gives a block that was never used before; two allocators are the same if
they have the same identifier (copies of an allocator can release each other's blocks); labels are
left out, and so are explicit strides.  Fully static tables (`stack_block`) own no heap memory; they
are in `Model/StackTable.lean`.
-/

namespace Kwk

/-- Identity of an allocator object up to copies; `include/kwk/concepts/allocator.hpp`. -/
abbrev AllocId := Nat

/-- `heap_allocator`, the default of the `allocator` option;
`include/kwk/container/settings/allocator.hpp:17-22`, `include/kwk/utility/memory/heap_allocator.hpp:22`. -/
def heapAlloc : AllocId := 0

/-- A table with run-time shape: `heap_block` (`include/kwk/detail/memory/heap_block.hpp:16-64`) and
accessor (`include/kwk/detail/container/accessor.hpp:19-46`). -/
structure Table where
  /-- `data_.get()`: the owned block, `none` for `nullptr` -/
  data : Option Nat
  /-- the allocator of the deleter, `none` if its `any_allocator` is empty -/
  alloc : Option AllocId
  /-- `shape()` -/
  shape : Shape
  deriving DecidableEq, Repr

/-- State of a program: memory, the blocks allocated and not yet released with the allocator they
come from, the next unused block, what uninitialised cells hold, and the table objects by name.
For the tables of `include/kwk/container/table.hpp:40-100`. -/
structure World (α : Type) where
  /-- memory -/
  mem : Mem α
  /-- blocks that are allocated -/
  live : Nat → Option AllocId
  /-- next block to be given -/
  next : Nat
  /-- contents of uninitialised cells -/
  junk : Ptr → α
  /-- table objects -/
  tables : Nat → Option Table

variable {α : Type}

/-- Function update, used for the maps of `World` (helper).
Used for `include/kwk/detail/memory/heap_block.hpp:16-64`. -/
def upd {β : Type} (f : Nat → β) (x : Nat) (v : β) : Nat → β := fun y => if y = x then v else f y

/-- `allocate(a, n)`: `nullptr` if `n` is 0, else a new block;
`include/kwk/utility/memory/heap_allocator.hpp:31-34`, and through
`include/kwk/utility/memory/any_allocator.hpp:107-110`. Other allocators follow the same convention. -/
def World.allocate (w : World α) (a : AllocId) (n : Nat) : Option Nat × World α :=
  if n = 0 then (none, w)
  else (some w.next,
    { w with
      mem := fun p => if p.blk = w.next then (if 0 ≤ p.off ∧ p.off < n then some (w.junk p) else none)
        else w.mem p
      live := upd w.live w.next (some a)
      next := w.next + 1 })

/-- `deleter::operator()`: `deallocate(allocator_, p)` through the held allocator object;
`include/kwk/detail/memory/heap_block.hpp:31`, `include/kwk/utility/memory/any_allocator.hpp:118-121`,
`include/kwk/utility/memory/heap_allocator.hpp:45`.  An empty `any_allocator` dereferences null; a
block that is not live or comes from another allocator is a bad release. -/
def World.free (w : World α) (b : Nat) (a : Option AllocId) : Res (World α) :=
  match a with
  | none => .error .nullDeref
  | some a =>
    if w.live b = some a then
      .ok { w with mem := fun p => if p.blk = b then none else w.mem p, live := upd w.live b none }
    else .error .badFree

/-- `std::copy(src, src + n, dst)`, one element at a time; `include/kwk/detail/memory/heap_block.hpp:60-63`. -/
def copyCells (m : Mem α) (src dst : Ptr) : Nat → Res (Mem α)
  | 0 => .ok m
  | n + 1 => do
    let m ← copyCells m src dst n
    let v ← load m (src.add n)
    store m (dst.add n) v

/-- `heap_block(settings)` with the accessor: allocate `numel` elements with the given allocator and,
if there is a `source` option, copy `numel` elements from its pointer (which may be null);
`include/kwk/detail/memory/heap_block.hpp:39-52`, `include/kwk/container/container.hpp:45-47`. -/
def World.build (w : World α) (a : AllocId) (s : Shape) (src : Option (Option Ptr)) :
    Res (Table × World α) :=
  let n := (numel s).toNat
  let (d, w1) := w.allocate a n
  let t : Table := ⟨d, some a, s⟩
  match src with
  | none => .ok (t, w1)
  | some p =>
    if n = 0 then .ok (t, w1)
    else match p, d with
      | some p, some b => do
        let m ← copyCells w1.mem p ⟨b, 0⟩ n
        return (t, { w1 with mem := m })
      | _, _ => .error .nullDeref

/-- End of life of a table: `~unique_ptr` calls the deleter if the pointer is not null;
`include/kwk/detail/memory/heap_block.hpp:34-35`. -/
def World.release (w : World α) (t : Table) : Res (World α) :=
  match t.data with
  | none => .ok w
  | some b => w.free b t.alloc

/-- The data pointer of a table, `get_data()`; `include/kwk/detail/memory/heap_block.hpp:57-58`. -/
def Table.ptr (t : Table) : Option Ptr := t.data.map fun b => ⟨b, 0⟩

/-- `t(is...)` read as a value; `include/kwk/container/container.hpp:128-138`. -/
def World.read (w : World α) (t : Table) (is : List Int) : Res α :=
  match t.data with
  | none => .error .nullDeref
  | some b => (Container.ofShape ⟨b, 0⟩ t.shape).get w.mem is

/-- What a program can do with tables. Objects are named by numbers.
The operations of `include/kwk/container/table.hpp:54-98`. -/
inductive Op (α : Type) where
  /-- `table x;` with the given axes (`none` for a run-time one) -/
  | dflt (x : Nat) (axes : List (Option Nat))
  /-- `table x(allocator = a, size = s[, source = src])` -/
  | make (x : Nat) (a : AllocId) (s : Shape) (src : Option (Option Ptr))
  /-- `table x(y)` -/
  | copy (x y : Nat)
  /-- `table x(c)` for another container `c` -/
  | copyFrom (x : Nat) (c : Container)
  /-- `table x(std::move(y))` -/
  | move (x y : Nat)
  /-- `x = y` -/
  | copyAssign (x y : Nat)
  /-- `x = c` for another container `c` -/
  | assignFrom (x : Nat) (c : Container)
  /-- `x = std::move(y)` -/
  | moveAssign (x y : Nat)
  /-- `swap(x, y)` -/
  | swap (x y : Nat)
  /-- end of life of `x` -/
  | destroy (x : Nat)
  /-- `x(is...) = v` -/
  | write (x : Nat) (is : List Int) (v : α)

/-- `other.settings()` for a table: its pointer and its shape;
`include/kwk/container/container.hpp:75-78`.  The allocator is not part of it, so the copy uses
the default allocator. -/
def World.copyOf (w : World α) (t : Table) : Res (Table × World α) :=
  w.build heapAlloc t.shape (some t.ptr)

/-- `table local(other); swap(local);` and the end of life of `local`, which holds the old contents
of `x`; `include/kwk/container/table.hpp:85-98`. -/
def World.assign (w : World α) (x : Nat) (old : Table) (s : Shape) (src : Option Ptr) :
    Res (World α) := do
  let (t, w1) ← w.build heapAlloc s (some src)
  { w1 with tables := upd w1.tables x (some t) }.release old

/-- One operation.  Operations that name an object that does not exist, or create an object that
exists, are not programs; they do nothing.
`include/kwk/container/table.hpp:54-98`, `include/kwk/container/container.hpp:37-63`,
`include/kwk/detail/memory/heap_block.hpp:37-63`. -/
def World.step (w : World α) : Op α → Res (World α)
  -- include/kwk/container/table.hpp:55, include/kwk/detail/memory/heap_block.hpp:37, include/kwk/detail/container/accessor.hpp:29: null pointer, heap allocator, zero extents
  | .dflt x axes =>
    match w.tables x with
    | some _ => .ok w
    | none =>
      if none ∈ axes then
        let t : Table := ⟨none, some heapAlloc, axes.map fun e => ((e.getD 0 : Nat) : Int)⟩
        .ok { w with tables := upd w.tables x (some t) }
      else .ok w
  -- include/kwk/container/table.hpp:58-66
  | .make x a s src =>
    match w.tables x with
    | some _ => .ok w
    | none => do
      let (t, w1) ← w.build a s src
      return { w1 with tables := upd w1.tables x (some t) }
  -- include/kwk/container/table.hpp:75-77
  | .copy x y =>
    match w.tables x, w.tables y with
    | none, some ty => do
      let (t, w1) ← w.copyOf ty
      return { w1 with tables := upd w1.tables x (some t) }
    | _, _ => .ok w
  -- include/kwk/container/table.hpp:80-82
  | .copyFrom x c =>
    match w.tables x with
    | some _ => .ok w
    | none => do
      let (t, w1) ← w.build heapAlloc c.settings.size (some (some c.settings.source))
      return { w1 with tables := upd w1.tables x (some t) }
  -- include/kwk/container/table.hpp:69: unique_ptr and its deleter are moved, the shape is copied
  | .move x y =>
    match w.tables x, w.tables y with
    | none, some ty =>
      .ok { w with tables := upd (upd w.tables y (some ⟨none, none, ty.shape⟩)) x (some ty) }
    | _, _ => .ok w
  -- include/kwk/container/table.hpp:85-90
  | .copyAssign x y =>
    match w.tables x, w.tables y with
    | some tx, some ty => w.assign x tx ty.shape ty.ptr
    | _, _ => .ok w
  -- include/kwk/container/table.hpp:93-98
  | .assignFrom x c =>
    match w.tables x with
    | some tx => w.assign x tx c.settings.size (some c.settings.source)
    | none => .ok w
  -- include/kwk/container/table.hpp:72: unique_ptr::operator= is reset(u.release()), then the deleter is moved
  | .moveAssign x y =>
    match w.tables x, w.tables y with
    | some _, some ty =>
      -- p = y.release()
      let tables := upd w.tables y (some { ty with data := none })
      match tables x with
      | none => .ok w
      | some tx => do
        -- x.reset(p): store the new pointer, then delete the old one with the old deleter
        let w1 ← { w with tables := upd tables x (some { tx with data := ty.data }) }.release tx
        -- move the deleter's allocator, copy the shape
        let tables := upd w1.tables y (some ⟨(w1.tables y).bind Table.data, none, ty.shape⟩)
        let px := (tables x).bind Table.data
        return { w1 with tables := upd tables x (some ⟨px, ty.alloc, ty.shape⟩) }
    | _, _ => .ok w
  -- include/kwk/container/container.hpp:56-63
  | .swap x y =>
    match w.tables x, w.tables y with
    | some tx, some ty => .ok { w with tables := upd (upd w.tables x (some ty)) y (some tx) }
    | _, _ => .ok w
  | .destroy x =>
    match w.tables x with
    | some tx => { w with tables := upd w.tables x none }.release tx
    | none => .ok w
  -- include/kwk/container/container.hpp:134-138
  | .write x is v =>
    match w.tables x with
    | none => .ok w
    | some tx =>
      match tx.data with
      | none => .error .nullDeref
      | some b => do
        let m ← store w.mem ((Container.ofShape ⟨b, 0⟩ tx.shape).addr is) v
        return { w with mem := m }

/-- A program: operations in order; stops at the first fault.
Operations of `include/kwk/container/table.hpp:54-98`. -/
def World.run (w : World α) (ops : List (Op α)) : Res (World α) := ops.foldlM World.step w

end Kwk
