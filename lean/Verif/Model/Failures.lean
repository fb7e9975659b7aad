import Verif.Model.Ownership

/-!
# Model: tables when something fails

The construction of a table calls code that may throw: the copy of the label, the allocator, the type-erased copy of the allocator kept by
the deleter, and the assignments of the elements.  The standard allocator does not throw; it returns a null pointer.  The states after an
exception are modelled: members and bases that are complete are destroyed, in reverse order.

Simplification: destructors, swaps and moves do not throw.
-/

namespace Kwk

variable {α : Type}

/-- Points of the construction of a table where an exception may be thrown. -/
inductive Point where
  /-- copy of the label; `include/kwk/detail/container/metadata.hpp:24-26` -/
  | label
  /-- the allocator; `include/kwk/detail/memory/heap_block.hpp:46` -/
  | allocate
  /-- copy of the allocator into the deleter, which allocates a `model_t`; `include/kwk/detail/memory/heap_block.hpp:30, 46`,
  `include/kwk/utility/memory/any_allocator.hpp:76-79` -/
  | deleter
  /-- assignment of element `k`; `include/kwk/detail/memory/heap_block.hpp:60-63` -/
  | element (k : Nat)
  deriving DecidableEq, Repr

/-- What fails during an operation. -/
structure Failures where
  /-- where exceptions are thrown -/
  throws : Point → Bool
  /-- the allocator returns a null pointer, as `malloc` does; `include/kwk/utility/memory/heap_allocator.hpp:31-34` -/
  exhausted : Bool

/-- `std::copy(src, src + n, dst)` when assignments may throw: whether it finished, and the memory;
`include/kwk/detail/memory/heap_block.hpp:60-63`. -/
def copyCellsE (throws : Nat → Bool) (m : Mem α) (src dst : Ptr) : Nat → Res (Bool × Mem α)
  | 0 => .ok (true, m)
  | n + 1 => do
    let r ← copyCellsE throws m src dst n
    if r.1 then do
      let v ← load r.2 (src.add n)
      if throws n then pure (false, r.2)
      else do
        let m ← store r.2 (dst.add n) v
        pure (true, m)
    else pure r

/-- A construction ends with a table or with an exception; `include/kwk/container/container.hpp:45-47`. -/
inductive Construction (α : Type) where
  | made (t : Table) (w : World α)
  | threw (w : World α)

/-- Construction of a table when something may fail: label, memory block, deleter, elements.  The block is owned by the table only when
the deleter is complete: if the deleter throws, nothing releases the block.  If an assignment throws, the unique pointer is destroyed.
`include/kwk/container/container.hpp:45-47`, `include/kwk/detail/memory/heap_block.hpp:39-52`. -/
def World.buildE (w : World α) (fl : Failures) (a : AllocId) (s : Shape) (src : Option (Option Ptr)) : Res (Construction α) :=
  if fl.throws .label then .ok (.threw w)
  else if fl.throws .allocate then .ok (.threw w)
  else
    let n := (numel s).toNat
    let (d, w1) := if fl.exhausted then (none, w) else w.allocate a n
    if fl.throws .deleter then .ok (.threw w1)
    else
      let t : Table := ⟨d, some a, s⟩
      match src with
      | none => .ok (.made t w1)
      | some p =>
        if n = 0 then .ok (.made t w1)
        else match p, d with
          | some p, some b => do
            let r ← copyCellsE (fun k => fl.throws (.element k)) w1.mem p ⟨b, 0⟩ n
            if r.1 then pure (.made t { w1 with mem := r.2 })
            else do
              let w2 ← { w1 with mem := r.2 }.release t
              pure (.threw w2)
          | _, _ => .error .nullDeref

/-- How an operation ends: normally, with an exception, or with `std::terminate`; operations of
`include/kwk/container/table.hpp:54-98`. -/
inductive Ended (α : Type) where
  | done (w : World α)
  | threw (w : World α)
  | terminated

/-- Construction of table object `x`; there is no object if the constructor throws; `include/kwk/container/table.hpp:58-82`. -/
def World.createE (w : World α) (fl : Failures) (x : Nat) (a : AllocId) (s : Shape) (src : Option (Option Ptr)) : Res (Ended α) := do
  match ← w.buildE fl a s src with
  | .made t w1 => pure (.done { w1 with tables := upd w1.tables x (some t) })
  | .threw w1 => pure (.threw w1)

/-- `table local(other); swap(local);` and the end of life of `local`; `include/kwk/container/table.hpp:85-98`. -/
def World.assignE (w : World α) (fl : Failures) (x : Nat) (old : Table) (s : Shape) (src : Option Ptr) : Res (Ended α) := do
  match ← w.buildE fl heapAlloc s (some src) with
  | .made t w1 => do
    let w2 ← { w1 with tables := upd w1.tables x (some t) }.release old
    pure (.done w2)
  | .threw w1 => pure (.threw w1)

/-- One operation when something may fail.  The default constructor builds a deleter inside a `noexcept` constructor; moves, swaps,
destructions and writes call nothing that fails.
`include/kwk/container/table.hpp:54-98`, `include/kwk/container/container.hpp:37-39`, `include/kwk/detail/memory/heap_block.hpp:37`. -/
def World.stepE (w : World α) (fl : Failures) : Op α → Res (Ended α)
  | .dflt x axes =>
    if (w.tables x).isNone && decide (none ∈ axes) && fl.throws .deleter then .ok .terminated
    else do pure (.done (← w.step (.dflt x axes)))
  | .make x a s src =>
    match w.tables x with
    | some _ => .ok (.done w)
    | none => w.createE fl x a s src
  | .copy x y =>
    match w.tables x, w.tables y with
    | none, some ty => w.createE fl x heapAlloc ty.shape (some ty.ptr)
    | _, _ => .ok (.done w)
  | .copyFrom x c =>
    match w.tables x with
    | some _ => .ok (.done w)
    | none => w.createE fl x heapAlloc c.settings.size (some (some c.settings.source))
  | .copyAssign x y =>
    match w.tables x, w.tables y with
    | some tx, some ty => w.assignE fl x tx ty.shape ty.ptr
    | _, _ => .ok (.done w)
  | .assignFrom x c =>
    match w.tables x with
    | some tx => w.assignE fl x tx c.settings.size (some c.settings.source)
    | none => .ok (.done w)
  | op => do pure (.done (← w.step op))

/-- A program that catches every exception and goes on; `none` if it was terminated; operations of
`include/kwk/container/table.hpp:54-98`. -/
def World.runE (w : World α) : List (Failures × Op α) → Res (Option (World α))
  | [] => .ok (some w)
  | (fl, op) :: l => do
    match ← w.stepE fl op with
    | .done w1 => w1.runE l
    | .threw w1 => w1.runE l
    | .terminated => pure none

end Kwk
