import Verif.Model.Views

/-!
# Model: fully static tables

The elements are inside the object (`stack_block`); the shape is part of the type.
-/

namespace Kwk

/-- A table with fully static shape: `value_type data_[Size]`;
`include/kwk/detail/memory/stack_block.hpp:16-26`, `include/kwk/detail/memory/block.hpp`. -/
structure StackTable (α : Type) where
  /-- `data_` -/
  cells : List α
  /-- the static shape -/
  shape : Shape
  deriving DecidableEq, Repr

variable {α : Type}

/-- `std::copy(src, src + n, data_)`; `include/kwk/detail/memory/stack_block.hpp:40-43`. -/
def copyIn (m : Mem α) (src : Ptr) : Nat → Res (List α)
  | 0 => .ok []
  | n + 1 => do
    let l ← copyIn m src n
    let v ← load m (src.add n)
    return l ++ [v]

/-- `stack_block(settings)` with a source: `Size` elements are copied from its pointer;
`include/kwk/detail/memory/stack_block.hpp:30-35`, `include/kwk/container/table.hpp:75-82`. -/
def StackTable.ofSettings (m : Mem α) (o : Settings) : Res (StackTable α) := do
  let l ← copyIn m o.source (numel o.size).toNat
  return ⟨l, o.size⟩

/-- `t(is...)`: element of `data_` at the static index; `include/kwk/container/container.hpp:128-138`,
`include/kwk/detail/container/accessor.hpp:51-68`. -/
def StackTable.read (t : StackTable α) (is : List Int) : Res α :=
  let k := linearize (asStride t.shape) is
  if k < 0 then .error .outOfBounds
  else match t.cells[k.toNat]? with
    | some v => .ok v
    | none => .error .outOfBounds

/-- The loop `for(i = 0; i < Size; ++i) std::swap(data_[i], other.data_[i])` after `k` rounds;
`include/kwk/detail/memory/stack_block.hpp:45-49`. -/
def swapCells (a b : List α) : Nat → List α × List α
  | 0 => (a, b)
  | k + 1 =>
    let (a, b) := swapCells a b k
    match a[k]?, b[k]? with
    | some x, some y => (a.set k y, b.set k x)
    | _, _ => (a, b)

/-- `swap(a, b)` for tables of the same static type; `include/kwk/container/container.hpp:56-63`. -/
def StackTable.swap (a b : StackTable α) : StackTable α × StackTable α :=
  let (x, y) := swapCells a.cells b.cells (numel a.shape).toNat
  (⟨x, a.shape⟩, ⟨y, b.shape⟩)

/-- `x = other` for a container with the same static shape: local copy and swap, then the local copy
is dropped; `include/kwk/container/table.hpp:85-98`. -/
def StackTable.assign (m : Mem α) (x : StackTable α) (o : Settings) : Res (StackTable α) := do
  let l ← StackTable.ofSettings m o
  return (x.swap l).1

end Kwk
