import Verif.Model.Search
import Verif.Model.TypedViews

/-!
# Model: binary searches with machine integers

`Model/Search.lean` counts in unbounded integers.  Here the extents have their own integer types, `numel()` is an `int` (cut from the
type of the product), and the variables `count`, `first`, `it` and `step` are `int`s.
-/

namespace Kwk

variable {α β σ : Type}

/-- A container in default layout whose extents carry their types. `include/kwk/container/container.hpp:20-155`. -/
structure TypedContainer where
  /-- `get_data()` -/
  base : Ptr
  /-- `shape()` -/
  shape : List Coord
  deriving DecidableEq, Repr

/-- `out(pos)`: the offset is computed from the strides in the types of the strides and of the coordinates, and added to the data
pointer; `include/kwk/container/container.hpp:119-138`, `include/kwk/utility/container/stride.hpp:129-137, 173-189`. -/
def TypedContainer.get (c : TypedContainer) (m : Mem α) (p : List Coord) : Res α := do
  let st ← asStrideT c.shape
  let k ← elementT c.base.off st p
  load m ⟨c.base.blk, k⟩

/-- The `while (count > 0)` loop of `lower_bound` (`include/kwk/algorithm/algos/binary_search.hpp:40-55`) and of `upper_bound`
(`84-98`), on `int` variables.  Running out of `fuel` is the outcome `diverges`. -/
def searchLoopM (md : Mode) (m : Mem α) (c : TypedContainer) (adv : α → StateT σ Res Bool) :
    Nat → SearchVars → StateT σ Res SearchVars
  | 0, _ => throw .diverges
  | fuel + 1, s =>
    if s.count > 0 then do
      let step ← (do IntType.i32.op (← cdiv s.count 2) : Res Int)
      let it ← (IntType.i32.op (s.first + step) : Res Int)
      let p ← (coordinatesT md ⟨.i32, it⟩ c.shape : Res (List Coord))
      let v ← (c.get m p : Res α)
      if (← adv v) then do
        let it ← (IntType.i32.op (it + 1) : Res Int)
        let count ← (do IntType.i32.op (s.count - (← IntType.i32.op (step + 1))) : Res Int)
        searchLoopM md m c adv fuel { count := count, first := it, it := it }
      else
        searchLoopM md m c adv fuel { count := step, first := s.first, it := it }
    else pure s

/-- The part that `lower_bound` and `upper_bound` share: the loop and the final `first < out.numel()`, for a given `numel()`;
`include/kwk/algorithm/algos/binary_search.hpp:35-57, 79-102`. -/
def searchFrom (md : Mode) (m : Mem α) (c : TypedContainer) (adv : α → StateT σ Res Bool) (n : Int) :
    StateT σ Res (Option (List Int)) := do
  let s ← searchLoopM md m c adv (n.toNat + 1) ⟨n, 0, 0⟩
  if s.first < n then do
    let p ← (coordinatesT md ⟨.i32, s.it⟩ c.shape : Res (List Coord))
    pure (some (p.map (·.value)))
  else pure none

/-- `lower_bound(out, value, func)`; `include/kwk/algorithm/algos/binary_search.hpp:29-58`. -/
def lowerBoundM (md : Mode) (m : Mem α) (c : TypedContainer) (value : β)
    (func : α → β → StateT σ Res Bool) : StateT σ Res (Option (List Int)) := do
  let n ← (numelT c.shape : Res Coord)
  if n.value = 0 then pure none
  else searchFrom md m c (fun e => func e value) n.value

/-- `upper_bound(out, value, func)`; `include/kwk/algorithm/algos/binary_search.hpp:77-103`. -/
def upperBoundM (md : Mode) (m : Mem α) (c : TypedContainer) (value : β)
    (func : β → α → StateT σ Res Bool) : StateT σ Res (Option (List Int)) := do
  let n ← (numelT c.shape : Res Coord)
  searchFrom md m c (fun e => do let r ← func value e; pure (!r)) n.value

/-- `binary_search(out, value, func)`: the position found is read as `int` coordinates;
`include/kwk/algorithm/algos/binary_search.hpp:123-139`. -/
def binarySearchM (md : Mode) (m : Mem α) (c : TypedContainer) (value : α)
    (func : α → α → StateT σ Res Bool) : StateT σ Res Bool := do
  match ← lowerBoundM md m c value func with
  | none => pure false
  | some p => do
    let e ← (c.get m (p.map fun i => ⟨.i32, i⟩) : Res α)
    let r ← func value e
    pure (!r)

end Kwk
