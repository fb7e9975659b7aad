import Verif.Model.Algos

/-!
# Model: binary searches

`include/kwk/algorithm/algos/binary_search.hpp`.
-/

namespace Kwk

variable {α β σ : Type}

/-- State of the search loop: `count`, `first`, `it`. `include/kwk/algorithm/algos/binary_search.hpp:35-38`. -/
structure SearchVars where
  /-- number of candidates left -/
  count : Int
  /-- first candidate -/
  first : Int
  /-- last probed index (plus one after an advance) -/
  it : Int
  deriving DecidableEq, Repr

/-- The `while (count > 0)` loop of `lower_bound` (`include/kwk/algorithm/algos/binary_search.hpp:40-55`) and of `upper_bound`
(`84-98`).  `adv v` is the value of the `if` condition (`func(out(pos), value)`, resp.
`!func(value, out(pos))`) and may update a state `σ` of the callback.  Running out of `fuel` is the
outcome `diverges`. -/
def searchLoop (md : Mode) (m : Mem α) (c : Container) (adv : α → StateT σ Res Bool) :
    Nat → SearchVars → StateT σ Res SearchVars
  | 0, _ => throw .diverges
  | fuel + 1, s =>
    if s.count > 0 then do
      let it := s.first
      let step := s.count.tdiv 2
      let it := it + step
      let p ← (coordinates md it c.shape : Res (List Int))
      let v ← (c.get m p : Res α)
      if (← adv v) then
        let it := it + 1
        searchLoop md m c adv fuel { count := s.count - (step + 1), first := it, it := it }
      else
        searchLoop md m c adv fuel { count := step, first := s.first, it := it }
    else pure s

/-- `lower_bound(out, value, func)`; `include/kwk/algorithm/algos/binary_search.hpp:29-58`. -/
def lowerBound (md : Mode) (m : Mem α) (c : Container) (value : β)
    (func : α → β → StateT σ Res Bool) : StateT σ Res (Option (List Int)) := do
  if c.numel = 0 then pure none
  else
    let s ← searchLoop md m c (fun e => func e value) (c.numel.toNat + 1) ⟨c.numel, 0, 0⟩
    if s.first < c.numel then do
      let p ← (coordinates md s.it c.shape : Res (List Int))
      pure (some p)
    else pure none

/-- `upper_bound(out, value, func)`; `include/kwk/algorithm/algos/binary_search.hpp:77-103`. -/
def upperBound (md : Mode) (m : Mem α) (c : Container) (value : β)
    (func : β → α → StateT σ Res Bool) : StateT σ Res (Option (List Int)) := do
  let s ← searchLoop md m c (fun e => do let r ← func value e; pure (!r)) (c.numel.toNat + 1)
    ⟨c.numel, 0, 0⟩
  if s.first < c.numel then do
    let p ← (coordinates md s.it c.shape : Res (List Int))
    pure (some p)
  else pure none

/-- `binary_search(out, value, func)`; `include/kwk/algorithm/algos/binary_search.hpp:123-139`. `func` is applied with the
element first in `lower_bound` and with the value first in the final test; both have type `α`. -/
def binarySearch (md : Mode) (m : Mem α) (c : Container) (value : α)
    (func : α → α → StateT σ Res Bool) : StateT σ Res Bool := do
  match ← lowerBound md m c value func with
  | none => pure false
  | some p => do
    let e ← (c.get m p : Res α)
    let r ← func value e
    pure (!r)

end Kwk
