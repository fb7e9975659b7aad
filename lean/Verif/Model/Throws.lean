import Verif.Model.Effects
import Verif.Model.Search

/-!
# Model: callbacks that throw

The functions given to the algorithms may throw an exception of type `ε`.  The algorithms catch nothing and are not `noexcept`: the loops
are left at once and the memory stays as it is.  A callback gives an exception or a value, and the memory and captured state.

Simplification: assignments of elements do not throw.
-/

namespace Kwk

variable {α β ε σ : Type}

/-- Code that may throw, over captured state `σ` and memory. For the callbacks of `include/kwk/context/cpu/context.hpp:18-36`. -/
abbrev Code (ε σ α : Type) := ExceptT ε (StateT (σ × Mem α) Res)

/-- `cpu.map(f, c0, cs...)` with a callback that may throw; `include/kwk/context/cpu/context.hpp:24-29`. -/
def mapE (f : Ptr → List Ptr → σ × Mem α → Res (Except ε Unit × (σ × Mem α))) (c0 : Container) (cs : List Container) (s : σ) (m : Mem α) :
    Res (Except ε Unit × (σ × Mem α)) :=
  forEach (m := Code ε σ α) (fun is sm => f (c0.addr is) (cs.map fun c => c.addr is) sm) c0.shape (s, m)

/-- `cpu.map_index(f, c)` with a callback that may throw; `include/kwk/context/cpu/context.hpp:31-36`. -/
def mapIndexE (f : Ptr → List Int → σ × Mem α → Res (Except ε Unit × (σ × Mem α))) (c : Container) (s : σ) (m : Mem α) :
    Res (Except ε Unit × (σ × Mem α)) :=
  forEach (m := Code ε σ α) (fun is sm => f (c.addr is) is sm) c.shape (s, m)

/-- Outcome of an algorithm: exception or not, and the memory; captured state is gone.
For the algorithms of `include/kwk/algorithm/algos/transform.hpp:16-24`. -/
def outcome (r : Res (Except ε Unit × (σ × Mem α))) : Res (Except ε Unit × Mem α) := do
  let r ← r
  pure (r.1, r.2.2)

/-- `transform(f, out, in...)`: `o = f(i...)`; `include/kwk/algorithm/algos/transform.hpp:16-24`. -/
def transformE (m : Mem α) (f : List α → Except ε α) (out : Container) (ins : List Container) : Res (Except ε Unit × Mem α) :=
  outcome (mapE (fun o is (sm : Unit × Mem α) => do
    let vs ← is.mapM (fun i => load sm.2 i)
    match f vs with
    | .error e => pure (.error e, sm)
    | .ok v => do
      let m ← store sm.2 o v
      pure (.ok (), ((), m))) out ins () m)

/-- `generate(f, out)`: `o = f(is...)`; `include/kwk/algorithm/algos/generator.hpp:32-37`. -/
def generateE (m : Mem α) (f : List Int → Except ε α) (out : Container) : Res (Except ε Unit × Mem α) :=
  outcome (mapIndexE (fun o is (sm : Unit × Mem α) =>
    match f is with
    | .error e => pure (.error e, sm)
    | .ok v => do
      let m ← store sm.2 o v
      pure (.ok (), ((), m))) out () m)

/-- `copy_if(f, out, in)`: `if(f(i)) o = i`; `include/kwk/algorithm/algos/copy.hpp:34-39`. -/
def copyIfE (m : Mem α) (f : α → Except ε Bool) (out inp : Container) : Res (Except ε Unit × Mem α) :=
  outcome (mapE (fun o is (sm : Unit × Mem α) => do
    let v ← load sm.2 (is.headD o)
    match f v with
    | .error e => pure (.error e, sm)
    | .ok true => do
      let m ← store sm.2 o v
      pure (.ok (), ((), m))
    | .ok false => pure (.ok (), sm)) out [inp] () m)

/-- `replace_if(out, f, new_value)`: `if(f(o)) o = new_value`; `include/kwk/algorithm/algos/replace.hpp:16-20`. -/
def replaceIfE (m : Mem α) (c : Container) (f : α → Except ε Bool) (newValue : α) : Res (Except ε Unit × Mem α) :=
  outcome (mapE (fun o _ (sm : Unit × Mem α) => do
    let v ← load sm.2 o
    match f v with
    | .error e => pure (.error e, sm)
    | .ok true => do
      let m ← store sm.2 o newValue
      pure (.ok (), ((), m))
    | .ok false => pure (.ok (), sm)) c [] () m)

/-- `transform_exclusive_scan(in, out, init, f1, f2)`: `o = sum; sum = f1(sum, f2(i))`; `include/kwk/algorithm/algos/numeric.hpp:142-147`. -/
def transformExclusiveScanE (m : Mem α) (inp out : Container) (init : α) (f1 : α → β → Except ε α) (f2 : α → Except ε β) :
    Res (Except ε Unit × Mem α) :=
  outcome (mapE (fun i os (sm : α × Mem α) => do
    let m ← store sm.2 (os.headD i) sm.1
    let v ← load m i
    match f2 v with
    | .error e => pure (.error e, (sm.1, m))
    | .ok b =>
      match f1 sm.1 b with
      | .error e => pure (.error e, (sm.1, m))
      | .ok sum => pure (.ok (), (sum, m))) inp [out] init m)

/-- `transform_inclusive_scan(in, out, init, f1, f2)`: `sum = f1(sum, f2(i)); o = sum`; `include/kwk/algorithm/algos/numeric.hpp:180-186`. -/
def transformInclusiveScanE (m : Mem α) (inp out : Container) (init : α) (f1 : α → β → Except ε α) (f2 : α → Except ε β) :
    Res (Except ε Unit × Mem α) :=
  outcome (mapE (fun i os (sm : α × Mem α) => do
    let v ← load sm.2 i
    match f2 v with
    | .error e => pure (.error e, sm)
    | .ok b =>
      match f1 sm.1 b with
      | .error e => pure (.error e, sm)
      | .ok sum => do
        let m ← store sm.2 (os.headD i) sum
        pure (.ok (), (sum, m))) inp [out] init m)

/-- Reads an element, in code that may throw; `include/kwk/container/container.hpp:134-138`. -/
def readE (m : Mem α) (c : Container) (is : List Int) : ExceptT ε Res α := ExceptT.lift (c.get m is)

/-- A call that may throw. For the calls of `include/kwk/algorithm/algos/reduce.hpp:32`. -/
def callE (r : Except ε β) : ExceptT ε Res β := ExceptT.mk (pure r)

/-- `reduce(in, f, init)`; `include/kwk/algorithm/algos/reduce.hpp:29-36`. -/
def reduceE (m : Mem α) (c : Container) (f : β → α → Except ε β) (init : β) : Res (Except ε β) :=
  (reduceM (m := ExceptT ε Res) (readE m c) (fun a v => callE (f a v)) init c.shape).run

/-- `all_of(in, f)`; `include/kwk/algorithm/algos/predicates.hpp:27-31`. -/
def allOfE (m : Mem α) (c : Container) (f : α → Except ε Bool) : Res (Except ε Bool) :=
  (allOfM (m := ExceptT ε Res) (readE m c) (fun v => callE (f v)) c.shape).run

/-- `any_of(in, f)`; `include/kwk/algorithm/algos/predicates.hpp:39-43`. -/
def anyOfE (m : Mem α) (c : Container) (f : α → Except ε Bool) : Res (Except ε Bool) :=
  (anyOfM (m := ExceptT ε Res) (readE m c) (fun v => callE (f v)) c.shape).run

/-- `count_if(in, f)`; `include/kwk/algorithm/algos/predicates.hpp:75-79`. -/
def countIfE (m : Mem α) (c : Container) (f : α → Except ε Bool) : Res (Except ε Nat) :=
  (countIfM (m := ExceptT ε Res) (readE m c) (fun v => callE (f v)) c.shape).run

/-- `find_if(in, f)`; `include/kwk/algorithm/algos/find.hpp:35-63`. -/
def findIfE (m : Mem α) (c : Container) (f : α → Except ε Bool) : Res (Except ε (Option (List Int))) :=
  (findIfM (m := ExceptT ε Res) (readE m c) (fun v => callE (f v)) c.shape).run

/-- `none_of(in, f)`; `include/kwk/algorithm/algos/predicates.hpp:51-55`. -/
def noneOfE (m : Mem α) (c : Container) (f : α → Except ε Bool) : Res (Except ε Bool) :=
  (noneOfM (m := ExceptT ε Res) (readE m c) (fun v => callE (f v)) c.shape).run

/-- `find_last_if(in, f)`; `include/kwk/algorithm/algos/find.hpp:121-164`. -/
def findLastIfE (m : Mem α) (c : Container) (f : α → Except ε Bool) : Res (Except ε (Option (List Int))) := do
  let r ← findIfE m (reverse c) f
  pure (r.map fun r => r.map fun pos => c.shape.zipWith (fun d i => d - 1 - i) pos)

/-- The callback of `transform_reduce` and `inner_product`: `init = R(init, T(i1, i2))`; `include/kwk/algorithm/algos/numeric.hpp:32, 99`. -/
def transformReduceStepE {γ : Type} (R : β → γ → Except ε β) (T : α → α → Except ε γ) (i1 i2 : Ptr) (sm : β × Mem α) :
    Res (Except ε Unit × (β × Mem α)) := do
  let v1 ← load sm.2 i1
  let v2 ← load sm.2 i2
  match T v1 v2 with
  | .error e => pure (.error e, sm)
  | .ok x =>
    match R sm.1 x with
    | .error e => pure (.error e, sm)
    | .ok y => pure (.ok (), (y, sm.2))

/-- `transform_reduce(in1, in2, init, R, T)`; `include/kwk/algorithm/algos/numeric.hpp:28-34`. -/
def transformReduceE {γ : Type} (m : Mem α) (c1 c2 : Container) (init : β) (R : β → γ → Except ε β) (T : α → α → Except ε γ) :
    Res (Except ε β) := do
  let r ← mapE (fun i1 ins sm => transformReduceStepE R T i1 (ins.headD i1) sm) c1 [c2] init m
  pure (r.1.map fun _ => r.2.1)

/-- `inner_product(in1, in2, init, f1, f2)`; `include/kwk/algorithm/algos/numeric.hpp:91-101`. -/
def innerProductE {γ : Type} (md : Mode) (m : Mem α) (c1 c2 : Container) (init : β) (f1 : β → γ → Except ε β)
    (f2 : α → α → Except ε γ) : Res (Except ε β) := do
  kwkAssert md (shapeEq c1.shape c2.shape)
  transformReduceE m c1 c2 init f1 f2

/-- `for_each(f, c0, cs...)`: the object `f` of the caller is called through a reference, with the elements, and keeps what the calls made of
it, exception or not; `include/kwk/algorithm/algos/for_each.hpp:55-60, 80-84`. -/
def forEachE {φ : Type} (call : φ → List Ptr → Mem α → Res (Except ε Unit × (φ × Mem α))) (f : φ) (c0 : Container) (cs : List Container)
    (m : Mem α) : Res (Except ε Unit × (φ × Mem α)) :=
  mapE (fun p ps fm => call fm.1 (p :: ps) fm.2) c0 cs f m

/-- `for_each_index(ctx, f, c)`, likewise, with the position; `include/kwk/algorithm/algos/for_each.hpp:103-111`. -/
def forEachIndexE {φ : Type} (call : φ → Ptr → List Int → Mem α → Res (Except ε Unit × (φ × Mem α))) (f : φ) (c : Container) (m : Mem α) :
    Res (Except ε Unit × (φ × Mem α)) :=
  mapIndexE (fun p is fm => call fm.1 p is fm.2) c f m

/-- The loop of `lower_bound` and `upper_bound`, with a condition that may throw; `include/kwk/algorithm/algos/binary_search.hpp:40-55, 84-98`. -/
def searchLoopE (md : Mode) (m : Mem α) (c : Container) (adv : α → Except ε Bool) : Nat → SearchVars → Res (Except ε SearchVars)
  | 0, _ => throw .diverges
  | fuel + 1, s =>
    if s.count > 0 then do
      let it := s.first
      let step := s.count.tdiv 2
      let it := it + step
      let p ← coordinates md it c.shape
      let v ← c.get m p
      match adv v with
      | .error e => pure (.error e)
      | .ok true =>
        let it := it + 1
        searchLoopE md m c adv fuel { count := s.count - (step + 1), first := it, it := it }
      | .ok false => searchLoopE md m c adv fuel { count := step, first := s.first, it := it }
    else pure (.ok s)

/-- The end of `lower_bound` and `upper_bound`; `include/kwk/algorithm/algos/binary_search.hpp:56-57, 100-102`. -/
def searchEndE (md : Mode) (c : Container) : Except ε SearchVars → Res (Except ε (Option (List Int)))
  | .error e => pure (.error e)
  | .ok s =>
    if s.first < c.numel then do
      let p ← coordinates md s.it c.shape
      pure (.ok (some p))
    else pure (.ok none)

/-- `lower_bound(out, value, func)`; `include/kwk/algorithm/algos/binary_search.hpp:29-58`. -/
def lowerBoundE (md : Mode) (m : Mem α) (c : Container) (value : β) (func : α → β → Except ε Bool) : Res (Except ε (Option (List Int))) :=
  if c.numel = 0 then pure (.ok none)
  else do
    let s ← searchLoopE md m c (fun e => func e value) (c.numel.toNat + 1) ⟨c.numel, 0, 0⟩
    searchEndE md c s

/-- `upper_bound(out, value, func)`; `include/kwk/algorithm/algos/binary_search.hpp:77-103`. -/
def upperBoundE (md : Mode) (m : Mem α) (c : Container) (value : β) (func : β → α → Except ε Bool) : Res (Except ε (Option (List Int))) := do
  let s ← searchLoopE md m c (fun e => (func value e).map fun r => !r) (c.numel.toNat + 1) ⟨c.numel, 0, 0⟩
  searchEndE md c s

/-- `binary_search(out, value, func)`; `include/kwk/algorithm/algos/binary_search.hpp:123-139`. -/
def binarySearchE (md : Mode) (m : Mem α) (c : Container) (value : α) (func : α → α → Except ε Bool) : Res (Except ε Bool) := do
  match ← lowerBoundE md m c value func with
  | .error e => pure (.error e)
  | .ok none => pure (.ok false)
  | .ok (some p) => do
    let e ← c.get m p
    pure ((func value e).map fun r => !r)

end Kwk
