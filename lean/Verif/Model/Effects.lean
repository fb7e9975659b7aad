import Verif.Model.Algos

/-!
# Model: callbacks with state

Function objects with their own state, and predicates or generators with side effects.  The state of a
function object is a value `φ`; a call gives the next state.
-/

namespace Kwk

variable {α β φ : Type}

/-- What a call of `for_each` leaves: the function object it returns (`none` for `void`) and the function object
of the caller; `include/kwk/algorithm/algos/for_each.hpp:26-118`. -/
structure ForEachOutcome (φ : Type) where
  /-- returned function object -/
  returned : Option φ
  /-- the caller's function object afterwards, when it was passed as an lvalue -/
  callers : φ
  deriving DecidableEq, Repr

/-- `__::for_each(f, ds)` with the function object it returns: `f` is a by-value parameter, called through a reference
by all loops; `include/kwk/detail/algorithm/for_each.hpp:24-40`. -/
def forEachObj (call : φ → List Int → Res φ) (f : φ) (shp : Shape) : Res φ :=
  loopState (fun is f => call f is) shp f

/-- `for_each(ctx, f, shape)`: returns the copy made by `cpu.map`; the caller's object is not touched;
`include/kwk/algorithm/algos/for_each.hpp:25-29`, `include/kwk/context/cpu/context.hpp:18-22`. -/
def forEachShapeCtx (call : φ → List Int → Res φ) (f : φ) (shp : Shape) : Res (ForEachOutcome φ) := do
  let r ← forEachObj call f shp
  pure ⟨some r, f⟩

/-- `for_each(f, shape)`: there is no `return`; `include/kwk/algorithm/algos/for_each.hpp:49-53`. -/
def forEachShape (call : φ → List Int → Res φ) (f : φ) (shp : Shape) : Res (ForEachOutcome φ) := do
  let r ← forEachShapeCtx call f shp
  pure ⟨none, r.callers⟩

/-- `for_each(ctx, f, c0, cs...)` and `for_each(f, c0, cs...)`: `f` is called through a reference and a copy of
it is returned; `include/kwk/algorithm/algos/for_each.hpp:55-60, 80-84`. The callback receives the addresses of the
elements and may change memory. -/
def forEachElems (call : φ → List Ptr → Mem α → Res (φ × Mem α)) (f : φ) (c0 : Container)
    (cs : List Container) (m : Mem α) : Res (ForEachOutcome φ × Mem α) := do
  let r ← loopState (fun is (fm : φ × Mem α) => call fm.1 (c0.addr is :: cs.map fun c => c.addr is) fm.2)
    c0.shape (f, m)
  pure (⟨some r.1, r.1⟩, r.2)

/-- `for_each_index(ctx, f, c)`; `include/kwk/algorithm/algos/for_each.hpp:103-111`. -/
def forEachIndexCtx (call : φ → Ptr → List Int → Mem α → Res (φ × Mem α)) (f : φ) (c : Container)
    (m : Mem α) : Res (ForEachOutcome φ × Mem α) := do
  let r ← loopState (fun is (fm : φ × Mem α) => call fm.1 (c.addr is) is fm.2) c.shape (f, m)
  pure (⟨some r.1, r.1⟩, r.2)

/-- `for_each_index(f, c)`: takes `f` by value; `include/kwk/algorithm/algos/for_each.hpp:113-117`. -/
def forEachIndex (call : φ → Ptr → List Int → Mem α → Res (φ × Mem α)) (f : φ) (c : Container)
    (m : Mem α) : Res (ForEachOutcome φ × Mem α) := do
  let r ← forEachIndexCtx call f c m
  pure (⟨r.1.returned, f⟩, r.2)

/-- `reduce(in, f, init)` with effects: `init = f(init, i)` for each element;
`include/kwk/algorithm/algos/reduce.hpp:29-36`. -/
def reduceM {m : Type → Type} [Monad m] (rd : List Int → m α) (f : β → α → m β) (init : β) (shp : Shape) :
    m β := do
  let r ← forEach (m := StateT β m) (fun is => fun init => do
    let v ← rd is
    let b ← f init v
    pure ((), b)) shp init
  pure r.2

/-- `all_of` with a predicate with effects: `a && f(e)` does not call `f` once `a` is false;
`include/kwk/algorithm/algos/predicates.hpp:27-31`. -/
def allOfM {m : Type → Type} [Monad m] (rd : List Int → m α) (f : α → m Bool) (shp : Shape) : m Bool :=
  reduceM rd (fun a e => if a then f e else pure false) true shp

/-- `any_of` with a predicate with effects: `a || f(e)` does not call `f` once `a` is true;
`include/kwk/algorithm/algos/predicates.hpp:39-43`. -/
def anyOfM {m : Type → Type} [Monad m] (rd : List Int → m α) (f : α → m Bool) (shp : Shape) : m Bool :=
  reduceM rd (fun a e => if a then pure true else f e) false shp

/-- `none_of` with a predicate with effects; `include/kwk/algorithm/algos/predicates.hpp:51-55`. -/
def noneOfM {m : Type → Type} [Monad m] (rd : List Int → m α) (f : α → m Bool) (shp : Shape) : m Bool := do
  let b ← anyOfM rd f shp
  pure !b

/-- `count_if` with a predicate with effects; `include/kwk/algorithm/algos/predicates.hpp:75-79`. -/
def countIfM {m : Type → Type} [Monad m] (rd : List Int → m α) (f : α → m Bool) (shp : Shape) : m Nat :=
  reduceM rd (fun a e => do
    let b ← f e
    pure (a + (if b then 1 else 0))) 0 shp

/-- `generate(f, out)` with a generator that changes outside state `φ`; `include/kwk/algorithm/algos/generator.hpp:32-37`. -/
def generateS (m : Mem α) (f : φ → List Int → Res (α × φ)) (s : φ) (c : Container) : Res (φ × Mem α) :=
  mapIndexCtx (fun o is (s, m) => do
    let r ← f s is
    let m ← store m o r.1
    pure (r.2, m)) c s m

/-- `transform(f, out, in...)` with a function that has state; `include/kwk/algorithm/algos/transform.hpp:16-24`. -/
def transformS (m : Mem α) (f : φ → List α → Res (α × φ)) (s : φ) (out : Container) (ins : List Container) :
    Res (φ × Mem α) :=
  mapCtx (fun o is (s, m) => do
    let vs ← is.mapM (fun i => load m i)
    let r ← f s vs
    let m ← store m o r.1
    pure (r.2, m)) out ins s m

end Kwk
