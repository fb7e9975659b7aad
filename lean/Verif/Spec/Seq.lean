/-!
# Specification: running an action along a list

Independent of the model.
-/

namespace Kwk.Spec

variable {m : Type → Type} [Monad m] {α : Type}

/-- Run `f` on the elements of the list, in order, once each. -/
def runAll (f : α → m Unit) : List α → m Unit
  | [] => pure ()
  | a :: l => do
    f a
    runAll f l

/-- Run `f` on the elements in order until it answers `true`; nothing is run after that. -/
def runUntil (f : α → m Bool) : List α → m Bool
  | [] => pure false
  | a :: l => do
    let b ← f a
    if b then pure true else runUntil f l

/-- Read the elements in order and test them until `f` answers `true`; return the successful one. -/
def firstHit {ρ : Type} (rd : α → m ρ) (f : ρ → m Bool) : List α → m (Option α)
  | [] => pure none
  | a :: l => do
    let v ← rd a
    let b ← f v
    if b then pure (some a) else firstHit rd f l

/-- Read the elements in order and test them until `f` answers `stop`; the later ones are read but not tested.
Answers `stop` if some test did. -/
def testUntil {ρ : Type} (stop : Bool) (rd : α → m ρ) (f : ρ → m Bool) : List α → m Bool
  | [] => pure (!stop)
  | a :: l => do
    let v ← rd a
    let b ← f v
    if b == stop then do
      runAll (fun a => do let _ ← rd a; pure ()) l
      pure stop
    else testUntil stop rd f l

/-- Read and test every element once, in order, and count the positive answers. -/
def countTests {ρ : Type} (rd : α → m ρ) (f : ρ → m Bool) : List α → m Nat
  | [] => pure 0
  | a :: l => do
    let v ← rd a
    let b ← f v
    let n ← countTests rd f l
    pure (n + if b then 1 else 0)

/-- Draw one value per element of the list, in order, from a generator with state. -/
def drawAll {φ ρ : Type} (f : φ → α → m (ρ × φ)) : φ → List α → m (List ρ × φ)
  | s, [] => pure ([], s)
  | s, a :: l => do
    let r ← f s a
    let t ← drawAll f r.2 l
    pure (r.1 :: t.1, t.2)

end Kwk.Spec
