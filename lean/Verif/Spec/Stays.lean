import Verif.Spec.Owned
import Verif.Model.Programs

/-!
# Specification: how long views of tables show their elements

Speaks about table objects by name and about positions, not about memory.
-/

namespace Kwk.Spec

variable {α : Type}

/-- Where the elements of table `z` are after the operation: in the table named, or nowhere.  Moves and swaps take the elements along;
they end when their table is destroyed or assigned to. -/
def goesTo (w : World α) : Op α → Nat → Option Nat
  | .move x y, z => if z = y ∧ w.tables x = none then some x else some z
  | .copyAssign x y, z => if z = x ∧ (w.tables y).isSome then none else some z
  | .assignFrom x _, z => if z = x then none else some z
  | .moveAssign x y, z =>
    if x = y ∨ w.tables x = none ∨ w.tables y = none then some z
    else if z = x then none else if z = y then some x else some z
  | .swap x y, z =>
    if w.tables x = none ∨ w.tables y = none then some z
    else if z = x then some y else if z = y then some x else some z
  | .destroy x, z => if z = x then none else some z
  | _, z => some z

/-- The same for a call of an algorithm, which moves nothing. -/
def actGoesTo (w : World α) : Act α → Nat → Option Nat
  | .op o, z => goesTo w o z
  | _, z => some z

/-- The action assigns to elements of table `x`. -/
def ActWrites : Act α → Nat → Prop
  | .op (.write y _ _), x => x = y
  | .op _, _ => False
  | .fill y _, x | .generate y _, x | .iota y _ _, x | .replaceIf y _ _, x | .transform y _ _, x | .copy y _, x | .copyIf y _ _, x
  | .inclusiveScan _ y _ _, x | .exclusiveScan _ y _ _, x | .fillAt y _ _, x | .copyAt y _ _ _, x => x = y

/-- `ElementsGo md w acts z w' z'`: the actions change state `w` into `w'`, and the elements of table `z` end up in table `z'`, or
nowhere. -/
inductive ElementsGo (md : Mode) : World α → List (Act α) → Nat → World α → Option Nat → Prop where
  /-- nothing to do -/
  | nil {w z} : ElementsGo md w [] z w (some z)
  /-- the elements are still there after the first action -/
  | on {w w1 w' act acts z z1 z'} : w.act md act = .ok w1 → actGoesTo w act z = some z1 → ElementsGo md w1 acts z1 w' z' →
      ElementsGo md w (act :: acts) z w' z'
  /-- the elements end with the first action -/
  | ended {w w1 w' act acts z} : w.act md act = .ok w1 → actGoesTo w act z = none → w1.runActs md acts = .ok w' →
      ElementsGo md w (act :: acts) z w' none

/-- States that programs with tables and algorithms reach. -/
def Reached (md : Mode) (w : World α) : Prop := ∃ (w0 : World α) (acts : List (Act α)), Fresh w0 ∧ w0.runActs md acts = .ok w

/-- Container `c` shows, at every position `p`, the element of table `z` at position `at' p`; it is not a copy. -/
def Looks (w : World α) (c : Container) (z : Nat) (at' : List Int → List Int) : Prop :=
  ∃ t b, w.tables z = some t ∧ t.data = some b ∧ t.shape ≠ [] ∧
    ∀ p, InBox c.shape p → InBox t.shape (at' p) ∧ c.addr p = (Container.ofShape ⟨b, 0⟩ t.shape).addr (at' p)

end Kwk.Spec
