import Verif.Spec.Owned
import Verif.Model.Failures

/-!
# Specification vocabulary for failures

What a caller may expect when an operation on tables fails: nothing happened.
-/

namespace Kwk.Spec

variable {α : Type}

/-- Two states that a program cannot tell apart: same tables, same memory, same allocated blocks. -/
structure SameState (w w' : World α) : Prop where
  /-- same tables -/
  tables : w'.tables = w.tables
  /-- same contents of memory -/
  mem : w'.mem = w.mem
  /-- same allocated blocks -/
  live : w'.live = w.live

/-- What existed before is unchanged: tables, and contents and ownership of the memory in use. -/
structure Untouched (w w' : World α) : Prop where
  /-- same tables -/
  tables : w'.tables = w.tables
  /-- same contents of the memory in use -/
  mem : ∀ p v, w.mem p = some v → w'.mem p = some v
  /-- allocated blocks stay allocated -/
  live : ∀ b a, w.live b = some a → w'.live b = some a

/-- The shape of the table that an operation has to build, if it builds one. -/
def wanted (w : World α) : Op α → Option Shape
  | .make x _ s _ => if w.tables x = none then some s else none
  | .copy x y => if w.tables x = none then (w.tables y).map Table.shape else none
  | .copyFrom x c => if w.tables x = none then some c.shape else none
  | .copyAssign x y => if w.tables x = none then none else (w.tables y).map Table.shape
  | .assignFrom x c => if w.tables x = none then none else some c.shape
  | _ => none

/-- The object that such an operation creates or assigns. -/
def target : Op α → Option Nat
  | .make x _ _ _ | .copy x _ | .copyFrom x _ | .copyAssign x _ | .assignFrom x _ => some x
  | _ => none

/-- Whether such an operation copies elements. -/
def copies : Op α → Bool
  | .make _ _ _ none => false
  | _ => true

/-- A block is lost during an operation: the deleter throws after memory was obtained. -/
def loses (w : World α) (fl : Failures) (op : Op α) : Bool :=
  match wanted w op with
  | some s => decide (0 < numel s) && !fl.throws .label && !fl.throws .allocate && fl.throws .deleter && !fl.exhausted
  | none => false

/-- The number of operations of a program during which a block is lost. -/
def lost : World α → List (Failures × Op α) → Nat
  | _, [] => 0
  | w, (fl, op) :: l => (if loses w fl op then 1 else 0) + match w.stepE fl op with
    | .ok (.done w1) | .ok (.threw w1) => lost w1 l
    | _ => 0

/-- A state reached by a program that catches exceptions and goes on. -/
def ReachableE (w : World α) : Prop := ∃ (w0 : World α) (l : List (Failures × Op α)), Fresh w0 ∧ w0.runE l = .ok (some w)

/-- Tables only point to allocated blocks, no two to the same one, and release them with the allocator that allocated them. -/
structure OwnedSafely (w : World α) : Prop where
  /-- no sharing -/
  unique : ∀ x y b, Owns w x b → Owns w y b → x = y
  /-- no dangling pointer, right allocator -/
  live : ∀ x t b, w.tables x = some t → t.data = some b → ∃ a, t.alloc = some a ∧ w.live b = some a

/-- An allocated block without owner. -/
def Orphan (w : World α) (b : Nat) : Prop := w.live b ≠ none ∧ ∀ x, ¬ Owns w x b

end Kwk.Spec
