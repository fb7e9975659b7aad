import Mathlib.Logic.ExistsUnique
import Verif.Spec.Layout
import Verif.Model.Ownership

/-!
# Specification vocabulary for ownership

Speaks about the observable state only: which tables exist, which block each of them points to,
which blocks are allocated and by whom.
-/

namespace Kwk.Spec

variable {α : Type}

/-- Table object `x` exists and points to block `b`. -/
def Owns (w : World α) (x b : Nat) : Prop := ∃ t, w.tables x = some t ∧ t.data = some b

/-- The state before any table exists: nothing allocated, memory of the rest of the program in the
blocks below `next`. -/
structure Fresh (w : World α) : Prop where
  /-- no table -/
  noTable : ∀ x, w.tables x = none
  /-- no allocated block -/
  noBlock : ∀ b, w.live b = none
  /-- the rest of the program only uses old blocks -/
  old : ∀ p : Ptr, w.next ≤ p.blk → w.mem p = none

/-- Every allocated block has exactly one owner; tables only point to allocated blocks; the allocator
that a table will use to release its block is the one that allocated it. -/
structure Owned (w : World α) : Prop where
  /-- no leak, no sharing -/
  owner : ∀ b a, w.live b = some a → ∃! x, Owns w x b
  /-- no dangling pointer, right allocator -/
  live : ∀ x t b, w.tables x = some t → t.data = some b → ∃ a, t.alloc = some a ∧ w.live b = some a

end Kwk.Spec

namespace Kwk.Spec

variable {α : Type}

/-- A state that some program reaches, starting before any table exists. -/
def Reachable (w : World α) : Prop := ∃ (w0 : World α) (ops : List (Op α)), Fresh w0 ∧ w0.run ops = .ok w

/-- Table object `x` exists, has shape `s`, and its element at each position `p` reads as `val p`. -/
def Holds (w : World α) (x : Nat) (s : Shape) (val : List Int → α) : Prop :=
  ∃ t, w.tables x = some t ∧ t.shape = s ∧ ∀ p, InBox s p → w.read t p = .ok (val p)

end Kwk.Spec
