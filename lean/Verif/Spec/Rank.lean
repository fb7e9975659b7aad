import Verif.Spec.Box
import Mathlib.Data.List.Lex

/-! # Specification: first matches, and the rank of an optional position -/

namespace Kwk.Spec

/-- What "first match" means: empty iff nothing matches, otherwise the lexicographically least
matching position. -/
def IsFirst (s : List Int) (P : List Int → Prop) (r : Option (List Int)) : Prop :=
  (r = none ↔ ∀ p, InBox s p → ¬ P p) ∧
  ∀ p, r = some p ↔ (InBox s p ∧ P p ∧ ∀ q, InBox s q → q < p → ¬ P q)

/-- `r` is position number `k` in row-major order; no position counts as one past the end. -/
def Rank (s : List Int) : Option (List Int) → Nat → Prop
  | none, k => (k : Int) = s.prod
  | some p, k => (positions s)[k]? = some p

instance (s : List Int) (r : Option (List Int)) (k : Nat) : Decidable (Rank s r k) := by
  cases r <;> unfold Rank <;> infer_instance

end Kwk.Spec
