import Verif.Spec.Rank

/-!
# Specification: where an answer changes

For contents that are not sorted there is no first or last element to speak of; what a search by bisection can still promise is a position
where the answer changes from yes to no.
-/

namespace Kwk.Spec

/-- `q` is the position just before `p`. -/
def JustBefore (s q p : List Int) : Prop := InBox s q ∧ q < p ∧ ∀ r, InBox s r → ¬ (q < r ∧ r < p)

/-- `q` is the last position. -/
def LastOf (s q : List Int) : Prop := InBox s q ∧ ∀ r, InBox s r → ¬ q < r

/-- `P` holds just before `r` and not at `r`; no position stands for the end. -/
def Boundary (s : List Int) (P : List Int → Prop) : Option (List Int) → Prop
  | some p => InBox s p ∧ ¬ P p ∧ ∀ q, JustBefore s q p → P q
  | none => ∀ q, LastOf s q → P q

end Kwk.Spec
