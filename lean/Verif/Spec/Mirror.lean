import Verif.Spec.Box

/-!
# Specification: mirrored positions
-/

namespace Kwk.Spec

/-- The position opposite to `p` in the box `s`: `s - 1 - p` on every axis. -/
def mirror (s p : List Int) : List Int := s.zipWith (fun d i => d - 1 - i) p

/-- The last position of a box: `extent - 1` on every axis. -/
def corner (s : List Int) : List Int := s.map (· - 1)

/-- What "last match" means: empty iff nothing matches, otherwise the lexicographically greatest
matching position. -/
def IsLast (s : List Int) (P : List Int → Prop) (r : Option (List Int)) : Prop :=
  (r = none ↔ ∀ p, InBox s p → ¬ P p) ∧
  ∀ p, r = some p ↔ (InBox s p ∧ P p ∧ ∀ q, InBox s q → p < q → ¬ P q)

end Kwk.Spec
