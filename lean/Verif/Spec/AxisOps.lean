import Verif.Model.AxisOps

/-!
# Specification: axes as values
-/

namespace Kwk.Spec

/-- The axis has a name. -/
def Named : AxisId → Prop
  | .named _ => True
  | _ => False

/-- Order of the axes without a name: `implicit<1> < implicit<0> < along<0> < along<1>`. -/
def Before : AxisId → AxisId → Prop
  | .implicit m, .implicit n => n < m
  | .implicit _, .along _ => True
  | .along m, .along n => m < n
  | _, _ => False

/-- `r` names the group of axes `l`: it is the last axis with a name, or, if none has one, the first in the order. -/
def NamesGroup (l : List AxisId) (r : AxisId) : Prop :=
  r ∈ l ∧ ((Named r ∧ ∃ xs ys, l = xs ++ r :: ys ∧ ∀ y ∈ ys, ¬ Named y) ∨
    ((∀ x ∈ l, ¬ Named x) ∧ ∀ x ∈ l, ¬ Before x r))

/-- A name that cannot be taken for another axis when it is written. -/
def PlainName : AxisId → Prop
  | .named s => '[' ∉ s.toList ∧ '<' ∉ s.toList
  | _ => True

end Kwk.Spec
