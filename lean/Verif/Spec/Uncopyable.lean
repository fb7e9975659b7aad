import Verif.Spec.Identity
import Verif.Model.Uncopyable

/-!
# Specification: calls that copy elements
-/

namespace Kwk.Spec

/-- The algorithms that have to look at every element, whatever the function says. -/
def Full : Reader → Prop
  | .allOf | .anyOf | .noneOf | .count | .countIf | .reduce | .reduceSum | .forEach => True
  | _ => False

/-- No call of the algorithm copies an element. -/
def NeverCopies (r : Reader) : Prop :=
  ∀ (c : Container) (m : Mem Int) (es : List (Ptr × Int)) (f : Given → Int → Bool) (v : Int) (t : Trace), c.Default → Entries c m es →
    ∃ t', r.run m c f v t = .ok ((), t') ∧ t'.copied = t.copied

end Kwk.Spec
