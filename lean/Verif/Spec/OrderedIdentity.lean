import Mathlib.Data.Nat.Log
import Verif.Model.OrderedIdentity
import Verif.Spec.Identity

/-!
# Specification: the questions of an ordered search
-/

namespace Kwk.Spec

variable {α : Type}

/-- The questions of a search: elements of the container, at most `⌊log₂ n⌋ + 1`, and at least one unless there are no elements. -/
def Questions (es l : List (Ptr × α)) : Prop :=
  (∀ e ∈ l, e ∈ es) ∧ l.length ≤ Nat.log 2 es.length + 1 ∧ (es ≠ [] → l ≠ [])

/-- The entries are ordered: what is below the value comes first, what is above it last. -/
structure SortedFor (es : List (Ptr × α)) (f g : Given → α → Bool) (below above : α → Bool) : Prop where
  lower : es.Pairwise fun a b => ofElem f b = true → ofElem f a = true
  upper : es.Pairwise fun a b => ofElem g a = true → ofElem g b = true
  below : es.Pairwise fun a b => below b.2 = true → below a.2 = true
  above : es.Pairwise fun a b => above a.2 = true → above b.2 = true

/-- No call on an ordered container copies an element. -/
def OrderedNeverCopies (s : OrderedSearch) : Prop :=
  ∀ (md : Mode) (c : Container) (m : Mem Int) (es : List (Ptr × Int)) (f g : Given → Int → Bool) (below above : Int → Bool) (t : Trace),
    c.shape ≠ [] → NonNeg c.shape → Entries c m es → SortedFor es f g below above →
      ∃ t', s.run md m c f g below above t = .ok ((), t') ∧ t'.copied = t.copied

end Kwk.Spec
