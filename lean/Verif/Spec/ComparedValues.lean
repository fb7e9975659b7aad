import Mathlib.Data.Nat.Log
import Verif.Model.ComparedValues
import Verif.Spec.Sequence
import Verif.Spec.Order

/-!
# Specification: copies of values
-/

namespace Kwk.Spec

variable {α : Type}

/-- Copies that the caller makes: one if a variable is given. -/
def ofCaller : GivenAs → Nat
  | .lvalue => 1
  | .rvalue => 0

/-- A possible number of comparisons of a search among `n` elements. -/
def Comparisons (n q : Nat) : Prop := q ≤ Nat.log 2 n + 1 ∧ (n ≠ 0 → q ≠ 0)

/-- No call copies the value: in containers with the default strides whose elements are in order. -/
def NeverCopiesValue (s : Comparing) (g : GivenAs) : Prop :=
  ∀ (md : Mode) (c : Container) (m : Mem Int) (xs : List Int) (v new : Int) (lt : Int → Int → Bool) (n : Nat),
    c.shape ≠ [] → NonNeg c.shape → c.Default → Distinct c → Lists c m xs → StrictWeak lt → xs.Pairwise (fun a b => lt b a = false) →
      s.run md m c v new lt g n = .ok ((), n)

end Kwk.Spec
