import Verif.Model.FunctionCopies
import Verif.Spec.ComparedValues

/-!
# Specification: copies of functions
-/

namespace Kwk.Spec

/-- No call copies the function: on containers with the default strides, whose elements are in order if `lt` is the function, and which
have nothing in common with the output `o` of a scan. -/
def NeverCopiesFunction (s : Calling) (g : GivenAs) : Prop :=
  ∀ (c o : Container) (m : Mem Int) (xs : List Int) (f : Int → Bool) (op : Int → Int → Int) (v : Int) (gen : List Int → Int)
    (tr : List Int → Int) (st : Nat) (step : Nat → Nat) (lt : Int → Int → Bool) (md : Mode) (n : Nat),
    c.shape ≠ [] → NonNeg c.shape → c.Default → Distinct c → Lists c m xs → StrictWeak lt → xs.Pairwise (fun a b => lt b a = false) →
    o.shape = c.shape → Distinct o → Valid o m → (∀ p q, InBox o.shape p → InBox c.shape q → o.addr p ≠ c.addr q) →
      s.run m c o f op v gen tr st step lt md g n = .ok ((), n)

end Kwk.Spec
