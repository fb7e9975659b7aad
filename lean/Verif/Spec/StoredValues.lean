import Verif.Model.StoredValues
import Verif.Spec.ComparedValues

/-!
# Specification: copies of values that are stored or accumulated
-/

namespace Kwk.Spec

variable {α : Type}

/-- The copies that cannot be avoided: one for each element that is assigned the value. -/
def needed [DecidableEq α] (xs : List α) (f : α → Bool) (old : α) : Storing → Nat
  | .fill _ | .iota _ | .iotaNone | .iotaStep _ => xs.length
  | .replaceIf _ => xs.countP f
  | .replace _ => xs.countP fun x => x = old
  | .transformExclusive _ | .exclusiveScan _ | .exclusiveSum _ | .transformInclusive _ | .inclusiveScan _ | .inclusiveSum _ => xs.length
  | _ => 0

/-- Calls make only these copies, if the value is given up. -/
def OnlyNeeded (s : Storing) : Prop :=
  ∀ (md : Mode) (c o : Container) (m : Mem Int) (xs : List Int) (f : Int → Bool) (op : Int → Int → Int) (v old : Int) (n : Nat),
    Distinct c → Lists c m xs → o.shape = c.shape → Distinct o → Valid o m →
    (∀ p q, InBox o.shape p → InBox c.shape q → o.addr p ≠ c.addr q) →
      s.run md m c o f op v old .rvalue n = .ok ((), n + needed xs f old s)

end Kwk.Spec
