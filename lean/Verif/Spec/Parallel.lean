import Verif.Model.Parallel
import Verif.Spec.Layout

/-!
# Specification: concurrent calls
-/

namespace Kwk.Spec

variable {σ α : Type}

/-- A data race: two calls access the same place, and at least one access is a write. -/
def Race (st : PState σ α) : Prop :=
  ∃ x ∈ st.trace, ∃ y ∈ st.trace, x.task ≠ y.task ∧ x.place = y.place ∧ (x.write = true ∨ y.write = true)

/-- Every call has ended. -/
def Finished (s : Shape) (st : PState σ α) : Prop := ∀ p, InBox s p → st.todo p = .done

/-- A schedule of the calls at the positions of `s`. -/
def Schedules (s : Shape) (l : List (List Int)) : Prop := ∀ p ∈ l, InBox s p

end Kwk.Spec
