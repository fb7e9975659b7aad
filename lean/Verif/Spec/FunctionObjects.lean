import Verif.Model.FunctionObjects
import Verif.Spec.Sequence
import Verif.Spec.Seq

/-!
# Specification: function objects asked one element after the other
-/

namespace Kwk.Spec

variable {α σ : Type}

/-- The number of the first element for which the object says yes (their number if there is none) and the object afterwards. -/
def firstYes (call : σ → α → Bool × σ) : σ → List α → Nat × σ
  | s, [] => (0, s)
  | s, x :: xs =>
    if (call s x).1 then (0, (call s x).2)
    else ((firstYes call (call s x).2 xs).1 + 1, (firstYes call (call s x).2 xs).2)

end Kwk.Spec
