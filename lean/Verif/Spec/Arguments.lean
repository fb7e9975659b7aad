import Verif.Model.Arguments
import Verif.Spec.Sequence

/-!
# Specification: calls whose arguments are objects
-/

namespace Kwk.Spec

variable {α ρ : Type}

/-- Before a call: no object is in a block that will be used for the objects the call makes. -/
def Unused (s : Objs α) : Prop := ∀ q : Ptr, s.next ≤ q.blk → s.mem q = none

/-- Both forms of an algorithm, with and without a context, answer `r`, and leave the memory `m` to a caller whose memory was that
of `s`: whatever else the call has made is gone. -/
def Yields (s : Objs α) (call callCtx : Calls α ρ) (r : ρ) (m : Mem α) : Prop :=
  call s = .ok (r, ⟨m, s.next⟩) ∧ callCtx s = .ok (r, ⟨m, s.next⟩)

end Kwk.Spec
