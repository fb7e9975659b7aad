/-!
# Specification: sums by two functions with states

Nothing here refers to the model.
-/

namespace Kwk.Spec

variable {α β γ σ τ : Type}

/-- The sums before, between and after the elements: each element is asked to `g`, and the answer added by `f`; both change with each
call. -/
def runningSums (f : σ → β → γ → β × σ) (g : τ → α → γ × τ) : β → σ → τ → List α → List β
  | b, _, _, [] => [b]
  | b, s, t, x :: xs =>
    let d := g t x
    let a := f s b d.1
    b :: runningSums f g a.1 a.2 d.2 xs

end Kwk.Spec
