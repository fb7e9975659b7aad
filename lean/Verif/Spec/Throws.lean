import Verif.Spec.Box

/-!
# Specification: processing a list until something throws

Independent of the model.
-/

namespace Kwk.Spec

variable {P ε σ ρ α β : Type}

/-- Take the elements in order.  For each one, possibly record a value; then go on with a new state, or stop with an exception. -/
def untilThrow (g : σ → P → Option ρ × Except ε σ) : σ → List P → List (P × ρ) × Except ε σ
  | s, [] => ([], .ok s)
  | s, p :: l =>
    let w := (g s p).1.toList.map fun v => (p, v)
    match (g s p).2 with
    | .error e => (w, .error e)
    | .ok s' => (w ++ (untilThrow g s' l).1, (untilThrow g s' l).2)

/-- The partial results of a scan: fold of the elements at the positions of the list. -/
def partialSum (f1 : α → β → Except ε α) (f2 : α → Except ε β) (val : List Int → α) (init : α) (l : List (List Int)) : Except ε α :=
  l.foldlM (fun a q => do f1 a (← f2 (val q))) init

/-- Make calls along a list, each in the state the previous one left, until one throws. -/
def callsAlong {m : Type → Type} [Monad m] (call : P → σ → m (Except ε Unit × σ)) : List P → σ → m (Except ε Unit × σ)
  | [], s => pure (.ok (), s)
  | p :: l, s => do
    let r ← call p s
    match r.1 with
    | .error e => pure (.error e, r.2)
    | .ok _ => callsAlong call l r.2

end Kwk.Spec
