import Verif.Props.Effects
import Verif.Props.EndRatio
import Verif.Props.Reading
import Verif.Props.Slicing
import Verif.Lemmas.Print

/-!
# Lemmas for `Props/Print.lean`
-/

namespace Kwk
open Spec

variable {α : Type}

/-- The loop of `operator<<` appends the text of every position. -/
theorem print_loop {c : Container} {m : Mem α} {val : List Int → α} (h : Elems c m val) (text : α → String)
    (sp os : String) :
    forEachIndexCtx (fun os a is m => do
      let v ← load m a
      pure (os ++ printStep sp c.shape is (text v), m)) os c m =
    .ok (⟨some (os ++ concat ((positions c.shape).map fun p => printStep sp c.shape p (text (val p)))),
      os ++ concat ((positions c.shape).map fun p => printStep sp c.shape p (text (val p)))⟩, m) := by
  refine (C73_for_each_index _ _ _ _ _ _ ?_).1
  have key : ∀ (l : List (List Int)), (∀ p ∈ l, InBox c.shape p) → ∀ os : String,
      l.foldlM (fun (fm : String × Mem α) p => (do
        let v ← load fm.2 (c.addr p)
        pure (fm.1 ++ printStep sp c.shape p (text v), fm.2) : Res (String × Mem α))) (os, m) =
      .ok (os ++ concat (l.map fun p => printStep sp c.shape p (text (val p))), m) := by
    intro l
    induction l with
    | nil => intro _ os; simp [concat]; rfl
    | cons p l ih =>
      intro hl os
      have hv : load m (c.addr p) = .ok (val p) := h p (hl p (by simp))
      rw [List.foldlM_cons]
      simp only [hv, bind, Except.bind, pure, Except.pure]
      have := ih (fun q hq => hl q (by simp [hq])) (os ++ printStep sp c.shape p (text (val p)))
      simp only [bind, Except.bind, pure, Except.pure] at this
      rw [this]
      simp [concat, String.append_assoc]
  exact key _ (fun p hp => mem_positions.1 hp) os

theorem not_empty {c : Container} (hne : c.shape ≠ []) (hpos : ∀ d ∈ c.shape, 0 < d) : c.empty = false := by
  have h := (C76_size_queries c hne fun d hd => (hpos d hd).le).2.2.1
  by_contra he
  have := h.1 (by simpa using he) (c.shape.map fun _ => 0)
  refine this ?_
  clear * - hpos
  generalize c.shape = s at hpos
  induction s with
  | nil => exact .nil
  | cons d s ih => exact .cons ⟨le_rfl, hpos d (by simp)⟩ (ih fun x hx => hpos x (by simp [hx]))

theorem print_eq {c : Container} {m : Mem α} {val : List Int → α} (h : Elems c m val) (text : α → String)
    (hne : c.shape ≠ []) (hpos : ∀ d ∈ c.shape, 0 < d) :
    c.print text m = .ok (labelText c.label ++
      concat ((positions c.shape).map fun p => printStep (indent c.label) c.shape p (text (val p)))) := by
  unfold Container.print
  rw [if_neg (by rw [not_empty hne hpos]; simp)]
  cases hl : c.label with
  | none =>
    simp only [Option.isSome_none]
    rw [print_loop h]; rfl
  | some l =>
    simp only [Option.isSome_some]
    rw [print_loop h]; rfl

end Kwk
