import Verif.Model.Constness

/-!
# Property C120: const containers
-/

namespace Kwk

/-- Who may write: not elements of type `T const`, and not those of a const table.  A const view, like a const pointer, lets its elements
be written. -/
def Spec.MayWrite (h : Handle) : Prop := h.elem = false ∧ (h.block = .shallow ∨ h.const = false)

open Spec

/-! Full property: no chain of slices, reversed views, views and references to const gives a right to write that the container
does not give; and the slices of a container that may be written may be written. -/

/-- The full property, protection. -/
def C120_protected_statement : Prop :=
  ∀ (h h' : Handle) (p : List Access), h.run p = some h' → h'.writable = true → MayWrite h

/-- The full property, slices. -/
def C120_slices_statement : Prop :=
  ∀ h h' : Handle, MayWrite h → h.step .slice = some h' → h'.writable = true

private theorem run_cons {h h' : Handle} {a : Access} {p : List Access} (e : h.run (a :: p) = some h') :
    ∃ g, h.step a = some g ∧ g.run p = some h' := by
  unfold Handle.run at e
  rw [List.foldlM_cons] at e
  cases hg : h.step a with
  | none => rw [hg] at e; cases e
  | some g => rw [hg] at e; exact ⟨g, rfl, e⟩

/-- **C120** (views) What is made from a view can be written exactly if the view can, and no view to const was made on the way. -/
theorem C120_views_partial (h h' : Handle) (p : List Access) (hb : h.block = .shallow) (e : h.run p = some h') :
    h'.writable = true ↔ MayWrite h ∧ .view true ∉ p := by
  induction p generalizing h with
  | nil =>
    cases e
    simp [Handle.writable, Handle.pointsToConst, MayWrite, hb]
  | cons a p ih =>
    obtain ⟨g, hg, e⟩ := run_cons e
    obtain ⟨b, x, c⟩ := h
    simp only at hb
    subst hb
    cases a with
    | view k =>
      cases x <;> cases k <;> simp [Handle.step] at hg <;> subst hg
      all_goals rw [ih _ rfl e]; simp [MayWrite]
    | _ =>
      simp only [Handle.step, Handle.pointsToConst, Option.some.injEq] at hg
      subst hg
      rw [ih _ rfl e]
      simp [MayWrite]

example := C120_views_partial (.mk .shallow false false) _ [.slice, .reverse, .asConst] rfl rfl

/-- **C120** (run-time tables, exact) What is made from a table with a run-time extent can be written unless a view to const was made on the
way: the constness of the table and of its elements is lost.  Missing: the protection of const tables (false). -/
theorem C120_heap_partial (h h' : Handle) (p : List Access) (hb : h.block = .heap) (e : h.run p = some h') :
    h'.writable = true ↔ .view true ∉ p := by
  induction p generalizing h with
  | nil =>
    cases e
    simp [Handle.writable, Handle.pointsToConst, hb]
  | cons a p ih =>
    obtain ⟨g, hg, e⟩ := run_cons e
    obtain ⟨b, x, c⟩ := h
    simp only at hb
    subst hb
    cases a with
    | asConst =>
      cases hg
      rw [ih _ rfl e]
      simp
    | view k =>
      cases x <;> cases k <;> simp [Handle.step] at hg <;> subst hg
      all_goals rw [C120_views_partial _ _ p rfl e]; simp [MayWrite]
    | _ =>
      cases hg
      rw [C120_views_partial _ _ p rfl e]
      simp [MayWrite, Handle.pointsToConst]

example := C120_heap_partial (.mk .heap false false) _ [.asConst, .slice] rfl rfl

/-- **C120** (static tables) What is made from a const table with static extents can be written only if a view with elements `T` was made
of it on the way.  Missing: this case (false). -/
theorem C120_static_partial (h h' : Handle) (p : List Access) (hb : h.block = .stack) (hc : h.const = true)
    (e : h.run p = some h') (hw : h'.writable = true) : .view false ∈ p := by
  induction p generalizing h with
  | nil =>
    cases e
    simp [Handle.writable, Handle.pointsToConst, hb, hc] at hw
  | cons a p ih =>
    obtain ⟨g, hg, e⟩ := run_cons e
    obtain ⟨b, x, c⟩ := h
    simp only at hb hc
    subst hb hc
    cases a with
    | asConst =>
      cases hg
      exact List.mem_cons_of_mem _ (ih _ rfl rfl e)
    | view k =>
      cases k with
      | false => exact List.mem_cons_self
      | true =>
        cases x <;> simp [Handle.step] at hg <;> subst hg
        all_goals
          rw [C120_views_partial _ _ p rfl e] at hw
          simp [MayWrite] at hw
    | _ =>
      cases hg
      rw [C120_views_partial _ _ p rfl e] at hw
      simp [MayWrite, Handle.pointsToConst] at hw

example := C120_static_partial (.mk .stack false true) _ [.view false, .slice] rfl rfl rfl

/-- **C120** (slices, exact) The slices of a container can be written exactly if it is a table with a run-time extent, or a view that can be
written.  Missing: the slices of static tables (false). -/
theorem C120_slices_partial (h h' : Handle) (e : h.step .slice = some h') :
    h'.writable = true ↔ h.block = .heap ∨ (h.block = .shallow ∧ h.elem = false) := by
  obtain ⟨b, x, c⟩ := h
  cases e
  cases b <;> simp [Handle.writable, Handle.pointsToConst]

/-- **C120** (negation) The elements of a const table with a run-time extent can be written, and those of a const table with static extents
through a view.  The slices of a static table cannot be written, const or not. -/
theorem C120_const_false : ¬ C120_protected_statement ∧ ¬ C120_slices_statement ∧
    (Handle.mk .heap false true).writable = true ∧
    ((Handle.mk .stack false true).run [.view false]).map Handle.writable = some true ∧
    ((Handle.mk .stack false false).run [.slice]).map Handle.writable = some false := by
  refine ⟨fun h => ?_, fun h => ?_, rfl, rfl, rfl⟩
  · have := h ⟨.heap, false, true⟩ ⟨.heap, false, true⟩ [] rfl rfl
    simp [MayWrite] at this
  · have := h ⟨.stack, false, false⟩ ⟨.shallow, true, false⟩ ⟨rfl, .inr rfl⟩ rfl
    cases this

/-- A view to const, sliced, reversed, then viewed: cannot be written. -/
example : ((Handle.mk .shallow true false).run [.slice, .reverse, .view true, .source]).map Handle.writable = some false := by decide
/-- A slice of a const run-time table can be written; a view to const of it cannot. -/
example : ((Handle.mk .heap false false).run [.asConst, .slice]).map Handle.writable = some true ∧
    ((Handle.mk .heap false false).run [.asConst, .view true, .slice]).map Handle.writable = some false := by decide
/-- A view of a slice of a static table, with elements `T`, does not compile. -/
example : (Handle.mk .stack false false).run [.slice, .view false] = none := by decide

end Kwk
