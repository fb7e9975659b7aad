import Verif.Lemmas.AuxMemory
import Verif.Lemmas.Witnesses
import Verif.Props.Ownership
import Verif.Model.AnyAllocator
import Verif.Model.StackTable

/-!
# Properties C52 (static tables), C65, C66: allocators, static tables, swap
-/

namespace Kwk
open Spec

variable {α : Type}

/-! ## Static tables -/

/-- **C52** (static tables, partial): a static table built from a container with row-major strides and
its shape has the same elements.  Missing: strided sources, as for run-time shapes. -/
theorem C52_static_copy_partial (m : Mem α) (c : Container) (val : List Int → α) (h : c.WF)
    (hrm : RowMajorStrides c.shape c.strides) (hn : NonNeg c.shape) (he : Elems c m val) :
    ∃ t, StackTable.ofSettings m c.settings = .ok t ∧ t.shape = c.shape ∧
      ∀ p, InBox c.shape p → t.read p = .ok (val p) :=
  ⟨_, stack_ofSettings h hrm hn he, rfl, fun _ hp => stack_read rfl hp⟩

example := C52_static_copy_partial exTwo exIn exInVal exIn_default.toWF exIn_default.rowMajor (by decide) exIn_elems

/-- **C52** (static tables, partial): assignment. -/
theorem C52_static_assign_partial (m : Mem α) (x : StackTable α) (c : Container) (val : List Int → α)
    (h : c.WF) (hrm : RowMajorStrides c.shape c.strides) (hn : NonNeg c.shape) (he : Elems c m val) (hx : x.shape = c.shape)
    (hl : (x.cells.length : Int) = x.shape.prod) :
    ∃ t, StackTable.assign m x c.settings = .ok t ∧ t.shape = c.shape ∧
      ∀ p, InBox c.shape p → t.read p = .ok (val p) := by
  have hlen := positions_length hn
  have hnum : (numel x.shape).toNat = x.cells.length := by
    rw [numel_eq_prod (hx ▸ h.ne)]; omega
  have hpl : (positions c.shape).length = x.cells.length := by
    rw [hx] at hl; omega
  refine ⟨⟨(positions c.shape).map val, x.shape⟩, ?_, hx, ?_⟩
  · unfold StackTable.assign
    rw [stack_ofSettings h hrm hn he]
    simp only [bind, Except.bind, StackTable.swap, pure, Except.pure]
    rw [swapCells_spec _ _ x.cells.length _ rfl (by simp [hpl]) (by omega), hnum]
    rw [List.take_of_length_le (by simp [hpl]), List.drop_length, List.append_nil]
  · intro p hp
    exact stack_read (t := ⟨(positions c.shape).map val, x.shape⟩)
      (by show _ = (positions x.shape).map val; rw [hx]) (by show InBox x.shape p; rw [hx]; exact hp)

example : StackTable.ofSettings (oneBlock 0 [1, 2, 3, 4, 5, 6]) (Container.ofShape ⟨0, 1⟩ [2, 2]).settings
    = .ok ⟨[2, 3, 4, 5], [2, 2]⟩ := by decide

/-! ## C66: swap -/

/-- **C66** Swapping two run-time tables exchanges shapes and elements, leaves the others alone, and
touches no memory. -/
theorem C66_swap (w : World α) (x y : Nat) (s r : Shape) (f g : List Int → α) (hx : Holds w x s f)
    (hy : Holds w y r g) :
    ∃ w', w.step (.swap x y) = .ok w' ∧ Holds w' x r g ∧ Holds w' y s f ∧ w'.mem = w.mem ∧
      ∀ z, z ≠ x → z ≠ y → w'.tables z = w.tables z := by
  obtain ⟨tx, htx, hs, hf⟩ := hx
  obtain ⟨ty, hty, hr, hg⟩ := hy
  refine ⟨{ w with tables := upd (upd w.tables x (some ty)) y (some tx) },
    by simp only [World.step, htx, hty], ?_, ?_, rfl, ?_⟩
  · refine ⟨ty, ?_, hr, fun p hp => by rw [← hg p hp]; exact read_congr p fun _ _ _ => rfl⟩
    show upd _ _ _ _ = _
    by_cases e : x = y
    · subst e; rw [upd_self, ← htx, hty]
    · rw [upd_ne _ _ e, upd_self]
  · exact ⟨tx, upd_self _ _ _, hs, fun p hp => by rw [← hf p hp]; exact read_congr p fun _ _ _ => rfl⟩
  · intro z h1 h2
    show upd _ _ _ _ = _
    rw [upd_ne _ _ h2, upd_ne _ _ h1]

example := C66_swap exTables 0 1 [2, 2] [2, 2] exInVal exCopyVal exTables_holds exTables_holds_copy

/-- **C66** Swapping twice restores the state. -/
theorem C66_swap_twice (w w1 w2 : World α) (x y : Nat) (h1 : w.step (.swap x y) = .ok w1)
    (h2 : w1.step (.swap x y) = .ok w2) : w2 = w := by
  simp only [World.step] at h1
  split at h1
  · next tx ty hx hy =>
    cases h1
    have e1 : upd (upd w.tables x (some ty)) y (some tx) x = some ty := by
      by_cases e : x = y
      · subst e; rw [upd_self, ← hx, hy]
      · rw [upd_ne _ _ e, upd_self]
    have e2 : upd (upd w.tables x (some ty)) y (some tx) y = some tx := upd_self _ _ _
    simp only [World.step, e1, e2] at h2
    cases h2
    have : upd (upd (upd (upd w.tables x (some ty)) y (some tx)) x (some tx)) y (some ty) = w.tables := by
      funext z
      by_cases ey : z = y
      · subst ey; rw [upd_self, hy]
      · rw [upd_ne _ _ ey]
        by_cases ex : z = x
        · subst ex; rw [upd_self, hx]
        · rw [upd_ne _ _ ex, upd_ne _ _ ey, upd_ne _ _ ex]
    rw [this]
  · next hno =>
    cases h1
    simp only [World.step] at h2
    cases h2; rfl

example (w1 w2 : World Int) (h1 : exTables.step (.swap 0 1) = .ok w1) (h2 : w1.step (.swap 0 1) = .ok w2) : w2 = exTables :=
  C66_swap_twice exTables w1 w2 0 1 h1 h2

/-- **C66** Swapping two static tables of the same type exchanges their elements, cell by cell. -/
theorem C66_swap_static (a b : StackTable α) (hs : a.shape = b.shape) (hne : a.shape ≠ [])
    (ha : (a.cells.length : Int) = a.shape.prod) (hb : (b.cells.length : Int) = b.shape.prod) :
    a.swap b = (b, a) := by
  obtain ⟨ca, sa⟩ := a
  obtain ⟨cb, sb⟩ := b
  simp only at hs hne ha hb
  subst hs
  have hl : cb.length = ca.length := by omega
  have hn : (numel sa).toNat = ca.length := by rw [numel_eq_prod hne]; omega
  simp only [StackTable.swap]
  rw [swapCells_spec ca cb ca.length _ rfl hl (by omega), hn]
  simp [← hl]

example : (⟨[1, 2, 3], [3]⟩ : StackTable Int).swap ⟨[4, 5, 6], [3]⟩ = (⟨[4, 5, 6], [3]⟩, ⟨[1, 2, 3], [3]⟩) := by
  decide

/-! ## C65: any_allocator -/

/-- Full statement of **C65**: constructing an `any_allocator` from another one, whatever its state
and whatever the value category, ends and gives an equal one. -/
def C65_statement : Prop :=
  ∀ (a : AnyAlloc) (c : ValueCat), ∃ fuel b, a.construct c fuel = .ok b ∧ b.target = a.target

/-- **C65**, partial: copies of a non-empty object through a `const` reference, moves, and assignments
of such objects, reach the same allocator; the copied object is unchanged, the moved one is empty.  Missing: copies of empty objects (`C65_empty_false`) and
copies of non-const objects (`C65_lvalue_false`). -/
theorem C65_copy_partial (a old : AnyAlloc) (i : AllocId) (h : a.target = .ok i) (c : ValueCat)
    (hc : c = .constLvalue ∨ c = .rvalue) (fuel : Nat) (hf : 0 < fuel) :
    (∃ b, a.construct c fuel = .ok b ∧ b.target = .ok i) ∧
    (∃ b, old.assign a c fuel = .ok b ∧ b.target = .ok i) ∧
    (c = .constLvalue → a.left c = a) ∧
    (c = .rvalue → (a.left c).target = .error .nullDeref) := by
  have key : a.construct c fuel = .ok a := by
    obtain ⟨n, rfl⟩ : ∃ n, fuel = n + 1 := ⟨fuel - 1, by omega⟩
    rcases hc with rfl | rfl
    · exact clone_full a i h
    · rfl
  refine ⟨⟨a, key, h⟩, ⟨a, key, h⟩, ?_, ?_⟩ <;> rintro rfl <;> rfl

example : (AnyAlloc.nested (.holds 3)).construct .constLvalue 1 = .ok (.nested (.holds 3)) := by decide

/-- **C65** (from an allocator) An `any_allocator` made of an allocator, then copied through `const` references and moved any number of
times, allocates with this allocator. -/
theorem C65_of_allocator_partial (i : AllocId) (cs : List ValueCat) (hc : ∀ c ∈ cs, c = .constLvalue ∨ c = .rvalue) (fuel : Nat)
    (hf : 0 < fuel) :
    ∃ b, cs.foldlM (fun (a : AnyAlloc) c => a.construct c fuel) (AnyAlloc.ofAlloc i) = .ok b ∧ b.target = .ok i := by
  have key : ∀ (cs : List ValueCat) (a : AnyAlloc), (∀ c ∈ cs, c = .constLvalue ∨ c = .rvalue) → a.target = .ok i →
      ∃ b, cs.foldlM (fun (a : AnyAlloc) c => a.construct c fuel) a = .ok b ∧ b.target = .ok i := by
    intro cs
    induction cs with
    | nil => intro a _ h; exact ⟨a, rfl, h⟩
    | cons c cs ih =>
      intro a hc h
      obtain ⟨⟨b, h1, h2⟩, -⟩ := C65_copy_partial a a i h c (hc c (by simp)) fuel hf
      obtain ⟨b', h3, h4⟩ := ih b (fun c hm => hc c (by simp [hm])) h2
      exact ⟨b', by rw [List.foldlM_cons, h1]; exact h3, h4⟩
  exact key cs _ hc rfl

example : ∀ c ∈ [ValueCat.constLvalue, .rvalue, .constLvalue], c = .constLvalue ∨ c = .rvalue := by decide
example : ([ValueCat.constLvalue, .rvalue, .constLvalue].foldlM (fun (a : AnyAlloc) c => a.construct c 1) (AnyAlloc.ofAlloc 3)).map
    (·.target) = .ok (.ok 3) := by decide

/-- **C65**, partial: swap exchanges the allocators that are reached, and moving leaves an object that
can be assigned to. -/
theorem C65_swap_partial (a b : AnyAlloc) (i j : AllocId) (ha : a.target = .ok i) (hb : b.target = .ok j) :
    (a.swap b).1.target = .ok j ∧ (a.swap b).2.target = .ok i ∧
    ∃ c, (a.left .rvalue).assign b .constLvalue 1 = .ok c ∧ c.target = .ok j :=
  ⟨hb, ha, b, clone_full b j hb, hb⟩

example := C65_swap_partial (.nested (.holds 3)) (.holds 4) 3 4 rfl rfl

/-- **C65** is false: copying an empty `any_allocator` dereferences a null pointer. -/
theorem C65_empty_false : ¬ C65_statement := by
  intro h
  obtain ⟨fuel, b, hb, -⟩ := h .empty .constLvalue
  cases fuel <;> cases hb

/-- **C65** Copying a non-const `any_allocator` never ends, whatever it holds. -/
theorem C65_lvalue_diverges (a : AnyAlloc) (fuel : Nat) : a.construct .lvalue fuel = .error .diverges := by
  induction fuel with
  | zero => rfl
  | succ n ih => simp only [AnyAlloc.construct, ih]; rfl

/-- **C65** (exact, partial) Which constructions end with an equal object: moves, and copies of non-empty objects through a
`const` reference.  Missing: the others (false). -/
theorem C65_exact_partial (a : AnyAlloc) (c : ValueCat) :
    (∃ fuel b, a.construct c fuel = .ok b ∧ b.target = a.target) ↔
      c = .rvalue ∨ c = .constLvalue ∧ ∃ i, a.target = .ok i := by
  constructor
  · rintro ⟨fuel, b, h, -⟩
    cases c with
    | rvalue => exact .inl rfl
    | lvalue => rw [C65_lvalue_diverges] at h; cases h
    | constLvalue =>
      refine .inr ⟨rfl, ?_⟩
      cases fuel with
      | zero => cases h
      | succ n =>
        simp only [AnyAlloc.construct] at h
        induction a generalizing b with
        | empty => cases h
        | holds i => exact ⟨i, rfl⟩
        | nested a ih =>
          simp only [AnyAlloc.clone] at h
          cases e : a.clone with
          | error x => rw [e] at h; cases h
          | ok b' => exact ih b' e
  · rintro (rfl | ⟨rfl, i, hi⟩)
    · exact ⟨1, a, rfl, rfl⟩
    · exact ⟨1, a, clone_full a i hi, rfl⟩

example : ∃ i, (AnyAlloc.nested (.holds 3)).target = .ok i := ⟨3, rfl⟩

/-- **C65** is false for that reason too. -/
theorem C65_lvalue_false : ¬ C65_statement := by
  intro h
  obtain ⟨fuel, b, hb, -⟩ := h (.holds 0) .lvalue
  rw [C65_lvalue_diverges] at hb
  cases hb

/-- **C65** As a consequence, a table built with an `any_allocator` as its `allocator` option never
finishes its construction. -/
theorem C65_table_false (a : AnyAlloc) (fuel : Nat) : deleterOf a fuel = .error .diverges := by
  simp only [deleterOf, C65_lvalue_diverges]; rfl

end Kwk
