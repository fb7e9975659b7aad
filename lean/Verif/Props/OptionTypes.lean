import Verif.Lemmas.OptionTypes

/-!
# C152: labels and allocators that are accepted can be used

The full claim is false in the code: the options are template arguments of the type of the container, so that their values must be of
structural types with a constant default.  `label = std::string{...}` is accepted as an option, and no container can be built with it
(`C152_string_false`); the same holds for `any_allocator` (`C152_any_allocator_false`).  The theorems give the exact condition.
-/

namespace Kwk

open Spec

/-- Full statement of **C152**: options whose constraints are met build a container, and what meets the constraint of `relabel` is a
label. -/
def C152_statement : Prop :=
  (∀ os : List OptionArg, (∀ o ∈ os, AcceptableOption o) → buildCompiles os = true) ∧
  ∀ v : ValueType, relabelAccepts v = true → relabelCompiles v = true

/-- **C152** (exact, partial) A container can be built of options exactly if each meets its constraint and has a value of a
structural type with a constant default.  Missing: other types (`C152_string_false`, `C152_any_allocator_false`). -/
theorem C152_build_exact_partial (os : List OptionArg) :
    buildCompiles os = true ↔ ∀ o ∈ os, AcceptableOption o ∧ UsableOption o := by
  rw [show (∀ o ∈ os, AcceptableOption o ∧ UsableOption o) ↔ ∀ o ∈ os, ∃ t, o.type = some t ∧ Structural t ∧ HasDefault t from
    ⟨fun h o ho => (option_usable o).2 (h o ho), fun h o ho => (option_usable o).1 (h o ho)⟩, ← mapM_types]
  unfold buildCompiles
  constructor
  · intro h
    cases e : os.mapM OptionArg.type with
    | none => rw [e] at h; cases h
    | some ts => rw [e] at h; exact ⟨ts, rfl, (deduces_iff ts).1 h⟩
  · rintro ⟨ts, e, hs⟩
    rw [e]
    exact (deduces_iff ts).2 hs

example : buildCompiles [.own, .label charPointer, .allocator heapAllocatorType] = true := by decide
example : buildCompiles [.own, .label stdStringView] = false := by decide

/-- **C152** The order of the options does not matter for this. -/
theorem C152_order {os os' : List OptionArg} (h : ∀ o, o ∈ os ↔ o ∈ os') : buildCompiles os = buildCompiles os' := by
  rw [Bool.eq_iff_iff, C152_build_exact_partial, C152_build_exact_partial]
  exact ⟨fun H o ho => H o ((h o).2 ho), fun H o ho => H o ((h o).1 ho)⟩

example : buildCompiles [.label charPointer, .own] = buildCompiles [.own, .label charPointer] :=
  C152_order fun o => by simp [or_comm]

/-- **C152** String literals and other character pointers can be labels, together with any usable options. -/
theorem C152_literals (os : List OptionArg) (h : buildCompiles os = true) : buildCompiles (.label charPointer :: os) = true := by
  rw [C152_build_exact_partial] at h ⊢
  intro o ho
  rcases List.mem_cons.1 ho with rfl | ho
  · exact ⟨rfl, .pointer, .pointer⟩
  · exact h o ho

example : buildCompiles [.label charPointer, .own] = true := C152_literals [.own] (by decide)

/-- **C152** Allocators without state, such as `heap_allocator`, can be given, together with any usable options. -/
theorem C152_stateless (os : List OptionArg) (h : buildCompiles os = true) :
    buildCompiles (.allocator heapAllocatorType :: os) = true := by
  rw [C152_build_exact_partial] at h ⊢
  intro o ho
  rcases List.mem_cons.1 ho with rfl | ho
  · exact ⟨rfl, .cls fun m hm => (by cases hm), .cls⟩
  · exact h o ho

example : buildCompiles [.own] = true := by decide

/-- **C152** (exact, partial) `relabel(c, l)` accepts what converts to `std::string`; it compiles exactly if the label is also of a
structural type with a constant default. -/
theorem C152_relabel_exact_partial (v : ValueType) :
    (relabelAccepts v = true ↔ v.toString = true) ∧
    (relabelCompiles v = true ↔ v.toString = true ∧ Structural v.type ∧ HasDefault v.type) := by
  constructor
  · unfold relabelAccepts OptionArg.type
    cases h : v.toString <;> simp [h]
  · unfold relabelCompiles
    rw [C152_build_exact_partial]
    constructor
    · intro h
      exact h _ List.mem_cons_self
    · intro h o ho
      rcases List.mem_cons.1 ho with rfl | ho
      · exact h
      · rcases List.mem_cons.1 ho with rfl | ho
        · exact ⟨trivial, trivial⟩
        · rcases List.mem_cons.1 ho with rfl | ho
          · exact ⟨trivial, trivial⟩
          · cases ho

example : relabelCompiles charPointer = true ∧ relabelAccepts stdString = true ∧ relabelCompiles stdString = false := by decide

/-- **C152** is false for `label = std::string{...}`. -/
theorem C152_string_false : ¬ C152_statement := by
  intro h
  have := h.1 [.label stdString] fun o ho => by
    rcases List.mem_cons.1 ho with rfl | ho
    · exact rfl
    · cases ho
  revert this; decide

/-- **C152** is false for `allocator = any_allocator{...}`. -/
theorem C152_any_allocator_false : ¬ C152_statement := by
  intro h
  have := h.1 [.allocator anyAllocatorType] fun o ho => by
    rcases List.mem_cons.1 ho with rfl | ho
    · exact rfl
    · cases ho
  revert this; decide

/-- **C152** is false for `relabel(c, std::string{...})`: the call is accepted, and its body does not compile. -/
theorem C152_relabel_false : ¬ C152_statement := by
  intro h
  have := h.2 stdString (by decide)
  revert this; decide

end Kwk
