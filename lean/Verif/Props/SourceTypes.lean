import Verif.Lemmas.SourceTypes

/-!
# C151: any contiguous object can be the source of a container, const or not

The full claim is false in the code: a const `std::array` is taken for a single element, whose type is the array
(`C151_const_false`), and reading further elements leaves it (`C151_const_array`); an rvalue C array does not compile
(`C151_rvalue_false`); naming the first element of `std::array<T, 0>` is undefined (`C151_empty_false`).  The theorems say
exactly which objects are accepted, and for which of them the elements are those of the array.
-/

namespace Kwk

open Spec

/-- Full statement of **C151**: exactly the contiguous objects are accepted, without undefined behaviour; the elements of the container
have the type of the innermost elements of an array, and the container reads each of them. -/
def C151_statement : Prop :=
  ∀ (x : ObjType) (lv : Bool) (len : Nat),
    ((∃ r, sourceOf x lv len = some r) ↔ Contiguous x) ∧
    (∀ r, sourceOf x lv len = some r → ∃ s, r = .ok s) ∧
    ∀ s, IsArray x → sourceOf x lv len = some (.ok s) →
      s.elem = innermost x ∧ ∀ i, i < (arrayExtents x).prod → readElement x s i = .ok [i]

/-- **C151** (exact, partial) `source = x` compiles exactly for contiguous objects, where the first element of an array has to be an
lvalue.  Missing: rvalue arrays where it is none (`C151_rvalue_false`). -/
theorem C151_accepted_exact_partial (x : ObjType) (lv : Bool) (len : Nat) :
    (∃ r, sourceOf x lv len = some r) ↔ Contiguous x ∧ (IsArray x → FirstIsLvalue lv x) := by
  by_cases ha : IsArray x
  · rw [sourceOf_array ha]
    have hx : Contiguous x := ha.elim .inl fun h => .inr (.inl h)
    refine Iff.trans ⟨fun ⟨r, h⟩ => ?_, fun ⟨r, h⟩ => ⟨_, by rw [h]; rfl⟩⟩
      ((traitsData_some x lv).trans ⟨fun h => ⟨hx, fun _ => h⟩, fun h => h.2 ha⟩)
    · cases e : x.traitsData lv with
      | none => rw [e] at h; cases h
      | some r => exact ⟨r, rfl⟩
  · cases x with
    | scalar k c =>
      refine ⟨fun ⟨r, h⟩ => (by cases h), fun h => ?_⟩
      rcases h.1 with ⟨_, _, _, h⟩ | ⟨_, _, h⟩ | ⟨_, _, h⟩ | ⟨_, _, h⟩ | ⟨_, _, h⟩ <;> cases h
    | list t c =>
      refine ⟨fun ⟨r, h⟩ => (by cases h), fun h => ?_⟩
      rcases h.1 with ⟨_, _, _, h⟩ | ⟨_, _, h⟩ | ⟨_, _, h⟩ | ⟨_, _, h⟩ | ⟨_, _, h⟩ <;> cases h
    | stdArray n t c => exact absurd (.inl ⟨n, t, c, rfl⟩) ha
    | cArray n t => exact absurd (.inr ⟨n, t, rfl⟩) ha
    | vector t c => exact ⟨fun _ => ⟨.inr (.inr (.inl ⟨t, c, rfl⟩)), fun h => absurd h ha⟩, fun _ => ⟨_, rfl⟩⟩
    | span t c => exact ⟨fun _ => ⟨.inr (.inr (.inr (.inl ⟨t, c, rfl⟩))), fun h => absurd h ha⟩, fun _ => ⟨_, rfl⟩⟩
    | pointer t c => exact ⟨fun _ => ⟨.inr (.inr (.inr (.inr ⟨t, c, rfl⟩))), fun h => absurd h ha⟩, fun _ => ⟨_, rfl⟩⟩

example : sourceOf (.cArray 2 (.stdArray 3 (.scalar 0 false) false)) false 0 =
    some (.ok ⟨.scalar 0 false, [0, 0], [⟨.u8, 2⟩, ⟨.u8, 3⟩], true⟩) := by decide

/-- **C151** Every contiguous object with a name is accepted, const or not, and nothing else is. -/
theorem C151_accepted_lvalues (x : ObjType) (len : Nat) : (∃ r, sourceOf x true len = some r) ↔ Contiguous x :=
  (C151_accepted_exact_partial x true len).trans
    ⟨fun h => h.1, fun h => ⟨h, fun _ => (traitsData_some x true).1 (traitsData_lvalue x)⟩⟩

example : Contiguous (.vector (.scalar 0 false) true) ∧ ¬ Contiguous (.list (.scalar 0 false) true) := by
  refine ⟨.inr (.inr (.inl ⟨_, _, rfl⟩)), fun h => ?_⟩
  rcases h with ⟨_, _, _, h⟩ | ⟨_, _, h⟩ | ⟨_, _, h⟩ | ⟨_, _, h⟩ | ⟨_, _, h⟩ <;> cases h

/-- **C151** (exact, partial) Over an array, the elements of the container are the innermost elements exactly if no `std::array` in it is
const.  Missing: const `std::array`s (`C151_const_false`). -/
theorem C151_elements_exact_partial {x : ObjType} {lv : Bool} {len : Nat} {s : SourceInfo} (ha : IsArray x)
    (h : sourceOf x lv len = some (.ok s)) : s.elem = innermost x ↔ NoConstArray x := by
  rw [((sourceOf_array_ok ha).1 h).2.1]
  exact traitsValue_eq_innermost x

example : innermost (.cArray 2 (.stdArray 3 (.scalar 0 true) false)) = .scalar 0 true ∧
    NoConstArray (.cArray 2 (.stdArray 3 (.scalar 0 true) false)) := ⟨rfl, rfl, trivial⟩

/-- **C151** (exact, partial) Over an array with no const `std::array`, there is no undefined behaviour exactly if there are elements; the
container then starts at the first element of the array, and all extents are compile-time constants. -/
theorem C151_start_exact_partial {x : ObjType} (ha : IsArray x) (hc : NoConstArray x) (len : Nat) :
    ((∃ s, sourceOf x true len = some (.ok s)) ↔ ∀ n ∈ arrayExtents x, n ≠ 0) ∧
    ∀ lv s, sourceOf x lv len = some (.ok s) → s.start = List.replicate (arrayExtents x).length 0 ∧ s.static = true := by
  constructor
  · constructor
    · rintro ⟨s, h⟩
      exact ((traitsData_ok x true hc _).1 ((sourceOf_array_ok ha).1 h).1).2.1
    · intro h
      refine ⟨⟨x.traitsValue, List.replicate (arrayExtents x).length 0, x.traitsSizes, true⟩,
        (sourceOf_array_ok ha).2 ⟨(traitsData_ok x true hc _).2 ⟨?_, h, rfl⟩, rfl, rfl, rfl⟩⟩
      exact (traitsData_some x true).1 (traitsData_lvalue x)
  · intro lv s h
    have := (sourceOf_array_ok ha).1 h
    exact ⟨((traitsData_ok x lv hc _).1 this.1).2.2, this.2.2.2⟩

example : ∃ s, sourceOf (.stdArray 4 (.scalar 0 false) false) true 0 = some (.ok s) := ⟨_, rfl⟩

/-- **C151**, partial: the default extents over an array with no const `std::array` are those of **C57**: constness of the elements and
the value category make no difference. -/
theorem C151_shape_partial {x : ObjType} {lv : Bool} {len : Nat} {s : SourceInfo} (ha : IsArray x) (hc : NoConstArray x)
    (h : sourceOf x lv len = some (.ok s)) (base : Ptr) :
    s.extents.map Coord.value = (viewOfArray base (nestOf x)).shape := by
  rw [((sourceOf_array_ok ha).1 h).2.2.1]
  exact traitsSizes_nest x hc

example : (viewOfArray ⟨0, 0⟩ (nestOf (.cArray 2 (.cArray 3 (.scalar 0 true))))).shape = [2, 3] := by decide

/-- **C151**, partial: over an array with no const `std::array`, element number `i` of the container is element number `i` of the array, in
the order in which they are stored; and nothing outside of it can be read. -/
theorem C151_reads_partial {x : ObjType} {lv : Bool} {len : Nat} {s : SourceInfo} (ha : IsArray x) (hc : NoConstArray x)
    (h : sourceOf x lv len = some (.ok s)) (i : Nat) :
    (i < (arrayExtents x).prod → readElement x s i = .ok [i]) ∧
    ((arrayExtents x).prod ≤ i → readElement x s i = .error .outOfBounds) := by
  have he : s.elem.places = 1 := by
    rw [(C151_elements_exact_partial ha h).2 hc, innermost_places]
  unfold readElement
  rw [he, ← places_eq]
  constructor
  · intro hi
    rw [if_pos (by omega)]
    simp
  · intro hi
    rw [if_neg (by omega)]

example : (arrayExtents (.cArray 2 (.stdArray 3 (.scalar 0 false) false))).prod = 6 := by decide

/-- **C151** Over any array, the elements numbered below `n` all lie in the array exactly if they have room in it: this is the condition
on an explicit size. -/
theorem C151_room_exact_partial {x : ObjType} {lv : Bool} {len : Nat} {s : SourceInfo} (ha : IsArray x)
    (h : sourceOf x lv len = some (.ok s)) (n : Nat) (hn : 0 < n) :
    (∀ i < n, ∃ l, readElement x s i = .ok l) ↔ n * (arrayExtents x.traitsValue).prod ≤ (arrayExtents x).prod := by
  unfold readElement
  rw [((sourceOf_array_ok ha).1 h).2.1, ← places_eq, ← places_eq]
  constructor
  · intro hr
    obtain ⟨l, hl⟩ := hr (n - 1) (by omega)
    rw [show n - 1 + 1 = n by omega] at hl
    by_cases hle : n * x.traitsValue.places ≤ x.places
    · exact hle
    · rw [if_neg hle] at hl; cases hl
  · intro hle i hi
    have : (i + 1) * x.traitsValue.places ≤ n * x.traitsValue.places := Nat.mul_le_mul_right _ (by omega)
    exact ⟨_, if_pos (Nat.le_trans this hle)⟩

example := C151_room_exact_partial (x := .cArray 2 (.cArray 3 (.scalar 0 false))) (lv := true) (len := 0)
  (s := ⟨.scalar 0 false, [0, 0], [⟨.u8, 2⟩, ⟨.u8, 3⟩], true⟩)
  (.inr ⟨_, _, rfl⟩) (by decide) 6 (by decide)

/-- **C151** Ranges and pointers: the elements are those of the range, const if it owns them and is const or an rvalue; the container
starts at the first one and has by default as many positions as the range has elements, or none over a pointer. -/
theorem C151_ranges {x : ObjType} {lv : Bool} {len : Nat} {s : SourceInfo} (ha : ¬ IsArray x)
    (h : sourceOf x lv len = some (.ok s)) :
    SeenAs x lv s.elem ∧ s.start = [0] ∧ s.static = false ∧
    s.extents.map Coord.value = [defaultLength x len] := by
  cases x with
  | scalar k c => cases h
  | list t c => cases h
  | stdArray n t c => exact absurd (.inl ⟨n, t, c, rfl⟩) ha
  | cArray n t => exact absurd (.inr ⟨n, t, rfl⟩) ha
  | vector t c =>
    cases h
    refine ⟨?_, rfl, rfl, rfl⟩
    cases c <;> cases lv
    · show SeenAs _ _ t.addConst
      rw [addConst_eq]; exact .ownConst (.inr rfl)
    · exact .own
    · show SeenAs _ _ t.addConst
      rw [addConst_eq]; exact .ownConst (.inl rfl)
    · show SeenAs _ _ t.addConst
      rw [addConst_eq]; exact .ownConst (.inl rfl)
  | span t c => cases h; exact ⟨.span, rfl, rfl, rfl⟩
  | pointer t c => cases h; exact ⟨.pointer, rfl, rfl, rfl⟩

example : sourceOf (.vector (.scalar 0 false) true) true 5 = some (.ok ⟨.scalar 0 true, [0], [⟨.u64, 5⟩], false⟩) := by decide

/-- **C151** What a const `std::array` gives: one element, which is the array, and no extents.  With an explicit size, every element but
the first lies outside of the array. -/
theorem C151_const_array (n : Nat) (t : ObjType) (len : Nat) :
    ∃ s, sourceOf (.stdArray n t true) true len = some (.ok s) ∧ s.elem = .stdArray n t true ∧ s.extents = [] ∧
      ∀ i, 0 < i → 0 < (arrayExtents (.stdArray n t true)).prod → readElement (.stdArray n t true) s i = .error .outOfBounds := by
  refine ⟨_, rfl, rfl, rfl, fun i hi hp => ?_⟩
  rw [← places_eq] at hp
  unfold readElement
  refine if_neg ?_
  show ¬ (i + 1) * (ObjType.stdArray n t true).places ≤ (ObjType.stdArray n t true).places
  intro h
  have : 2 * (ObjType.stdArray n t true).places ≤ (i + 1) * (ObjType.stdArray n t true).places :=
    Nat.mul_le_mul_right _ (by omega)
  omega

example := C151_const_array 3 (.scalar 0 false) 0

/-- **C151** is false for `std::array<int, 4> const`. -/
theorem C151_const_false : ¬ C151_statement := by
  intro h
  have := ((h (.stdArray 4 (.scalar 0 false) true) true 0).2.2 _ (.inl ⟨_, _, _, rfl⟩) rfl).1
  revert this; decide

/-- **C151** is false for rvalue C arrays. -/
theorem C151_rvalue_false : ¬ C151_statement := by
  intro h
  obtain ⟨r, hr⟩ := (h (.cArray 4 (.scalar 0 false)) false 0).1.2 (.inr (.inl ⟨_, _, rfl⟩))
  cases hr

/-- **C151** is false for `std::array<int, 0>`. -/
theorem C151_empty_false : ¬ C151_statement := by
  intro h
  obtain ⟨s, hs⟩ := (h (.stdArray 0 (.scalar 0 false) false) true 0).2.1 _ rfl
  cases hs

end Kwk
