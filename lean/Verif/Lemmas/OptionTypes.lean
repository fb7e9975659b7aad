import Verif.Spec.OptionTypes

/-! # Lemmas on the types of options -/

namespace Kwk

open Spec

mutual

theorem isStructural_iff : (t : CppType) → (t.isStructural = true ↔ Structural t)
  | .arithmetic => ⟨fun _ => .arithmetic, fun _ => rfl⟩
  | .pointer => ⟨fun _ => .pointer, fun _ => rfl⟩
  | .reference => ⟨fun _ => .reference, fun _ => rfl⟩
  | .array t => by
    rw [CppType.isStructural]
    exact ⟨fun h => .array ((isStructural_iff t).1 h), fun h => by cases h with | array h => exact (isStructural_iff t).2 h⟩
  | .cls a d ms => by
    rw [CppType.isStructural, Bool.and_eq_true]
    constructor
    · rintro ⟨rfl, h⟩
      exact .cls ((allStructural_iff ms).1 h)
    · intro h
      cases h with
      | cls h => exact ⟨rfl, (allStructural_iff ms).2 h⟩

theorem allStructural_iff : (ts : List CppType) → (CppType.allStructural ts = true ↔ ∀ t ∈ ts, Structural t)
  | [] => ⟨fun _ _ h => (by cases h), fun _ => by rw [CppType.allStructural]⟩
  | t :: ts => by
    rw [CppType.allStructural, Bool.and_eq_true, isStructural_iff t, allStructural_iff ts]
    constructor
    · rintro ⟨h1, h2⟩ x hx
      rcases List.mem_cons.1 hx with rfl | hx
      · exact h1
      · exact h2 x hx
    · intro h
      exact ⟨h t List.mem_cons_self, fun x hx => h x (List.mem_cons_of_mem _ hx)⟩

end

theorem defaultConstant_iff (t : CppType) : t.defaultConstant = true ↔ HasDefault t := by
  match t with
  | .arithmetic => exact ⟨fun _ => .arithmetic, fun _ => rfl⟩
  | .pointer => exact ⟨fun _ => .pointer, fun _ => rfl⟩
  | .reference => exact ⟨fun h => (by cases h), fun h => (by cases h)⟩
  | .array t =>
    exact ⟨fun h => .array ((defaultConstant_iff t).1 h), fun h => by
      cases h with | array h => exact (defaultConstant_iff t).2 h⟩
  | .cls a d ms =>
    constructor
    · intro h
      have : d = true := h
      subst this
      exact .cls
    · intro h
      cases h; rfl

theorem optionType_structural (t : CppType) : Structural (optionType t) ↔ Structural t := by
  constructor
  · intro h
    cases h with
    | cls h => exact h t List.mem_cons_self
  · intro h
    refine .cls fun m hm => ?_
    rcases List.mem_cons.1 hm with rfl | hm
    · exact h
    · cases hm

theorem optionType_default (t : CppType) : HasDefault (optionType t) ↔ HasDefault t := by
  rw [← defaultConstant_iff, ← defaultConstant_iff]; exact Iff.rfl

/-- What an option needs. -/
theorem option_usable (o : OptionArg) :
    (∃ t, o.type = some t ∧ Structural t ∧ HasDefault t) ↔ AcceptableOption o ∧ UsableOption o := by
  have key : ∀ (b : Bool) (v : CppType),
      (∃ t, (if b then some (optionType v) else none) = some t ∧ Structural t ∧ HasDefault t) ↔
      b = true ∧ Structural v ∧ HasDefault v := by
    intro b v
    cases b
    · exact ⟨fun ⟨t, h, _⟩ => (by cases h), fun h => (by cases h.1)⟩
    · refine ⟨fun ⟨t, h, h1, h2⟩ => ?_, fun h => ⟨_, rfl, (optionType_structural v).2 h.2.1, (optionType_default v).2 h.2.2⟩⟩
      cases h
      exact ⟨rfl, (optionType_structural v).1 h1, (optionType_default v).1 h2⟩
  cases o with
  | label v => exact key v.toString v.type
  | allocator v => exact key v.allocates v.type
  | own =>
    refine ⟨fun _ => ⟨trivial, trivial⟩, fun _ => ⟨_, rfl, .cls fun m hm => ?_, .cls⟩⟩
    rcases List.mem_cons.1 hm with rfl | hm
    · exact .pointer
    · cases hm

theorem mapM_types (os : List OptionArg) :
    (∃ ts, os.mapM OptionArg.type = some ts ∧ ∀ t ∈ ts, Structural t ∧ HasDefault t) ↔
      ∀ o ∈ os, ∃ t, o.type = some t ∧ Structural t ∧ HasDefault t := by
  induction os with
  | nil => exact ⟨fun _ _ h => (by cases h), fun _ => ⟨[], rfl, fun _ h => (by cases h)⟩⟩
  | cons o os ih =>
    constructor
    · rintro ⟨ts, h, hs⟩
      rw [List.mapM_cons] at h
      cases ho : o.type with
      | none => rw [ho] at h; cases h
      | some t =>
        rw [ho] at h
        cases hr : os.mapM OptionArg.type with
        | none => rw [hr] at h; cases h
        | some rs =>
          rw [hr] at h
          cases h
          intro x hx
          rcases List.mem_cons.1 hx with rfl | hx
          · exact ⟨t, ho, hs t List.mem_cons_self⟩
          · exact ih.1 ⟨rs, hr, fun y hy => hs y (List.mem_cons_of_mem _ hy)⟩ x hx
    · intro h
      obtain ⟨t, ho, ht⟩ := h o List.mem_cons_self
      obtain ⟨rs, hr, hrs⟩ := ih.2 fun x hx => h x (List.mem_cons_of_mem _ hx)
      refine ⟨t :: rs, by rw [List.mapM_cons, ho, hr]; rfl, fun y hy => ?_⟩
      rcases List.mem_cons.1 hy with rfl | hy
      · exact ht
      · exact hrs y hy

theorem deduces_iff (ts : List CppType) : deduces ts = true ↔ ∀ t ∈ ts, Structural t ∧ HasDefault t := by
  unfold deduces
  rw [Bool.and_eq_true, isStructural_iff, List.all_eq_true]
  constructor
  · rintro ⟨h1, h2⟩ t ht
    cases h1 with
    | cls h1 => exact ⟨h1 t ht, (defaultConstant_iff t).1 (h2 t ht)⟩
  · intro h
    exact ⟨.cls fun t ht => (h t ht).1, fun t ht => (defaultConstant_iff t).2 (h t ht).2⟩

end Kwk
