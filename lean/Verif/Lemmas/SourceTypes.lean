import Verif.Spec.SourceTypes
import Verif.Spec.Nested
import Verif.Lemmas.AuxFixed
import Mathlib.Algebra.BigOperators.Group.List.Basic

/-! # Lemmas on sources -/

namespace Kwk

open Spec

theorem innermost_not_array (x : ObjType) : ¬ IsArray (innermost x) := by
  have hc : ∀ y : ObjType, ¬ IsArray y → ¬ IsArray (asConst y) := by
    intro y hy h
    cases y <;> first
      | exact hy (.inl ⟨_, _, _, rfl⟩)
      | exact hy (.inr ⟨_, _, rfl⟩)
      | (rcases h with ⟨_, _, _, h⟩ | ⟨_, _, h⟩ <;> cases h)
  induction x with
  | stdArray n t c ih =>
    cases c
    · exact ih
    · exact hc _ ih
  | cArray n t ih => exact ih
  | _ => intro h; rcases h with ⟨_, _, _, h⟩ | ⟨_, _, h⟩ <;> cases h

theorem traitsValue_eq_innermost (x : ObjType) : x.traitsValue = innermost x ↔ NoConstArray x := by
  induction x with
  | stdArray n t c ih =>
    cases c
    · exact ih.trans ⟨fun h => ⟨rfl, h⟩, fun h => h.2⟩
    · refine ⟨fun h => ?_, fun h => (by cases h.1)⟩
      exact absurd (h ▸ .inl ⟨n, t, true, rfl⟩) (innermost_not_array (.stdArray n t true))
  | cArray n t ih => exact ih
  | _ => exact ⟨fun _ => trivial, fun _ => rfl⟩

theorem traitsData_lvalue (x : ObjType) : ∃ r, x.traitsData true = some r := by
  induction x with
  | stdArray n t c ih =>
    obtain ⟨r, hr⟩ := ih
    cases c
    · exact ⟨_, by rw [ObjType.traitsData, hr]; rfl⟩
    · exact ⟨_, rfl⟩
  | cArray n t ih =>
    obtain ⟨r, hr⟩ := ih
    exact ⟨_, by rw [ObjType.traitsData, hr]; rfl⟩
  | _ => exact ⟨_, rfl⟩

theorem traitsData_some (x : ObjType) (lv : Bool) : (∃ r, x.traitsData lv = some r) ↔ FirstIsLvalue lv x := by
  induction x with
  | stdArray n t c ih =>
    cases c
    · obtain ⟨r, hr⟩ := traitsData_lvalue t
      exact ⟨fun _ => .inr rfl, fun _ => ⟨_, by rw [ObjType.traitsData, hr]; rfl⟩⟩
    · cases lv
      · exact ⟨fun ⟨r, h⟩ => (by cases h), fun h => (by rcases h with h | h <;> cases h)⟩
      · exact ⟨fun _ => .inl rfl, fun _ => ⟨_, rfl⟩⟩
  | cArray n t ih =>
    refine Iff.trans ⟨fun ⟨r, h⟩ => ?_, fun ⟨r, h⟩ => ⟨_, by rw [ObjType.traitsData, h]; rfl⟩⟩ ih
    rw [ObjType.traitsData] at h
    cases e : t.traitsData lv with
    | none => rw [e] at h; cases h
    | some r => exact ⟨r, rfl⟩
  | _ =>
    cases lv
    · exact ⟨fun ⟨r, h⟩ => (by cases h), fun h => (by cases h)⟩
    · exact ⟨fun _ => rfl, fun _ => ⟨_, rfl⟩⟩

/-- The start, where the array has elements. -/
theorem traitsData_ok (x : ObjType) (lv : Bool) (hc : NoConstArray x) (p : List Nat) :
    x.traitsData lv = some (.ok p) ↔
      FirstIsLvalue lv x ∧ (∀ n ∈ arrayExtents x, n ≠ 0) ∧ p = List.replicate (arrayExtents x).length 0 := by
  have step : ∀ (n : Nat) (t : ObjType) (lv' : Bool) (F : Prop)
      (ih : ∀ p, t.traitsData lv' = some (.ok p) ↔
        F ∧ (∀ n ∈ arrayExtents t, n ≠ 0) ∧ p = List.replicate (arrayExtents t).length 0) (p : List Nat),
      ((t.traitsData lv').map fun r => if n = 0 then Except.error Fault.outOfBounds else r.map (0 :: ·)) = some (.ok p) ↔
      F ∧ (∀ k ∈ n :: arrayExtents t, k ≠ 0) ∧ p = List.replicate (n :: arrayExtents t).length 0 := by
    intro n t lv' F ih p
    constructor
    · intro h
      cases e : t.traitsData lv' with
      | none => rw [e] at h; cases h
      | some r =>
        rw [e] at h
        have h := Option.some.inj h
        dsimp only at h
        by_cases hn : n = 0
        · rw [if_pos hn] at h; cases h
        · rw [if_neg hn] at h
          cases r with
          | error f => cases h
          | ok q =>
            have hp : 0 :: q = p := Except.ok.inj h
            obtain ⟨hF, he, hq⟩ := (ih q).1 e
            refine ⟨hF, fun k hk => ?_, ?_⟩
            · rcases List.mem_cons.1 hk with rfl | hk
              · exact hn
              · exact he k hk
            · rw [← hp, hq]; rfl
    · rintro ⟨hF, he, rfl⟩
      rw [(ih _).2 ⟨hF, fun k hk => he k (List.mem_cons_of_mem _ hk), rfl⟩]
      have hn : n ≠ 0 := he n List.mem_cons_self
      show some (if n = 0 then _ else _) = _
      rw [if_neg hn]; rfl
  induction x generalizing lv p with
  | stdArray n t c ih =>
    cases c
    · have := step n t true (FirstIsLvalue true t) (fun p => ih true hc.2 p) p
      refine Iff.trans this ⟨fun h => ⟨.inr rfl, h.2⟩, fun h => ⟨?_, h.2⟩⟩
      exact (traitsData_some t true).1 (traitsData_lvalue t)
    · cases hc.1
  | cArray n t ih => exact step n t lv (FirstIsLvalue lv t) (fun p => ih lv hc p) p
  | _ =>
    cases lv
    · exact ⟨fun h => (by cases h), fun h => (by cases h.1)⟩
    · refine ⟨fun h => ⟨rfl, fun k hk => (by cases hk), ?_⟩, fun h => (by rw [h.2.2]; rfl)⟩
      exact (Except.ok.inj (Option.some.inj h)).symm

theorem places_eq (x : ObjType) : x.places = (arrayExtents x).prod := by
  induction x with
  | stdArray n t c ih => rw [ObjType.places, ih]; exact (List.prod_cons).symm
  | cArray n t ih => rw [ObjType.places, ih]; exact (List.prod_cons).symm
  | _ => rfl

theorem innermost_places (x : ObjType) : (innermost x).places = 1 := by
  have h := innermost_not_array x
  cases e : innermost x with
  | stdArray n t c => exact absurd (.inl ⟨n, t, c, e⟩) h
  | cArray n t => exact absurd (.inr ⟨n, t, e⟩) h
  | _ => rfl

/-- The array type without constness. -/
theorem traitsSizes_nest (x : ObjType) (hc : NoConstArray x) :
    x.traitsSizes.map Coord.value = (nestOf x).sizes := by
  induction x with
  | stdArray n t c ih =>
    cases c
    · simp [ObjType.traitsSizes, nestOf, Nest.sizes, ih hc.2]
    · cases hc.1
  | cArray n t ih => simp [ObjType.traitsSizes, nestOf, Nest.sizes, ih hc]
  | _ => rfl

theorem addConst_eq (t : ObjType) : t.addConst = asConst t := by
  induction t with
  | cArray n t ih => rw [ObjType.addConst, asConst, ih]
  | _ => rfl

theorem sourceOf_array {x : ObjType} (h : IsArray x) (lv : Bool) (len : Nat) :
    sourceOf x lv len = (x.traitsData lv).map fun r => r.map fun p => ⟨x.traitsValue, p, x.traitsSizes, true⟩ := by
  rcases h with ⟨n, t, c, rfl⟩ | ⟨n, t, rfl⟩ <;> rfl

/-- What a source made of an array is. -/
theorem sourceOf_array_ok {x : ObjType} (h : IsArray x) {lv : Bool} {len : Nat} {s : SourceInfo} :
    sourceOf x lv len = some (.ok s) ↔
      x.traitsData lv = some (.ok s.start) ∧ s.elem = x.traitsValue ∧ s.extents = x.traitsSizes ∧ s.static = true := by
  rw [sourceOf_array h]
  constructor
  · intro hs
    cases e : x.traitsData lv with
    | none => rw [e] at hs; cases hs
    | some r =>
      rw [e] at hs
      cases r with
      | error f => cases hs
      | ok p =>
        have := Except.ok.inj (Option.some.inj hs)
        subst this
        exact ⟨rfl, rfl, rfl, rfl⟩
  · rintro ⟨e, h1, h2, h3⟩
    obtain ⟨a, b, c, d⟩ := s
    simp only at e h1 h2 h3
    subst h1 h2 h3
    rw [e]; rfl

end Kwk
