import Verif.Spec.Copies
import Verif.Lemmas.AuxObjects
import Verif.Lemmas.Index
import Verif.Props.Axes

namespace Kwk

open Spec

theorem normalizeExtents_cons (e : Extent) (l : List Extent) :
    normalizeExtents (e :: l) = ⟨axisOf l.length e, contentOf e⟩ :: normalizeExtents l := by
  unfold normalizeExtents
  rw [List.zipIdx_cons, List.map_cons]
  congr 1
  · cases e with
    | axis id c => cases c <;> simp [normalizeExtent, axisOf, contentOf]
    | _ => simp [normalizeExtent, axisOf, contentOf]
  · rw [List.zipIdx_succ, List.map_map]
    apply List.map_congr_left
    intro p hp
    simp only [Function.comp_apply, List.length_cons]
    congr 1
    omega

theorem fullyStatic_extents (l : List Extent) : fullyStatic (normalizeExtents l) = true ↔ ∀ e ∈ l, IsConstant e := by
  rw [fullyStatic_iff]
  induction l with
  | nil => simp [normalizeExtents, runtimeTypes]
  | cons e l ih =>
    rw [normalizeExtents_cons, List.forall_mem_cons, ← ih]
    cases e with
    | axis id c =>
      rcases c with _ | _ | _ <;> simp [runtimeTypes, contentOf, IsConstant]
    | _ => simp [runtimeTypes, contentOf, IsConstant]

theorem content_mul_eq (e : Extent) (l : List Extent) : Content.mul (contentOf e) (productOf l) = productOf (e :: l) := by
  rw [productOf]
  cases contentOf e <;> cases productOf l <;> rfl

/-- The products of the contents, from each axis on. -/
def suffixProducts : List Extent → List Content
  | [] => [.static 1]
  | e :: l => productOf (e :: l) :: suffixProducts l

theorem suffixProducts_head (l : List Extent) : (suffixProducts l).headD (.static 1) = productOf l := by
  cases l <;> rfl

theorem stride_fold (l : List Extent) :
    kumiFoldLeft (fun a m => Content.mul m (a.headD (.static 1)) :: a) ((normalizeExtents l).map (·.content)) [.static 1] =
      suffixProducts l := by
  induction l with
  | nil => rfl
  | cons e l ih =>
    rw [kumiFoldLeft] at ih ⊢
    rw [normalizeExtents_cons, List.map_cons, List.foldr_cons, ih, suffixProducts_head, content_mul_eq]
    rfl

theorem zip_rowMajor (l : List Extent) (e : Extent) :
    (List.zipWith (fun (a : Axis) c => (⟨a.id, c⟩ : Axis)) (normalizeExtents (e :: l)) (suffixProducts l)).map
      (fun a => Extent.axis a.id (some a.content)) = rowMajorType (e :: l) := by
  induction l generalizing e with
  | nil => rw [normalizeExtents_cons]; rfl
  | cons f l ih =>
    rw [normalizeExtents_cons, suffixProducts, List.zipWith_cons_cons, List.map_cons, ih]
    rfl

theorem asStrideArgs_eq (l : List Extent) : asStrideArgs l = rowMajorType l := by
  unfold asStrideArgs strideDesc
  rw [normalizeExtents_length]
  split
  · rename_i h
    obtain ⟨e, rfl⟩ := List.length_eq_one_iff.1 h
    rw [normalizeExtents_cons]
    rfl
  · cases l with
    | nil => rfl
    | cons e l =>
      rw [← zip_rowMajor]
      simp only
      rw [← stride_fold l]
      congr 2
      rw [normalizeExtents_cons]
      rfl

theorem productOf_constant {l : List Extent} (h : ∀ e ∈ l, IsConstant e) : ∃ v, productOf l = .static v := by
  induction l with
  | nil => exact ⟨1, rfl⟩
  | cons e l ih =>
    obtain ⟨v, hv⟩ := ih fun x hx => h x (List.mem_cons_of_mem _ hx)
    have he := h e List.mem_cons_self
    rw [productOf, hv]
    cases e with
    | axis id c => rcases c with _ | _ | _ <;> first | exact he.elim | exact ⟨_, rfl⟩
    | _ => first | exact he.elim | exact ⟨_, rfl⟩

theorem rowMajorType_constant {l : List Extent} (h : ∀ e ∈ l, IsConstant e) : ∀ e ∈ rowMajorType l, IsConstant e := by
  induction l with
  | nil => intro e he; cases he
  | cons e l ih =>
    intro x hx
    rw [rowMajorType] at hx
    rcases List.mem_cons.1 hx with rfl | hx
    · obtain ⟨v, hv⟩ := productOf_constant fun x hx => h x (List.mem_cons_of_mem _ hx)
      rw [hv]; trivial
    · exact ih (fun x hx => h x (List.mem_cons_of_mem _ hx)) x hx

theorem laterProducts_eq (s : List Int) : asStride s = laterProducts s := by
  rw [asStride_eq_sfx]
  induction s with
  | nil => rfl
  | cons d s ih => simp only [sfx, laterProducts, ih]

/-- When the variant without members is chosen. -/
theorem static_iff (t : CType) : t.accessor = .static ↔ AllConstant t := by
  have h1 := fullyStatic_extents t.shape
  have h2 := fullyStatic_extents t.strideArgs
  have h3 : (fullyStatic (normalizeExtents t.shape) && fullyStatic (normalizeExtents t.strideArgs)) = true ↔ AllConstant t := by
    rw [Bool.and_eq_true, h1, h2, AllConstant]
    refine and_congr_right fun hs => ?_
    unfold CType.strideArgs
    cases hst : t.strides with
    | none =>
      simp only [Option.getD_none, asStrideArgs_eq]
      exact ⟨fun _ l hl => (nomatch hl), fun _ => rowMajorType_constant hs⟩
    | some l =>
      simp only [Option.getD_some]
      exact ⟨fun h k hk => (Option.some.inj hk) ▸ h, fun h => h l rfl⟩
  rw [← h3]
  unfold CType.accessor
  simp only
  constructor
  · intro h
    by_contra hc
    rw [if_neg hc] at h
    split at h
    · split at h <;> cases h
    · split at h
      · split at h <;> cases h
      · cases h
  · intro h
    rw [if_pos h]

/-- Which variant is chosen otherwise. -/
theorem accessor_cases (t : CType) :
    (AllConstant t ∧ t.accessor = .static) ∨
    (¬ (∀ e ∈ t.shape, IsConstant e) ∧ t.shape.length = 1 ∧ t.strides = none ∧ t.accessor = .line) ∨
    (¬ (∀ e ∈ t.shape, IsConstant e) ∧ t.shape.length = 1 ∧ t.strides ≠ none ∧ t.accessor = .lineStrided) ∨
    (¬ (∀ e ∈ t.shape, IsConstant e) ∧ t.shape.length = 2 ∧ t.strides = none ∧ t.accessor = .plane) ∨
    (¬ (∀ e ∈ t.shape, IsConstant e) ∧ t.shape.length = 2 ∧ t.strides ≠ none ∧ t.accessor = .planeStrided) ∨
    (¬ AllConstant t ∧ ((∀ e ∈ t.shape, IsConstant e) ∨ 3 ≤ t.shape.length) ∧ t.accessor = .general) := by
  by_cases hc : AllConstant t
  · exact .inl ⟨hc, (static_iff t).2 hc⟩
  · have hn : ¬ ((fullyStatic (normalizeExtents t.shape) && fullyStatic (normalizeExtents t.strideArgs)) = true) := by
      intro h
      apply hc
      rw [← static_iff]
      unfold CType.accessor
      simp only
      rw [if_pos h]
    have h1 := fullyStatic_extents t.shape
    refine .inr ?_
    have ha : t.accessor = if (!fullyStatic (normalizeExtents t.shape) && t.shape.length == 1) = true then
        (if t.strides.isSome then .lineStrided else .line)
      else if (!fullyStatic (normalizeExtents t.shape) && t.shape.length == 2) = true then
        (if t.strides.isSome then .planeStrided else .plane)
      else .general := by
      unfold CType.accessor
      simp only
      rw [if_neg hn]
    by_cases hs : ∀ e ∈ t.shape, IsConstant e
    · have e1 := h1.2 hs
      rw [e1] at ha
      exact .inr (.inr (.inr (.inr ⟨hc, .inl hs, by simpa using ha⟩)))
    · have e1 : fullyStatic (normalizeExtents t.shape) = false := by
        rw [← Bool.not_eq_true, h1]; exact hs
      rw [e1] at ha
      have hlen : t.shape ≠ [] := by
        intro h0; apply hs; rw [h0]; intro e he; cases he
      have hpos : 0 < t.shape.length := List.length_pos_iff.2 hlen
      by_cases l1 : t.shape.length = 1
      · rw [l1] at ha
        cases hst : t.strides with
        | none => rw [hst] at ha; exact .inl ⟨hs, l1, rfl, by simpa using ha⟩
        | some l => rw [hst] at ha; exact .inr (.inl ⟨hs, l1, by simp, by simpa using ha⟩)
      · by_cases l2 : t.shape.length = 2
        · rw [l2] at ha
          cases hst : t.strides with
          | none => rw [hst] at ha; exact .inr (.inr (.inl ⟨hs, l2, rfl, by simpa using ha⟩))
          | some l => rw [hst] at ha; exact .inr (.inr (.inr (.inl ⟨hs, l2, by simp, by simpa using ha⟩)))
        · refine .inr (.inr (.inr (.inr ⟨hc, .inr (by omega), ?_⟩)))
          rw [ha]
          simp [l1, l2]


theorem contentOf_static (e : Extent) (x : Int) : contentOf e = .static x ↔ writtenSize e = some x := by
  cases e with
  | axis id c => rcases c with _ | _ | _ <;> simp [contentOf, writtenSize]
  | _ => simp [contentOf, writtenSize]

theorem similar_iff (es fs : List Extent) :
    isSimilar (normalizeExtents es) (normalizeExtents fs) = true ↔ AcceptedFor es fs := by
  rw [C62_is_similar, normalizeExtents_length, normalizeExtents_length, AcceptedFor]
  induction es generalizing fs with
  | nil =>
    cases fs with
    | nil => simp [normalizeExtents]
    | cons f fs => simp
  | cons e es ih =>
    cases fs with
    | nil => simp
    | cons f fs =>
      rw [List.forall₂_cons, ← ih, normalizeExtents_cons, normalizeExtents_cons]
      constructor
      · rintro ⟨hl, h⟩
        refine ⟨fun x hx => ?_, by simpa using hl, fun i a b x ha hb => h (i + 1) a b x (by simpa using ha) (by simpa using hb)⟩
        rw [← contentOf_static] at hx ⊢
        exact h 0 _ _ x rfl rfl hx
      · rintro ⟨h0, hl, h⟩
        refine ⟨by simpa using hl, fun i a b x ha hb hx => ?_⟩
        cases i with
        | zero =>
          simp only [List.getElem?_cons_zero, Option.some.injEq] at ha hb
          subst ha; subst hb
          rw [contentOf_static] at hx
          exact (contentOf_static f x).2 (h0 x hx)
        | succ i => exact h i a b x (by simpa using ha) (by simpa using hb) hx

theorem shapeFrom_iff {es fs : List Extent} (he : ProperNames es) (hf : ProperNames fs) (h : AcceptedFor es fs) :
    shapeFrom es fs = true ↔ es.map writtenName = fs.map writtenName := by
  unfold shapeFrom
  have hl := h.length_eq
  rw [Bool.or_eq_true, decide_eq_true_eq, C18_acceptance es fs he hf, if_pos (by omega), hl, Nat.sub_self, List.drop_zero]
  constructor
  · rintro (rfl | hh)
    · rfl
    · clear h hl he hf
      induction hh with
      | nil => rfl
      | cons a _ ih => rw [List.map_cons, List.map_cons, a.1, ih]
  · intro hn
    refine .inr ?_
    clear hl he hf
    unfold AcceptedFor at h
    induction h with
    | nil => exact .nil
    | cons a _ ih =>
      rw [List.map_cons, List.map_cons, List.cons.injEq] at hn
      exact .cons ⟨hn.1, fun x y hx hy => by rw [a x hx] at hy; exact Option.some.inj hy⟩ (ih hn.2)

theorem constants_cons (a : Axis) (d : Desc) :
    constants (a :: d) = (match a.content with | .static v => v | .dynamic _ => 0) :: constants d := rfl

theorem constants_extents {l : List Extent} (h : ∀ e ∈ l, IsConstant e) :
    l.map writtenSize = (constants (normalizeExtents l)).map some := by
  induction l with
  | nil => rfl
  | cons e l ih =>
    have he := h e List.mem_cons_self
    rw [normalizeExtents_cons, List.map_cons, ih fun x hx => h x (List.mem_cons_of_mem _ hx), constants_cons, List.map_cons]
    congr 1
    cases e with
    | axis id c => rcases c with _ | _ | _ <;> first | exact he.elim | rfl
    | _ => first | exact he.elim | rfl

theorem productOf_static {l : List Extent} (h : ∀ e ∈ l, IsConstant e) :
    productOf l = .static (constants (normalizeExtents l)).prod := by
  induction l with
  | nil => rfl
  | cons e l ih =>
    have he := h e List.mem_cons_self
    rw [normalizeExtents_cons, productOf, ih fun x hx => h x (List.mem_cons_of_mem _ hx), constants_cons, List.prod_cons]
    cases e with
    | axis id c => rcases c with _ | _ | _ <;> first | exact he.elim | rfl
    | _ => first | exact he.elim | rfl

theorem constants_rowMajor {l : List Extent} (h : ∀ e ∈ l, IsConstant e) :
    constants (normalizeExtents (rowMajorType l)) = laterProducts (constants (normalizeExtents l)) := by
  induction l with
  | nil => rfl
  | cons e l ih =>
    have hl : ∀ e ∈ l, IsConstant e := fun x hx => h x (List.mem_cons_of_mem _ hx)
    rw [rowMajorType, normalizeExtents_cons, normalizeExtents_cons, productOf_static hl]
    show _ :: constants (normalizeExtents (rowMajorType l)) = _ :: laterProducts (constants (normalizeExtents l))
    rw [ih hl]
    rfl

/-- The variant `line` has strides `[1]`. -/
theorem strideOf_line {t : CType} (hl : t.shape.length = 1) (hs : t.strides = none) :
    constants (normalizeExtents t.strideArgs) = [1] := by
  obtain ⟨e, he⟩ := List.length_eq_one_iff.1 hl
  unfold CType.strideArgs
  rw [hs, asStrideArgs_eq, he]
  rfl

/-- What a container shows that was made of settings. -/
theorem made_shown {δ : Type} {t : CType} {src : List Extent} {dims : Shape} {c : Obj δ} {d : δ}
    (h : ofSettings t src dims d = some c) (hl : dims.length = t.shape.length) :
    t.label = false ∧ (shown t c).label = "" ∧ (shown t c).data = d ∧
      (shown t c).shape = (if t.accessor = .static then constants (normalizeExtents t.shape) else dims) ∧
      madeStrides t (shown t c).shape (shown t c).strides := by
  unfold ofSettings at h
  cases hb : t.label
  · rw [hb] at h
    simp only [Bool.false_eq_true, if_false] at h
    rcases accessor_cases t with ⟨hc, e⟩ | ⟨hc, l, s, e⟩ | ⟨hc, l, s, e⟩ | ⟨hc, l, s, e⟩ | ⟨hc, l, s, e⟩ | ⟨hc, _, e⟩ <;>
      rw [e] at h <;> simp only at h
    · cases h
      refine ⟨rfl, by simp [shown, CType.labelOf], rfl, by simp [shown, CType.shapeOf, e], fun l _ hs => ?_, fun hx => ?_⟩
      · simp only [shown, CType.strideOf, e]
        unfold CType.strideArgs
        rw [hs]
        exact constants_extents (hc.2 l hs)
      · have hs := hx.resolve_left (fun hn => hn hc)
        simp only [shown, CType.strideOf, CType.shapeOf, e]
        unfold CType.strideArgs
        rw [hs, Option.getD_none, asStrideArgs_eq]
        exact constants_rowMajor hc.1
    all_goals
      split at h
      · cases h
        refine ⟨rfl, by simp [shown, CType.labelOf], rfl, by simp [shown, CType.shapeOf, e], fun l hx => ?_, fun _ => ?_⟩
        · first | exact absurd hx.1 hc | exact absurd hx hc
        · simp only [shown]
          rw [← laterProducts_eq]
          simp only [CType.strideOf, CType.shapeOf, e]
          try rw [strideOf_line l s]
          try
            rw [l] at hl
            first
            | (obtain ⟨n, hn⟩ := List.length_eq_one_iff.1 hl
               rw [hn]; rfl)
            | (obtain ⟨n, k, hn⟩ := List.length_eq_two.1 hl
               rw [hn]
               simp [asStride, kumiFoldLeft])
      · cases h
  · rw [hb] at h
    simp at h

end Kwk
