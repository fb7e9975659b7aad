import Verif.Spec.Mirror
import Verif.Lemmas.Container

/-!
# Lemmas about mirrored positions and negated strides
-/

namespace Kwk
open Spec

theorem mirror_inBox {s p : List Int} (h : InBox s p) : InBox s (mirror s p) := by
  induction h with
  | nil => exact .nil
  | cons h _ ih =>
    rw [mirror, List.zipWith_cons_cons]
    exact inBox_cons.2 ⟨by omega, ih⟩

theorem corner_inBox {s : List Int} (h : ∀ d ∈ s, 0 < d) : InBox s (corner s) := by
  induction s with
  | nil => exact .nil
  | cons d s ih =>
    have := h d (by simp)
    exact inBox_cons.2 ⟨by constructor <;> simp only <;> omega, ih fun e he => h e (by simp [he])⟩

theorem mirror_mirror {s p : List Int} (h : s.length = p.length) : mirror s (mirror s p) = p := by
  induction s generalizing p with
  | nil => cases p with
    | nil => rfl
    | cons _ _ => simp at h
  | cons d s ih => cases p with
    | nil => simp at h
    | cons i p =>
      have := ih (p := p) (by simpa using h)
      unfold mirror at this ⊢
      rw [List.zipWith_cons_cons, List.zipWith_cons_cons, this]
      congr 1; omega

theorem linearize_neg (st p : List Int) : linearize (st.map fun m => -m) p = -linearize st p := by
  induction st generalizing p with
  | nil => simp [linearize]
  | cons g st ih => cases p with
    | nil => simp [linearize]
    | cons i p => rw [List.map_cons, linearize_cons, linearize_cons, ih]; ring

theorem linearize_mirror (st : List Int) {s p : List Int} (h : s.length = p.length) :
    linearize st (mirror s p) = linearize st (corner s) - linearize st p := by
  induction st generalizing s p with
  | nil => simp [linearize]
  | cons g st ih => cases s with
    | nil => cases p with
      | nil => simp [linearize, mirror, corner]
      | cons _ _ => simp at h
    | cons d s => cases p with
      | nil => simp at h
      | cons i p =>
        have := ih (s := s) (p := p) (by simpa using h)
        unfold mirror corner at this ⊢
        rw [List.zipWith_cons_cons, List.map_cons, linearize_cons, linearize_cons, linearize_cons, this]
        ring

/-- In the row-major layout the last position has index `numel - 1`. -/
theorem linearize_corner (s : List Int) : linearize (sfx s) (corner s) = s.prod - 1 := by
  induction s with
  | nil => simp [linearize, sfx]
  | cons d ds ih =>
    rw [corner, List.map_cons, linearize_sfx_cons]
    rw [corner] at ih
    rw [ih, List.prod_cons]; ring

theorem mirror_lt {s p q : List Int} (hp : InBox s p) (hq : InBox s q) :
    mirror s p < mirror s q ↔ q < p := by
  rw [← lin_lt_iff (mirror_inBox hp) (mirror_inBox hq), ← lin_lt_iff hq hp,
    linearize_mirror _ hp.length, linearize_mirror _ hq.length]
  omega

theorem isLast_mirror (s : List Int) (P : List Int → Bool) :
    IsLast s (fun p => P p = true)
      (((positions s).find? fun p => P (mirror s p)).map fun p => mirror s p) := by
  obtain ⟨h1, h2⟩ := find?_positions s fun p => P (mirror s p)
  constructor
  · rw [Option.map_eq_none_iff, h1]
    constructor
    · intro h p hp
      have := h _ (mirror_inBox hp)
      rw [mirror_mirror hp.length] at this
      simp [this]
    · intro h p hp
      simpa using h _ (mirror_inBox hp)
  · intro p
    rw [Option.map_eq_some_iff]
    constructor
    · rintro ⟨q, hq, rfl⟩
      obtain ⟨hb, hP, hmin⟩ := (h2 q).1 hq
      refine ⟨mirror_inBox hb, hP, ?_⟩
      intro r hr hlt
      have := hmin _ (mirror_inBox hr) (by
        rw [← mirror_mirror hb.length]
        exact (mirror_lt hr (mirror_inBox hb)).2 hlt)
      rw [mirror_mirror hr.length] at this
      simp [this]
    · rintro ⟨hb, hP, hmax⟩
      refine ⟨mirror s p, ?_, mirror_mirror hb.length⟩
      rw [h2]
      refine ⟨mirror_inBox hb, by rw [mirror_mirror hb.length]; exact hP, ?_⟩
      intro q hq hlt
      have := hmax _ (mirror_inBox hq) (by
        rw [← mirror_mirror hb.length]
        exact (mirror_lt (mirror_inBox hb) hq).2 hlt)
      simpa using this

/-- Addresses of `reverse(c)`, for any well-formed container. -/
theorem reverse_addr {c : Container} (h : c.WF) {p : List Int} (hp : InBox c.shape p) :
    (reverse c).addr p = c.base.add (c.numel - 1 - linearize c.strides p) := by
  have hw : (reverse c).WF := ofStrides_WF h.ne (by simp [stride_eq h, h.len])
  rw [addr_eq hw hp]
  simp only [reverse, Container.ofStrides, stride_eq h, linearize_neg, Ptr.add]
  congr 1; ring

end Kwk
