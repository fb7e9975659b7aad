import Verif.Lemmas.Container
import Verif.Lemmas.Writing
import Verif.Model.Views

/-! # Lemmas: which strides give the row-major addresses -/

namespace Kwk
open Spec

theorem rowMajorStrides_cons {d g : Int} {s st : List Int} :
    RowMajorStrides (d :: s) (g :: st) ↔ (1 < d → g = s.prod) ∧ RowMajorStrides s st := by
  constructor
  · intro h
    exact ⟨fun hd => by simpa using h 0 (by simpa using hd), fun i hi => by simpa using h (i + 1) (by simpa using hi)⟩
  · rintro ⟨h1, h2⟩ i hi
    cases i with
    | zero => simpa using h1 (by simpa using hi)
    | succ i => simpa using h2 i (by simpa using hi)

theorem positions_rank {s p : List Int} {k : Nat} (h : (positions s)[k]? = some p) :
    (k : Int) = linearize (sfx s) p := by
  have hp : InBox s p := mem_positions.1 (List.mem_of_getElem? h)
  have h2 := positions_getElem? hp
  have hlt := (List.getElem?_eq_some_iff.1 h).1
  have := (List.getElem?_inj hlt (positions_nodup s)).1 (h.trans h2.symm)
  have := lin_bounds hp
  omega

theorem zeros_inBox {s : List Int} (h : ∀ d ∈ s, 0 < d) : InBox s (s.map fun _ => 0) := by
  induction s with
  | nil => exact .nil
  | cons d s ih =>
    exact inBox_cons.2 ⟨⟨le_refl _, h d (by simp)⟩, ih fun e he => h e (by simp [he])⟩

theorem linearize_map_zero {β : Type} (st : List Int) (s : List β) : linearize st (s.map fun _ => 0) = 0 := by
  induction s generalizing st with
  | nil => exact linearize_nil_right st
  | cons d s ih =>
    cases st with
    | nil => exact linearize_nil_left _
    | cons g st => rw [List.map_cons, linearize_cons, ih]; ring

/-- Strides give the row-major ranks exactly if they are the row-major ones on the axes with more than one position. -/
theorem linearize_rowMajor_iff {s st : List Int} (hl : st.length = s.length) (hpos : ∀ d ∈ s, 0 < d) :
    (∀ p, InBox s p → linearize st p = linearize (sfx s) p) ↔ RowMajorStrides s st := by
  induction s generalizing st with
  | nil =>
    refine ⟨fun _ i hi => by simp at hi, fun _ p hp => ?_⟩
    rw [inBox_nil.1 hp, linearize_nil_right, linearize_nil_right]
  | cons d s ih =>
    obtain ⟨g, st, rfl⟩ : ∃ g st', st = g :: st' := by
      cases st with
      | nil => simp at hl
      | cons g st => exact ⟨g, st, rfl⟩
    have hps : ∀ e ∈ s, 0 < e := fun e he => hpos e (by simp [he])
    rw [rowMajorStrides_cons, ← ih (by simpa using hl) hps]
    constructor
    · intro h
      refine ⟨fun hd => ?_, fun q hq => ?_⟩
      · have := h (1 :: s.map fun _ => 0) (inBox_cons.2 ⟨⟨by decide, hd⟩, zeros_inBox hps⟩)
        rw [linearize_sfx_cons, linearize_cons, linearize_map_zero, linearize_map_zero] at this
        linarith
      · have := h (0 :: q) (inBox_cons.2 ⟨⟨le_refl _, hpos d (by simp)⟩, hq⟩)
        rw [linearize_sfx_cons, linearize_cons] at this
        linarith
    · rintro ⟨h1, h2⟩ p hp
      obtain ⟨i, q, rfl, hi, hq⟩ := inBox_cons_left hp
      rw [linearize_sfx_cons, linearize_cons, h2 q hq]
      by_cases hd : 1 < d
      · rw [h1 hd]
      · have : i = 0 := by omega
        rw [this]; ring

theorem rowMajorStrides_sfx (s : List Int) : RowMajorStrides s (sfx s) := by
  induction s with
  | nil => intro i hi; simp at hi
  | cons d s ih => exact rowMajorStrides_cons.2 ⟨fun _ => rfl, ih⟩

/-- A default layout has row-major strides. -/
theorem Container.Default.rowMajor {c : Container} (h : c.Default) : RowMajorStrides c.shape c.strides := by
  rw [h.dflt h.nospec, asStride_eq_sfx]; exact rowMajorStrides_sfx _

/-- Addresses are the base plus the row-major rank exactly for row-major strides. -/
theorem addr_rank_iff {c : Container} (h : c.WF) (hpos : ∀ d ∈ c.shape, 0 < d) :
    (∀ p, InBox c.shape p → c.addr p = c.base.add (linearize (sfx c.shape) p)) ↔
      RowMajorStrides c.shape c.strides := by
  rw [← linearize_rowMajor_iff h.len hpos]
  constructor
  · intro hh p hp
    have := hh p hp
    rw [addr_eq h hp] at this
    have := congrArg Ptr.off this
    simpa [Ptr.add] using this
  · intro hh p hp
    rw [addr_eq h hp, hh p hp]

end Kwk
