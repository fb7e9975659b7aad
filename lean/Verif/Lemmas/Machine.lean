import Verif.Model.Machine
import Verif.Spec.Machine
import Verif.Lemmas.Index
import Verif.Lemmas.Prefilled

/-! # Lemmas: arithmetic on machine integers -/

namespace Kwk
open Spec

theorem IntType.op_fits {t : IntType} {v : Int} (h : t.Fits v) : t.op v = .ok v := by
  unfold IntType.op
  split
  · rfl
  · rw [IntType.wrap_fits h]; rfl

theorem IntType.lo_nonpos (t : IntType) : t.lo ≤ 0 := by
  unfold IntType.lo
  have hp : (0 : Int) < 2 ^ t.bits := by positivity
  split <;> omega

/-- A value between zero and a representable value is representable. -/
theorem IntType.fits_between {t : IntType} {v w : Int} (h : t.Fits w) (h0 : 0 ≤ v) (hv : v ≤ w) : t.Fits v :=
  ⟨by have := t.lo_nonpos; omega, by have := h.2; omega⟩

theorem paddedCount_cons (d : Int) (s : List Int) : paddedCount (d :: s) = max 1 d * paddedCount s := by
  simp [paddedCount]

theorem paddedCount_pos (s : List Int) : 1 ≤ paddedCount s := by
  induction s with
  | nil => simp [paddedCount]
  | cons d s ih =>
    rw [paddedCount_cons]
    have : 1 ≤ max 1 d := le_max_left _ _
    nlinarith

theorem prod_le_padded {s : List Int} (h : NonNeg s) : s.prod ≤ paddedCount s := by
  induction s with
  | nil => simp [paddedCount]
  | cons d s ih =>
    rw [paddedCount_cons, List.prod_cons]
    have h1 := ih fun x hx => h x (by simp [hx])
    have h2 := h d (by simp)
    have h3 : d ≤ max 1 d := le_max_right _ _
    have h4 := paddedCount_pos s
    have h5 := prod_nonneg' (s := s) fun x hx => h x (by simp [hx])
    nlinarith

theorem padded_tail {d : Int} {s : List Int} : paddedCount s ≤ paddedCount (d :: s) := by
  rw [paddedCount_cons]
  have : 1 ≤ max 1 d := le_max_left _ _
  have := paddedCount_pos s
  nlinarith

theorem padded_eq_prod {s : List Int} (h : ∀ d ∈ s, 0 < d) : paddedCount s = s.prod := by
  unfold paddedCount
  congr 1
  rw [List.map_congr_left (g := id)]
  · simp
  · intro d hd; have := h d hd; simp; omega

theorem numelM_fold {t : IntType} {s : List Int} (hs : NonNeg s) (hf : t.Fits (paddedCount s)) :
    kumiFoldLeft (fun (a : Res Int) b => do t.op ((← a) * b)) s (pure 1) = .ok s.prod := by
  unfold kumiFoldLeft
  induction s with
  | nil => rfl
  | cons d s ih =>
    have hs' : NonNeg s := fun x hx => hs x (by simp [hx])
    rw [List.foldr_cons, ih hs' (IntType.fits_between hf (by have := paddedCount_pos s; omega) padded_tail)]
    simp only [bind, Except.bind]
    rw [mul_comm, ← List.prod_cons]
    exact IntType.op_fits (IntType.fits_between hf (prod_nonneg' hs) (prod_le_padded hs))

theorem asStrideM_fold {t : IntType} {s : List Int} (hs : NonNeg s) (hf : t.Fits (paddedCount s)) :
    kumiFoldLeft (fun (a : Res Strides) m => do
      let a ← a
      let g ← t.op (m * a.headD 0)
      pure (g :: a)) s (pure [1]) = .ok (s.prod :: sfx s) := by
  unfold kumiFoldLeft
  induction s with
  | nil => rfl
  | cons d s ih =>
    have hs' : NonNeg s := fun x hx => hs x (by simp [hx])
    rw [List.foldr_cons, ih hs' (IntType.fits_between hf (by have := paddedCount_pos s; omega) padded_tail)]
    simp only [bind, Except.bind, List.headD_cons]
    rw [← List.prod_cons, IntType.op_fits (IntType.fits_between hf (prod_nonneg' hs) (prod_le_padded hs))]
    simp [sfx, pure, Except.pure]

theorem asStrideM_eq {t : IntType} {s : List Int} (hs : NonNeg s) (hf : t.Fits (paddedCount s)) :
    asStrideM t s = .ok (asStride s) := by
  match s with
  | [] => rfl
  | [d] => rfl
  | d :: e :: ds =>
    rw [asStrideM, asStrideM_fold (fun x hx => hs x (by simp [hx]))
      (IntType.fits_between hf (by have := paddedCount_pos (e :: ds); omega) padded_tail), asStride_eq_sfx]
    · simp [sfx]
    · simp

theorem linearizeM_aux {t : IntType} (g i : List Int) (acc N : Int) (hN : t.Fits N) (h0 : 0 ≤ acc)
    (hnn : List.Forall₂ (fun a b : Int => 0 ≤ a * b) g i) (hle : acc + linearize g i ≤ N) :
    (g.zip i).foldlM (fun acc (gi : Int × Int) => do t.op (acc + (← t.op (gi.1 * gi.2)))) acc =
      (.ok (acc + linearize g i) : Res Int) := by
  induction hnn generalizing acc with
  | nil => simp [linearize]; rfl
  | @cons a b g i hab hrest ih =>
    have hnn : 0 ≤ linearize g i := by
      clear * - hrest
      induction hrest with
      | nil => simp [linearize]
      | cons h _ ih => rw [linearize_cons]; omega
    rw [linearize_cons] at hle ⊢
    rw [List.zip_cons_cons, List.foldlM_cons]
    simp only
    rw [IntType.op_fits (IntType.fits_between hN hab (by omega))]
    simp only [bind, Except.bind]
    rw [IntType.op_fits (IntType.fits_between hN (show 0 ≤ acc + a * b by omega) (by omega))]
    have := ih (acc + a * b) (by omega) (by omega)
    simp only [bind, Except.bind] at this
    simp only
    rw [this, add_assoc]

end Kwk
