import Verif.Lemmas.Slice
import Verif.Lemmas.Contiguous

/-! # Lemmas: contiguous selections -/

namespace Kwk
open Spec

theorem consecutive_upTo (d : Int) : Consecutive (upTo d) := by
  refine ⟨0, ?_⟩
  rw [upTo_length]
  have : upTo ((d.toNat : Nat) : Int) = upTo d := by simp only [upTo, Int.toNat_natCast]
  rw [this]; simp

theorem runOf_whole (ds : List Int) : RunOfPositions ds (ds.map upTo) := by
  cases ds with
  | nil => trivial
  | cons d ds => exact .inr ⟨consecutive_upTo d, rfl⟩

/-- Consecutive indexes that fill the axis are the axis. -/
theorem consecutive_full {d : Int} {l : List Int} (h : Consecutive l) (hin : ∀ x ∈ l, 0 ≤ x ∧ x < d)
    (hlen : (l.length : Int) = d) (hpos : 0 < d) : l = upTo d := by
  obtain ⟨a, ha⟩ := h
  rw [hlen] at ha
  have h0 : 0 ≤ a ∧ a < d := hin a (by rw [ha]; exact List.mem_map.2 ⟨0, mem_upTo.2 ⟨le_refl _, hpos⟩, by simp⟩)
  have h1 := hin (a + (d - 1)) (by rw [ha]; exact List.mem_map.2 ⟨d - 1, mem_upTo.2 ⟨by omega, by omega⟩, rfl⟩)
  have : a = 0 := by omega
  rw [ha, this]; simp

theorem runOf_full {ds : List Int} {ls : List (List Int)} (h : RunOfPositions ds ls)
    (hin : List.Forall₂ (fun d l => (∀ x ∈ l, 0 ≤ x ∧ x < d) ∧ (l.length : Int) = d ∧ 0 < d) ds ls) :
    ls = ds.map upTo := by
  induction hin with
  | nil => rfl
  | @cons d l ds ls hd hrest ih =>
    rcases h with ⟨h1, h2⟩ | ⟨h1, h2⟩
    · obtain ⟨ha, hb, hc⟩ := hd
      obtain ⟨x, rfl⟩ := List.length_eq_one_iff.1 h1
      have hx := ha x (by simp)
      have hd1 : d = 1 := by simpa using hb.symm
      subst hd1
      have hx0 : x = 0 := by omega
      subst hx0
      rw [ih h2]; rfl
    · rw [List.map_cons, ← h2, consecutive_full h1 hd.1 hd.2.1 hd.2.2]

theorem prod_le_of_le {ds : List Int} {ls : List (List Int)}
    (h : List.Forall₂ (fun d (l : List Int) => 0 < (l.length : Int) ∧ (l.length : Int) ≤ d) ds ls) :
    0 < (pickShape ls).prod ∧ (pickShape ls).prod ≤ ds.prod ∧
      ((pickShape ls).prod = ds.prod → List.Forall₂ (fun d (l : List Int) => (l.length : Int) = d) ds ls) := by
  induction h with
  | nil => exact ⟨by decide, by decide, fun _ => .nil⟩
  | @cons d l ds ls hd hrest ih =>
    obtain ⟨h1, h2, h3⟩ := ih
    rw [pickShape, List.map_cons, List.prod_cons, List.prod_cons, ← pickShape]
    generalize (pickShape ls).prod = P at *
    generalize ds.prod = D at *
    generalize hl : (l.length : Int) = n at hd ⊢
    refine ⟨by nlinarith, by nlinarith, fun e => ?_⟩
    have hP : P = D := by nlinarith
    have hn : n = d := by subst hP; nlinarith
    exact .cons (hl.trans hn) (h3 hP)

theorem nonneg_of_sizes {ds : List Int} {ls : List (List Int)}
    (h : List.Forall₂ (fun d (l : List Int) => (∀ x ∈ l, 0 ≤ x ∧ x < d) ∧ 0 < (l.length : Int) ∧ (l.length : Int) ≤ d) ds ls) :
    ∀ d ∈ ds, 0 ≤ d := by
  induction h with
  | nil => simp
  | cons hx _ ih =>
    intro d hd
    rcases List.mem_cons.1 hd with rfl | hd
    · have := hx.2; omega
    · exact ih d hd

theorem sizes_full {ds : List Int} {ls : List (List Int)}
    (h : List.Forall₂ (fun d (l : List Int) => (∀ x ∈ l, 0 ≤ x ∧ x < d) ∧ 0 < (l.length : Int) ∧ (l.length : Int) ≤ d) ds ls)
    (h' : List.Forall₂ (fun d (l : List Int) => (l.length : Int) = d) ds ls) :
    List.Forall₂ (fun d (l : List Int) => (∀ x ∈ l, 0 ≤ x ∧ x < d) ∧ (l.length : Int) = d ∧ 0 < d) ds ls := by
  induction h with
  | nil => exact .nil
  | cons ha _ ih =>
    cases h' with
    | cons hb hbs => exact .cons ⟨ha.1, hb, by have := ha.2; omega⟩ (ih hbs)

/-- The strides of a selection from row-major axes are row-major exactly if it is a run of positions. -/
theorem rowMajor_iff_runOf {ds : List Int} {sl : List Slicer} {ls : List (List Int)} (h : PicksAll ds sl ls)
    (hne : ∀ l ∈ ls, l ≠ []) :
    RowMajorStrides (pickShape ls) ((sfx ds).zipWith restride sl) ↔ RunOfPositions ds ls := by
  have hfor : ∀ {ds sl ls}, PicksAll ds sl ls → (∀ l ∈ ls, l ≠ []) → List.Forall₂ (fun d (l : List Int) =>
      (∀ x ∈ l, 0 ≤ x ∧ x < d) ∧ 0 < (l.length : Int) ∧ (l.length : Int) ≤ d) ds ls := by
    intro ds sl ls h hne
    induction h with
    | nil => exact .nil
    | @cons d ds s sl l ls hp hps ih =>
      refine .cons ?_ (ih fun l hl => hne l (.tail _ hl))
      obtain ⟨o, -, -, e3, e4, e5⟩ := picks_axis hp
      have hl : l ≠ [] := hne l (.head _)
      have hpos : 0 < l.length := List.length_pos_of_ne_nil hl
      refine ⟨e4, by omega, ?_⟩
      have hnd : l.Nodup := by
        rw [e3]
        exact (upTo_nodup _).map fun x y hxy => by
          have : x * stepOf s = y * stepOf s := by simpa using hxy
          exact mul_right_cancel₀ e5 this
      have hsub : l ⊆ upTo d := fun x hx => mem_upTo.2 (e4 x hx)
      have := (hnd.subperm hsub).length_le
      rw [upTo_length] at this
      obtain ⟨x, hx⟩ := List.exists_mem_of_ne_nil l hl
      have := e4 x hx
      omega
  induction h with
  | nil => simp [RunOfPositions, RowMajorStrides, pickShape]
  | @cons d ds s sl l ls hp hps ih =>
    have ih : RowMajorStrides (pickShape ls) ((sfx ds).zipWith restride sl) ↔ RunOfPositions ds ls :=
      ih fun l hl => hne l (.tail _ hl)
    have hf := hfor (.cons hp hps) hne
    cases hf with
    | cons hd hrest =>
    obtain ⟨hin, hpos, hle⟩ := hd
    obtain ⟨p1, p2, p3⟩ := prod_le_of_le (hrest.imp fun _ _ h => h.2)
    rw [pickShape, List.map_cons, sfx, List.zipWith_cons_cons, rowMajorStrides_cons, ← pickShape, ih, restride_eq]
    simp only [RunOfPositions]
    obtain ⟨o, -, -, e3, -, e5⟩ := picks_axis hp
    by_cases h1 : l.length = 1
    · have hn : ¬ 1 < (l.length : Int) := by omega
      simp only [h1, true_and]
      constructor
      · rintro ⟨-, h⟩; exact .inl h
      · rintro (h | ⟨-, rfl⟩)
        · exact ⟨fun h => absurd h (by norm_num), h⟩
        · exact ⟨fun h => absurd h (by norm_num), runOf_whole ds⟩
    · have hn : 1 < (l.length : Int) := by omega
      simp only [h1, false_and, false_or, hn, true_imp_iff]
      have hget : ∀ k : Int, 0 ≤ k → k < l.length → l.getD k.toNat 0 = o + k * stepOf s := by
        intro k h0 hk
        conv_lhs => rw [e3]
        exact getD_upTo_map _ k _ h0 hk
      constructor
      · rintro ⟨hs, hrun⟩
        have hs1 : stepOf s = 1 := by
          have h0 : 0 < stepOf s := by
            by_contra hc
            push Not at hc
            nlinarith
          have : stepOf s < 2 := by
            by_contra hc
            push Not at hc
            nlinarith
          omega
        have hfull := p3 (by rw [← hs, hs1, one_mul])
        refine ⟨⟨o, ?_⟩, runOf_full hrun ?_⟩
        · conv_lhs => rw [e3]
          rw [hs1]; simp
        · exact sizes_full hrest hfull
      · rintro ⟨⟨a, ha⟩, rfl⟩
        have g0 := hget 0 (le_refl _) (by omega)
        have g1 := hget 1 (by norm_num) hn
        have f0 : l.getD (0 : Int).toNat 0 = a + 0 := by
          conv_lhs => rw [ha]
          exact getD_upTo_map _ 0 _ (le_refl _) (by omega)
        have f1 : l.getD (1 : Int).toNat 0 = a + 1 := by
          conv_lhs => rw [ha]
          exact getD_upTo_map _ 1 _ (by norm_num) hn
        have hs1 : stepOf s = 1 := by rw [f0] at g0; rw [f1] at g1; linarith
        refine ⟨?_, runOf_whole ds⟩
        rw [hs1, one_mul]
        have : pickShape (ds.map upTo) = ds := by
          have : ∀ ds : List Int, (∀ d ∈ ds, 0 ≤ d) → pickShape (ds.map upTo) = ds := by
            intro ds hds
            induction ds with
            | nil => rfl
            | cons d ds ihd =>
              rw [List.map_cons, pickShape, List.map_cons, ← pickShape, ihd fun e he => hds e (.tail _ he), upTo_length]
              have := hds d (.head _)
              congr 1; omega
          apply this
          intro d hd
          exact nonneg_of_sizes hrest d hd
        rw [this]

end Kwk
