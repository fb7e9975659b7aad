import Verif.Model.TypedShape
import Verif.Lemmas.TypedSlice
import Verif.Lemmas.TypedSearch

/-! # Lemmas: comparing shapes and strides whose numbers have different types -/

namespace Kwk
open Spec

/-- Numbers that are not negative keep their value in the common type. -/
theorem wrap_common_nonneg {t c : IntType} {v : Int} (ht : 0 < t.bits) (hb : t.bits ≤ c.bits) (hc : c.signed = true → c.Fits v)
    (h : t.Fits v) (h0 : 0 ≤ v) : c.wrap v = v := by
  by_cases hs : c.signed = true
  · exact IntType.wrap_fits (hc hs)
  · rw [wrap_unsigned (by simpa using hs)]
    exact emod_of_nonneg h0 (fits_bounds ht hb h).2.1

theorem eqT_nonneg {a b : Coord} (ha0 : 0 < a.type.bits) (hb0 : 0 < b.type.bits) (ha : a.type.Fits a.value) (hb : b.type.Fits b.value)
    (ha1 : 0 ≤ a.value) (hb1 : 0 ≤ b.value) : eqT a b = decide (a.value = b.value) := by
  have hc := IntType.common_isCommon a.type b.type
  unfold eqT
  rw [wrap_common_nonneg ha0 (by have := hc.1; omega) (fun h => IntType.common_fits ha h) ha ha1,
    wrap_common_nonneg hb0 (by have := hc.1; omega) (fun h => IntType.common_fits_right hb h) hb hb1]

/-- A number with its type: the type represents it, and it is not negative. -/
structure GoodExtent (c : Coord) : Prop where
  bits : 0 < c.type.bits
  fits : c.type.Fits c.value
  nonneg : 0 ≤ c.value

theorem foldl_and_all {α : Type} (f : α → Bool) (l : List α) (r : Bool) :
    l.foldl (fun result x => result && f x) r = (r && l.all f) := by
  induction l generalizing r with
  | nil => simp
  | cons x xs ih => simp [ih, Bool.and_assoc]

theorem all_zip_iff {a b : List Coord} (hl : a.length = b.length)
    (h : ∀ p ∈ a.zip b, (eqT p.1 p.2 = true ↔ p.1.value = p.2.value)) :
    (a.zip b).all (fun ab => eqT ab.1 ab.2) = true ↔ vals a = vals b := by
  induction a generalizing b with
  | nil => cases b with
    | nil => simp
    | cons => simp at hl
  | cons x xs ih => cases b with
    | nil => simp at hl
    | cons y ys =>
      rw [List.zip_cons_cons] at h ⊢
      have h1 := h (x, y) (by simp)
      rw [List.all_cons, Bool.and_eq_true, ih (by simpa using hl) (fun p hp => h p (by simp [hp])), h1]
      simp [vals]

theorem all_eqT {a b : List Coord} (hl : a.length = b.length) (ha : ∀ x ∈ a, GoodExtent x) (hb : ∀ x ∈ b, GoodExtent x) :
    (a.zip b).all (fun ab => eqT ab.1 ab.2) = decide (vals a = vals b) := by
  induction a generalizing b with
  | nil => cases b with
    | nil => simp
    | cons => simp at hl
  | cons x xs ih => cases b with
    | nil => simp at hl
    | cons y ys =>
      have hx := ha x (by simp)
      have hy := hb y (by simp)
      rw [List.zip_cons_cons, List.all_cons, ih (by simpa using hl) (fun z hz => ha z (by simp [hz])) (fun z hz => hb z (by simp [hz]))]
      simp only
      rw [eqT_nonneg hx.bits hy.bits hx.fits hy.fits hx.nonneg hy.nonneg]
      simp [vals]

theorem foldlM_constMul_nonneg {hs : List Coord} {c : Coord} (hc : GoodExtent c) (hs0 : NonNeg (vals hs))
    (hf : max 1 c.value * paddedCount (vals hs) < 2147483648) :
    ∃ r, hs.foldlM constMul c = .ok r ∧ r.value = c.value * (vals hs).prod ∧ GoodExtent r := by
  induction hs generalizing c with
  | nil => exact ⟨c, rfl, by simp [vals], hc⟩
  | cons d hs ih =>
    have hd : 0 ≤ d.value := hs0 _ (by simp [vals])
    have hs' : NonNeg (vals hs) := fun x hx => hs0 x (List.mem_cons_of_mem _ hx)
    have hp : 1 ≤ paddedCount (vals hs) := paddedCount_pos _
    have hc0 := hc.nonneg
    rw [show vals (d :: hs) = d.value :: vals hs from rfl, paddedCount_cons] at hf
    rw [show vals (d :: hs) = d.value :: vals hs from rfl, List.prod_cons]
    have m1 : c.value ≤ max 1 c.value := le_max_right _ _
    have m2 : d.value ≤ max 1 d.value := le_max_right _ _
    have m3 : (1 : Int) ≤ max 1 c.value := le_max_left _ _
    have m4 : (1 : Int) ≤ max 1 d.value := le_max_left _ _
    generalize hP : paddedCount (vals hs) = P at *
    generalize max 1 c.value = C at *
    generalize max 1 d.value = D at *
    have q1 : 1 ≤ C * D := by nlinarith
    have q2 : C ≤ C * D := by nlinarith
    have q3 : D ≤ C * D := by nlinarith
    have q4 : C * D ≤ C * D * P := by nlinarith
    have q5 : C * (D * P) = C * D * P := by ring
    have q6 : c.value * d.value ≤ C * D := mul_le_mul m1 m2 hd (by omega)
    have q7 : 0 ≤ c.value * d.value := mul_nonneg hc0 hd
    obtain ⟨t, et⟩ := constMul_small (a := c) (b := d) ⟨hc0, by omega⟩ ⟨hd, by omega⟩ ⟨q7, by omega⟩
    have ht : t = c.type.common d.type := constOp_type et
    have hb32 := IntType.common_bits c.type d.type
    rw [← ht] at hb32
    obtain ⟨r, er, hr, hg⟩ := ih (c := ⟨t, c.value * d.value⟩)
      ⟨by simp only; omega, IntType.fits_of_bits hb32 q7 (by simp only; omega), q7⟩ hs'
      (lt_of_le_of_lt (mul_le_mul_of_nonneg_right (max_le q1 q6) (by omega)) (by rw [← q5]; exact hf))
    refine ⟨r, ?_, by rw [hr]; ring, hg⟩
    rw [List.foldlM_cons, et]
    exact er

theorem compressT_good {n : Nat} {s : List Coord} (h0 : 0 < n) (hn : n ≤ s.length) (hs : ∀ x ∈ s, GoodExtent x)
    (hf : n = s.length ∨ paddedCount ((vals s).take (s.length - n + 1)) < 2147483648) :
    ∃ c, compressT n s = .ok c ∧ vals c = compress n (vals s) ∧ ∀ x ∈ c, GoodExtent x := by
  by_cases h : n = s.length
  · exact ⟨s, by rw [compressT, if_pos h]; rfl, by rw [compress, if_pos (by simpa using h)], hs⟩
  · cases s with
    | nil => simp at hn; omega
    | cons d s =>
      have htake : (d :: s).take ((d :: s).length - n + 1) = d :: s.take ((d :: s).length - n) := rfl
      have hf := hf.resolve_left h
      rw [vals, ← List.map_take, htake, List.map_cons, paddedCount_cons] at hf
      obtain ⟨r, er, hr, hg⟩ := foldlM_constMul_nonneg (hs := s.take ((d :: s).length - n)) (hs d (by simp))
        (fun x hx => by
          obtain ⟨c, hc, rfl⟩ := List.mem_map.1 hx
          exact (hs c (List.mem_cons_of_mem _ (List.mem_of_mem_take hc))).nonneg) hf
      refine ⟨r :: (d :: s).drop ((d :: s).length - n + 1), ?_, ?_, ?_⟩
      · unfold compressT
        rw [if_neg h, htake]
        simp only [er, bind, Except.bind]; rfl
      · rw [compress_eq h0 (by simpa using hn)]
        rw [show (vals (d :: s)).length = (d :: s).length from List.length_map _, vals, vals, ← List.map_take, ← List.map_drop, htake,
          List.map_cons, hr]
        rfl
      · intro x hx
        rcases List.mem_cons.1 hx with rfl | hx
        · exact hg
        · exact hs x (List.mem_of_mem_drop hx)

end Kwk
