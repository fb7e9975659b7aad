import Verif.Model.Shape
import Verif.Spec.Box
import Mathlib.Tactic.Ring
import Mathlib.Tactic.Linarith
import Mathlib.Tactic.Positivity
import Mathlib.Algebra.Order.Ring.Int
import Mathlib.Algebra.Order.BigOperators.Group.List

/-! # Helper lemmas about strides, linear indexes and coordinates -/

namespace Kwk
open Spec

/-- Suffix products: the row-major strides. -/
def sfx : List Int → List Int
  | [] => []
  | _ :: ds => ds.prod :: sfx ds

theorem sfx_length (s : List Int) : (sfx s).length = s.length := by
  induction s with
  | nil => rfl
  | cons d ds ih => simp [sfx, ih]

theorem asStride_eq_sfx (s : List Int) : asStride s = sfx s := by
  have key : ∀ (d : Int) (ds : List Int),
      kumiFoldLeft (fun a m => (m * a.headD 0) :: a) ds [1] = sfx (d :: ds) := by
    intro d ds
    induction ds generalizing d with
    | nil => simp [kumiFoldLeft, sfx]
    | cons e es ih =>
      have := ih e
      simp only [kumiFoldLeft, List.foldr_cons] at this ⊢
      rw [this]; simp [sfx]
  match s with
  | [] => rfl
  | [_] => simp [asStride, sfx]
  | d :: e :: es => simpa [asStride] using key d (e :: es)

theorem foldl_add_init (l : List Int) (a : Int) :
    l.foldl (fun a b => a + b) a = a + l.sum := by
  induction l generalizing a with
  | nil => simp
  | cons x xs ih => simp [ih]; ring

theorem linearize_nil_left (is : List Int) : linearize [] is = 0 := by simp [linearize]
theorem linearize_nil_right (st : List Int) : linearize st [] = 0 := by simp [linearize]

theorem linearize_cons (g : Int) (st : List Int) (i : Int) (is : List Int) :
    linearize (g :: st) (i :: is) = g * i + linearize st is := by
  simp [linearize, foldl_add_init]

theorem linearize_eq_sum (st is : List Int) :
    linearize st is = (st.zipWith (· * ·) is).sum := by
  simp [linearize, foldl_add_init]

/-- Horner form. -/
theorem linearize_sfx_cons (d : Int) (ds : List Int) (i : Int) (is : List Int) :
    linearize (sfx (d :: ds)) (i :: is) = ds.prod * i + linearize (sfx ds) is := by
  simp [sfx, linearize_cons]

theorem distances_eq (s : List Int) : distances s = sfx s := by
  induction s with
  | nil => rfl
  | cons d ds ih => simp [distances, sfx, ih]

theorem rowPlace_eq (s p : List Int) : rowPlace s p = linearize (sfx s) p := by
  induction s generalizing p with
  | nil => simp [rowPlace, sfx, linearize_nil_left]
  | cons d ds ih =>
    cases p with
    | nil => simp [rowPlace, linearize_nil_right]
    | cons i is => rw [rowPlace, linearize_sfx_cons, ih, mul_comm]

theorem numel_eq_prod {s : List Int} (h : s ≠ []) : numel s = s.prod := by
  cases s with
  | nil => exact absurd rfl h
  | cons d ds =>
    have : ∀ l : List Int, List.foldr (fun v acc => acc * v) 1 l = l.prod := by
      intro l; induction l with
      | nil => rfl
      | cons x xs ih => rw [List.foldr_cons, ih, List.prod_cons, mul_comm]
    simp only [numel, kumiFoldLeft]; exact this _

theorem prod_nonneg' {s : List Int} (h : NonNeg s) : 0 ≤ s.prod := by
  induction s with
  | nil => simp
  | cons d ds ih =>
    rw [List.prod_cons]
    exact mul_nonneg (h d (by simp)) (ih fun x hx => h x (by simp [hx]))

theorem Spec.InBox.length {s p : List Int} (h : InBox s p) : s.length = p.length := List.Forall₂.length_eq h

theorem Spec.InBox.pos {s p : List Int} (h : InBox s p) : ∀ d ∈ s, 0 < d := by
  induction h with
  | nil => simp
  | cons h _ ih => intro d hd; rcases List.mem_cons.1 hd with rfl | hd; omega; exact ih d hd

theorem Spec.InBox.nonNeg {s p : List Int} (h : InBox s p) : NonNeg s := fun d hd => (h.pos d hd).le

theorem Spec.InBox.prod_pos {s p : List Int} (h : InBox s p) : 0 < s.prod := by
  induction h with
  | nil => simp
  | cons h _ ih => rw [List.prod_cons]; exact mul_pos (by omega) ih

theorem inBox_cons {d i : Int} {s p : List Int} :
    InBox (d :: s) (i :: p) ↔ (0 ≤ i ∧ i < d) ∧ InBox s p := by
  unfold InBox; simp

theorem inBox_nil {p : List Int} : InBox [] p ↔ p = [] := by
  unfold InBox; simp

theorem inBox_cons_left {d : Int} {s q : List Int} (h : InBox (d :: s) q) :
    ∃ i p, q = i :: p ∧ (0 ≤ i ∧ i < d) ∧ InBox s p := by
  cases h with
  | cons h t => exact ⟨_, _, rfl, h, t⟩

theorem lin_bounds {s p : List Int} (h : InBox s p) :
    0 ≤ linearize (sfx s) p ∧ linearize (sfx s) p < s.prod := by
  induction h with
  | nil => simp [sfx, linearize]
  | @cons d i ds is h t ih =>
    rw [linearize_sfx_cons, List.prod_cons]
    have hp : 0 < ds.prod := Spec.InBox.prod_pos t
    constructor
    · have := mul_nonneg hp.le h.1; omega
    · have : ds.prod * i + ds.prod ≤ d * ds.prod := by nlinarith [h.2]
      omega

theorem lin_lt_iff {s p q : List Int} (hp : InBox s p) (hq : InBox s q) :
    linearize (sfx s) p < linearize (sfx s) q ↔ p < q := by
  induction hp generalizing q with
  | nil => rw [inBox_nil] at hq; subst hq; simp [linearize]
  | @cons d i ds is h t ih =>
    obtain ⟨j, js, rfl, hj, tj⟩ := inBox_cons_left hq
    rw [linearize_sfx_cons, linearize_sfx_cons, List.cons_lt_cons_iff, ← ih tj]
    have b1 := lin_bounds t
    have b2 := lin_bounds tj
    have hp : 0 < ds.prod := Spec.InBox.prod_pos t
    rcases lt_trichotomy i j with hij | hij | hij
    · have : ds.prod * i + ds.prod ≤ ds.prod * j := by nlinarith
      constructor
      · intro _; exact Or.inl hij
      · intro _; omega
    · subst hij; constructor
      · intro h; right; exact ⟨rfl, by omega⟩
      · rintro (h | h); omega; omega
    · have : ds.prod * j + ds.prod ≤ ds.prod * i := by nlinarith
      constructor
      · intro _; omega
      · rintro (h | h) <;> omega

theorem lin_inj {s p q : List Int} (hp : InBox s p) (hq : InBox s q)
    (h : linearize (sfx s) p = linearize (sfx s) q) : p = q := by
  induction hp generalizing q with
  | nil => rw [inBox_nil] at hq; exact hq.symm
  | @cons d i ds is hi t ih =>
    obtain ⟨j, js, rfl, hj, tj⟩ := inBox_cons_left hq
    rw [linearize_sfx_cons, linearize_sfx_cons] at h
    have b1 := lin_bounds t
    have b2 := lin_bounds tj
    have hp : 0 < ds.prod := Spec.InBox.prod_pos t
    rcases lt_trichotomy i j with hij | hij | hij
    · have : ds.prod * i + ds.prod ≤ ds.prod * j := by nlinarith
      omega
    · subst hij; rw [ih tj (by omega)]
    · have : ds.prod * j + ds.prod ≤ ds.prod * i := by nlinarith
      omega

/-- Every index below the product is the linear index of some position. -/
theorem lin_surj {s : List Int} (hs : NonNeg s) {k : Int} (h0 : 0 ≤ k) (hk : k < s.prod) :
    ∃ p, InBox s p ∧ linearize (sfx s) p = k := by
  induction s generalizing k with
  | nil => refine ⟨[], .nil, ?_⟩; simp at hk; simp [linearize]; omega
  | cons d ds ih =>
    have hds : NonNeg ds := fun x hx => hs x (by simp [hx])
    rw [List.prod_cons] at hk
    have hp : 0 < ds.prod := by
      rcases (prod_nonneg' hds).lt_or_eq with h | h
      · exact h
      · rw [← h] at hk; simp at hk; omega
    obtain ⟨q, hq, hl⟩ := ih hds (Int.emod_nonneg k hp.ne') (Int.emod_lt_of_pos k hp)
    refine ⟨(k / ds.prod) :: q, inBox_cons.2 ⟨⟨?_, ?_⟩, hq⟩, ?_⟩
    · exact Int.ediv_nonneg h0 hp.le
    · exact Int.ediv_lt_of_lt_mul hp hk
    · rw [linearize_sfx_cons, hl]; exact Int.mul_ediv_add_emod k _

theorem contains_of_inBox {s p : List Int} (h : InBox s p) : contains s p = true := by
  induction h with
  | nil => rfl
  | cons h _ ih => simp only [contains] at ih ⊢; simp [ih, h.2]

theorem linearIndex_ok (md : Mode) {s p : List Int} (h : InBox s p) :
    linearIndex md s p = .ok (linearize (sfx s) p) := by
  rw [linearIndex, contains_of_inBox h, asStride_eq_sfx]
  cases md <;> rfl

theorem coords_tail {ds p : List Int} (h : InBox ds p) (i : Int) (hi : 0 ≤ i) :
    ((sfx ds).zip ds).mapM (m := Res) (fun x =>
      do cmod (← cdiv (ds.prod * i + linearize (sfx ds) p) x.1) x.2) = .ok p := by
  induction h generalizing i with
  | nil => rfl
  | @cons d j es js hj t ih =>
    have hp : 0 < es.prod := Spec.InBox.prod_pos t
    have b := lin_bounds t
    have hd : 0 < d := by omega
    have e : (d :: es).prod * i + linearize (sfx (d :: es)) (j :: js)
        = es.prod * (d * i + j) + linearize (sfx es) js := by
      rw [linearize_sfx_cons, List.prod_cons]; ring
    rw [e]
    have hm : 0 ≤ d * i + j := by have := mul_nonneg hd.le hi; omega
    have ih' := ih (d * i + j) hm
    simp only [sfx, List.zip_cons_cons, List.mapM_cons]
    rw [ih']
    have h0 : 0 ≤ es.prod * (d * i + j) + linearize (sfx es) js := by
      have := mul_nonneg hp.le hm; omega
    have e1 : (es.prod * (d * i + j) + linearize (sfx es) js).tdiv es.prod = d * i + j := by
      rw [Int.tdiv_eq_ediv_of_nonneg h0, Int.add_comm, Int.add_mul_ediv_left _ _ hp.ne',
        Int.ediv_eq_zero_of_lt b.1 b.2]; omega
    have e2 : (d * i + j).tmod d = j := by
      rw [Int.tmod_eq_emod_of_nonneg hm, Int.add_comm, Int.add_mul_emod_self_left]
      exact Int.emod_eq_of_lt hj.1 hj.2
    simp [cdiv, cmod, hp.ne', hd.ne', e1, e2]

theorem coordinates_lin (md : Mode) {s p : List Int} (hne : s ≠ []) (h : InBox s p) :
    coordinates md (linearize (sfx s) p) s = .ok p := by
  have b := lin_bounds h
  cases h with
  | nil => exact absurd rfl hne
  | @cons d i ds is hi t =>
    have hp : 0 < ds.prod := Spec.InBox.prod_pos t
    have bt := lin_bounds t
    have hn : decide (linearize (sfx (d :: ds)) (i :: is) < numel (d :: ds)) = true := by
      rw [numel_eq_prod (by simp)]; exact decide_eq_true b.2
    unfold coordinates
    rw [hn, asStride_eq_sfx]
    have hk : kwkAssert md true = .ok () := by cases md <;> rfl
    rw [hk]
    have hz := coords_tail t i hi.1
    rw [linearize_sfx_cons] at *
    have e1 : (ds.prod * i + linearize (sfx ds) is).tdiv ds.prod = i := by
      rw [Int.tdiv_eq_ediv_of_nonneg b.1, Int.add_comm, Int.add_mul_ediv_left _ _ hp.ne',
        Int.ediv_eq_zero_of_lt bt.1 bt.2]; omega
    simp only [sfx, List.headD_cons, List.tail_cons]
    rw [show cdiv (ds.prod * i + linearize (sfx ds) is) ds.prod = .ok i by simp [cdiv, hp.ne', e1]; rfl]
    simp only [bind, Except.bind]
    simp only [bind, Except.bind] at hz
    rw [hz]; rfl

end Kwk
