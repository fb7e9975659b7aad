import Mathlib.Tactic.Ring
import Mathlib.Tactic.Linarith
import Mathlib.Algebra.BigOperators.Group.List.Basic
import Verif.Lemmas.Container
import Verif.Model.Interp

/-! # Helper lemmas about interpolation -/

namespace Kwk
open Spec

/-- Weighted sum of the values of `f` at the coordinates. -/
def wsum (f : List Int → ℚ) (a : List (List Int) × List ℚ) : ℚ :=
  (List.zipWith (fun c e => f c * e) a.1 a.2).sum

theorem mapM_ok {β γ : Type} (l : List β) (g : β → Res γ) (f : β → γ) (h : ∀ x ∈ l, g x = .ok (f x)) :
    l.mapM g = .ok (l.map f) := by
  induction l with
  | nil => rfl
  | cons x l ih =>
    rw [List.mapM_cons, h x (by simp), ih fun y hy => h y (by simp [hy])]; rfl

theorem interpStep_length {a : List (List Int) × List ℚ} (h : a.1.length = a.2.length) (v : ℚ) :
    (interpStep a v).1.length = (interpStep a v).2.length := by simp [interpStep, h]

theorem interp_length (ps : List ℚ) (a : List (List Int) × List ℚ) (h : a.1.length = a.2.length) :
    (ps.foldl interpStep a).1.length = (ps.foldl interpStep a).2.length := by
  induction ps generalizing a with
  | nil => exact h
  | cons v ps ih => exact ih _ (interpStep_length h v)

theorem interp_count (ps : List ℚ) (a : List (List Int) × List ℚ) :
    (ps.foldl interpStep a).1.length = a.1.length * 2 ^ ps.length := by
  induction ps generalizing a with
  | nil => simp
  | cons v ps ih =>
    rw [List.foldl_cons, ih]
    simp [interpStep, pow_succ]; ring

theorem interpSetup_length (ps : List ℚ) :
    (interpSetup ps).1.length = (interpSetup ps).2.length := interp_length ps _ rfl

theorem interpSetup_ne (ps : List ℚ) : (interpSetup ps).1 ≠ [] := by
  intro e
  have := interp_count ps ([[]], [1])
  rw [show List.foldl interpStep ([[]], [1]) ps = interpSetup ps from rfl, e] at this
  have h2 : 0 < 2 ^ ps.length := Nat.pos_of_ne_zero (by simp)
  simp at this
  omega

theorem interpProduct_eq (f : List Int → ℚ) (cs : List (List Int)) (es : List ℚ) (hne : cs ≠ [])
    (hl : cs.length = es.length) : interpProduct (cs.map f) es = wsum f (cs, es) := by
  match cs, es, hne, hl with
  | c :: cs, e :: es, _, _ =>
    simp only [interpProduct, List.map_cons, List.tail_cons, List.headD_cons, wsum,
      List.zipWith_cons_cons, List.sum_cons, List.zipWith_map_left]
    rw [List.sum_eq_foldl]
    generalize List.zipWith (fun c e => f c * e) cs es = l
    have key : ∀ (l : List ℚ) (x y : ℚ), l.foldl (· + ·) (x + y) = x + l.foldl (· + ·) y := by
      intro l
      induction l with
      | nil => intro x y; rfl
      | cons z l ih => intro x y; simp only [List.foldl_cons, add_assoc, ih]
    have := key l (f c * e) 0
    rwa [add_zero] at this

theorem sum_zipWith_mul (f : List Int → ℚ) (cs : List (List Int)) (es : List ℚ) (k : ℚ) :
    (List.zipWith (fun c e => f c * (e * k)) cs es).sum =
      (List.zipWith (fun c e => f c * e) cs es).sum * k := by
  induction cs generalizing es with
  | nil => simp
  | cons c cs ih =>
    cases es with
    | nil => simp
    | cons e es => simp only [List.zipWith_cons_cons, List.sum_cons, ih]; ring

theorem sum_zipWith_add (f g : List Int → ℚ) (cs : List (List Int)) (es : List ℚ) :
    (List.zipWith (fun c e => f c * e) cs es).sum + (List.zipWith (fun c e => g c * e) cs es).sum =
      (List.zipWith (fun c e => (f c + g c) * e) cs es).sum := by
  induction cs generalizing es with
  | nil => simp
  | cons c cs ih =>
    cases es with
    | nil => simp
    | cons e es => simp only [List.zipWith_cons_cons, List.sum_cons, ← ih]; ring

/-- One more coordinate: the weighted sum of the two neighbouring values. -/
theorem wsum_step (f : List Int → ℚ) {a : List (List Int) × List ℚ} (h : a.1.length = a.2.length) (v : ℚ) :
    wsum f (interpStep a v) = wsum (fun c => f (c ++ [truncQ v]) * (1 - (v - truncQ v)) +
      f (c ++ [truncQ v + 1]) * (v - truncQ v)) a := by
  unfold wsum interpStep
  simp only
  rw [List.zipWith_append (by simp [h])]
  simp only [List.sum_append, List.zipWith_map]
  rw [sum_zipWith_mul (fun c => f (c ++ [truncQ v])), sum_zipWith_mul (fun c => f (c ++ [truncQ v + 1])),
    ← sum_zipWith_add]
  have e : ∀ (g : List Int → ℚ) (k : ℚ), (List.zipWith (fun c e => g c * k * e) a.1 a.2).sum =
      (List.zipWith (fun c e => g c * e) a.1 a.2).sum * k := by
    intro g k
    rw [← sum_zipWith_mul]
    congr 1
    congr 1
    funext c e
    ring
  rw [e (fun c => f (c ++ [truncQ v])), e (fun c => f (c ++ [truncQ v + 1]))]

theorem wsum_congr {f g : List Int → ℚ} {a : List (List Int) × List ℚ} (h : ∀ q ∈ a.1, f q = g q) :
    wsum f a = wsum g a := by
  obtain ⟨cs, es⟩ := a
  simp only [wsum] at h ⊢
  induction cs generalizing es with
  | nil => simp
  | cons c cs ih =>
    cases es with
    | nil => simp
    | cons e es =>
      simp only [List.zipWith_cons_cons, List.sum_cons, h c (by simp),
        ih es (fun q hq => h q (by simp [hq]))]

theorem truncQ_nonneg {v : ℚ} (h : 0 ≤ v) : truncQ v = ⌊v⌋ := if_pos h

theorem truncQ_int (i : Int) : truncQ (i : ℚ) = i := by
  unfold truncQ; split <;> simp

theorem interpLinear_eq (data : List Int → Res ℚ) (ps : List ℚ) (f : List Int → ℚ)
    (h : ∀ c ∈ (interpSetup ps).1, data c = .ok (f c)) :
    interpLinear data ps = .ok (wsum f (interpSetup ps)) := by
  unfold interpLinear
  simp only
  rw [mapM_ok _ data f h]
  show Except.ok _ = _
  rw [interpProduct_eq f _ _ (interpSetup_ne ps) (interpSetup_length ps)]

/-- The coordinates that are read. -/
theorem mem_interp (ps : List ℚ) (a : List (List Int) × List ℚ) (c : List Int) :
    c ∈ (ps.foldl interpStep a).1 ↔
      ∃ c0 ∈ a.1, ∃ q, c = c0 ++ q ∧ List.Forall₂ (fun v i => i = truncQ v ∨ i = truncQ v + 1) ps q := by
  induction ps generalizing a c with
  | nil => simp
  | cons v ps ih =>
    rw [List.foldl_cons, ih]
    constructor
    · rintro ⟨c0, h0, q, rfl, hq⟩
      simp only [interpStep, List.mem_append, List.mem_map] at h0
      rcases h0 with ⟨c1, h1, rfl⟩ | ⟨c1, h1, rfl⟩
      · exact ⟨c1, h1, truncQ v :: q, by simp, .cons (.inl rfl) hq⟩
      · exact ⟨c1, h1, (truncQ v + 1) :: q, by simp, .cons (.inr rfl) hq⟩
    · rintro ⟨c0, h0, q, rfl, hq⟩
      cases hq with
      | cons h hq =>
        rename_i i q
        refine ⟨c0 ++ [i], ?_, q, by simp, hq⟩
        simp only [interpStep, List.mem_append, List.mem_map]
        rcases h with rfl | rfl
        · exact .inl ⟨c0, h0, rfl⟩
        · exact .inr ⟨c0, h0, rfl⟩

theorem mem_interpSetup (ps : List ℚ) (c : List Int) : c ∈ (interpSetup ps).1 ↔
    List.Forall₂ (fun v i => i = truncQ v ∨ i = truncQ v + 1) ps c := by
  unfold interpSetup
  rw [mem_interp]
  simp

theorem weights_nonneg (ps : List ℚ) (hp : ∀ v ∈ ps, 0 ≤ v) (a : List (List Int) × List ℚ)
    (ha : ∀ e ∈ a.2, 0 ≤ e) : ∀ e ∈ (ps.foldl interpStep a).2, 0 ≤ e := by
  induction ps generalizing a with
  | nil => exact ha
  | cons v ps ih =>
    apply ih (fun v hv => hp v (by simp [hv]))
    intro e he
    have hv : 0 ≤ v := hp v (by simp)
    have h1 : (0 : ℚ) ≤ v - truncQ v := by
      rw [truncQ_nonneg hv]; have := Int.floor_le v; linarith
    have h2 : (0 : ℚ) ≤ 1 - (v - truncQ v) := by
      rw [truncQ_nonneg hv]; have := Int.lt_floor_add_one v; linarith
    simp only [interpStep, List.mem_append, List.mem_map] at he
    rcases he with ⟨e0, he0, rfl⟩ | ⟨e0, he0, rfl⟩
    · exact mul_nonneg (ha e0 he0) h2
    · exact mul_nonneg (ha e0 he0) h1

theorem sum_map_mul (l : List ℚ) (k : ℚ) : (l.map fun e => e * k).sum = l.sum * k := by
  induction l with
  | nil => simp
  | cons x l ih => simp only [List.map_cons, List.sum_cons, ih]; ring

theorem weights_sum (ps : List ℚ) (a : List (List Int) × List ℚ) :
    (ps.foldl interpStep a).2.sum = a.2.sum := by
  induction ps generalizing a with
  | nil => rfl
  | cons v ps ih =>
    rw [List.foldl_cons, ih]
    simp only [interpStep, List.sum_append, sum_map_mul]
    ring

end Kwk
