import Mathlib.Tactic.Positivity
import Mathlib.Tactic.FieldSimp
import Mathlib.Tactic.NormNum
import Verif.Lemmas.Interp
import Verif.Model.FloatInterp
import Verif.Spec.FloatInterp

/-! # Helper lemmas about linear interpolation in floating-point arithmetic -/

namespace Kwk
open Spec

/-- `x` approximates `y` after `k` roundings, relatively to the bound `Y` of `|y|`. -/
structure Approx (u : ℚ) (k : ℕ) (x y Y : ℚ) : Prop where
  bound : |y| ≤ Y
  err : |x - y| ≤ ((1 + u) ^ k - 1) * Y

variable {u : ℚ}

theorem Approx.nonneg {k : ℕ} {x y Y : ℚ} (h : Approx u k x y Y) : 0 ≤ Y := le_trans (abs_nonneg _) h.bound

theorem one_le_pow_u (hu : 0 ≤ u) (k : ℕ) : 1 ≤ (1 + u) ^ k := one_le_pow₀ (by linarith)

theorem Approx.refl {x Y : ℚ} (h : |x| ≤ Y) : Approx u 0 x x Y := ⟨h, by simp⟩

theorem Approx.abs_le {k : ℕ} {x y Y : ℚ} (h : Approx u k x y Y) : |x| ≤ (1 + u) ^ k * Y := by
  have h1 : |x| ≤ |x - y| + |y| := by
    have := abs_add_le (x - y) y
    simpa using this
  have h2 := h.err
  have h3 := h.bound
  linarith

theorem Approx.mono (hu : 0 ≤ u) {k l : ℕ} (hkl : k ≤ l) {x y Y : ℚ} (h : Approx u k x y Y) : Approx u l x y Y := by
  refine ⟨h.bound, le_trans h.err ?_⟩
  have : (1 + u) ^ k ≤ (1 + u) ^ l := pow_le_pow_right₀ (by linarith) hkl
  exact mul_le_mul_of_nonneg_right (by linarith) h.nonneg

theorem Approx.rnd (hu : 0 ≤ u) {r : ℚ → ℚ} (hr : RelError u r) {k : ℕ} {x y Y : ℚ} (h : Approx u k x y Y) :
    Approx u (k + 1) (r x) y Y := by
  refine ⟨h.bound, ?_⟩
  have h1 : |r x - y| ≤ |r x - x| + |x - y| := by
    have := abs_add_le (r x - x) (x - y)
    rwa [sub_add_sub_cancel] at this
  have h2 := hr x
  have h3 := mul_le_mul_of_nonneg_left h.abs_le hu
  have h4 := h.err
  have h5 : ((1 + u) ^ (k + 1) - 1) * Y = u * ((1 + u) ^ k * Y) + ((1 + u) ^ k - 1) * Y := by ring
  rw [h5]
  linarith

theorem Approx.mul (hu : 0 ≤ u) {k l : ℕ} {x y Y x' y' Y' : ℚ} (h : Approx u k x y Y) (h' : Approx u l x' y' Y') :
    Approx u (k + l) (x * x') (y * y') (Y * Y') := by
  refine ⟨by rw [abs_mul]; exact mul_le_mul h.bound h'.bound (abs_nonneg _) h.nonneg, ?_⟩
  have h1 : |x * x' - y * y'| ≤ |x - y| * |x'| + |y| * |x' - y'| := by
    have := abs_add_le ((x - y) * x') (y * (x' - y'))
    rw [abs_mul, abs_mul] at this
    rwa [show (x - y) * x' + y * (x' - y') = x * x' - y * y' by ring] at this
  have hk := one_le_pow_u hu k
  have hl := one_le_pow_u hu l
  have h2 : |x - y| * |x'| ≤ (((1 + u) ^ k - 1) * Y) * ((1 + u) ^ l * Y') :=
    mul_le_mul h.err h'.abs_le (abs_nonneg _) (mul_nonneg (by linarith) h.nonneg)
  have h3 : |y| * |x' - y'| ≤ Y * (((1 + u) ^ l - 1) * Y') :=
    mul_le_mul h.bound h'.err (abs_nonneg _) h.nonneg
  have h4 : ((1 + u) ^ (k + l) - 1) * (Y * Y') =
      (((1 + u) ^ k - 1) * Y) * ((1 + u) ^ l * Y') + Y * (((1 + u) ^ l - 1) * Y') := by
    rw [pow_add]; ring
  rw [h4]
  linarith

theorem Approx.add {k : ℕ} {x y Y x' y' Y' : ℚ} (h : Approx u k x y Y) (h' : Approx u k x' y' Y') :
    Approx u k (x + x') (y + y') (Y + Y') := by
  refine ⟨le_trans (abs_add_le _ _) (add_le_add h.bound h'.bound), ?_⟩
  have := abs_add_le (x - y) (x' - y')
  rw [show x - y + (x' - y') = x + x' - (y + y') by ring] at this
  have h1 := h.err
  have h2 := h'.err
  linarith

/-! ## The setup -/

theorem i32_op_ok {x : Int} (h : -2147483648 ≤ x ∧ x ≤ 2147483647) : IntType.i32.op x = .ok x := by
  have : IntType.i32.Fits x := by
    constructor
    · show (-2147483648 : Int) ≤ x; exact h.1
    · show x < (2147483648 : Int); omega
  unfold IntType.op
  rw [if_pos this]; rfl

theorem i32_op_error {x : Int} (h : ¬ (-2147483648 ≤ x ∧ x ≤ 2147483647)) : IntType.i32.op x = .error .overflow := by
  have : ¬ IntType.i32.Fits x := by
    rintro ⟨h1, h2⟩
    have h1' : (-2147483648 : Int) ≤ x := h1
    have h2' : x < (2147483648 : Int) := h2
    omega
  unfold IntType.op
  rw [if_neg this]; rfl

/-- Weight of the lower neighbour, as computed. -/
def lowF (rc : ℚ → ℚ) (v : ℚ) : ℚ := rc (1 - rc (v - rc (truncQ v)))

/-- Weight of the upper neighbour, as computed. -/
def highF (rc : ℚ → ℚ) (v : ℚ) : ℚ := rc (v - rc (truncQ v))

/-- The `int` values computed for a coordinate are in range. -/
def IntRange (v : ℚ) : Prop := -2147483648 ≤ truncQ v ∧ truncQ v < 2147483647

theorem interpStepF_ok (rc : ℚ → ℚ) (acc : List (List Int) × List ℚ) (v : ℚ) (h : IntRange v) :
    interpStepF rc acc v = .ok ((interpStep acc v).1,
      (acc.2.map fun e => rc (e * lowF rc v)) ++ acc.2.map fun e => rc (e * highF rc v)) := by
  obtain ⟨h1, h2⟩ := h
  simp only [interpStepF, castInt, i32_op_ok (x := truncQ v) (by omega), i32_op_ok (x := truncQ v + 1) (by omega), bind,
    Except.bind, pure, Except.pure, interpStep]
  rfl

theorem interpStepF_error (rc : ℚ → ℚ) (acc : List (List Int) × List ℚ) (v : ℚ) (h : ¬ IntRange v) :
    interpStepF rc acc v = .error .overflow := by
  unfold IntRange at h
  by_cases h1 : -2147483648 ≤ truncQ v ∧ truncQ v ≤ 2147483647
  · simp only [interpStepF, castInt, i32_op_ok h1, i32_op_error (x := truncQ v + 1) (by omega), bind, Except.bind]
  · simp only [interpStepF, castInt, i32_op_error h1, bind, Except.bind]

theorem foldF_error (rc : ℚ → ℚ) (ps : List ℚ) (acc : List (List Int) × List ℚ) (h : ¬ ∀ v ∈ ps, IntRange v) :
    ps.foldlM (interpStepF rc) acc = .error .overflow := by
  induction ps generalizing acc with
  | nil => simp at h
  | cons v ps ih =>
    rw [List.foldlM_cons]
    by_cases hv : IntRange v
    · rw [interpStepF_ok rc acc v hv]
      apply ih
      intro h'
      apply h
      intro w hw
      rcases List.mem_cons.1 hw with rfl | hw
      · exact hv
      · exact h' w hw
    · rw [interpStepF_error rc acc v hv]; rfl

/-- The corners are those of the exact model; the computed weights are related to the exact ones by any relation that every
step preserves. -/
theorem foldF_rel (rc : ℚ → ℚ) (R : ℕ → ℚ → ℚ → Prop) (ps : List ℚ) (hi : ∀ v ∈ ps, IntRange v)
    (hs : ∀ v ∈ ps, ∀ k x e, R k x e → R (k + 1) (rc (x * lowF rc v)) (e * (1 - (v - truncQ v))) ∧
      R (k + 1) (rc (x * highF rc v)) (e * (v - truncQ v)))
    (k : ℕ) (a : List (List Int) × List ℚ) (cf : List ℚ) (h : List.Forall₂ (R k) cf a.2) :
    ∃ cf', ps.foldlM (interpStepF rc) (a.1, cf) = .ok ((ps.foldl interpStep a).1, cf') ∧
      List.Forall₂ (R (k + ps.length)) cf' (ps.foldl interpStep a).2 := by
  induction ps generalizing k a cf with
  | nil => exact ⟨cf, rfl, h⟩
  | cons v ps ih =>
    rw [List.foldlM_cons, interpStepF_ok rc _ v (hi v (by simp)), List.foldl_cons]
    have hs' := hs v (by simp)
    have := ih (fun w hw => hi w (by simp [hw])) (fun w hw => hs w (by simp [hw])) (k + 1) (interpStep a v)
      ((cf.map fun e => rc (e * lowF rc v)) ++ cf.map fun e => rc (e * highF rc v)) (by
        simp only [interpStep]
        refine List.rel_append ?_ ?_
        · rw [List.forall₂_map_left_iff, List.forall₂_map_right_iff]
          exact h.imp fun x e hx => (hs' k x e hx).1
        · rw [List.forall₂_map_left_iff, List.forall₂_map_right_iff]
          exact h.imp fun x e hx => (hs' k x e hx).2)
    obtain ⟨cf', h1, h2⟩ := this
    refine ⟨cf', h1, ?_⟩
    rw [List.length_cons, show k + (ps.length + 1) = k + 1 + ps.length by omega]
    exact h2

theorem interpSetupF_rel (rc : ℚ → ℚ) (R : ℕ → ℚ → ℚ → Prop) (ps : List ℚ) (hi : ∀ v ∈ ps, IntRange v)
    (hs : ∀ v ∈ ps, ∀ k x e, R k x e → R (k + 1) (rc (x * lowF rc v)) (e * (1 - (v - truncQ v))) ∧
      R (k + 1) (rc (x * highF rc v)) (e * (v - truncQ v)))
    (h0 : R 0 1 1) :
    ∃ cf, interpSetupF rc ps = .ok ((interpSetup ps).1, cf) ∧ List.Forall₂ (R ps.length) cf (interpSetup ps).2 := by
  have := foldF_rel rc R ps hi hs 0 ([[]], [1]) [1] (.cons h0 .nil)
  rw [Nat.zero_add] at this
  exact this

/-! ## The inner product -/

theorem foldl_addF (rv : ℚ → ℚ) (xs : List ℚ) (x : ℚ) :
    (xs.map some).foldl (addF rv) (some x) = some (xs.foldl (fun a b => rv (a + b)) x) := by
  induction xs generalizing x with
  | nil => rfl
  | cons y xs ih => exact ih _

theorem foldl_addF_none (rv : ℚ → ℚ) (xs : List (Option ℚ)) : xs.foldl (addF rv) none = none := by
  induction xs with
  | nil => rfl
  | cons y xs ih => exact ih

theorem foldl_addF_isSome (rv : ℚ → ℚ) (xs : List (Option ℚ)) (x : Option ℚ) :
    (xs.foldl (addF rv) x).isSome ↔ x.isSome ∧ ∀ y ∈ xs, y.isSome := by
  induction xs generalizing x with
  | nil => simp
  | cons y xs ih =>
    rw [List.foldl_cons, ih]
    cases x <;> cases y <;> simp [addF]

theorem interpProductF_isSome (rv : ℚ → ℚ) (pos : List (Option ℚ)) (cf : List ℚ) (h : pos.length = cf.length) :
    (interpProductF rv pos cf).isSome ↔ ∀ x ∈ pos, x.isSome := by
  unfold interpProductF
  rw [foldl_addF_isSome]
  match pos, cf, h with
  | [], [], _ => simp [mulF]
  | x :: pos, e :: cf, h =>
    simp only [List.headD_cons, List.tail_cons, List.forall_mem_cons]
    have h' : pos.length = cf.length := by simpa using h
    have h1 : (mulF rv x e).isSome ↔ x.isSome := by cases x <;> simp [mulF]
    rw [h1]
    refine and_congr_right fun _ => ?_
    clear h h1
    induction pos generalizing cf with
    | nil => simp
    | cons y pos ih =>
      match cf, h' with
      | c :: cf, h' =>
        simp only [List.zipWith_cons_cons, List.forall_mem_cons]
        rw [ih cf (by simpa using h')]
        refine and_congr_left fun _ => ?_
        cases y <;> simp [mulF]

/-- The inner product of finite values, with an invariant of the running sum. -/
theorem interpProductF_some (rv : ℚ → ℚ) (val : List Int → ℚ) (cs : List (List Int)) (cf : List ℚ) (hne : cs ≠ [])
    (hl : cs.length = cf.length) :
    interpProductF rv (cs.map fun q => some (val q)) cf =
      some ((List.zipWith (fun q e => rv (rv (val q) * e)) cs.tail cf.tail).foldl (fun a b => rv (a + b))
        (rv (rv (val (cs.headD [])) * cf.headD 0))) := by
  match cs, cf, hne, hl with
  | q :: cs, e :: cf, _, _ =>
    unfold interpProductF
    simp only [List.map_cons, List.headD_cons, List.tail_cons]
    rw [← foldl_addF]
    congr 1
    rw [List.map_zipWith, List.zipWith_map_left]
    rfl

/-- Error of the running sum. -/
theorem foldl_approx (hu : 0 ≤ u) {rv : ℚ → ℚ} (hr : RelError u rv) (val : List Int → ℚ) (K : ℕ) :
    ∀ (cs : List (List Int)) (cf es : List ℚ) (j : ℕ) (x y Y : ℚ), cs.length = cf.length →
      List.Forall₂ (fun x e => Approx u K x e e) cf es → K + 2 ≤ j → Approx u j x y Y →
      Approx u (j + cs.length) ((List.zipWith (fun q e => rv (rv (val q) * e)) cs cf).foldl (fun a b => rv (a + b)) x)
        (y + wsum val (cs, es)) (Y + wsum (fun q => |val q|) (cs, es)) := by
  intro cs
  induction cs with
  | nil => intro cf es j x y Y _ _ _ h; simpa [wsum] using h
  | cons q cs ih =>
    intro cf es j x y Y hl hc hj h
    cases hc with
    | nil => simp at hl
    | @cons c e cf es hce hc =>
      have h1 : Approx u (K + 2) (rv (rv (val q) * c)) (val q * e) (|val q| * e) := by
        have := (((Approx.refl (u := u) (le_refl |val q|)).rnd hu hr).mul hu hce).rnd hu hr
        rwa [show 0 + 1 + K + 1 = K + 2 by omega] at this
      have h2 : Approx u (j + 1) (rv (x + rv (rv (val q) * c))) (y + val q * e) (Y + |val q| * e) :=
        (h.add (h1.mono hu hj)).rnd hu hr
      have h3 := ih cf es (j + 1) _ _ _ (by simpa using hl) hc (by omega) h2
      simp only [List.zipWith_cons_cons, List.foldl_cons, wsum, List.sum_cons, List.length_cons] at h3 ⊢
      rw [show j + (cs.length + 1) = j + 1 + cs.length by omega, ← add_assoc, ← add_assoc]
      exact h3

end Kwk
