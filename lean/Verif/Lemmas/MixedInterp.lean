import Verif.Lemmas.FloatInterp
import Verif.Lemmas.RoundBits
import Verif.Lemmas.Typed
import Verif.Lemmas.Walk
import Verif.Spec.MixedInterp

/-! # Helper lemmas about interpolation at points with coordinates of any arithmetic types -/

namespace Kwk
open Spec

theorem representable_mono {p k : ℕ} (h : p ≤ k) {x : ℚ} (hx : Representable p x) : Representable k x := by
  obtain ⟨m, e, hm, rfl⟩ := hx
  exact ⟨m, e, lt_of_lt_of_le hm (pow_le_pow_right₀ (by norm_num) h), rfl⟩

theorem representable_zero (p : ℕ) : Representable p 0 := ⟨0, 0, by simp, by simp⟩

theorem representable_one {p : ℕ} (h : 0 < p) : Representable p 1 :=
  ⟨1, 0, by
    rw [abs_one]
    calc (1 : ℤ) < 2 ^ 1 := by norm_num
      _ ≤ 2 ^ p := pow_le_pow_right₀ (by norm_num) h, by simp⟩

theorem roundBits_formats : Formats roundBits :=
  ⟨fun _ x h => roundBits_representable h x, fun _ _ h => roundBits_fix h, fun p => roundBits_error p⟩

variable {rnd : ℕ → ℚ → ℚ}

theorem Spec.Formats.relError (h : Formats rnd) {k : ℕ} (hk : 24 ≤ k) : RelError ((1 / 2) ^ 24) (rnd k) := fun x =>
  le_trans (h.error k x) (mul_le_mul_of_nonneg_right (pow_le_pow_of_le_one (by norm_num) (by norm_num) hk) (abs_nonneg x))

/-- Weights as computed for a coordinate whose integral part, and that plus one, are numbers of type `int`. -/
def PointCoord.low (rnd : ℕ → ℚ → ℚ) : PointCoord → ℚ
  | .int _ => 1
  | .flt p v => lowF (rnd p) v

@[inherit_doc PointCoord.low]
def PointCoord.high (rnd : ℕ → ℚ → ℚ) : PointCoord → ℚ
  | .int _ => 0
  | .flt p v => highF (rnd p) v

theorem i32_fits_iff {x : Int} : IntType.i32.Fits x ↔ -2147483648 ≤ x ∧ x ≤ 2147483647 := by
  constructor
  · rintro ⟨h1, h2⟩
    have h1' : (-2147483648 : Int) ≤ x := h1
    have h2' : x < (2147483648 : Int) := h2
    omega
  · intro h
    constructor
    · show (-2147483648 : Int) ≤ x; exact h.1
    · show x < (2147483648 : Int); omega

theorem constSub_same (c : Coord) (t : IntType) : constSub c ⟨t, c.value⟩ = .ok ⟨c.type.common t, 0⟩ := by
  unfold constSub constOp IntType.op
  simp only [sub_self]
  have h := (common_fits_zero (t := c.type) (u := t)).1
  rw [IntType.wrap_fits h]
  by_cases hs : (c.type.common t).signed = true <;> simp [hs, h, bind, Except.bind, pure, Except.pure]

theorem common_fits_one (t u : IntType) : (t.common u).Fits 1 := by
  have h := IntType.common_bits t u
  have h1 : (2 : Int) ^ 32 ≤ 2 ^ (t.common u).bits := pow_le_pow_right₀ (by norm_num) h
  unfold IntType.Fits IntType.lo IntType.hi
  norm_num at h1
  split <;> omega

theorem constSub_one_zero (t : IntType) : constSub ⟨.i32, 1⟩ ⟨t, 0⟩ = .ok ⟨IntType.i32.common t, 1⟩ := by
  unfold constSub constOp IntType.op
  have h := common_fits_one .i32 t
  simp only [IntType.wrap_fits h, IntType.wrap_fits (common_fits_zero (t := .i32) (u := t)).1, sub_zero]
  by_cases hs : (IntType.i32.common t).signed = true <;> simp [hs, h, bind, Except.bind, pure, Except.pure]

theorem castInt_ok {v : PointCoord} (h : IntRange v.number) : v.castInt = .ok (truncQ v.number) := by
  obtain ⟨h1, h2⟩ := h
  cases v with
  | int c =>
    simp only [PointCoord.number, truncQ_int] at h1 h2 ⊢
    show Except.ok (IntType.i32.wrap c.value) = _
    rw [IntType.wrap_fits (i32_fits_iff.2 ⟨h1, by omega⟩)]
  | flt p v => exact i32_op_ok ⟨h1, by simp only [PointCoord.number] at h2; omega⟩

theorem weights_ok (v : PointCoord) : v.weights rnd (truncQ v.number) = .ok (v.low rnd, v.high rnd) := by
  cases v with
  | int c =>
    simp only [PointCoord.number, truncQ_int, PointCoord.weights, PointCoord.low, PointCoord.high]
    rw [constSub_same]
    simp only [bind, Except.bind]
    rw [constSub_one_zero]
    simp [pure, Except.pure]
  | flt p v => rfl

theorem interpStepX_ok (acc : Cell) {v : PointCoord} (h : IntRange v.number) (cf : List ℚ) :
    interpStepX rnd acc v = .ok ⟨(interpStep (acc.coord, cf) v.number).1,
      (acc.coeff.map fun e => mulBits rnd (v.productBits acc.bits) e (v.low rnd)) ++
        acc.coeff.map fun e => mulBits rnd (v.productBits acc.bits) e (v.high rnd), v.productBits acc.bits⟩ := by
  obtain ⟨h1, h2⟩ := h
  simp only [interpStepX, castInt_ok ⟨h1, h2⟩, weights_ok, i32_op_ok (x := truncQ v.number + 1) (by omega), bind,
    Except.bind, pure, Except.pure, interpStep]

theorem productBits_ge {k : ℕ} (v : PointCoord) : k ≤ v.productBits k := by
  cases v <;> simp [PointCoord.productBits]

/-- The precision of the coefficients after all coordinates. -/
def coeffBits (k : ℕ) (ps : List PointCoord) : ℕ := ps.foldl (fun k v => v.productBits k) k

theorem coeffBits_ge (k : ℕ) (ps : List PointCoord) : k ≤ coeffBits k ps := by
  induction ps generalizing k with
  | nil => exact le_refl k
  | cons v ps ih => exact le_trans (productBits_ge v) (ih _)

/-- The corners are those of the exact model; the computed weights are related to the exact ones by any relation that every
step preserves. -/
theorem foldX_rel (R : ℕ → ℕ → ℚ → ℚ → Prop) (ps : List PointCoord) (hi : ∀ v ∈ ps, IntRange v.number)
    (hs : ∀ v ∈ ps, ∀ n k x e, 24 ≤ k → R n k x e →
      R (n + 1) (v.productBits k) (mulBits rnd (v.productBits k) x (v.low rnd)) (e * (1 - (v.number - truncQ v.number))) ∧
      R (n + 1) (v.productBits k) (mulBits rnd (v.productBits k) x (v.high rnd)) (e * (v.number - truncQ v.number)))
    (n k : ℕ) (hk : 24 ≤ k) (a : List (List Int) × List ℚ) (cf : List ℚ) (h : List.Forall₂ (R n k) cf a.2) :
    ∃ cf', ps.foldlM (interpStepX rnd) ⟨a.1, cf, k⟩ =
        .ok ⟨((ps.map PointCoord.number).foldl interpStep a).1, cf', coeffBits k ps⟩ ∧
      List.Forall₂ (R (n + ps.length) (coeffBits k ps)) cf' ((ps.map PointCoord.number).foldl interpStep a).2 := by
  induction ps generalizing n k a cf with
  | nil => exact ⟨cf, rfl, h⟩
  | cons v ps ih =>
    rw [List.foldlM_cons, interpStepX_ok _ (hi v (by simp)) a.2, List.map_cons, List.foldl_cons]
    have hs' := hs v (by simp)
    have := ih (fun w hw => hi w (by simp [hw])) (fun w hw => hs w (by simp [hw])) (n + 1) (v.productBits k)
      (le_trans hk (productBits_ge v)) (interpStep a v.number)
      ((cf.map fun e => mulBits rnd (v.productBits k) e (v.low rnd)) ++
        cf.map fun e => mulBits rnd (v.productBits k) e (v.high rnd)) (by
        simp only [interpStep]
        refine List.rel_append ?_ ?_
        · rw [List.forall₂_map_left_iff, List.forall₂_map_right_iff]
          exact h.imp fun x e hx => (hs' n k x e hk hx).1
        · rw [List.forall₂_map_left_iff, List.forall₂_map_right_iff]
          exact h.imp fun x e hx => (hs' n k x e hk hx).2)
    obtain ⟨cf', h1, h2⟩ := this
    refine ⟨cf', h1, ?_⟩
    rw [List.length_cons, show n + (ps.length + 1) = n + 1 + ps.length by omega]
    exact h2

theorem interpSetupX_rel (R : ℕ → ℕ → ℚ → ℚ → Prop) (ps : List PointCoord) (hi : ∀ v ∈ ps, IntRange v.number)
    (hs : ∀ v ∈ ps, ∀ n k x e, 24 ≤ k → R n k x e →
      R (n + 1) (v.productBits k) (mulBits rnd (v.productBits k) x (v.low rnd)) (e * (1 - (v.number - truncQ v.number))) ∧
      R (n + 1) (v.productBits k) (mulBits rnd (v.productBits k) x (v.high rnd)) (e * (v.number - truncQ v.number)))
    (h0 : R 0 24 1 1) :
    ∃ cf, interpSetupX rnd ps = .ok ⟨(interpSetup (ps.map PointCoord.number)).1, cf, coeffBits 24 ps⟩ ∧
      List.Forall₂ (R ps.length (coeffBits 24 ps)) cf (interpSetup (ps.map PointCoord.number)).2 := by
  have := foldX_rel R ps hi hs 0 24 (le_refl _) ([[]], [1]) [1] (.cons h0 .nil)
  rw [Nat.zero_add] at this
  exact this

/-- Error of the inner product of finite values and approximate weights. -/
theorem product_error {u : ℚ} (hu : 0 ≤ u) {rv : ℚ → ℚ} (hrv : RelError u rv) (val : List Int → ℚ) (K : ℕ)
    (cs : List (List Int)) (cf es : List ℚ) (hne : cs ≠ []) (hl : cs.length = es.length)
    (hcf : List.Forall₂ (fun x e => Approx u K x e e) cf es) :
    |(List.zipWith (fun q e => rv (rv (val q) * e)) cs.tail cf.tail).foldl (fun a b => rv (a + b))
        (rv (rv (val (cs.headD [])) * cf.headD 0)) - wsum val (cs, es)| ≤
      ((1 + u) ^ (K + cs.length + 1) - 1) * wsum (fun q => |val q|) (cs, es) := by
  cases hcf with
  | nil => exact absurd (List.length_eq_zero_iff.1 hl) hne
  | @cons c e cf es hce hcf =>
    match cs, hl with
    | q :: cs, hl =>
      have hl' : cs.length = es.length := by simpa using hl
      have h1 : Approx u (K + 2) (rv (rv (val q) * c)) (val q * e) (|val q| * e) := by
        have := (((Approx.refl (u := u) (le_refl |val q|)).rnd hu hrv).mul hu hce).rnd hu hrv
        rwa [show 0 + 1 + K + 1 = K + 2 by omega] at this
      have h2 := foldl_approx hu hrv val K cs cf es _ _ _ _ (by rw [hl', hcf.length_eq]) hcf (le_refl _) h1
      have h3 := h2.err
      rw [show K + 2 + cs.length = K + (q :: cs).length + 1 by simp; omega] at h3
      simpa [wsum] using h3

/-- The result, from the computed weights. -/
theorem interpLinearX_some {elem : Option ℕ} {data : List Int → Res (Option ℚ)} {val : List Int → ℚ} {ps : List PointCoord} {cf : List ℚ}
    {k : ℕ} (hs : interpSetupX rnd ps = .ok ⟨(interpSetup (ps.map PointCoord.number)).1, cf, k⟩)
    (hl : cf.length = (interpSetup (ps.map PointCoord.number)).2.length)
    (hd : ∀ q ∈ (interpSetup (ps.map PointCoord.number)).1, data q = .ok (some (val q))) :
    interpLinearX rnd elem data ps = .ok (some
      ((List.zipWith (fun q e => rnd (resultBits elem k) (rnd (resultBits elem k) (val q) * e))
          (interpSetup (ps.map PointCoord.number)).1.tail cf.tail).foldl (fun a b => rnd (resultBits elem k) (a + b))
        (rnd (resultBits elem k) (rnd (resultBits elem k) (val ((interpSetup (ps.map PointCoord.number)).1.headD [])) *
          cf.headD 0)))) := by
  have hm := mapM_ok (interpSetup (ps.map PointCoord.number)).1 data (fun q => some (val q)) hd
  unfold interpLinearX
  rw [hs]
  simp only [bind, Except.bind]
  rw [hm]
  show Except.ok (interpProductF _ _ cf) = _
  rw [interpProductF_some _ val _ cf (interpSetup_ne _) (by rw [hl]; exact interpSetup_length _)]

theorem resultBits_ge (elem : Option ℕ) (k : ℕ) : k ≤ resultBits elem k := by
  cases elem <;> simp [resultBits]

theorem mulBits_eq (h : Formats rnd) {k : ℕ} {x w : ℚ} (hx : Representable k x) (hw : Representable k w) :
    mulBits rnd k x w = rnd k (x * w) := by
  unfold mulBits
  rw [h.keeps k x hx, h.keeps k w hw]

theorem mulBits_one (h : Formats rnd) {k : ℕ} (hk : 0 < k) {x : ℚ} (hx : Representable k x) : mulBits rnd k x 1 = x := by
  rw [mulBits_eq h hx (representable_one hk), mul_one, h.keeps k x hx]

theorem mulBits_zero (h : Formats rnd) {k : ℕ} {x : ℚ} (hx : Representable k x) : mulBits rnd k x 0 = 0 := by
  rw [mulBits_eq h hx (representable_zero k), mul_zero, h.keeps k 0 (representable_zero k)]

/-- The weights of a coordinate that is not negative. -/
theorem flt_weights (h : Formats rnd) {p : ℕ} {v : ℚ} (hv : 0 ≤ v) (hr : Representable p v) :
    highF (rnd p) v = v - truncQ v ∧ Representable p (v - truncQ v) ∧ lowF (rnd p) v = rnd p (1 - (v - truncQ v)) := by
  obtain ⟨h1, h2⟩ := representable_parts hv hr
  have hb : highF (rnd p) v = v - truncQ v := by unfold highF; rw [h.keeps p _ h1, h.keeps p _ h2]
  refine ⟨hb, h2, ?_⟩
  show rnd p (1 - highF (rnd p) v) = _
  rw [hb]

end Kwk
