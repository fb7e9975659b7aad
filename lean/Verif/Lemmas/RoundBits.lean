import Mathlib.Tactic.Positivity
import Mathlib.Tactic.FieldSimp
import Mathlib.Tactic.NormNum
import Mathlib.Tactic.Linarith
import Mathlib.Tactic.Ring
import Verif.Lemmas.Interp
import Verif.Spec.FloatInterp

/-! # Helper lemmas: rounding to a binary floating-point format -/

namespace Kwk
open Spec

theorem two_zpow_pos (e : ℤ) : (0 : ℚ) < 2 ^ e := zpow_pos (by norm_num) e

theorem roundBits_zero (p : ℕ) : roundBits p 0 = 0 := if_pos rfl

theorem roundBits_ne {p : ℕ} {x : ℚ} (h : x ≠ 0) :
    roundBits p x = (round (x / 2 ^ (Int.log 2 |x| - p + 1)) : ℤ) * (2 : ℚ) ^ (Int.log 2 |x| - p + 1) := if_neg h

theorem log_le_abs {x : ℚ} (h : x ≠ 0) : (2 : ℚ) ^ Int.log 2 |x| ≤ |x| := by
  have := Int.zpow_log_le_self (b := 2) (r := |x|) (by norm_num) (abs_pos.2 h)
  exact_mod_cast this

theorem abs_lt_log (x : ℚ) : |x| < (2 : ℚ) ^ (Int.log 2 |x| + 1) := by
  have := Int.lt_zpow_succ_log_self (b := 2) (by norm_num) |x|
  exact_mod_cast this

/-- An integer multiple of a power of two, with not more than `p` bits, is a multiple of the scale of a number at most as small. -/
theorem multiple_of_scale {a b : ℤ} (h : b ≤ a) (m : ℤ) : ∃ n : ℤ, (m : ℚ) * 2 ^ a = n * 2 ^ b := by
  obtain ⟨d, rfl⟩ := Int.le.dest h
  refine ⟨m * 2 ^ d, ?_⟩
  rw [zpow_add₀ (by norm_num)]
  push_cast
  rw [zpow_natCast]
  ring

theorem representable_abs_lt {p : ℕ} {m e : ℤ} (h : |m| < 2 ^ p) : |(m : ℚ) * 2 ^ e| < 2 ^ (p + e : ℤ) := by
  rw [abs_mul, abs_of_pos (two_zpow_pos e), zpow_add₀ (by norm_num), zpow_natCast]
  apply mul_lt_mul_of_pos_right _ (two_zpow_pos e)
  exact_mod_cast h

theorem roundBits_fix {p : ℕ} {x : ℚ} (h : Representable p x) : roundBits p x = x := by
  by_cases h0 : x = 0
  · rw [h0, roundBits_zero]
  · obtain ⟨m, e, hm, rfl⟩ := h
    rw [roundBits_ne h0]
    set k := Int.log 2 |(m : ℚ) * 2 ^ e| with hk
    have h1 : (2 : ℚ) ^ k < 2 ^ (p + e : ℤ) := lt_of_le_of_lt (log_le_abs h0) (representable_abs_lt hm)
    have h2 : k < p + e := (zpow_lt_zpow_iff_right₀ (by norm_num)).1 h1
    obtain ⟨n, hn⟩ := multiple_of_scale (a := e) (b := k - p + 1) (by omega) m
    rw [hn, mul_div_assoc, div_self (two_zpow_pos _).ne', mul_one, round_intCast]

theorem roundBits_error (p : ℕ) (x : ℚ) : |roundBits p x - x| ≤ (1 / 2) ^ p * |x| := by
  by_cases h0 : x = 0
  · simp [h0, roundBits_zero]
  · rw [roundBits_ne h0]
    set k := Int.log 2 |x| with hk
    have hs := two_zpow_pos (k - p + 1)
    have h1 := abs_sub_round (x / 2 ^ (k - p + 1))
    have h2 : (round (x / 2 ^ (k - p + 1)) : ℚ) * 2 ^ (k - p + 1) - x =
        -((x / 2 ^ (k - p + 1) - round (x / 2 ^ (k - p + 1))) * 2 ^ (k - p + 1)) := by
      rw [sub_mul, div_mul_cancel₀ _ hs.ne']; ring
    rw [h2, abs_neg, abs_mul, abs_of_pos hs]
    have h3 : |x / 2 ^ (k - p + 1) - round (x / 2 ^ (k - p + 1))| * 2 ^ (k - p + 1) ≤ 1 / 2 * 2 ^ (k - p + 1) :=
      mul_le_mul_of_nonneg_right h1 hs.le
    have h4 : (1 : ℚ) / 2 * 2 ^ (k - p + 1) = (1 / 2) ^ p * 2 ^ k := by
      rw [zpow_add₀ (by norm_num), zpow_sub₀ (by norm_num), zpow_natCast, zpow_one, one_div_pow]; ring
    rw [h4] at h3
    exact le_trans h3 (mul_le_mul_of_nonneg_left (log_le_abs h0) (by positivity))

theorem roundBits_nonneg (p : ℕ) {x : ℚ} (h : 0 ≤ x) : 0 ≤ roundBits p x := by
  by_cases h0 : x = 0
  · rw [h0, roundBits_zero]
  · rw [roundBits_ne h0]
    have hs := two_zpow_pos (Int.log 2 |x| - p + 1)
    refine mul_nonneg ?_ hs.le
    have : 0 ≤ x / 2 ^ (Int.log 2 |x| - p + 1) := div_nonneg h hs.le
    have h1 : 0 ≤ round (x / 2 ^ (Int.log 2 |x| - p + 1)) := by
      rw [round_eq]
      exact Int.floor_nonneg.2 (by linarith)
    exact_mod_cast h1

theorem roundBits_representable {p : ℕ} (hp : 0 < p) (x : ℚ) : Representable p (roundBits p x) := by
  by_cases h0 : x = 0
  · exact ⟨0, 0, by simp, by simp [h0, roundBits_zero]⟩
  · rw [roundBits_ne h0]
    set k := Int.log 2 |x| with hk
    set n := round (x / 2 ^ (k - p + 1)) with hn
    have hs := two_zpow_pos (k - p + 1)
    have h1 : |x / 2 ^ (k - p + 1)| < 2 ^ p := by
      rw [abs_div, abs_of_pos hs, div_lt_iff₀ hs, ← zpow_natCast, ← zpow_add₀ (by norm_num)]
      rw [show ((p : ℤ) + (k - p + 1)) = k + 1 by ring]
      exact abs_lt_log x
    have h2 : |n| ≤ 2 ^ p := by
      have h3 := abs_sub_round (x / 2 ^ (k - p + 1))
      rw [← hn] at h3
      have h4 : |(n : ℚ)| < 2 ^ p + 1 := by
        have := abs_add_le (x / 2 ^ (k - p + 1)) (-(x / 2 ^ (k - p + 1) - n))
        rw [abs_neg] at this
        simp only [neg_sub, add_sub_cancel] at this
        linarith
      have h5 : |n| < 2 ^ p + 1 := by exact_mod_cast h4
      omega
    rcases lt_or_eq_of_le h2 with h | h
    · exact ⟨n, _, h, rfl⟩
    · obtain ⟨q, rfl⟩ : ∃ q, p = q + 1 := ⟨p - 1, by omega⟩
      rcases abs_choice n with e | e
      · refine ⟨2 ^ q, k - (q + 1 : ℕ) + 1 + 1, ?_, ?_⟩
        · rw [abs_of_pos (by positivity), pow_succ]
          have : (0 : ℤ) < 2 ^ q := by positivity
          omega
        · rw [← e, h, zpow_add₀ (by norm_num) (k - (q + 1 : ℕ) + 1)]
          push_cast
          rw [pow_succ]
          ring
      · refine ⟨-2 ^ q, k - (q + 1 : ℕ) + 1 + 1, ?_, ?_⟩
        · rw [abs_neg, abs_of_pos (by positivity), pow_succ]
          have : (0 : ℤ) < 2 ^ q := by positivity
          omega
        · have e' : n = -2 ^ (q + 1) := by omega
          rw [e', zpow_add₀ (by norm_num) (k - (q + 1 : ℕ) + 1)]
          push_cast
          rw [pow_succ]
          ring

/-- No number of the format is nearer. -/
theorem roundBits_nearest {p : ℕ} (hp : 0 < p) (x y : ℚ) (hy : Representable p y) : |roundBits p x - x| ≤ |y - x| := by
  by_cases h0 : x = 0
  · simp [h0, roundBits_zero]
  · rw [roundBits_ne h0]
    set k := Int.log 2 |x| with hk
    have hs := two_zpow_pos (k - p + 1)
    -- nearest among the multiples of the scale
    have key : ∀ n : ℤ, |(round (x / 2 ^ (k - p + 1)) : ℚ) * 2 ^ (k - p + 1) - x| ≤ |(n : ℚ) * 2 ^ (k - p + 1) - x| := by
      intro n
      have h1 := round_le (x / 2 ^ (k - p + 1)) n
      have e : ∀ m : ℤ, |(m : ℚ) * 2 ^ (k - p + 1) - x| = |x / 2 ^ (k - p + 1) - m| * 2 ^ (k - p + 1) := by
        intro m
        rw [← abs_of_pos hs, ← abs_mul, abs_of_pos hs, abs_sub_comm, sub_mul, div_mul_cancel₀ _ hs.ne']
      rw [e, e]
      exact mul_le_mul_of_nonneg_right h1 hs.le
    obtain ⟨m, e, hm, rfl⟩ := hy
    by_cases he : k - p + 1 ≤ e
    · obtain ⟨n, hn⟩ := multiple_of_scale he m
      rw [hn]
      exact key n
    · have h1 : |(m : ℚ) * 2 ^ e| < 2 ^ k :=
        lt_of_lt_of_le (representable_abs_lt hm) (zpow_le_zpow_right₀ (by norm_num) (by omega))
      have h2 := log_le_abs h0
      rw [← hk] at h2
      have h3 : ∃ n : ℤ, |(n : ℚ) * 2 ^ (k - p + 1) - x| = |x| - 2 ^ k := by
        have h4 : ((2 : ℚ) ^ (p - 1)) * 2 ^ (k - p + 1) = 2 ^ k := by
          rw [← zpow_natCast, ← zpow_add₀ (by norm_num)]
          congr 1
          omega
        rcases le_total 0 x with hx | hx
        · refine ⟨2 ^ (p - 1), ?_⟩
          push_cast
          rw [h4, abs_sub_comm, abs_of_nonneg hx, abs_of_nonneg]
          rw [abs_of_nonneg hx] at h2; linarith
        · refine ⟨-2 ^ (p - 1), ?_⟩
          push_cast
          rw [neg_mul, h4, abs_of_nonpos hx, abs_of_nonneg]
          · ring
          · rw [abs_of_nonpos hx] at h2; linarith
      obtain ⟨n, hn⟩ := h3
      have h5 := key n
      rw [hn] at h5
      have h6 : |x| - |(m : ℚ) * 2 ^ e| ≤ |(m : ℚ) * 2 ^ e - x| := by
        rw [abs_sub_comm]; exact abs_sub_abs_le_abs_sub _ _
      linarith

/-- Rounding to nearest is monotone. -/
theorem roundBits_mono {p : ℕ} (hp : 0 < p) {x y : ℚ} (h : x ≤ y) : roundBits p x ≤ roundBits p y := by
  by_contra hc
  rw [not_le] at hc
  have h1 := roundBits_nearest hp x _ (roundBits_representable hp y)
  have h2 := roundBits_nearest hp y _ (roundBits_representable hp x)
  set a := roundBits p x
  set b := roundBits p y
  have h3 : a + b ≤ 2 * x := by
    rcases abs_cases (a - x) with ⟨e1, _⟩ | ⟨e1, _⟩ <;> rcases abs_cases (b - x) with ⟨e2, _⟩ | ⟨e2, _⟩ <;> linarith
  have h4 : 2 * y ≤ a + b := by
    rcases abs_cases (a - y) with ⟨e1, _⟩ | ⟨e1, _⟩ <;> rcases abs_cases (b - y) with ⟨e2, _⟩ | ⟨e2, _⟩ <;> linarith
  have h5 : x = y := by linarith
  have h6 : a = b := by
    show roundBits p x = roundBits p y
    rw [h5]
  linarith

/-- The integral part and the fractional part of a number of the format are numbers of the format. -/
theorem representable_parts {p : ℕ} {v : ℚ} (hv : 0 ≤ v) (h : Representable p v) :
    Representable p (truncQ v : ℚ) ∧ Representable p (v - truncQ v) := by
  obtain ⟨m, e, hm, rfl⟩ := h
  rw [truncQ_nonneg hv]
  have hm0 : 0 ≤ m := by
    by_contra hc
    have : (m : ℚ) < 0 := by exact_mod_cast not_le.1 hc
    have := mul_neg_of_neg_of_pos this (two_zpow_pos e)
    linarith
  rcases le_or_gt 0 e with he | he
  · obtain ⟨n, hn⟩ := multiple_of_scale he m
    have h1 : ⌊(m : ℚ) * 2 ^ e⌋ = n := by rw [hn]; simp
    have h2 : ((⌊(m : ℚ) * 2 ^ e⌋ : ℤ) : ℚ) = m * 2 ^ e := by rw [h1, hn]; simp
    rw [h2]
    exact ⟨⟨m, e, hm, rfl⟩, ⟨0, 0, by simp, by simp⟩⟩
  · obtain ⟨d, rfl⟩ : ∃ d : ℕ, e = -d := ⟨e.natAbs, by omega⟩
    have h1 : (m : ℚ) * 2 ^ (-(d : ℤ)) = (m : ℚ) / ((2 ^ d : ℤ) : ℚ) := by
      rw [zpow_neg, zpow_natCast]; push_cast; rfl
    have h2 : ⌊(m : ℚ) * 2 ^ (-(d : ℤ))⌋ = m / 2 ^ d := by
      rw [h1]
      have := Rat.floor_intCast_div_natCast m (2 ^ d)
      push_cast at this ⊢
      exact this
    have hd : (0 : ℤ) < 2 ^ d := by positivity
    rw [abs_of_nonneg hm0] at hm
    rw [h2]
    constructor
    · refine ⟨m / 2 ^ d, 0, ?_, by simp⟩
      rw [abs_of_nonneg (Int.ediv_nonneg hm0 hd.le)]
      exact lt_of_le_of_lt (Int.ediv_le_self _ hm0) hm
    · refine ⟨m % 2 ^ d, -(d : ℤ), ?_, ?_⟩
      · rw [abs_of_nonneg (Int.emod_nonneg _ hd.ne')]
        refine lt_of_le_of_lt ?_ hm
        have h3 := Int.emod_add_mul_ediv m (2 ^ d)
        have h4 : 0 ≤ 2 ^ d * (m / 2 ^ d) := mul_nonneg hd.le (Int.ediv_nonneg hm0 hd.le)
        omega
      · have h3 : ((m % 2 ^ d : ℤ) : ℚ) = m - 2 ^ d * ((m / 2 ^ d : ℤ) : ℚ) := by
          have := Int.emod_add_mul_ediv m (2 ^ d)
          have h4 : m % 2 ^ d = m - 2 ^ d * (m / 2 ^ d) := by omega
          rw [h4]; push_cast; rfl
        rw [h3, zpow_neg, zpow_natCast, sub_mul]
        congr 1
        field_simp

end Kwk
