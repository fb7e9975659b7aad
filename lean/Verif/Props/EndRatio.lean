import Verif.Lemmas.AuxEndRatio
import Verif.Spec.EndExpr
import Mathlib.Tactic.FieldSimp
import Mathlib.Tactic.Ring
import Mathlib.Tactic.Linarith

/-!
# Properties C48 and C49: `end` expressions and `ratio`
-/

namespace Kwk
open Spec

/-- **C48** For every extent `n`, an `end` expression evaluates to the exact rational value of the
expression at `n`, rounded toward zero once; it is a division by zero exactly when the expression
divides by zero. -/
theorem C48_end_expressions (e : EndExpr) (n : Int) :
    (e.NoZeroDiv → e.build.size n = .ok (trunc (e.value n))) ∧
    (¬ e.NoZeroDiv → e.build.size n = .error .divByZero) := by
  obtain ⟨h1, h2⟩ := build_value e
  constructor
  · intro h
    rw [EndT.size, cdiv, if_neg (h1.1 h), tdiv_eq_trunc _ _ (h1.1 h), h2 h n]
    rfl
  · intro h
    have : e.build.frac.denum = 0 := by
      by_contra hd; exact h (h1.2 hd)
    rw [EndT.size, cdiv, if_pos this]
    rfl

example := (C48_end_expressions (.add (.div .all 2) 1) 7).1

/-- **C48** (common forms) `end` is `n`, `end - k` is `n - k`, `end / k` is the truncated quotient and,
for `n ≥ 0` and `k > 0`, `end / k + j` with `j ≥ 0` is `n / k + j`. -/
theorem C48_common_forms (n k j : Int) :
    EndExpr.all.build.size n = .ok n ∧
    (EndExpr.all.sub k).build.size n = .ok (n - k) ∧
    (k ≠ 0 → (EndExpr.all.div k).build.size n = .ok (n.tdiv k)) ∧
    (0 ≤ n → 0 < k → 0 ≤ j → ((EndExpr.all.div k).add j).build.size n = .ok (n / k + j)) := by
  have c1 : ∀ a : Int, cdiv a 1 = .ok a := by intro a; simp [cdiv, pure, Except.pure]
  refine ⟨?_, ?_, ?_, ?_⟩
  · simp [EndExpr.build, EndT.all, EndT.size, c1]
  · simp [EndExpr.build, EndT.all, EndT.size, EndT.sub, c1]; ring
  · intro hk
    simp [EndExpr.build, EndT.all, EndT.size, EndT.div, Ratio.divInt, cdiv, hk, pure, Except.pure]
  · intro hn hk hj
    have hk' : k ≠ 0 := by omega
    simp [EndExpr.build, EndT.all, EndT.size, EndT.div, EndT.add, Ratio.divInt, cdiv, hk', pure, Except.pure]
    rw [Int.tdiv_eq_ediv_of_nonneg (add_nonneg hn (mul_nonneg hj hk.le)), Int.add_mul_ediv_right _ _ hk']

example : ((EndExpr.all.mul 2).div 3).NoZeroDiv ∧
    (((EndExpr.all.mul 2).div 3).sub 1).build.size 10 = .ok 5 := ⟨⟨trivial, by decide⟩, by decide⟩

/-- Per-step truncation differs from the library's single truncation when a value crosses zero:
`end / 2 - 3` on an extent of `5` is `5/2 - 3 = -0.5`, truncated to `0`, not `2 - 3 = -1`. -/
theorem C48_single_truncation : ((EndExpr.all.div 2).sub 3).build.size 5 = .ok 0 := by decide

/-- **C49** The `ratio` operators compute the rational operations, and `==`, `!=` compare the
rationals. -/
theorem C49_ratio (a b : Ratio) (c : Int) (ha : a.denum ≠ 0) (hb : b.denum ≠ 0) :
    ratioValue a.neg = -ratioValue a ∧
    ratioValue (a.add b) = ratioValue a + ratioValue b ∧
    ratioValue (a.sub b) = ratioValue a - ratioValue b ∧
    ratioValue (a.mul b) = ratioValue a * ratioValue b ∧
    ratioValue (a.scale c) = ratioValue a * c ∧
    ratioValue (a.div b) = ratioValue a / ratioValue b ∧
    ratioValue (a.divInt c) = ratioValue a / c ∧
    (a.eq b = true ↔ ratioValue a = ratioValue b) ∧
    (a.ne b = true ↔ ratioValue a ≠ ratioValue b) := by
  have ha' : (a.denum : ℚ) ≠ 0 := by exact_mod_cast ha
  have hb' : (b.denum : ℚ) ≠ 0 := by exact_mod_cast hb
  have heq : a.eq b = true ↔ ratioValue a = ratioValue b := by
    simp only [Ratio.eq, beq_iff_eq, ratioValue, div_eq_div_iff ha' hb']
    constructor
    · intro h
      have : ((a.num * b.denum : Int) : ℚ) = ((a.denum * b.num : Int) : ℚ) := by rw [h]
      push_cast at this; linarith
    · intro h
      have : ((a.num * b.denum : Int) : ℚ) = ((a.denum * b.num : Int) : ℚ) := by push_cast; linarith
      exact_mod_cast this
  refine ⟨?_, ?_, ?_, ?_, ?_, ?_, ?_, heq, ?_⟩
  · simp [ratioValue, Ratio.neg, neg_div]
  · simp only [ratioValue, Ratio.add]; push_cast; field_simp
  · simp only [ratioValue, Ratio.sub]; push_cast; field_simp
  · simp only [ratioValue, Ratio.mul]; push_cast; field_simp
  · simp only [ratioValue, Ratio.scale]; push_cast; ring
  · simp only [ratioValue, Ratio.div]
    push_cast
    rw [div_div_div_eq]
  · simp only [ratioValue, Ratio.divInt]
    push_cast
    rw [div_div]
  · rw [ne_eq, ← heq]
    simp [Ratio.ne]

example := C49_ratio ⟨1, 2⟩ ⟨-2, 3⟩ 5 (by decide) (by decide)

/-- The results keep a non-zero denominator (for the quotients: when the divisor is not zero), so
that `C49_ratio` applies again. -/
theorem C49_ratio_closed (a b : Ratio) (c : Int) (ha : a.denum ≠ 0) (hb : b.denum ≠ 0) :
    a.neg.denum ≠ 0 ∧ (a.add b).denum ≠ 0 ∧ (a.sub b).denum ≠ 0 ∧ (a.mul b).denum ≠ 0 ∧
    (a.scale c).denum ≠ 0 ∧ (ratioValue b ≠ 0 → (a.div b).denum ≠ 0) ∧
    (c ≠ 0 → (a.divInt c).denum ≠ 0) := by
  refine ⟨ha, mul_ne_zero ha hb, mul_ne_zero ha hb, mul_ne_zero ha hb, ha, ?_, fun h => mul_ne_zero ha h⟩
  intro h
  apply mul_ne_zero ha
  intro h0
  exact h (by simp [ratioValue, h0])

example : (Ratio.add ⟨1, 2⟩ ⟨1, 3⟩).eq ⟨10, 12⟩ = true ∧ (Ratio.eq ⟨1, 2⟩ ⟨-2, -4⟩) = true ∧
    (Ratio.ne ⟨1, 2⟩ ⟨2, 3⟩) = true := by decide

end Kwk
