import Verif.Spec.EndExpr
import Mathlib.Tactic.FieldSimp
import Mathlib.Tactic.Ring
import Mathlib.Tactic.Linarith

/-!
# Lemmas for `Props/EndRatio.lean`
-/

namespace Kwk
open Spec

/-- Truncating division is the rational quotient rounded toward zero. -/
theorem tdiv_eq_trunc (a b : Int) (hb : b ≠ 0) : a.tdiv b = trunc ((a : ℚ) / b) := by
  have pos : ∀ (a b : Int), 0 < b → a.tdiv b = trunc ((a : ℚ) / b) := by
    intro a b hb
    have hbq : (0 : ℚ) < b := by exact_mod_cast hb
    have nn : ∀ a : Int, 0 ≤ a → a.tdiv b = ⌊(a : ℚ) / b⌋ := by
      intro a ha
      rw [Int.tdiv_eq_ediv_of_nonneg ha]
      symm
      rw [Int.floor_eq_iff]
      have h1 := Int.mul_ediv_add_emod a b
      have h2 := Int.emod_nonneg a hb.ne'
      have h3 := Int.emod_lt_of_pos a hb
      constructor
      · rw [le_div_iff₀ hbq]
        have : (a / b) * b ≤ a := by nlinarith
        exact_mod_cast this
      · rw [div_lt_iff₀ hbq]
        have : a < (a / b + 1) * b := by nlinarith
        exact_mod_cast this
    unfold trunc
    by_cases ha : 0 ≤ a
    · rw [if_pos (div_nonneg (by exact_mod_cast ha) hbq.le)]
      exact nn a ha
    · have haq : (a : ℚ) < 0 := by exact_mod_cast (not_le.1 ha)
      rw [if_neg (not_le.2 (div_neg_of_neg_of_pos haq hbq))]
      have := nn (-a) (by omega)
      rw [Int.neg_tdiv] at this
      have e : ((-a : Int) : ℚ) / b = -((a : ℚ) / b) := by push_cast; ring
      rw [e, Int.floor_neg] at this
      omega
  rcases lt_or_gt_of_ne hb with h | h
  · have := pos (-a) (-b) (by omega)
    rw [Int.neg_tdiv_neg] at this
    rw [this]
    congr 1
    push_cast
    rw [neg_div_neg_eq]
  · exact pos a b h

/-- The object built for an expression denotes its value, and its divisor is zero exactly when the
expression divides by zero. -/
theorem build_value (e : EndExpr) :
    (e.NoZeroDiv ↔ e.build.frac.denum ≠ 0) ∧
    (e.NoZeroDiv → ∀ n : Int, e.value n =
      ((n * e.build.frac.num + e.build.shift : Int) : ℚ) / (e.build.frac.denum : ℚ)) := by
  induction e with
  | all => simp [EndExpr.NoZeroDiv, EndExpr.build, EndT.all, EndExpr.value]
  | add e o ih =>
    refine ⟨ih.1, fun h n => ?_⟩
    have hd : (e.build.frac.denum : ℚ) ≠ 0 := by exact_mod_cast ih.1.1 h
    simp only [EndExpr.value, EndExpr.build, EndT.add, ih.2 h n]
    push_cast; field_simp; ring
  | sub e o ih =>
    refine ⟨ih.1, fun h n => ?_⟩
    have hd : (e.build.frac.denum : ℚ) ≠ 0 := by exact_mod_cast ih.1.1 h
    simp only [EndExpr.value, EndExpr.build, EndT.sub, ih.2 h n]
    push_cast; field_simp; ring
  | rsub o e ih =>
    refine ⟨ih.1, fun h n => ?_⟩
    have hd : (e.build.frac.denum : ℚ) ≠ 0 := by exact_mod_cast ih.1.1 h
    simp only [EndExpr.value, EndExpr.build, EndT.rsub, Ratio.neg, ih.2 h n]
    push_cast; field_simp; ring
  | mul e o ih =>
    refine ⟨ih.1, fun h n => ?_⟩
    simp only [EndExpr.value, EndExpr.build, EndT.mul, Ratio.scale, ih.2 h n]
    push_cast; ring
  | div e o ih =>
    constructor
    · simp only [EndExpr.NoZeroDiv, EndExpr.build, EndT.div, Ratio.divInt, ih.1]
      simp
    · intro h n
      have hd : (e.build.frac.denum : ℚ) ≠ 0 := by exact_mod_cast ih.1.1 h.1
      have ho : (o : ℚ) ≠ 0 := by exact_mod_cast h.2
      simp only [EndExpr.value, EndExpr.build, EndT.div, Ratio.divInt, ih.2 h.1 n]
      push_cast; field_simp

end Kwk
