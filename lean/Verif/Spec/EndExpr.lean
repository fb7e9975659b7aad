import Mathlib.Data.Rat.Floor
import Verif.Model.EndRatio

/-!
# Specification: arithmetic expressions on `end`, over the rationals
-/

namespace Kwk.Spec

/-- An expression a user can write with `end` and integers. -/
inductive EndExpr where
  /-- `end` -/
  | all
  /-- `e + o` or `o + e` -/
  | add (e : EndExpr) (o : Int)
  /-- `e - o` -/
  | sub (e : EndExpr) (o : Int)
  /-- `o - e` -/
  | rsub (o : Int) (e : EndExpr)
  /-- `e * o` or `o * e` -/
  | mul (e : EndExpr) (o : Int)
  /-- `e / o` -/
  | div (e : EndExpr) (o : Int)

/-- Its exact value for an extent `n`. -/
def EndExpr.value (n : ℚ) : EndExpr → ℚ
  | all => n
  | add e o => e.value n + o
  | sub e o => e.value n - o
  | rsub o e => o - e.value n
  | mul e o => e.value n * o
  | div e o => e.value n / o

/-- No division by the literal zero. -/
def EndExpr.NoZeroDiv : EndExpr → Prop
  | all => True
  | add e _ => e.NoZeroDiv
  | sub e _ => e.NoZeroDiv
  | rsub _ e => e.NoZeroDiv
  | mul e _ => e.NoZeroDiv
  | div e o => e.NoZeroDiv ∧ o ≠ 0

/-- The object the library builds for the expression. -/
def EndExpr.build : EndExpr → EndT
  | all => .all
  | add e o => e.build.add o
  | sub e o => e.build.sub o
  | rsub o e => EndT.rsub o e.build
  | mul e o => e.build.mul o
  | div e o => e.build.div o

/-- Rounding toward zero. -/
def trunc (q : ℚ) : Int := if 0 ≤ q then ⌊q⌋ else ⌈q⌉

/-- The rational number denoted by a `kwk::ratio`. -/
def ratioValue (r : Ratio) : ℚ := (r.num : ℚ) / r.denum

end Kwk.Spec
