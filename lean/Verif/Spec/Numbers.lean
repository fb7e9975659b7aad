import Verif.Model.Numbers
import Verif.Spec.FloatInterp
import Verif.Spec.Machine
import Verif.Spec.Layout
import Mathlib.Order.WithBot
import Mathlib.Data.Int.ModEq

/-!
# Specification: numbers of C++ arithmetic types
-/

namespace Kwk.Spec

/-- The number a value stands for: a rational number or an infinity; NaN stands for none. -/
def number : Num → Option (WithBot (WithTop ℚ))
  | .int c => some ((c.value : ℚ) : WithTop ℚ)
  | .flt _ .nan => none
  | .flt _ .ninf => some ⊥
  | .flt _ (.num q) => some (q : WithTop ℚ)
  | .flt _ .pinf => some (⊤ : WithTop ℚ)

/-- Both stand for the same number. -/
def SameNumber (a b : Num) : Prop := ∃ x, number a = some x ∧ number b = some x

/-- `a` stands for a smaller number than `b`. -/
def Below (a b : Num) : Prop := ∃ x y, number a = some x ∧ number b = some y ∧ x < y

/-- Not a number. -/
def IsNaN (a : Num) : Prop := number a = none

/-- Rounding to numbers with `p` significant bits, whatever the rounding mode. -/
structure Rounds (p : ℕ) (r : ℚ → ℚ) : Prop where
  /-- the result has `p` significant bits -/
  mem : ∀ x, Representable p (r x)
  /-- nothing happens to such numbers -/
  fix : ∀ x, Representable p x → r x = x
  /-- order is kept -/
  mono : Monotone r

/-- A type of at least one bit, or with a rounding to `p` significant bits. -/
def IsType (p : ℕ) : NumType → Prop
  | .int t => 0 < t.bits
  | .flt r => Rounds p r

/-- `a` is a value of the type `t`, of `p` significant bits if it is a floating-point type. -/
def OfType (p : ℕ) : NumType → Num → Prop
  | .int t, .int c => c.type = t ∧ t.Fits c.value
  | .flt r, .flt r' (.num q) => r' = r ∧ Representable p q
  | .flt r, .flt r' _ => r' = r
  | _, _ => False

/-- All values of type `t` compare with `v` by value: for integers as in `EqualsByValue`; no other integer is rounded to the
floating-point number `v`; the integer `v` is not rounded. -/
def EqualsNumber : NumType → Num → Prop
  | .int t, .int c => ∃ c', IsCommonType t c.type c' ∧ EqualsByValue t c' c.value
  | .int t, .flt r (.num q) => ∀ e, t.Fits e → r e = q → (e : ℚ) = q
  | .flt r, .int c => r c.value = c.value
  | _, _ => True

/-- All values of type `t` are ordered with `v` by value. -/
def OrdersNumber : NumType → Num → Prop
  | .int t, .int c => ∃ c', IsCommonType t c.type c' ∧ OrdersByValue t c' c.value
  | t, v => EqualsNumber t v

/-- `w` is what an element of type `t` holds after the assignment of `v`: an integer modulo the size of the type; the integer part of a
floating-point number if it fits; the rounded number. -/
def Stored : NumType → Num → Num → Prop
  | .int t, .int c, w => ∃ n, w = .int ⟨t, n⟩ ∧ t.Fits n ∧ n ≡ c.value [ZMOD 2 ^ t.bits]
  | .int t, .flt _ (.num q), w =>
    ∃ n : ℤ, w = .int ⟨t, n⟩ ∧ t.Fits n ∧ (0 ≤ q → n ≤ q ∧ q < n + 1) ∧ (q < 0 → n - 1 < q ∧ q ≤ n)
  | .int _, .flt _ _, _ => False
  | .flt r, .int c, w => w = .flt r (.num (r c.value))
  | .flt r, .flt _ (.num q), w => w = .flt r (.num (r q))
  | .flt r, .flt _ x, w => w = .flt r x

/-- The run assigns `v q` to the elements of type `t` at the positions `q` in `sel`, and changes nothing else; it is undefined if one
of these numbers can not be stored. -/
def Assigns (t : NumType) (c : Container) (m : Mem Num) (run : Res (Mem Num)) (sel : List Int → Prop) (v : List Int → Num) : Prop :=
  (∀ w : List Int → Num, (∀ q, InBox c.shape q → sel q → Stored t (v q) (w q)) →
    ∃ m', run = .ok m' ∧ SameOutside c m m' ∧
      ∀ q, InBox c.shape q → (sel q → c.get m' q = .ok (w q)) ∧ (¬ sel q → c.get m' q = c.get m q)) ∧
  ((∃ q, InBox c.shape q ∧ sel q ∧ ∀ w, ¬ Stored t (v q) w) → run = .error .overflow)

end Kwk.Spec
