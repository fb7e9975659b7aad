import Mathlib.Tactic.Ring
import Verif.Spec.Reader

/-! # Lemmas: reading texts -/

namespace Kwk
open Spec

theorem lex_digit {c : Char} (h : c.isDigit = true) (cur : Option Nat) (r : List Char) :
    lex cur (c :: r) = lex (some (10 * cur.getD 0 + (c.toNat - '0'.toNat))) r := by
  rw [lex.eq_def]
  split <;> simp_all

theorem lex_digits (ds : List Char) (h : ∀ c ∈ ds, c.isDigit = true) (a : Nat) (r : List Char) :
    lex (some a) (ds ++ r) = lex (some (Nat.ofDigitChars 10 ds a)) r := by
  induction ds generalizing a with
  | nil => simp
  | cons c ds ih =>
    rw [List.cons_append, lex_digit (h c (by simp)), Nat.ofDigitChars_cons, ih (fun x hx => h x (by simp [hx]))]
    rfl

theorem lex_nat (n : Nat) (r : List Char) : lex none (n.repr.toList ++ r) = lex (some n) r := by
  rw [Nat.toList_repr]
  have hd : ∀ c ∈ Nat.toDigits 10 n, c.isDigit = true := fun c hc =>
    Nat.isDigit_of_mem_toDigits (by decide) (by decide) hc
  have hv := Nat.ofDigitChars_ten_toDigits (n := n)
  cases hl : Nat.toDigits 10 n with
  | nil => exact absurd hl Nat.toDigits_ne_nil
  | cons c ds =>
    rw [hl] at hd hv
    rw [List.cons_append, lex_digit (hd c (by simp)), lex_digits _ (fun x hx => hd x (by simp [hx]))]
    rw [Nat.ofDigitChars_cons] at hv
    rw [← hv]; rfl

/-- Texts that end a number. -/
def Follow (r : List Char) : Prop := ∀ c r', r = c :: r' → c.isDigit = false ∧ c ≠ '_'

theorem lex_flush (n : Nat) {r : List Char} (h : Follow r) : lex (some n) r = (lex none r).map (.num n :: ·) := by
  cases r with
  | nil => rfl
  | cons c r =>
    have := h c r rfl
    rw [lex.eq_def, lex.eq_def none]
    split <;> simp_all [flush, Function.comp_def]

/-- The words of an integer. -/
def intToks (i : Int) : List Tok := if 0 ≤ i then [.num i.toNat] else [.minus, .num (-i).toNat]

/-- The mark of constants. -/
def mark (k : Bool) : String := if k then "_c" else ""

theorem lex_mark (n : Nat) (k : Bool) {r : List Char} (h : Follow r) :
    lex (some n) ((mark k).toList ++ r) = (lex none r).map (.num n :: ·) := by
  cases k
  · exact lex_flush n h
  · rfl

theorem lex_int (i : Int) (k : Bool) {r : List Char} (h : Follow r) :
    lex none ((toString i).toList ++ ((mark k).toList ++ r)) = (lex none r).map (intToks i ++ ·) := by
  rw [Int.toString_eq_repr, Int.repr_eq_if]
  unfold intToks
  split
  · rw [lex_nat, lex_mark _ k h]
    rfl
  · rw [String.toList_append, show "-".toList = ['-'] from rfl]
    simp only [List.cons_append, List.nil_append, lex]
    rw [lex_nat, lex_mark _ k h]
    simp [Function.comp_def, flush]

/-- The factor of a written `end` expression. -/
def factorText (f : Int) (k : Bool) : String := if f ≠ 1 then toString f ++ mark k ++ " * end" else "end"
/-- The divisor. -/
def divisorText (d : Int) (k : Bool) : String := if d ≠ 1 then "/" ++ (toString d ++ mark k) else ""
/-- The offset. -/
def offsetText (o : Int) (k : Bool) : String :=
  if o ≠ 0 then (if 0 ≤ o then "+" else "") ++ (toString o ++ mark k) else ""

theorem Follow.nil : Follow [] := by intro c r h; cases h
theorem Follow.cons {c : Char} {r : List Char} (h : c.isDigit = false ∧ c ≠ '_') : Follow (c :: r) := by
  intro c' r' e
  cases e
  exact h

theorem lex_offset (o : Int) (k : Bool) : lex none (offsetText o k).toList =
    some (if 0 < o then [.plus, .num o.toNat] else if o < 0 then [.minus, .num (-o).toNat] else []) ∧
    Follow (offsetText o k).toList := by
  unfold offsetText
  rcases lt_trichotomy o 0 with h | rfl | h
  · rw [if_pos h.ne, if_neg (not_le.2 h), if_neg (not_lt.2 h.le), if_pos h]
    have e := lex_int o k Follow.nil
    rw [List.append_nil, ← String.toList_append] at e
    refine ⟨by simpa [lex, intToks, not_le.2 h, flush] using e, ?_⟩
    rw [Int.toString_eq_repr, Int.repr_eq_if, if_neg (not_le.2 h)]
    simp only [String.toList_append, show "-".toList = ['-'] from rfl,
      show "".toList = [] from rfl, List.nil_append, List.cons_append]
    exact Follow.cons (by decide)
  · exact ⟨rfl, Follow.nil⟩
  · rw [if_pos h.ne', if_pos h.le, if_pos h]
    have e := lex_int o k Follow.nil
    rw [List.append_nil, ← String.toList_append] at e
    rw [String.toList_append, show "+".toList = ['+'] from rfl]
    refine ⟨?_, Follow.cons (by decide)⟩
    simp only [List.cons_append, List.nil_append, lex, e]
    simp [intToks, h.le, flush]

theorem lex_divisor (d : Int) (k : Bool) {r : List Char} (h : Follow r) :
    lex none ((divisorText d k).toList ++ r) = (lex none r).map ((if d ≠ 1 then .over :: intToks d else []) ++ ·) ∧
    Follow ((divisorText d k).toList ++ r) := by
  unfold divisorText
  split
  · have e := lex_int d k h
    rw [String.toList_append, String.toList_append, show "/".toList = ['/'] from rfl]
    refine ⟨?_, Follow.cons (by decide)⟩
    simp only [List.cons_append, List.nil_append, List.append_assoc, lex, e]
    simp [flush, Function.comp_def]
  · exact ⟨by simp, by simpa using h⟩

theorem lex_factor (f : Int) (k : Bool) {r : List Char} :
    lex none ((factorText f k).toList ++ r) =
      (lex none r).map ((if f ≠ 1 then intToks f ++ [.times, .ext] else [.ext]) ++ ·) := by
  unfold factorText
  split
  · simp only [String.toList_append, List.append_assoc]
    rw [show " * end".toList = [' ', '*', ' ', 'e', 'n', 'd'] from rfl,
      lex_int f k (r := [' ', '*', ' ', 'e', 'n', 'd'] ++ r) (Follow.cons (by decide))]
    simp [lex, flush, Function.comp_def]
  · simp [lex, flush]

theorem evalRest_offset (n s t : ℚ) (o : Int) :
    evalRest n s t (if 0 < o then [.plus, .num o.toNat] else if o < 0 then [.minus, .num (-o).toNat] else []) =
      some (s + t + o) := by
  rcases lt_trichotomy o 0 with h | rfl | h
  · rw [if_neg (not_lt.2 h.le), if_pos h]
    have : (((-o).toNat : ℕ) : ℚ) = -o := by exact_mod_cast Int.toNat_of_nonneg (by omega)
    simp [evalRest, atom, this]
  · simp [evalRest]
  · rw [if_pos h]
    have : ((o.toNat : ℕ) : ℚ) = o := by exact_mod_cast Int.toNat_of_nonneg h.le
    simp [evalRest, atom, this]

theorem evalRest_divisor (n s t : ℚ) (d : Int) (l : List Tok) :
    evalRest n s t ((if d ≠ 1 then .over :: intToks d else []) ++ l) = evalRest n s (t / d) l := by
  by_cases hd : d = 1
  · simp [hd]
  · rw [if_pos hd]
    unfold intToks
    split <;> rename_i h
    · have : ((d.toNat : ℕ) : ℚ) = d := by exact_mod_cast Int.toNat_of_nonneg h
      simp [evalRest, atom, this]
    · have : (((-d).toNat : ℕ) : ℚ) = -d := by exact_mod_cast Int.toNat_of_nonneg (by omega)
      simp [evalRest, atom, this]

theorem evalToks_factor (n : ℚ) (f : Int) (l : List Tok) :
    evalToks n ((if f ≠ 1 then intToks f ++ [.times, .ext] else [.ext]) ++ l) = evalRest n 0 (f * n) l := by
  by_cases hf : f = 1
  · simp [hf, evalToks, atom]
  · rw [if_pos hf]
    unfold intToks
    split <;> rename_i h
    · have : ((f.toNat : ℕ) : ℚ) = f := by exact_mod_cast Int.toNat_of_nonneg h
      simp [evalToks, evalRest, atom, this]
    · have : (((-f).toNat : ℕ) : ℚ) = -f := by exact_mod_cast Int.toNat_of_nonneg (by omega)
      simp [evalToks, evalRest, atom, this]

/-- A written `end` expression is read as its parts say. -/
theorem read_end (f d o : Int) (k1 k2 k3 : Bool) (n : ℚ) :
    readText (factorText f k1 ++ divisorText d k2 ++ offsetText o k3) n = some (f * n / d + o) := by
  unfold readText
  obtain ⟨e1, h1⟩ := lex_offset o k3
  obtain ⟨e2, -⟩ := lex_divisor d k2 h1
  rw [String.toList_append, String.toList_append, List.append_assoc, lex_factor, e2, e1]
  simp only [Option.map_some, Option.bind_some]
  rw [evalToks_factor, evalRest_divisor, evalRest_offset, zero_add]

theorem read_int (i : Int) (k : Bool) (n : ℚ) : readText (toString i ++ mark k) n = some (i : ℚ) := by
  have e := lex_int i k Follow.nil
  rw [List.append_nil, ← String.toList_append] at e
  unfold readText
  rw [e]
  simp only [lex, flush, Option.map_some, Option.bind_some, List.append_nil]
  unfold intToks
  split <;> rename_i h
  · have : ((i.toNat : ℕ) : ℚ) = i := by exact_mod_cast Int.toNat_of_nonneg h
    simp [evalToks, evalRest, atom, this]
  · have : (((-i).toNat : ℕ) : ℚ) = -i := by exact_mod_cast Int.toNat_of_nonneg (by omega)
    simp [evalToks, evalRest, atom, this]

theorem lex_colon (cur : Option Nat) (a : List Char) (h : ':' ∈ a) : lex cur a = none := by
  fun_induction lex cur a <;> simp_all
  rcases h with rfl | h
  · rename_i hd _
    exact absurd hd (by decide)
  · rename_i ih
    exact ih h

theorem no_colon {txt : String} {n q : ℚ} (h : readText txt n = some q) : ':' ∉ txt.toList := by
  intro hc
  unfold readText at h
  rw [lex_colon none _ hc] at h
  cases h

theorem cut_nil {a : List Char} (h : ':' ∉ a) : cut a = [a] := by
  induction a with
  | nil => rfl
  | cons c a ih =>
    simp only [List.mem_cons, not_or] at h
    rw [cut.eq_def]
    split
    · rename_i e; cases e
    · rename_i e; cases e; exact absurd rfl h.1
    · rename_i e; cases e; rw [ih h.2]; rfl

theorem cut_colon {a : List Char} (h : ':' ∉ a) (r : List Char) : cut (a ++ ':' :: r) = a :: cut r := by
  induction a with
  | nil => rfl
  | cons c a ih =>
    simp only [List.mem_cons, not_or] at h
    rw [List.cons_append, cut.eq_def]
    split
    · rename_i e; cases e
    · rename_i e; cases e; exact absurd rfl h.1
    · rename_i e; cases e; rw [ih h.2]; rfl

theorem numbers_digit {c : Char} (h : c.isDigit = true) (neg : Bool) (cur : Option Nat) (r : List Char) :
    numbersFrom neg cur (c :: r) = numbersFrom neg (some (10 * cur.getD 0 + (c.toNat - '0'.toNat))) r := by
  rw [numbersFrom.eq_def]
  split <;> simp_all

theorem numbers_digits (ds : List Char) (h : ∀ c ∈ ds, c.isDigit = true) (neg : Bool) (a : Nat) (r : List Char) :
    numbersFrom neg (some a) (ds ++ r) = numbersFrom neg (some (Nat.ofDigitChars 10 ds a)) r := by
  induction ds generalizing a with
  | nil => simp
  | cons c ds ih =>
    rw [List.cons_append, numbers_digit (h c (by simp)), Nat.ofDigitChars_cons, ih (fun x hx => h x (by simp [hx]))]
    rfl

theorem numbers_nat (neg : Bool) (n : Nat) (r : List Char) :
    numbersFrom neg none (n.repr.toList ++ r) = numbersFrom neg (some n) r := by
  rw [Nat.toList_repr]
  have hd : ∀ c ∈ Nat.toDigits 10 n, c.isDigit = true := fun c hc =>
    Nat.isDigit_of_mem_toDigits (by decide) (by decide) hc
  have hv := Nat.ofDigitChars_ten_toDigits (n := n)
  cases hl : Nat.toDigits 10 n with
  | nil => exact absurd hl Nat.toDigits_ne_nil
  | cons c ds =>
    rw [hl] at hd hv
    rw [List.cons_append, numbers_digit (hd c (by simp)), numbers_digits _ (fun x hx => hd x (by simp [hx]))]
    rw [Nat.ofDigitChars_cons] at hv
    rw [← hv]; rfl

theorem numbers_flush (neg : Bool) (n : Nat) {r : List Char} (h : Follow r) :
    numbersFrom neg (some n) r = (if neg then -(n : Int) else n, false) :: numbersFrom false none r := by
  cases r with
  | nil => rfl
  | cons c r =>
    have := h c r rfl
    rw [numbersFrom.eq_def, numbersFrom.eq_def false none]
    split <;> simp_all [ending]

theorem numbers_int (i : Int) (k : Bool) {r : List Char} (h : Follow r) :
    numbersFrom false none ((toString i).toList ++ ((mark k).toList ++ r)) = (i, k) :: numbersFrom false none r := by
  rw [Int.toString_eq_repr, Int.repr_eq_if]
  split
  · rename_i h0
    rw [numbers_nat]
    cases k
    · simp only [mark, Bool.false_eq_true, if_false, String.toList_empty, List.nil_append]
      rw [numbers_flush _ _ h]
      simp [Int.toNat_of_nonneg h0]
    · simp [mark, numbersFrom, Int.toNat_of_nonneg h0]
  · rename_i h0
    have e : (((-i).toNat : ℕ) : Int) = -i := Int.toNat_of_nonneg (by omega)
    rw [String.toList_append, show "-".toList = ['-'] from rfl]
    simp only [List.cons_append, List.nil_append, numbersFrom, ending]
    rw [numbers_nat]
    cases k
    · simp only [mark, Bool.false_eq_true, if_false, String.toList_empty, List.nil_append]
      rw [numbers_flush _ _ h]
      simp [e]
    · simp [mark, numbersFrom, e]

theorem numbers_skip {w : List Char} (h : ∀ c ∈ w, c.isDigit = false ∧ c ≠ '-') (r : List Char) :
    numbersFrom false none (w ++ r) = numbersFrom false none r := by
  induction w with
  | nil => rfl
  | cons c w ih =>
    have := h c (by simp)
    rw [List.cons_append, numbersFrom.eq_def]
    split <;> simp_all [ending]

end Kwk
