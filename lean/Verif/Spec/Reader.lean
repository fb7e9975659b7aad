import Mathlib.Data.Rat.Floor
import Verif.Spec.EndExpr

/-!
# Specification: how a reader understands a text

Arithmetic expressions on the word `end` with the usual precedence of operators, and the numbers occurring in a text.
A number may be followed by `_c`.
-/

namespace Kwk.Spec

/-- The words of an arithmetic expression. -/
inductive Tok where
  | num (n : Nat)
  | ext
  | plus
  | minus
  | times
  | over
  deriving DecidableEq, Repr

/-- Ends the number being read. -/
def flush : Option Nat → List Tok → List Tok
  | none, l => l
  | some n, l => .num n :: l

/-- The words of a text; the first argument is the number formed by the digits just read. -/
def lex : Option Nat → List Char → Option (List Tok)
  | cur, [] => some (flush cur [])
  | cur, 'e' :: 'n' :: 'd' :: r => (lex none r).map fun l => flush cur (.ext :: l)
  | some n, '_' :: 'c' :: r => (lex none r).map fun l => .num n :: l
  | cur, ' ' :: r => (lex none r).map fun l => flush cur l
  | cur, '+' :: r => (lex none r).map fun l => flush cur (.plus :: l)
  | cur, '-' :: r => (lex none r).map fun l => flush cur (.minus :: l)
  | cur, '*' :: r => (lex none r).map fun l => flush cur (.times :: l)
  | cur, '/' :: r => (lex none r).map fun l => flush cur (.over :: l)
  | cur, c :: r => if c.isDigit then lex (some (10 * cur.getD 0 + (c.toNat - '0'.toNat))) r else none

/-- The value of a number or of `end`. -/
def atom (n : ℚ) : Tok → Option ℚ
  | .num k => some k
  | .ext => some n
  | _ => none

/-- Reads the rest of an expression after `s` plus the product `t`. -/
def evalRest (n : ℚ) : ℚ → ℚ → List Tok → Option ℚ
  | s, t, [] => some (s + t)
  | s, t, .times :: .minus :: x :: r => (atom n x).bind fun v => evalRest n s (t * -v) r
  | s, t, .times :: x :: r => (atom n x).bind fun v => evalRest n s (t * v) r
  | s, t, .over :: .minus :: x :: r => (atom n x).bind fun v => evalRest n s (t / -v) r
  | s, t, .over :: x :: r => (atom n x).bind fun v => evalRest n s (t / v) r
  | s, t, .plus :: x :: r => (atom n x).bind fun v => evalRest n (s + t) v r
  | s, t, .minus :: x :: r => (atom n x).bind fun v => evalRest n (s + t) (-v) r
  | _, _, _ => none

/-- Reads an expression. -/
def evalToks (n : ℚ) : List Tok → Option ℚ
  | .minus :: x :: r => (atom n x).bind fun v => evalRest n 0 (-v) r
  | x :: r => (atom n x).bind fun v => evalRest n 0 v r
  | [] => none

/-- The value of a text where `end` is `n`; `none`: not an arithmetic expression. -/
def readText (txt : String) (n : ℚ) : Option ℚ := (lex none txt.toList).bind (evalToks n)

example : readText "2 * end/3-1" 9 = some 5 ∧ readText "end3" 9 = none ∧ readText "-1 * end/-2+4" 6 = some 7 := by
  decide +kernel

/-- The parts of a text between colons. -/
def cut : List Char → List (List Char)
  | [] => [[]]
  | ':' :: r => [] :: cut r
  | c :: r => (c :: (cut r).headD []) :: (cut r).tail

/-- A bound of a slicer: the word `begin` or an expression. -/
def readBound (txt : List Char) (n : ℚ) : Option ℚ :=
  if txt = "begin".toList then some 0 else readText (.ofList txt) n

/-- The start, step and stop of the text `start:stop` or `start:step:stop`. -/
def readSlicer (txt : String) (n : ℚ) : Option (ℚ × ℚ × ℚ) :=
  match cut txt.toList with
  | [b, e] => (readBound b n).bind fun b => (readBound e n).map fun e => (b, 1, e)
  | [b, s, e] => (readBound b n).bind fun b => (readText (.ofList s) n).bind fun s =>
      (readBound e n).map fun e => (b, s, e)
  | _ => none

example : readSlicer "begin:2:end-1" 9 = some (0, 2, 8) ∧ readSlicer "3:end" 9 = some (3, 1, 9) := by decide +kernel

/-- The number being read, with its sign. -/
def ending (neg : Bool) : Option Nat → List (Int × Bool)
  | none => []
  | some n => [(if neg then -n else n, false)]

/-- The numbers occurring in a text, in order, each with whether it is followed by `_c`. -/
def numbersFrom : Bool → Option Nat → List Char → List (Int × Bool)
  | neg, cur, [] => ending neg cur
  | neg, some n, '_' :: 'c' :: r => (if neg then -n else n, true) :: numbersFrom false none r
  | neg, cur, '-' :: r => ending neg cur ++ numbersFrom true none r
  | neg, cur, c :: r =>
    if c.isDigit then numbersFrom neg (some (10 * cur.getD 0 + (c.toNat - '0'.toNat))) r
    else ending neg cur ++ numbersFrom false none r

/-- The numbers occurring in a text. -/
def numbersIn (txt : String) : List (Int × Bool) := numbersFrom false none txt.toList

example : numbersIn "[ 20 3_c -7 ]" = [(20, false), (3, true), (-7, false)] := by decide +kernel

end Kwk.Spec
