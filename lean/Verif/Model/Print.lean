import Verif.Model.Effects
import Verif.Model.Slicer

/-!
# Model: stream output

`os << x` appends to a string.  The text of an element is a parameter; integers are written in decimal.
-/

namespace Kwk

variable {α : Type}

/-- What the callback of `operator<<` writes for the element of text `e` at position `is`;
`include/kwk/container/container.hpp:94-110`. -/
def printStep (spaces : String) (shp : Shape) (is : List Int) (e : String) : String :=
  (if shp.length ≥ 3 ∧ is.drop (shp.length - 2) = [0, 0] ∧ is.getD (shp.length - 3) 0 > 0 then "\n" else "") ++
  (if is.getLastD 0 = 0 then spaces ++ "[ " else "") ++
  (e ++ " ") ++
  (if is.getLastD 0 = shp.getLastD 0 - 1 then "]\n" else "")

/-- `os << container`; `include/kwk/container/container.hpp:85-114`. -/
def Container.print (text : α → String) (m : Mem α) (c : Container) : Res String := do
  let spaces := if c.label.isSome then "  " else ""
  let os := match c.label with
    | some l => l ++ ":\n"
    | none => ""
  if c.empty then pure (os ++ (spaces ++ "[ ]"))
  else do
    let r ← forEachIndexCtx (fun os a is m => do
      let v ← load m a
      pure (os ++ printStep spaces c.shape is (text v), m)) os c m
    pure r.1.callers

/-- The parts that `os << end_expression` writes; `include/kwk/utility/end.hpp:41-47`. -/
structure EndText where
  /-- `f * `, written unless 1 -/
  factor : Option Int
  /-- `/d`, written unless 1 -/
  divisor : Option Int
  /-- `+o` or `-o`, written unless 0 -/
  offset : Option Int
  deriving DecidableEq, Repr

/-- The decisions of `os << end_expression`; `include/kwk/utility/end.hpp:43-45`. -/
def EndT.text (e : EndT) : EndText where
  factor := if e.frac.num ≠ 1 then some e.frac.num else none
  divisor := if e.frac.denum ≠ 1 then some e.frac.denum else none
  offset := if e.shift ≠ 0 then some e.shift else none

/-- The characters written; `include/kwk/utility/end.hpp:43-45`. -/
def EndText.render (t : EndText) : String :=
  (match t.factor with
    | some f => toString f ++ " * end"
    | none => "end") ++
  (match t.divisor with
    | some d => "/" ++ toString d
    | none => "") ++
  (match t.offset with
    | some o => (if o ≥ 0 then "+" else "") ++ toString o
    | none => "")

/-- A bound written by `os << slicer`: a word, or a value. `include/kwk/utility/slicer.hpp:153-166`. -/
inductive BoundText where
  | begin
  | end_
  | value (b : Bound)
  deriving DecidableEq, Repr

/-- `len * factor`; `include/kwk/utility/slicer.hpp:157, 164, 165`. -/
def Bound.scale : Bound → Int → Bound
  | .int i, f => .int (i * f)
  | .ext e, f => .ext (e.mul f)

/-- `a + b` on bounds; `none`: does not compile (two `end` expressions). `include/kwk/utility/slicer.hpp:164`. -/
def Bound.plus : Bound → Bound → Option Bound
  | .int i, .int j => some (.int (i + j))
  | .int i, .ext e => some (.ext (e.add i))
  | .ext e, .int j => some (.ext (e.add j))
  | .ext _, .ext _ => none

/-- `a - b` on bounds; `none`: does not compile. `include/kwk/utility/slicer.hpp:157`. -/
def Bound.minus : Bound → Bound → Option Bound
  | .int i, .int j => some (.int (i - j))
  | .int i, .ext e => some (.ext (EndT.rsub i e))
  | .ext e, .int j => some (.ext (e.sub j))
  | .ext _, .ext _ => none

/-- The lambda `start` of `os << slicer`; `none`: does not compile. `include/kwk/utility/slicer.hpp:153-158`. -/
def startText (factor : Int) : Option Bound → Option Bound → Option Bound → Option BoundText
  | some b, _, _ => some (.value b)
  | none, some e, some l => (e.minus (l.scale factor)).map .value
  | none, _, _ => some .begin

/-- The lambda `stop` of `os << slicer`; `none`: does not compile. `include/kwk/utility/slicer.hpp:160-166`. -/
def stopText (factor : Int) : Option Bound → Option Bound → Option Bound → Option BoundText
  | _, some e, _ => some (.value e)
  | some b, none, some l => (b.plus (l.scale factor)).map .value
  | none, none, some l => some (.value (l.scale factor))
  | _, none, none => some .end_

/-- The start, step and stop written by `os << slicer`; `none`: does not compile.
`include/kwk/utility/slicer.hpp:146-173`. -/
def sliceText (begin : Option Bound) (step : Option Int) (stop len : Option Bound) :
    Option (BoundText × Option Int × BoundText) :=
  (startText (step.getD 1) begin stop len).bind fun x =>
  (stopText (step.getD 1) begin stop len).bind fun y => some (x, step, y)

/-- The characters of a bound; `include/kwk/utility/slicer.hpp:153-170`. -/
def BoundText.render : BoundText → String
  | .begin => "begin"
  | .end_ => "end"
  | .value (.int i) => toString i
  | .value (.ext e) => e.text.render

/-- `os << slicer`; `none`: does not compile. `include/kwk/utility/slicer.hpp:146-173`. -/
def slicerText (begin : Option Bound) (step : Option Int) (stop len : Option Bound) : Option String :=
  (sliceText begin step stop len).map fun (x, s, y) =>
    x.render ++ ":" ++
    (match s with
      | some s => toString s ++ ":"
      | none => "") ++ y.render

end Kwk
