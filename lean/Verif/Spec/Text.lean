import Verif.Spec.Box
import Verif.Spec.Slice
import Verif.Model.Print

/-!
# Specification: how containers, `end` expressions and slicers are written
-/

namespace Kwk.Spec

/-- Concatenation. -/
def concat : List String → String
  | [] => ""
  | s :: l => s ++ concat l

/-- A row: its elements between brackets, each followed by a space. -/
def rowText (spaces : String) (es : List String) : String :=
  spaces ++ "[ " ++ concat (es.map (· ++ " ")) ++ "]\n"

/-- A panel of `a` rows of `b` elements; `val i j` is the text of an element. -/
def panelText (spaces : String) (a b : Int) (val : Int → Int → String) : String :=
  concat ((upTo a).map fun i => rowText spaces ((upTo b).map fun j => val i j))

/-- Panels separated by empty lines. -/
def panelsText (ps : List String) : String := concat (ps.intersperse "\n")

/-- The label line. -/
def labelText : Option String → String
  | some l => l ++ ":\n"
  | none => ""

/-- Rows are indented under a label. -/
def indent : Option String → String
  | some _ => "  "
  | none => ""

end Kwk.Spec
