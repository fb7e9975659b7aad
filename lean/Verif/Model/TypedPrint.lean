import Verif.Model.Print
import Verif.Model.TypedViews

/-!
# Model: stream output of typed numbers

A number is written according to its type.  Which members of an object are constants (`kwk::constant<N>`) is a parameter:
the theorems hold for all choices.
-/

namespace Kwk

/-- `os << v`, after `std::showpos` if `pos`; `k`: `v` is a `constant<N>`, written as `+N` and `_c`.  Numbers of character types
are written as characters, and `std::showpos` has no effect on unsigned types.  Simplification: characters are those of
Latin-1. C++ [ostream.inserters.arithmetic], [facet.num.put.virtuals]; `include/kwk/utility/fixed.hpp:81-84`. -/
def Coord.put (pos k : Bool) (v : Coord) : String :=
  if v.type.bits = 8 ∧ k = false then String.singleton (Char.ofNat (IntType.u8.wrap v.value).toNat)
  else (if pos ∧ (if k then v.type.promote else v.type).signed ∧ 0 ≤ v.value then "+" else "") ++ toString v.value ++
    (if k then "_c" else "")

/-- `os << e`; `k`: which of factor, divisor and offset are constants.  The comparisons with 1 and 0 convert to the common type.
`include/kwk/utility/end.hpp:41-47`. -/
def EndC.print (k : Bool × Bool × Bool) (e : EndC) : String :=
  (if e.num.value ≠ 1 then e.num.put false k.1 ++ " * end" else "end") ++
  (if e.denum.value ≠ 1 then "/" ++ e.denum.put false k.2.1 else "") ++
  (if e.shift.value ≠ 0 then e.shift.put true k.2.2 else "")

/-- `os << v` for a begin or end; `include/kwk/utility/slicer.hpp:153-170`. -/
def BoundC.print (k : Bool × Bool × Bool) : BoundC → String
  | .int i => i.put false k.1
  | .ext e => e.print k

/-- A begin or end, or the word written in its place; `include/kwk/utility/slicer.hpp:153-166`. -/
def boundOr (k : Bool × Bool × Bool) (word : String) : Option BoundC → String
  | some b => b.print k
  | none => word

/-- `os << slicer` for a slicer without length; `include/kwk/utility/slicer.hpp:146-173`. -/
def slicerPrint (kb : Bool × Bool × Bool) (ks : Bool) (ke : Bool × Bool × Bool) (begin : Option BoundC)
    (step : Option Coord) (stop : Option BoundC) : String :=
  boundOr kb "begin" begin ++ ":" ++
  (match step with
    | some s => s.put false ks ++ ":"
    | none => "") ++
  boundOr ke "end" stop

/-- `+v`: integral promotion of a number, or the constant itself; `include/kwk/utility/container/shape.hpp:321`,
`include/kwk/utility/fixed.hpp:87`. -/
def Coord.plus (k : Bool) (v : Coord) : Coord := if k then v else ⟨v.type.promote, v.value⟩

/-- `os << shape` and `os << stride`, each extent being a constant or not;
`include/kwk/utility/container/shape.hpp:318-323`, `include/kwk/utility/container/stride.hpp:110-115`. -/
def shapePrint (s : List (Coord × Bool)) : String :=
  s.foldl (fun os (v, k) => os ++ (" " ++ (v.plus k).put false k)) "[" ++ " ]"

/-- `os << position`: the loop writes the coordinate `p[i]`, and a comma unless it is the last.
`include/kwk/utility/position.hpp:43-53`. -/
def positionPrint (p : List Int) : String :=
  (List.range p.length).foldl (fun os i => os ++ toString (p.getD i 0) ++ (if i + 1 ≠ p.length then ", " else ""))
    ("position<" ++ toString p.length ++ ">(") ++ ")"

/-- `os << ratio`; `include/kwk/utility/ratio.hpp:21-24`. -/
def ratioPrint (kn kd : Bool) (n d : Coord) : String := n.put false kn ++ "/" ++ d.put false kd

end Kwk
