import Verif.Model.Known
import Verif.Spec.TypedSlice

/-!
# Specification: slicers whose numbers are known at compile time
-/

namespace Kwk.Spec

/-- An expression on `end`, with numbers that may be compile-time constants. -/
inductive EndExprK where
  | all
  | add (e : EndExprK) (o : Known)
  | sub (e : EndExprK) (o : Known)
  | rsub (o : Known) (e : EndExprK)
  | mul (e : EndExprK) (o : Known)
  | div (e : EndExprK) (o : Known)

namespace EndExprK

/-- The object built for the expression. -/
def build : EndExprK → Res EndK
  | all => pure .all
  | add e o => do EndK.add (← e.build) o
  | sub e o => do EndK.sub (← e.build) o
  | rsub o e => do EndK.rsub o (← e.build)
  | mul e o => do EndK.mul (← e.build) o
  | div e o => do EndK.div (← e.build) o

/-- The numbers written in the expression. -/
def numbers : EndExprK → List Known
  | all => []
  | add e o => o :: e.numbers
  | sub e o => o :: e.numbers
  | rsub o e => o :: e.numbers
  | mul e o => o :: e.numbers
  | div e o => o :: e.numbers

/-- The same expression with numbers known at run time only. -/
def erase : EndExprK → EndExprT
  | all => .all
  | add e o => .add e.erase o.coord
  | sub e o => .sub e.erase o.coord
  | rsub o e => .rsub o.coord e.erase
  | mul e o => .mul e.erase o.coord
  | div e o => .div e.erase o.coord

end EndExprK

/-- A begin, end or length as written: a number or an expression on `end`. -/
inductive WrittenBound where
  | int (i : Known)
  | ext (e : EndExprK)

namespace WrittenBound

/-- The object built for the bound. -/
def build : WrittenBound → Res BoundK
  | int i => pure (.int i)
  | ext e => do pure (.ext (← e.build))

/-- The numbers on which the value of the bound depends, on an axis of extent `d`. -/
def numbers (d : Known) : WrittenBound → List Known
  | int i => [i]
  | ext e => d :: e.numbers

/-- The same bound with numbers known at run time only. -/
def erase : WrittenBound → BoundT
  | int i => .int i.coord
  | ext e => .ext e.erase

end WrittenBound

/-- The object built for an optional bound. -/
def buildBound : Option WrittenBound → Res (Option BoundK)
  | none => pure none
  | some b => do pure (some (← b.build))

/-- The numbers on which the extent of `slice(from = b, by = s, to = e, length = l)` depends, on an axis of extent `d`: the length, if
it is given; otherwise the bounds, `to` being `d` by default, and the step. -/
def dependsOn (d : Known) (b : Option WrittenBound) (s : Option Known) (e l : Option WrittenBound) : List Known :=
  match l with
  | some l => l.numbers d
  | none =>
    (match b with | some b => b.numbers d | none => []) ++ (match e with | some e => e.numbers d | none => [d]) ++ s.toList

/-- The object without the knowledge of what is a constant. -/
def eraseEnd (e : EndK) : EndC := ⟨e.shift.coord, e.num.coord, e.denum.coord⟩

/-- The bound without the knowledge of what is a constant. -/
def eraseBound : BoundK → BoundC
  | .int i => .int i.coord
  | .ext e => .ext (eraseEnd e)

/-- The slicer without the knowledge of what is a constant. -/
def eraseSlicer : SlicerK → SlicerC
  | .joker => .joker
  | .index i => .index i.coord
  | .ext e => .ext (eraseEnd e)
  | .interval b s e l => .interval (b.map eraseBound) (s.map (·.coord)) (e.map eraseBound) (l.map eraseBound)

/-- A slicer as written. -/
inductive WrittenSlicer where
  | joker
  | index (i : Known)
  | ext (e : EndExprK)
  | interval (begin : Option WrittenBound) (step : Option Known) (stop len : Option WrittenBound)

namespace WrittenSlicer

/-- The object built for the slicer. -/
def build : WrittenSlicer → Res SlicerK
  | joker => pure .joker
  | index i => pure (.index i)
  | ext e => do pure (.ext (← e.build))
  | interval b s e l => do pure (.interval (← buildBound b) s (← buildBound e) (← buildBound l))

/-- The same slicer with numbers known at run time only. -/
def erase : WrittenSlicer → SlicerT
  | joker => .joker
  | index i => .index i.coord
  | ext e => .ext e.erase
  | interval b s e l => .interval (b.map (·.erase)) (s.map (·.coord)) (e.map (·.erase)) (l.map (·.erase))

/-- On an axis of extent `d`, the place where the slice starts is not written, or depends on a number known at run time only. -/
def RunTimeStart (d : Known) : WrittenSlicer → Prop
  | joker => True
  | index i => i.static = false
  | ext e => ∃ x ∈ d :: e.numbers, x.static = false
  | interval none _ _ _ => True
  | interval (some b) _ _ _ => ∃ x ∈ b.numbers d, x.static = false

end WrittenSlicer

end Kwk.Spec
