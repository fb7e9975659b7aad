import Verif.Spec.Machine
import Verif.Spec.Slice
import Verif.Model.TypedViews

/-!
# Specification: slicers with typed numbers

The arguments of a slicing operation with the integer types of all numbers; `erase` forgets the types, so that
`Spec.Picks` says what is selected.  `build` is what C++ builds for the arguments.
-/

namespace Kwk.Spec

/-- An expression on `end` with typed numbers. -/
inductive EndExprT where
  | all
  | add (e : EndExprT) (o : Coord)
  | sub (e : EndExprT) (o : Coord)
  | rsub (o : Coord) (e : EndExprT)
  | mul (e : EndExprT) (o : Coord)
  | div (e : EndExprT) (o : Coord)

namespace EndExprT

/-- The expression without types. -/
def erase : EndExprT → EndExpr
  | all => .all
  | add e o => .add e.erase o.value
  | sub e o => .sub e.erase o.value
  | rsub o e => .rsub o.value e.erase
  | mul e o => .mul e.erase o.value
  | div e o => .div e.erase o.value

/-- The object built for the expression. -/
def build : EndExprT → Res EndC
  | all => pure .all
  | add e o => do EndC.add (← e.build) o
  | sub e o => do EndC.sub (← e.build) o
  | rsub o e => do EndC.rsub o (← e.build)
  | mul e o => do EndC.mul (← e.build) o
  | div e o => do EndC.div (← e.build) o

/-- Offset, factor and divisor of the expression, over the integers. -/
def offset (e : EndExprT) : Int := e.erase.build.shift
/-- see `offset` -/
def factor (e : EndExprT) : Int := e.erase.build.frac.num
/-- see `offset` -/
def divisor (e : EndExprT) : Int := e.erase.build.frac.denum

/-- All types satisfy `T`, and everything computed is between `-2^31` and `2^31`. -/
def Moderate (T : IntType → Prop) : EndExprT → Prop
  | all => True
  | add e o => e.Moderate T ∧ T o.type ∧ I32 o.value ∧ I32 (o.value * e.divisor) ∧
      I32 (e.offset + o.value * e.divisor)
  | sub e o => e.Moderate T ∧ T o.type ∧ I32 o.value ∧ I32 (o.value * e.divisor) ∧
      I32 (e.offset - o.value * e.divisor)
  | rsub o e => e.Moderate T ∧ T o.type ∧ I32 o.value ∧ I32 (o.value * e.divisor) ∧
      I32 (o.value * e.divisor - e.offset)
  | mul e o => e.Moderate T ∧ T o.type ∧ I32 o.value ∧ I32 (e.offset * o.value) ∧ I32 (e.factor * o.value)
  | div e o => e.Moderate T ∧ T o.type ∧ I32 o.value ∧ I32 (e.divisor * o.value)

/-- The expression can be evaluated for the extent `d`: the types satisfy `T`, nothing leaves the range, and no negative number is
divided. -/
def FitsAt (T : IntType → Prop) (d : Coord) (e : EndExprT) : Prop :=
  T d.type ∧ e.Moderate T ∧ I32 (d.value * e.factor) ∧ 0 ≤ d.value * e.factor + e.offset ∧
    d.value * e.factor + e.offset < 2147483648 ∧ 0 < e.divisor

end EndExprT

/-- A begin, end or length: a typed integer or an expression on `end`. -/
inductive BoundT where
  | int (i : Coord)
  | ext (e : EndExprT)

namespace BoundT

/-- The bound without types. -/
def erase : BoundT → Bound
  | int i => .int i.value
  | ext e => .ext e.erase.build

/-- The object built for the bound. -/
def build : BoundT → Res BoundC
  | int i => pure (.int i)
  | ext e => do pure (.ext (← e.build))

/-- See `EndExprT.FitsAt`. -/
def FitsAt (T : IntType → Prop) (d : Coord) : BoundT → Prop
  | int _ => True
  | ext e => e.FitsAt T d

end BoundT

/-- The argument for one axis. -/
inductive SlicerT where
  | joker
  | index (i : Coord)
  | ext (e : EndExprT)
  | interval (begin : Option BoundT) (step : Option Coord) (stop : Option BoundT) (len : Option BoundT)

namespace SlicerT

/-- The slicer without types. -/
def erase : SlicerT → Slicer
  | joker => .joker
  | index i => .index i.value
  | ext e => .ext e.erase.build
  | interval b s e l => .interval (b.map (·.erase)) (s.map (·.value)) (e.map (·.erase)) (l.map (·.erase))

/-- The object built for an optional bound. -/
def buildOpt : Option BoundT → Res (Option BoundC)
  | none => pure none
  | some b => do pure (some (← b.build))

/-- The object built for the argument. -/
def build : SlicerT → Res SlicerC
  | joker => pure .joker
  | index i => pure (.index i)
  | ext e => do pure (.ext (← e.build))
  | interval b s e l => do
    let b ← buildOpt b
    let e ← buildOpt e
    let l ← buildOpt l
    pure (.interval b s e l)

/-- The step, `1` by default. -/
def step : SlicerT → Coord
  | interval _ (some s) _ _ => s
  | _ => ⟨.i32, 1⟩

/-- The first index, if it is written as a number. -/
def first : SlicerT → Option Coord
  | index i => some i
  | interval (some (.int i)) _ _ _ => some i
  | _ => none

/-- The slicer can be evaluated for the extent `d`, and its step, of a type that represents it, times the stride `g` of the axis is in
range. -/
def FitsAt (T : IntType → Prop) (d : Coord) (g : Int) (x : SlicerT) : Prop :=
  x.step.type.Fits x.step.value ∧ I32 (x.step.value * g) ∧ (x.step.value < 0 → T x.step.type) ∧
  match x with
  | joker => True
  | index _ => True
  | ext e => e.FitsAt T d
  | interval b _ e l => (∀ y ∈ b, y.FitsAt T d) ∧ (∀ y ∈ e, y.FitsAt T d) ∧ (∀ y ∈ l, y.FitsAt T d)

/-- See `FitsAt`: one slicer per axis, `g` are the strides. -/
def FitsAll (T : IntType → Prop) : List Coord → List Int → List SlicerT → Prop
  | d :: s, g :: gs, x :: xs => x.FitsAt T d g ∧ FitsAll T s gs xs
  | _, _, _ => True

end SlicerT

end Kwk.Spec
