import Verif.Model.Prefilled
import Verif.Model.TypedSearch
import Verif.Model.Options

/-!
# Model: axes as values, and the container concepts
-/

namespace Kwk

/-- The identifier of an indexed axis: `implicit<N>` is `axis_<-N-1>`, `along<N>` is `axis_<N>`;
`include/kwk/settings/axis.hpp:34-48, 118-119, 126-127`. -/
def AxisId.code : AxisId → Option Int
  | .implicit n => some (-(n : Int) - 1)
  | .along n => some n
  | .named _ => none

/-- The axis of an integer identifier; `include/kwk/settings/axis.hpp:118-119, 126-127`. -/
def AxisId.ofCode (i : Int) : AxisId := if i < 0 then .implicit (-i - 1).toNat else .along i.toNat

/-- An axis and its `value`: `joker` (`none`) or an integer; `include/kwk/settings/axis.hpp:24-31, 107`. -/
structure AxisVal where
  id : AxisId
  value : Option Coord
  deriving DecidableEq, Repr

/-- `a.value * b.value`; `include/kwk/utility/joker.hpp:27-29`, `include/kwk/settings/axis.hpp:91`. -/
def mulValue : Option Coord → Option Coord → Res (Option Coord)
  | some a, some b => do pure (some (← constMul a b))
  | _, _ => pure none

/-- Name of `compress(a, b)`; `include/kwk/settings/axis.hpp:93-97`. -/
def mergeId (a b : AxisId) : AxisId :=
  match a.code, b.code with
  | some i, some m => .ofCode (min m i)
  | none, some _ => a
  | _, none => b

/-- `compress(a, b)` of two axes; `include/kwk/settings/axis.hpp:87-98`. -/
def mergeAxes (a b : AxisVal) : Res AxisVal := do
  let v ← mulValue a.value b.value
  pure ⟨mergeId a.id b.id, v⟩

/-- `a.value == b.value`; `include/kwk/utility/joker.hpp:23-25`. -/
def valueEq : Option Coord → Option Coord → Bool
  | some a, some b => eqT a b
  | none, none => true
  | _, _ => false

/-- `a == b` of two axes; `include/kwk/settings/axis.hpp:109-117`. -/
def axisEq (a b : AxisVal) : Bool := decide (a.id = b.id) && valueEq a.value b.value

/-- Text of the identifier; `include/kwk/settings/axis.hpp:63-70, 73-79`. -/
def AxisId.text (a : AxisId) : String :=
  match a, a.code with
  | .named s, _ => s
  | _, some i => if i < 0 then "implicit<" ++ toString (-i - 1) ++ ">" else "along<" ++ toString i ++ ">"
  | _, none => ""

/-- Text of the value: `+a.value` for integers (never a character), `_` for a joker; `include/kwk/settings/axis.hpp:81-82`,
`include/kwk/utility/joker.hpp:21`. -/
def valueText : Option Coord → String
  | some v => toString v.value
  | none => "_"

/-- `os << axis`; `include/kwk/settings/axis.hpp:72-84`. -/
def AxisVal.text (a : AxisVal) : String := a.id.text ++ "[" ++ valueText a.value ++ "]"

/-! ## Concepts -/

variable {τ : Type}

/-- What the concepts see of the type of a container: `value_type`, `shape_type`, `kind()`;
`include/kwk/concepts/container.hpp:25-37`, `include/kwk/container/table.hpp:28-60`. -/
structure ContainerType (τ : Type) where
  elem : τ
  shape : Desc
  kind : Category
  deriving DecidableEq

/-- The settings given to a concept: a value type, a shape, both or none; `include/kwk/concepts/container.hpp:61-71`. -/
structure Wanted (τ : Type) where
  elem : Option τ := none
  size : Option Desc := none

/-- `concepts::container<T, settings...>`; missing settings are those of `T` itself;
`include/kwk/concepts/container.hpp:39-72`. -/
def isContainer [DecidableEq τ] (t : ContainerType τ) (w : Wanted τ) : Bool :=
  decide (t.elem = w.elem.getD t.elem) && isSimilar (w.size.getD t.shape) t.shape

/-- `concepts::table<T, settings...>`; `include/kwk/concepts/container.hpp:74-81`,
`include/kwk/container/settings/category.hpp:33-49`. -/
def isTable [DecidableEq τ] (t : ContainerType τ) (w : Wanted τ) : Bool := isContainer t w && decide (t.kind = .table)

/-- `concepts::view<T, settings...>`; `include/kwk/concepts/container.hpp:83-90`,
`include/kwk/container/settings/category.hpp:17-31`. -/
def isView [DecidableEq τ] (t : ContainerType τ) (w : Wanted τ) : Bool := isContainer t w && decide (t.kind = .view)

end Kwk
