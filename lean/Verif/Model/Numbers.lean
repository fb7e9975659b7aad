import Verif.Model.TypedSearch
import Verif.Model.FloatInterp

/-!
# Model: algorithms on integers and floating-point numbers

Elements and values are numbers of C++ arithmetic types.  A floating-point type is given by its rounding `r : ℚ → ℚ`, used when
a number is converted to it; its values are the numbers, the infinities and NaN.

Simplifications: no overflow or underflow of conversions to floating-point types (the exponent is unbounded; no integer type of 64
bits leaves the range of `float`); zero has no sign (`-0.0 == 0.0` in C++); `bool` is not treated.
-/

namespace Kwk

/-- A value of a floating-point type, e.g. of the elements of `kwk::table{kwk::real32, ...}`; `include/kwk/settings/type.hpp:60-64`. -/
inductive FVal where
  | nan
  | ninf
  | num (q : ℚ)
  | pinf
  deriving DecidableEq

/-- An arithmetic type: the `value_type` of a container, `include/kwk/settings/type.hpp:60-88`. -/
inductive NumType where
  | int (t : IntType)
  | flt (r : ℚ → ℚ)

/-- A number with its type: an element, or the `value` of `include/kwk/algorithm/algos/find.hpp:74`. -/
inductive Num where
  | int (c : Coord)
  | flt (r : ℚ → ℚ) (x : FVal)

/-- `x == y` for floating-point numbers; C++ [expr.eq], used at `include/kwk/algorithm/algos/find.hpp:76`. -/
def eqF : FVal → FVal → Bool
  | .ninf, .ninf => true
  | .pinf, .pinf => true
  | .num x, .num y => decide (x = y)
  | _, _ => false

/-- `x < y` for floating-point numbers; C++ [expr.rel], used at `include/kwk/algorithm/algos/binary_search.hpp:68`. -/
def ltF : FVal → FVal → Bool
  | .ninf, .num _ => true
  | .ninf, .pinf => true
  | .num x, .num y => decide (x < y)
  | .num _, .pinf => true
  | _, _ => false

/-- `a == b`: integers in their common type; an integer is converted to the floating-point type of the other operand; the smaller of
two floating-point types is converted to the larger, which keeps the value. C++ [expr.arith.conv], used at
`include/kwk/algorithm/algos/find.hpp:76, 108, 177`, `include/kwk/algorithm/algos/predicates.hpp:66`,
`include/kwk/algorithm/algos/replace.hpp:31`. -/
def eqN : Num → Num → Bool
  | .int a, .int b => eqT a b
  | .int a, .flt r y => eqF (.num (r a.value)) y
  | .flt r x, .int b => eqF x (.num (r b.value))
  | .flt _ x, .flt _ y => eqF x y

/-- `a < b`, as above; used at `include/kwk/algorithm/algos/binary_search.hpp:68, 114, 149`. -/
def ltN : Num → Num → Bool
  | .int a, .int b => ltT a b
  | .int a, .flt r y => ltF (.num (r a.value)) y
  | .flt r x, .int b => ltF x (.num (r b.value))
  | .flt _ x, .flt _ y => ltF x y

/-- Conversion to the type of an element in an assignment; C++ [conv.integral], [conv.double], [conv.fpint]: a floating-point number
is truncated, which is undefined (reported as overflow) if the result does not fit. Used at
`include/kwk/algorithm/algos/generator.hpp:22, 36`, `include/kwk/algorithm/algos/transform.hpp:21`,
`include/kwk/algorithm/algos/copy.hpp:38`, `include/kwk/algorithm/algos/replace.hpp:19`. -/
def convertN : NumType → Num → Res Num
  | .int t, .int c => pure (.int ⟨t, t.wrap c.value⟩)
  | .int t, .flt _ (.num q) => if t.Fits (truncQ q) then pure (.int ⟨t, truncQ q⟩) else .error .overflow
  | .int _, .flt _ _ => .error .overflow
  | .flt r, .int c => pure (.flt r (.num (r c.value)))
  | .flt r, .flt _ (.num q) => pure (.flt r (.num (r q)))
  | .flt r, .flt _ x => pure (.flt r x)

/-- `find(c, value)`; `include/kwk/algorithm/algos/find.hpp:72-83`. -/
def findN (m : Mem Num) (c : Container) (value : Num) : Res (Option (List Int)) := findIf m c (fun e => eqN e value)

/-- `find_last(c, value)`; `include/kwk/algorithm/algos/find.hpp:173-184`. -/
def findLastN (m : Mem Num) (c : Container) (value : Num) : Res (Option (List Int)) := findLastIf m c (fun e => eqN e value)

/-- `find_first_of(c, values)`: `x == e`; `include/kwk/algorithm/algos/find.hpp:100-116`. -/
def findFirstOfN (m : Mem Num) (c vs : Container) : Res (Option (List Int)) :=
  findIfM (m := Res) (fun is => c.get m is) (fun e => anyOf m vs (fun x => eqN x e)) c.shape

/-- `count(c, value)`; `include/kwk/algorithm/algos/predicates.hpp:63-72`. -/
def countN (m : Mem Num) (c : Container) (value : Num) : Res Int :=
  reduceM (fun is => c.get m is) (fun a e => addTo .u64 a ⟨.i32, if eqN e value then 1 else 0⟩) 0 c.shape

/-- `lower_bound(c, value)` with the default comparison; `include/kwk/algorithm/algos/binary_search.hpp:64-73`. -/
def lowerBoundN {σ : Type} (md : Mode) (m : Mem Num) (c : Container) (value : Num) : StateT σ Res (Option (List Int)) :=
  lowerBound md m c value (fun e i => pure (ltN e i))

/-- `upper_bound(c, value)` with the default comparison; `include/kwk/algorithm/algos/binary_search.hpp:110-119`. -/
def upperBoundN {σ : Type} (md : Mode) (m : Mem Num) (c : Container) (value : Num) : StateT σ Res (Option (List Int)) :=
  upperBound md m c value (fun e i => pure (ltN e i))

/-- `binary_search(c, value)` with the default comparison; `include/kwk/algorithm/algos/binary_search.hpp:123-154`. -/
def binarySearchN {σ : Type} (md : Mode) (m : Mem Num) (c : Container) (value : Num) : StateT σ Res Bool :=
  binarySearch md m c value (fun e i => pure (ltN e i))

/-- `fill(out, value)` for elements of type `t`; `include/kwk/algorithm/algos/generator.hpp:19-29`. -/
def fillN (t : NumType) (m : Mem Num) (c : Container) (value : Num) : Res (Mem Num) := do
  let r ← mapCtx (fun o _ ((), m) => do
    let v ← convertN t value
    let m ← store m o v
    pure ((), m)) c [] () m
  pure r.2

/-- `generate(f, out)` for elements of type `t`; `include/kwk/algorithm/algos/generator.hpp:32-43`. -/
def generateN (t : NumType) (m : Mem Num) (f : List Int → Num) (c : Container) : Res (Mem Num) := do
  let r ← mapIndexCtx (fun o is ((), m) => do
    let v ← convertN t (f is)
    let m ← store m o v
    pure ((), m)) c () m
  pure r.2

/-- `transform(f, out, ins...)` for elements of type `t` in `out`; `include/kwk/algorithm/algos/transform.hpp:16-31`. -/
def transformN (t : NumType) (m : Mem Num) (f : List Num → Num) (out : Container) (ins : List Container) : Res (Mem Num) := do
  let r ← mapCtx (fun o is ((), m) => do
    let vs ← is.mapM (fun i => load m i)
    let v ← convertN t (f vs)
    let m ← store m o v
    pure ((), m)) out ins () m
  pure r.2

/-- `copy(out, in)` to elements of type `t`; `include/kwk/algorithm/algos/copy.hpp:21-30`. -/
def copyN (t : NumType) (m : Mem Num) (out inp : Container) : Res (Mem Num) :=
  transformN t m (fun vs => vs.headD (.int ⟨.i32, 0⟩)) out [inp]

/-- `copy_if(f, out, in)` to elements of type `t`: `if(f(i)) o = i`; `include/kwk/algorithm/algos/copy.hpp:34-44`. -/
def copyIfN (t : NumType) (m : Mem Num) (f : Num → Bool) (out inp : Container) : Res (Mem Num) := do
  let r ← mapCtx (fun o is ((), m) => do
    let e ← load m (is.headD o)
    if f e then do
      let v ← convertN t e
      let m ← store m o v
      pure ((), m)
    else pure ((), m)) out [inp] () m
  pure r.2

/-- `replace_if(out, f, new_value)` for elements of type `t`; `include/kwk/algorithm/algos/replace.hpp:16-26`. -/
def replaceIfN (t : NumType) (m : Mem Num) (c : Container) (f : Num → Bool) (newValue : Num) : Res (Mem Num) := do
  let r ← mapCtx (fun o _ ((), m) => do
    let e ← load m o
    if f e then do
      let v ← convertN t newValue
      let m ← store m o v
      pure ((), m)
    else pure ((), m)) c [] () m
  pure r.2

/-- `replace(out, old_value, new_value)` for elements of type `t`; `include/kwk/algorithm/algos/replace.hpp:28-37`. -/
def replaceN (t : NumType) (m : Mem Num) (c : Container) (oldValue newValue : Num) : Res (Mem Num) :=
  replaceIfN t m c (fun x => eqN x oldValue) newValue

/-- `iota(out, value)` with `value` of a floating-point type with rounding `r` and elements of type `t`: `o = value++`;
`include/kwk/algorithm/algos/generator.hpp:46-52`. -/
def iotaN (t : NumType) (r : ℚ → ℚ) (m : Mem Num) (c : Container) (value : ℚ) : Res (Mem Num) := do
  let r ← mapCtx (fun o _ (value, m) => do
    let v ← convertN t (.flt r (.num value))
    let m ← store m o v
    pure (r (value + 1), m)) c [] value m
  pure r.2

/-- `iota(out, value, step)` with `value` of a floating-point type with rounding `r`, added in a type with rounding `rs`, and elements
of type `t`: `o = value; value += step`; `include/kwk/algorithm/algos/generator.hpp:76-81`. -/
def iotaStepN (t : NumType) (r rs : ℚ → ℚ) (m : Mem Num) (c : Container) (value step : ℚ) : Res (Mem Num) := do
  let r ← mapCtx (fun o _ (value, m) => do
    let v ← convertN t (.flt r (.num value))
    let m ← store m o v
    pure (r (rs (value + step)), m)) c [] value m
  pure r.2

end Kwk
