import Verif.Model.Fixed
import Verif.Model.Effects

/-!
# Model: numeric algorithms on elements of integer types

The numeric algorithms with their default functions (`+`, `*`, `++`), on elements that are C++ integers.  Memory holds
the values as `Int`; the type of the elements is a parameter.  An operator converts its operands to their common type
(`constOp` of `Model/Fixed.lean`), and an assignment converts back to the type of the variable.
-/

namespace Kwk

/-- `acc = acc + e` for a variable of type `t`; the lambda `[](auto a, auto e) { return a+e; }` returns in the common
type and the assignment converts; `include/kwk/algorithm/algos/reduce.hpp:32, 59`,
`include/kwk/algorithm/algos/numeric.hpp:32, 47, 99, 113, 146, 170, 185, 209`. -/
def addTo (t : IntType) (a : Int) (e : Coord) : Res Int := do
  let r ← constAdd ⟨t, a⟩ e
  pure (t.wrap r.value)

/-- `reduce(in, plus, init)` with `init` of type `t` and elements of type `u`;
`include/kwk/algorithm/algos/reduce.hpp:28-36`. -/
def reduceAddT (t u : IntType) (m : Mem Int) (c : Container) (init : Int) : Res Int :=
  reduceM (fun is => c.get m is) (fun a e => addTo t a ⟨u, e⟩) init c.shape

/-- `reduce(in)` for elements of type `t`: the accumulator is a value-initialised element;
`include/kwk/algorithm/algos/reduce.hpp:44-60`. -/
def reduceSumT (t : IntType) (m : Mem Int) (c : Container) : Res Int := reduceAddT t t m c 0

/-- The type `return_type` of `transform_reduce(in1, in2)` and `inner_product(in1, in2)`: the type of `e1 + e1 * e2`;
`include/kwk/algorithm/algos/numeric.hpp:74-79, 126-131`. -/
def dotType (t1 t2 : IntType) : IntType := t1.common (t1.common t2)

/-- One step `init = R(init, T(i1, i2))` with the default functions, for `init` of type `t`;
`include/kwk/algorithm/algos/numeric.hpp:32, 47, 61, 99, 113-114`. -/
def dotStepTo (t t1 t2 : IntType) (acc e1 e2 : Int) : Res Int := do
  let p ← constMul ⟨t1, e1⟩ ⟨t2, e2⟩
  addTo t acc p

/-- The same step, without an initial value; `include/kwk/algorithm/algos/numeric.hpp:32, 74-82, 99, 126-133`. -/
def dotStep (t1 t2 : IntType) (acc e1 e2 : Int) : Res Int := dotStepTo (dotType t1 t2) t1 t2 acc e1 e2

/-- `transform_reduce(in1, in2, init)` for elements of types `t1`, `t2` and `init` of type `t`;
`include/kwk/algorithm/algos/numeric.hpp:28-34, 43-48, 56-68`. -/
def transformReduceInitT (t t1 t2 : IntType) (m : Mem Int) (c1 c2 : Container) (init : Int) : Res Int := do
  let r ← mapCtx (fun i1 ins (init, m) => do
    let v1 ← load m i1
    let v2 ← load m (ins.headD i1)
    pure (← dotStepTo t t1 t2 init v1 v2, m)) c1 [c2] init m
  pure r.1

/-- `transform_reduce(in1, in2)`: from a value-initialised `return_type`; `include/kwk/algorithm/algos/numeric.hpp:71-89`. -/
def transformReduceT (t1 t2 : IntType) (m : Mem Int) (c1 c2 : Container) : Res Int :=
  transformReduceInitT (dotType t1 t2) t1 t2 m c1 c2 0

/-- `inner_product(in1, in2, init)` for elements of types `t1`, `t2` and `init` of type `t`;
`include/kwk/algorithm/algos/numeric.hpp:91-101, 109-121`. -/
def innerProductInitT (md : Mode) (t t1 t2 : IntType) (m : Mem Int) (c1 c2 : Container) (init : Int) : Res Int := do
  kwkAssert md (shapeEq c1.shape c2.shape)
  transformReduceInitT t t1 t2 m c1 c2 init

/-- `inner_product(in1, in2)`: from a value-initialised `return_type`; `include/kwk/algorithm/algos/numeric.hpp:123-140`. -/
def innerProductT (md : Mode) (t1 t2 : IntType) (m : Mem Int) (c1 c2 : Container) : Res Int :=
  innerProductInitT md (dotType t1 t2) t1 t2 m c1 c2 0

/-- `iota(out, value)` with `value` of type `t` and elements of type `u`: `o = value++`;
`include/kwk/algorithm/algos/generator.hpp:46-52`. -/
def iotaT (t u : IntType) (m : Mem Int) (c : Container) (value : Int) : Res (Mem Int) := do
  let r ← mapCtx (fun o _ (value, m) => do
    let next ← t.incr value
    let m ← store m o (u.wrap value)
    pure (next, m)) c [] value m
  pure r.2

/-- `iota(out, value, step)` with `value` of type `t`, elements of type `u` and a step with its own type:
`o = value; value += step`; `include/kwk/algorithm/algos/generator.hpp:76-81`. -/
def iotaStepT (t u : IntType) (m : Mem Int) (c : Container) (value : Int) (step : Coord) : Res (Mem Int) := do
  let r ← mapCtx (fun o _ (value, m) => do
    let m ← store m o (u.wrap value)
    let next ← addTo t value step
    pure (next, m)) c [] value m
  pure r.2

/-- `exclusive_scan(in, out, init)` with `init` of type `t`, inputs of type `ti` and outputs of type `u`:
`o = sum; sum = sum + i`; `include/kwk/algorithm/algos/numeric.hpp:142-147, 155-159, 167-171`. -/
def exclusiveScanT (t ti u : IntType) (m : Mem Int) (inp out : Container) (init : Int) : Res (Mem Int) := do
  let r ← mapCtx (fun i outs (sum, m) => do
    let m ← store m (outs.headD i) (u.wrap sum)
    let v ← load m i
    let sum ← addTo t sum ⟨ti, v⟩
    pure (sum, m)) inp [out] init m
  pure r.2

/-- `inclusive_scan(in, out, init)`: `sum = sum + i; o = sum`;
`include/kwk/algorithm/algos/numeric.hpp:180-186, 194-198, 206-210`. -/
def inclusiveScanT (t ti u : IntType) (m : Mem Int) (inp out : Container) (init : Int) : Res (Mem Int) := do
  let r ← mapCtx (fun i outs (sum, m) => do
    let v ← load m i
    let sum ← addTo t sum ⟨ti, v⟩
    let m ← store m (outs.headD i) (u.wrap sum)
    pure (sum, m)) inp [out] init m
  pure r.2

end Kwk
