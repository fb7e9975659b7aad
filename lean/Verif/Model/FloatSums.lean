import Verif.Model.Algos
import Verif.Model.FloatInterp

/-!
# Model: sums of floating-point elements

Each operation is rounded, as in `Model.FloatInterp` (same conventions and simplifications).  The type of the accumulator is that
of the initial value; it is given by its rounding `ra`.  A sum is computed in the common type of accumulator and summand, whose
rounding is `rs`, and assigned to the accumulator; a product is rounded by `rp`.  Outputs of scans have the type of the accumulator
(simplification).
-/

namespace Kwk

/-- `init = init + e`; `include/kwk/algorithm/algos/reduce.hpp:32, 59`, `include/kwk/algorithm/algos/numeric.hpp:32, 47, 99, 113`. -/
def addToF (ra rs : ℚ → ℚ) (acc e : Option ℚ) : Option ℚ := do
  let a ← acc
  let x ← e
  return ra (rs (a + x))

/-- `i1 * i2`; `include/kwk/algorithm/algos/numeric.hpp:61, 77, 114, 129`. -/
def timesF (rp : ℚ → ℚ) (x y : Option ℚ) : Option ℚ := do
  let x ← x
  let y ← y
  return rp (x * y)

/-- `reduce(in, [](auto a, auto e) { return a+e; }, init)`; `include/kwk/algorithm/algos/reduce.hpp:29-42`. -/
def reduceInitF (ra rs : ℚ → ℚ) (m : Mem (Option ℚ)) (c : Container) (init : Option ℚ) : Res (Option ℚ) :=
  reduce m c (addToF ra rs) init

/-- `reduce(in)`: from a value-initialised element; `include/kwk/algorithm/algos/reduce.hpp:44-66`. -/
def reduceF (r : ℚ → ℚ) (m : Mem (Option ℚ)) (c : Container) : Res (Option ℚ) := reduceInitF r r m c (some 0)

/-- `transform_reduce(in1, in2, init)`; `include/kwk/algorithm/algos/numeric.hpp:28-68`. -/
def transformReduceInitF (ra rs rp : ℚ → ℚ) (m : Mem (Option ℚ)) (c1 c2 : Container) (init : Option ℚ) : Res (Option ℚ) :=
  transformReduce m c1 c2 init (addToF ra rs) (timesF rp)

/-- `transform_reduce(in1, in2)`: from a value-initialised sum, of the common type of the elements;
`include/kwk/algorithm/algos/numeric.hpp:70-89`. -/
def transformReduceF (r : ℚ → ℚ) (m : Mem (Option ℚ)) (c1 c2 : Container) : Res (Option ℚ) :=
  transformReduceInitF r r r m c1 c2 (some 0)

/-- `inner_product(in1, in2, init)`; `include/kwk/algorithm/algos/numeric.hpp:91-121`. -/
def innerProductInitF (md : Mode) (ra rs rp : ℚ → ℚ) (m : Mem (Option ℚ)) (c1 c2 : Container) (init : Option ℚ) :
    Res (Option ℚ) :=
  innerProduct md m c1 c2 init (addToF ra rs) (timesF rp)

/-- `inner_product(in1, in2)`; `include/kwk/algorithm/algos/numeric.hpp:123-140`. -/
def innerProductF (md : Mode) (r : ℚ → ℚ) (m : Mem (Option ℚ)) (c1 c2 : Container) : Res (Option ℚ) :=
  innerProductInitF md r r r m c1 c2 (some 0)

/-- `inclusive_scan(in, out, init)`; `include/kwk/algorithm/algos/numeric.hpp:194-216`. -/
def inclusiveScanF (ra rs : ℚ → ℚ) (m : Mem (Option ℚ)) (inp out : Container) (init : Option ℚ) : Res (Mem (Option ℚ)) :=
  inclusiveScan m inp out init (addToF ra rs)

/-- `exclusive_scan(in, out, init)`; `include/kwk/algorithm/algos/numeric.hpp:155-177`. -/
def exclusiveScanF (ra rs : ℚ → ℚ) (m : Mem (Option ℚ)) (inp out : Container) (init : Option ℚ) : Res (Mem (Option ℚ)) :=
  exclusiveScan m inp out init (addToF ra rs)

end Kwk
