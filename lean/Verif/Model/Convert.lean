import Verif.Model.Shape

/-! # Model: conversions between shapes of different orders (run-time extents) -/

namespace Kwk

/-- `basic_shape_checks::construct` for a destination with `n` run-time axes;
`include/kwk/detail/sequence/shape_constraints.hpp:44-67` (same order: copy; higher order: ones in
front; lower order: `compress`).  Used by the converting constructor and assignment
`include/kwk/utility/container/shape.hpp:190-216`.  Compile-time axes: `Model/Prefilled.lean`. -/
def convertShape (n : Nat) (src : Shape) : Shape :=
  if n = src.length then src
  else if src.length < n then List.replicate (n - src.length) 1 ++ src
  else compress n src

end Kwk
