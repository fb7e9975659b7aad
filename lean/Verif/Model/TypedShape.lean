import Verif.Model.TypedViews
import Verif.Model.TypedSearch

/-! # Model: comparing shapes and strides whose numbers have different types -/

namespace Kwk

/-- `operator==(shape, shape)` for extents of any integer types; `include/kwk/utility/container/shape.hpp:219-228`. -/
def shapeEqT (a b : List Coord) : Res Bool := do
  let ca ← compressT (min a.length b.length) a
  let cb ← compressT (min a.length b.length) b
  return (ca.zip cb).foldl (fun result ab => result && eqT ab.1 ab.2) true

/-- `stride::operator==`: equality of tuples, for strides of any integer types;
`include/kwk/utility/container/stride.hpp:120-126`. The C++ requires as many strides on both sides. -/
def strideEqT (a b : List Coord) : Bool := (a.zip b).foldl (fun result ab => result && eqT ab.1 ab.2) true

end Kwk
