import Verif.Model.Fixed
import Verif.Model.Container

/-! # Model: arrays as sources -/

namespace Kwk

/-- The type of a nested array: an element, `std::array<T, N>`, or `T[N]`.
`include/kwk/detail/range.hpp:18-43`. -/
inductive Nest where
  | elem
  | stdArray (n : Nat) (t : Nest)
  | cArray (n : Nat) (t : Nest)
  deriving DecidableEq, Repr

/-- `array_traits<A>::sizes`; `include/kwk/detail/range.hpp:18-43`: `push_back` for `std::array`,
`push_front` for C arrays. -/
def Nest.sizes : Nest → List Int
  | .elem => []
  | .stdArray n t => t.sizes ++ [(clamp n).value]
  | .cArray n t => (clamp n).value :: t.sizes

/-- A view of an array without explicit shape: `default_shape(array_source)` is `of_size(sizes)` and
the data pointer is the address of the first element;
`include/kwk/settings/source/array_source.hpp:33-37`, `include/kwk/settings/source.hpp:25-32`,
`include/kwk/container/settings/size.hpp:17-22`, `include/kwk/detail/range.hpp:24, 34, 42`. -/
def viewOfArray (base : Ptr) (t : Nest) : Container :=
  { Container.ofShape base t.sizes with static := true }

/-- A view of a contiguous range of `n` elements (`std::vector`, `std::span`) without explicit shape:
`of_size(size)`; `include/kwk/settings/source/range_source.hpp:27-37`. -/
def viewOfRange (base : Ptr) (n : Nat) : Container := Container.ofShape base [(n : Int)]

/-- A view of a pointer without explicit shape: `of_size(0)`;
`include/kwk/settings/source/ptr_source.hpp:36-43`. -/
def viewOfPtr (base : Ptr) : Container := Container.ofShape base [0]

end Kwk
