import Verif.Model.TypedViews

/-!
# Model: algorithms over containers whose extents and strides have types

The loops of `Model/Machine.lean` together with the element access of `Model/TypedViews.lean`: the loops count in the types of the
extents, and pass the counters on to the containers.  Simplification: all containers compute the place of an element from their
strides; the specialised accessors do the same operations (`C50`, `C70`).
-/

namespace Kwk

/-- The counters of the loops over a shape as arguments: each has the type of its extent;
`include/kwk/detail/algorithm/for_each.hpp:31-32`, `include/kwk/utility/fixed.hpp:30-45`. -/
def typedAs (s : List Coord) (is : List Int) : List Coord := s.zipWith (fun d i => ⟨d.type, i⟩) is

/-- Where a container has its elements: its first one, in elements from some pointer, shape and strides;
`include/kwk/container/container.hpp:37-63`, `include/kwk/detail/container/accessor.hpp:150-190`. -/
structure ContainerT where
  start : Int
  shape : List Coord
  stride : List Coord
  deriving DecidableEq, Repr

/-- `c(is...)`: the place of the element; `include/kwk/container/container.hpp:128-138`. -/
def ContainerT.at (c : ContainerT) (is : List Coord) : Res Int := elementT c.start c.stride is

/-- `f(c0(is...), cs(is...)...)`: the function gets the places of the elements;
`include/kwk/algorithm/algos/for_each.hpp:55-60`. -/
def callAt {σ β : Type} (f : List Int → StateT σ Res β) (c0 : ContainerT) (cs : List ContainerT) (is : List Int) : StateT σ Res β :=
  fun w => do
    let os ← (c0 :: cs).mapM fun c => c.at (typedAs c0.shape is)
    f os w

/-- `for_each(f, c0, cs...)`, on which the algorithms that visit all elements are built;
`include/kwk/algorithm/algos/for_each.hpp:55-60`, `include/kwk/detail/algorithm/for_each.hpp:24-40`. -/
def walkT {σ : Type} (fuel : Nat) (f : List Int → StateT σ Res Unit) (c0 : ContainerT) (cs : List ContainerT) : StateT σ Res Unit :=
  forEachM fuel (callAt f c0 cs) c0.shape

/-- `for_until(f, c)`, on which the searches are built; `include/kwk/detail/algorithm/for_until.hpp:18-36`,
`include/kwk/algorithm/algos/find.hpp:40-55`. -/
def searchT {σ : Type} (fuel : Nat) (f : List Int → StateT σ Res Bool) (c : ContainerT) : StateT σ Res Bool :=
  forUntilM fuel (callAt f c []) c.shape

end Kwk
