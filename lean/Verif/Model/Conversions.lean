import Verif.Model.Objects

/-!
# Model: which conversions between shape types compile

`Model/Prefilled.lean` has the constraint of the converting constructor and assignment (`isConstructibleFrom`) and what they do
(`convertPrefilled`).  Here: whether their body compiles once the constraint has let the call pass.
-/

namespace Kwk

/-- The template argument of `shape` for an extent passed by value to `of_size`: a constant or a number of this type, without name;
`include/kwk/utility/traits/to_descriptor.hpp:76-77, 88-89`, `include/kwk/utility/container/shape.hpp:338-342`. -/
def Content.extent : Content → Extent
  | .static v => .int v
  | .dynamic t => .type t

/-- The template arguments of the type of `compress<n>(s)` for a shape with descriptors `d` and more than `n` axes: `of_size` of the
product and of the remaining values, so that no name is left; `include/kwk/utility/container/shape.hpp:382-394`. -/
def compressTypes (n : Nat) (d : Desc) : List Extent :=
  let tail := (d.drop (d.length - n + 1)).map fun a => a.content.extent
  match (d.take (d.length - n + 1)).map (·.content) with
  | [] => tail
  | c :: cs => (cs.foldl Content.mul c).extent :: tail

/-- Whether the body of `basic_shape_checks::construct` compiles.  Same order: assignment of the bases, which any `prefilled` of the same
size accepts.  Higher order: numeric extents, one for each axis.  Lower order: `dst = compress<N>(src)` is an assignment of shapes, with
its own constraint; `include/kwk/detail/sequence/shape_constraints.hpp:44-67`, `include/kwk/utility/container/shape.hpp:210-216`. -/
def constructCompiles (dst src : Desc) : Bool :=
  if dst.length < src.length then isConstructibleFrom dst (normalizeExtents (compressTypes dst.length src)) else true

end Kwk
