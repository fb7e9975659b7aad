import Verif.Model.Slicer

/-!
# Model: slicers of the user's own types

`reindex`, `reshape` and `restride` (`include/kwk/utility/slicer.hpp:178-230`) call the member functions of the same names if the slicer
has them.  So containers and shapes can be sliced by objects of other types than those of the library
(`test/unit/utility/slicer/api.cpp:11-33`).  Answers of member functions are integers known at run time.
-/

namespace Kwk

/-- What the type of a slicer provides: members `reindex`, `reshape`, `restride` (given the shape or strides and the number of the axis), a
conversion to `std::ptrdiff_t`, a constant `has_step`, a type `kwk_is_interval`. `include/kwk/utility/slicer.hpp:192-204, 213-230`,
`include/kwk/concepts/slicer.hpp:16-21, 46-50`. -/
structure CustomSlicer where
  /-- `s.reindex(shape, index<N>)` -/
  reindex : Option (Shape → Nat → Int)
  /-- `s.reshape(shape, index<N>)` -/
  reshape : Option (Shape → Nat → Int)
  /-- `s.restride(stride, index<N>)` -/
  restride : Option (Strides → Nat → Int)
  /-- the value converted to `std::ptrdiff_t` -/
  value : Option Int
  /-- `S::has_step` -/
  hasStep : Option Bool
  /-- `S::kwk_is_interval` exists -/
  interval : Bool

/-- A slicer of the library or of the user; `include/kwk/utility/slicer.hpp:178-230`. -/
inductive AnySlicer where
  | library (s : Slicer)
  | custom (s : CustomSlicer)

/-- `reindex(shape, s, index<N>)`; `include/kwk/utility/slicer.hpp:178-204`.  `none`: the call does not compile, because the type has
neither the member function nor the conversion, or has both: neither of the two templates is more constrained. -/
def AnySlicer.reindex (shp : Shape) (n : Nat) : AnySlicer → Option (Res Int)
  | .library s => some (Kwk.reindex (shp.getD n 0) s)
  | .custom s =>
    match s.reindex, s.value with
    | some f, none => some (.ok (f shp n))
    | none, some v => some (.ok v)
    | _, _ => none

/-- `reshape(shape, s, index<N>)`; `include/kwk/utility/slicer.hpp:206-220`. -/
def AnySlicer.reshape (shp : Shape) (n : Nat) : AnySlicer → Res Int
  | .library s => sliceExtent (shp.getD n 0) s
  | .custom s =>
    match s.reshape with
    | some f => .ok (f shp n)
    | none => .ok 1

/-- `restride(stride, s, index<N>)`; `include/kwk/utility/slicer.hpp:222-230`. -/
def AnySlicer.restride (st : Strides) (n : Nat) : AnySlicer → Int
  | .library s => Kwk.restride (st.getD n 0) s
  | .custom s =>
    match s.restride with
    | some f => f st n
    | none => st.getD n 0

/-- `concepts::slicer<S>`; `include/kwk/concepts/slicer.hpp:28-36`.  `reshape` and `restride` accept everything.  The result type of
`origin` is deduced from its body, where `linear_index` takes the results of `reindex` as `std::integral`
(`include/kwk/utility/slicer.hpp:236-247`, `include/kwk/utility/linear_index.hpp:29-30`).  An object of a class that converts to an integer is
returned by `reindex` as it is: naming the concept is then an error. -/
def AnySlicer.isSlicer : AnySlicer → Bool
  | .library _ => true
  | .custom s => s.reindex.isSome && s.value.isNone

/-- `std::integral<S>`; `include/kwk/container/container.hpp:141`. -/
def AnySlicer.integral : AnySlicer → Bool
  | .library (.index _) => true
  | _ => false

/-- `concepts::unit_slicer<S>`; `include/kwk/concepts/slicer.hpp:16-21, 44-45`. -/
def AnySlicer.unit : AnySlicer → Bool
  | .library s => s.unit
  | .custom s => s.hasStep == some false

/-- `shape::operator()(slicers...)`; `include/kwk/utility/container/shape.hpp:305-316`.  There is no requirement on the slicers. -/
def shapeSliceAny (shp : Shape) (sl : List AnySlicer) : Res Shape :=
  let shd := compress sl.length shp
  sl.zipIdx.mapM fun (s, i) => s.reshape shd i

/-- `stride::operator()(slicers...)`; `include/kwk/utility/container/stride.hpp:139-148`. -/
def strideSliceAny (st : Strides) (sl : List AnySlicer) : Strides := sl.zipIdx.map fun (s, i) => s.restride st i

/-- `origin(shape, slicers...)` for slicers; `include/kwk/utility/slicer.hpp:233-247`. -/
def originAny (md : Mode) (shp : Shape) (sl : List AnySlicer) : Res Int := do
  let c := compress sl.length shp
  let idx ← sl.zipIdx.mapM fun (s, i) => (s.reindex c i).getD (.ok 0)
  linearIndex md c idx

/-- `preserve_reachability<Slicers...>`; `include/kwk/utility/traits/reachable.hpp:15-39`. -/
def preservesReachabilityAny : List AnySlicer → Bool
  | [] => false
  | [s] => s.unit
  | [s1, s0] =>
    match s1, s0 with
    | .library .joker, .library .joker => true
    | .library (.index _), s0 => s0.unit
    | .library (.ext _), s0 => s0.unit
    | .library (.interval _ none _ _), .library .joker => true
    | .custom s1, .library .joker => s1.interval && s1.hasStep == some false
    | _, _ => false
  | s :: t :: u :: rest => if s.unit && t.unit && u.unit then preservesReachabilityAny rest else false

/-- `container::operator()(slicers...)`; `include/kwk/container/container.hpp:140-151`.  `none`: the call does not compile. -/
def Container.sliceAny (md : Mode) (c : Container) (sl : List AnySlicer) : Option (Res Container) :=
  if sl.all AnySlicer.isSlicer && decide (sl.length ≤ c.shape.length) && !sl.all AnySlicer.integral then some do
    let str := strideCompress sl.length c.stride
    let o ← originAny md c.shape sl
    let shp ← shapeSliceAny c.shape sl
    pure { base := c.base.add o, shape := shp, strides := strideSliceAny str sl, specific := true,
           reach := c.reach && preservesReachabilityAny sl }
  else none

end Kwk
