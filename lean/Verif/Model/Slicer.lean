import Verif.Model.EndRatio
import Verif.Model.Container

/-!
# Model: slicers and slicing

`include/kwk/utility/slicer.hpp`, and the slicing operators of `shape`, `stride` and `container`.
Whether a value is a compile-time constant does not matter here.
-/

namespace Kwk

/-- A begin, end or length given to `slice(...)`: an integer or an expression on `end`
(`concepts::extremum`). `include/kwk/utility/slicer.hpp:48-71`. -/
inductive Bound where
  | int (i : Int)
  | ext (e : EndT)
  deriving DecidableEq, Repr

/-- `begin.size(count)` for an extremum, the integer itself otherwise;
`include/kwk/utility/slicer.hpp:70-71`, `87-92`. -/
def Bound.value (b : Bound) (count : Int) : Res Int :=
  match b with
  | .int i => pure i
  | .ext e => e.size count

/-- What can be passed for one axis: `_`, an integer, an `end` expression, or a `slicer`
(`include/kwk/utility/slicer.hpp:48-64`; `none` stands for a joker field). -/
inductive Slicer where
  | joker
  | index (i : Int)
  | ext (e : EndT)
  | interval (begin : Option Bound) (step : Option Int) (stop : Option Bound) (len : Option Bound)
  deriving DecidableEq, Repr

/-- `reindex(shape, slicer, index<N>)`; `include/kwk/utility/slicer.hpp:66-80, 178-204`.
`count` is `get<N>(shape)`. -/
def reindex (count : Int) : Slicer → Res Int
  | .joker => pure 0
  | .ext e => e.size count
  | .index i => pure i
  | .interval begin step _ _ =>
    match begin with
    | some b => b.value count
    | none =>
      match step with
      | some s => pure (if s > 0 then 0 else count - 1)
      | none => pure 0

/-- The lambda `eval(s, b)` of `slicer::reshape`: `s == 0 ? 0 : (s % |b| != 0) + s / |b|`;
`include/kwk/utility/slicer.hpp:100-108`. -/
def sliceEval (s b : Int) : Res Int :=
  if s = 0 then pure 0
  else do
    let w := if b < 0 then -b else b
    let r ← cmod s w
    let q ← cdiv s w
    pure ((if r ≠ 0 then 1 else 0) + q)

/-- `reshape(shape, slicer, index<N>)`; `include/kwk/utility/slicer.hpp:82-131, 206-220`. -/
def sliceExtent (count : Int) : Slicer → Res Int
  | .joker => pure count
  | .index _ => pure 1
  | .ext _ => pure 1
  | .interval begin step stop len =>
    match len with
    | some l => l.value count
    | none => do
      let s := step.getD 1
      if begin.isSome || stop.isSome then do
        let b ← match begin with
          | some b => b.value count
          | none => pure 0
        let e ← match stop with
          | some e => e.value count
          | none => pure count
        if step.isSome then
          if s ≥ 0 then sliceEval (e - b) s else sliceEval (b + 1) s
        else sliceEval (e - b) 1
      else sliceEval count s

/-- `restride(stride, slicer, index<N>)`; `include/kwk/utility/slicer.hpp:133-144, 222-230`.
`original` is `get<N>(stride)`. -/
def restride (original : Int) : Slicer → Int
  | .interval _ (some s) _ _ => s * original
  | _ => original

/-- `origin(shape, slicers...)`; `include/kwk/utility/slicer.hpp:233-247`. -/
def origin (md : Mode) (shp : Shape) (sl : List Slicer) : Res Int := do
  let c := compress sl.length shp
  let idx ← (c.zip sl).mapM fun (d, s) => reindex d s
  linearIndex md c idx

/-- `shape::operator()(slicers...)`; `include/kwk/utility/container/shape.hpp:306-316`. -/
def shapeSlice (shp : Shape) (sl : List Slicer) : Res Shape :=
  ((compress sl.length shp).zip sl).mapM fun (d, s) => sliceExtent d s

/-- `stride::operator()(slicers...)`; `include/kwk/utility/container/stride.hpp:139-148`. -/
def strideSlice (st : Strides) (sl : List Slicer) : Strides := st.zipWith restride sl

/-- `concepts::is_contiguous`: everything but a slicer with a step;
`include/kwk/concepts/slicer.hpp:16-21`. -/
def Slicer.unit : Slicer → Bool
  | .interval _ (some _) _ _ => false
  | _ => true

/-- `preserve_reachability<Slicers...>`; `include/kwk/utility/traits/reachable.hpp:15-39`.
All arguments are slicers. -/
def preservesReachability : List Slicer → Bool
  | [] => false
  | [s] => s.unit
  | [s1, s0] =>
    match s1, s0 with
    | .joker, .joker => true
    | .index _, s0 => s0.unit
    | .ext _, s0 => s0.unit
    | .interval _ none _ _, .joker => true
    | _, _ => false
  | s :: t :: u :: rest => if s.unit && t.unit && u.unit then preservesReachability rest else false

/-- `container::operator()(slicers...)`; `include/kwk/container/container.hpp:140-151`.
The view is built from a pointer, a shape and explicit strides, hence without label
(`include/kwk/container/view.hpp:109`, `include/kwk/detail/container/builder.hpp:19-39`). -/
def Container.slice (md : Mode) (c : Container) (sl : List Slicer) : Res Container := do
  let str := strideCompress sl.length c.stride
  let o ← origin md c.shape sl
  let shp ← shapeSlice c.shape sl
  pure { base := c.base.add o, shape := shp, strides := strideSlice str sl, specific := true,
         reach := c.reach && preservesReachability sl }

/-- `slice(...)` with the given keywords; `include/kwk/utility/slicer.hpp:252-261`. -/
def slice (from_ : Option Bound := none) («to» : Option Bound := none) (by_ : Option Int := none)
    (length : Option Bound := none) : Slicer :=
  .interval from_ by_ «to» length

/-- `between(b, e)`; `include/kwk/utility/slicer.hpp:263-265`. -/
def between (b : Int) (e : Bound) : Slicer := .interval (some (.int b)) none (some e) none
/-- `at(i)`; `include/kwk/utility/slicer.hpp:267`. -/
def atIndex (i : Int) : Slicer := .interval (some (.int i)) none (some (.int i)) none
/-- `every(s)`; `include/kwk/utility/slicer.hpp:268`. -/
def every (s : Int) : Slicer := .interval none (some s) none none
/-- `first(n)`; `include/kwk/utility/slicer.hpp:269`. -/
def first (n : Int) : Slicer := .interval none none none (some (.int n))
/-- `drop_first(n)`; `include/kwk/utility/slicer.hpp:270`. -/
def dropFirst (n : Int) : Slicer := .interval (some (.int n)) none none none
/-- `last(n)`; `include/kwk/utility/slicer.hpp:271`. -/
def last (n : Int) : Slicer := .interval (some (.ext (EndT.all.sub n))) none none (some (.int n))
/-- `drop_last(n)`; `include/kwk/utility/slicer.hpp:272`. -/
def dropLast (n : Int) : Slicer := .interval none none (some (.ext (EndT.all.sub n))) none

end Kwk
