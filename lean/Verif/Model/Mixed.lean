import Verif.Model.Fixed

/-!
# Model: index arithmetic on extents of different integer types

`Model/Machine.lean` uses one type for all extents.  Here each extent, coordinate and index has its own
type, and every operation follows the usual arithmetic conversions (`constOp` of `Model/Fixed.lean`).
Compile-time extents are constants of their own type.
-/

namespace Kwk

/-- The constant `fixed<1>`, of type `int`; `include/kwk/utility/fixed.hpp:107`. -/
def fixedOne : Coord := ⟨.i32, 1⟩

/-- `shape::numel`: product in the common types, returned as `std::int32_t`;
`include/kwk/utility/container/shape.hpp:284-288`. -/
def numelT (s : List Coord) : Res Coord :=
  match s with
  | [] => pure ⟨.i32, 0⟩
  | _ => do
    let v ← kumiFoldLeft (fun (a : Res Coord) (b : Coord) => do constMul (← a) b) s (pure fixedOne)
    pure ⟨.i32, IntType.i32.wrap v.value⟩

/-- `as_stride(shape)`; `include/kwk/utility/container/stride.hpp:173-189`. -/
def asStrideT (s : List Coord) : Res (List Coord) :=
  match s with
  | [] => pure []
  | [_] => pure [fixedOne]
  | _ :: ds =>
    kumiFoldLeft (fun (a : Res (List Coord)) (m : Coord) => do
      let a ← a
      let g ← constMul m (a.headD fixedOne)
      pure (g :: a)) ds (pure [fixedOne])

/-- `stride::linearize`: left fold starting from the `int` zero;
`include/kwk/utility/container/stride.hpp:129-137`. -/
def linearizeT (st is : List Coord) : Res Coord :=
  (st.zip is).foldlM (fun acc gi => do constAdd acc (← constMul gi.1 gi.2)) ⟨.i32, 0⟩

/-- `linear_index(shape, idx...)`; `include/kwk/utility/linear_index.hpp:29-37`. -/
def linearIndexT (md : Mode) (s p : List Coord) : Res Coord := do
  kwkAssert md (containsM (s.map (·.value)) p)
  linearizeT (← asStrideT s) p

/-- `a < b` in the common type of the operands. Used at `include/kwk/utility/coordinates.hpp:35`,
`include/kwk/algorithm/algos/binary_search.hpp:68, 114, 149`. -/
def ltT (a b : Coord) : Bool :=
  let t := a.type.common b.type
  decide (t.wrap a.value < t.wrap b.value)

/-- `a % b` in the common type of the operands. Used at `include/kwk/utility/coordinates.hpp:52`. -/
def modT (a b : Coord) : Res Coord := do
  let t := a.type.common b.type
  let v ← cmod (t.wrap a.value) (t.wrap b.value)
  return ⟨t, v⟩

/-- The assertion of `coordinates`; without assertions `numel` is not called; `include/kwk/utility/coordinates.hpp:35-38`. -/
def checkIndexT (md : Mode) (idx : Coord) (s : List Coord) : Res Unit :=
  match md with
  | .checked => do kwkAssert md (ltT idx (← numelT s))
  | .unchecked => pure ()

/-- `coordinates(idx, shape)`: every coordinate is cast to the type of `idx`;
`include/kwk/utility/coordinates.hpp:31-55`. -/
def coordinatesT (md : Mode) (idx : Coord) (s : List Coord) : Res (List Coord) := do
  checkIndexT md idx s
  let strds ← asStrideT s
  let c0 ← constDiv idx (strds.headD fixedOne)
  let cs ← (strds.tail.zip s.tail).mapM fun (st, d) => do modT (← constDiv idx st) d
  pure ((c0 :: cs).map fun c => ⟨idx.type, idx.type.wrap c.value⟩)

/-- `accessor::index(i1, i0)` of a run-time 2D container: `i0 + i1 * get<1>(shape)`;
`include/kwk/detail/container/accessor.hpp:149`. -/
def index2T (d1 i1 i0 : Coord) : Res Coord := do constAdd i0 (← constMul i1 d1)

end Kwk
