import Verif.Model.Known
import Verif.Model.Slicer
import Verif.Model.Custom

/-!
# The unit tests of slicers, run on the model

The values, the types and which of them are compile-time constants, as the tests of `test/unit/utility/slicer` of the source expect
them.  Nothing depends on this file: it is evidence that the model follows the code.
-/

namespace Kwk.Tests

open Kwk

/-- A run-time number. -/
private def d (t : IntType) (v : Int) : Known := ⟨⟨t, v⟩, false⟩
/-- A constant. -/
private def k (t : IntType) (v : Int) : Known := ⟨⟨t, v⟩, true⟩

/-- `slice(from = f, to = t, by = b, length = l)`. -/
private def sl (f : Option BoundK := none) (t : Option BoundK := none) (b : Option Known := none) (l : Option BoundK := none) :
    SlicerK := .interval f b t l

/-- An `end` expression used as a bound. -/
private def ex (e : Res EndK) : Res BoundK := do
  let e ← e
  pure (.ext e)

/-- `slicer/all.cpp:11-21` -/
example : sliceShapeK [d .i32 2, d .i32 4, d .i32 5, d .i32 10] [.joker] = .ok [d .i32 400] ∧
    sliceShapeK [d .i32 2, d .i32 4, d .i32 5, d .i32 10] [.joker, .joker] = .ok [d .i32 40, d .i32 10] ∧
    sliceShapeK [d .i32 2, d .i32 4, d .i32 5, d .i32 10] [.joker, .joker, .joker] = .ok [d .i32 8, d .i32 5, d .i32 10] ∧
    sliceShapeK [d .i32 2, d .i32 4, d .i32 5, d .i32 10] [.joker, .joker, .joker, .joker] = .ok [d .i32 2, d .i32 4, d .i32 5, d .i32 10] := by decide

/-- `slicer/all.cpp:24-47` -/
example : sliceShapeK [k .u8 2, k .u8 4, k .u8 5, k .u8 10] [.joker] = .ok [k .i32 400] ∧
    sliceShapeK [k .u8 2, k .u8 4, k .u8 5, k .u8 10] [.joker, .joker] = .ok [k .i32 40, k .u8 10] ∧
    sliceShapeK [k .u8 2, k .u8 4, k .u8 5, k .u8 10] [.joker, .joker, .joker] = .ok [k .i32 8, k .u8 5, k .u8 10] ∧
    sliceShapeK [k .u8 2, k .u8 4, k .u8 5, k .u8 10] [.joker, .joker, .joker, .joker] = .ok [k .u8 2, k .u8 4, k .u8 5, k .u8 10] := by decide

/-- `slicer/between.cpp:11-51` -/
example : sliceShapeK [d .i32 13, d .i32 15, d .i32 47, d .i32 27] [sl (f := some (.int (d .u32 1))) (t := some (.int (d .u32 4)))] =
      .ok [d .u32 3] ∧
    sliceShapeK [d .i32 13, d .i32 15, d .i32 47, d .i32 27] [sl (f := some (.int (d .u32 1))) (t := some (.int (d .u32 4))), sl (f := some (.int (d .u32 4))) (t := some (.int (d .u32 8)))] =
      .ok [d .u32 3, d .u32 4] ∧
    sliceShapeK [d .i32 13, d .i32 15, d .i32 47, d .i32 27] [sl (f := some (.int (d .u32 1))) (t := some (.int (d .u32 4))), sl (f := some (.int (d .u32 4))) (t := some (.int (d .u32 8))), sl (f := some (.int (d .u32 8))) (t := some (.int (d .u32 9)))] =
      .ok [d .u32 3, d .u32 4, d .u32 1] ∧
    sliceShapeK [d .i32 13, d .i32 15, d .i32 47, d .i32 27] [sl (f := some (.int (d .u32 1))) (t := some (.int (d .u32 4))), sl (f := some (.int (d .u32 4))) (t := some (.int (d .u32 8))), sl (f := some (.int (d .u32 8))) (t := some (.int (d .u32 9))), sl (f := some (.int (d .u32 9))) (t := some (.int (d .u32 11)))] =
      .ok [d .u32 3, d .u32 4, d .u32 1, d .u32 2] ∧
    sliceShapeK [d .i32 13, d .i32 15, d .i32 47, d .i32 27] [sl (f := some (.int (k .u32 1))) (t := some (.int (k .u32 4)))] =
      .ok [k .u32 3] ∧
    sliceShapeK [d .i32 13, d .i32 15, d .i32 47, d .i32 27] [sl (f := some (.int (k .u32 1))) (t := some (.int (k .u32 4))), sl (f := some (.int (k .u32 4))) (t := some (.int (k .u32 8)))] =
      .ok [k .u32 3, k .u32 4] ∧
    sliceShapeK [d .i32 13, d .i32 15, d .i32 47, d .i32 27] [sl (f := some (.int (k .u32 1))) (t := some (.int (k .u32 4))), sl (f := some (.int (k .u32 4))) (t := some (.int (k .u32 8))), sl (f := some (.int (k .u32 8))) (t := some (.int (k .u32 9)))] =
      .ok [k .u32 3, k .u32 4, k .u32 1] ∧
    sliceShapeK [d .i32 13, d .i32 15, d .i32 47, d .i32 27] [sl (f := some (.int (k .u32 1))) (t := some (.int (k .u32 4))), sl (f := some (.int (k .u32 4))) (t := some (.int (k .u32 8))), sl (f := some (.int (k .u32 8))) (t := some (.int (k .u32 9))), sl (f := some (.int (k .u32 9))) (t := some (.int (k .u32 11)))] =
      .ok [k .u32 3, k .u32 4, k .u32 1, k .u32 2] := by decide

/-- `slicer/between.cpp:53-104` -/
example : sliceShapeK [k .u8 13, k .u8 15, k .u8 47, k .u8 27] [sl (f := some (.int (d .u32 1))) (t := some (.int (d .u32 4)))] =
      .ok [d .u32 3] ∧
    sliceShapeK [k .u8 13, k .u8 15, k .u8 47, k .u8 27] [sl (f := some (.int (d .u32 1))) (t := some (.int (d .u32 4))), sl (f := some (.int (d .u32 4))) (t := some (.int (d .u32 8)))] =
      .ok [d .u32 3, d .u32 4] ∧
    sliceShapeK [k .u8 13, k .u8 15, k .u8 47, k .u8 27] [sl (f := some (.int (d .u32 1))) (t := some (.int (d .u32 4))), sl (f := some (.int (d .u32 4))) (t := some (.int (d .u32 8))), sl (f := some (.int (d .u32 8))) (t := some (.int (d .u32 9)))] =
      .ok [d .u32 3, d .u32 4, d .u32 1] ∧
    sliceShapeK [k .u8 13, k .u8 15, k .u8 47, k .u8 27] [sl (f := some (.int (d .u32 1))) (t := some (.int (d .u32 4))), sl (f := some (.int (d .u32 4))) (t := some (.int (d .u32 8))), sl (f := some (.int (d .u32 8))) (t := some (.int (d .u32 9))), sl (f := some (.int (d .u32 9))) (t := some (.int (d .u32 11)))] =
      .ok [d .u32 3, d .u32 4, d .u32 1, d .u32 2] ∧
    sliceShapeK [k .u8 13, k .u8 15, k .u8 47, k .u8 27] [sl (f := some (.int (k .u32 1))) (t := some (.int (k .u32 4)))] =
      .ok [k .u32 3] ∧
    sliceShapeK [k .u8 13, k .u8 15, k .u8 47, k .u8 27] [sl (f := some (.int (k .u32 1))) (t := some (.int (k .u32 4))), sl (f := some (.int (k .u32 4))) (t := some (.int (k .u32 8)))] =
      .ok [k .u32 3, k .u32 4] ∧
    sliceShapeK [k .u8 13, k .u8 15, k .u8 47, k .u8 27] [sl (f := some (.int (k .u32 1))) (t := some (.int (k .u32 4))), sl (f := some (.int (k .u32 4))) (t := some (.int (k .u32 8))), sl (f := some (.int (k .u32 8))) (t := some (.int (k .u32 9)))] =
      .ok [k .u32 3, k .u32 4, k .u32 1] ∧
    sliceShapeK [k .u8 13, k .u8 15, k .u8 47, k .u8 27] [sl (f := some (.int (k .u32 1))) (t := some (.int (k .u32 4))), sl (f := some (.int (k .u32 4))) (t := some (.int (k .u32 8))), sl (f := some (.int (k .u32 8))) (t := some (.int (k .u32 9))), sl (f := some (.int (k .u32 9))) (t := some (.int (k .u32 11)))] =
      .ok [k .u32 3, k .u32 4, k .u32 1, k .u32 2] := by decide

/-- `slicer/by.cpp:13-37` -/
example : sliceShapeK [d .i32 2, d .i32 2, k .u8 3, k .u8 3] [sl (b := some (d .i32 4)), sl (b := some (k .u8 5)), sl (b := some (d .i32 6)), sl (b := some (k .u8 7))] =
      .ok [d .i32 1, d .i32 1, d .i32 1, k .i32 1] ∧
    sliceShapeK [d .i32 0, d .i32 0, k .u8 0, k .u8 0] [sl (b := some (d .i32 4)), sl (b := some (k .u8 5)), sl (b := some (d .i32 6)), sl (b := some (k .u8 7))] =
      .ok [d .i32 0, d .i32 0, d .i32 0, k .i32 0] := by decide

/-- `slicer/by.cpp:39-69` -/
example : sliceShapeK [d .i32 17, d .i32 29, k .i32 23, k .i32 97] [sl (b := some (d .i32 4)), sl (b := some (k .i32 5)), sl (b := some (d .i32 6)), sl (b := some (k .i32 7))] =
      .ok [d .i32 5, d .i32 6, d .i32 4, k .i32 14] := by decide

/-- `slicer/by.cpp:71-100` -/
example : sliceShapeK [d .i64 33, d .i64 99, k .i32 100, k .i32 1000] [sl (b := some (d .i64 3)), sl (b := some (k .i64 9)), sl (b := some (d .i64 10)), sl (b := some (k .i64 5))] =
      .ok [d .i64 11, d .i64 11, d .i64 10, k .i64 200] := by decide

/-- `slicer/from.cpp:11-37` -/
example : sliceShapeK [d .u64 1, d .u64 2, k .u64 3, k .u64 5]
      [sl (f := some (.int (d .u64 1))), sl (f := some (.int (k .u64 1))), sl (f := some (.int (d .u64 1))),
        sl (f := some (.int (k .u64 1)))] = .ok [d .u64 0, d .u64 1, d .u64 2, k .u64 4] := by decide

/-- `slicer/from.cpp:39-57` -/
example : sliceShapeK [d .i64 1, k .i64 3] [sl (f := some (.ext .all)), sl (f := some (.ext .all))] = .ok [d .i64 0, k .i64 0] := by decide

/-- `slicer/from.cpp:59-85` -/
example : (do
      let t0 ← ex (EndK.all.sub (d .u64 1))
      let t1 ← ex (EndK.all.sub (k .u64 1))
      sliceShapeK [d .u64 1, k .u64 3, d .u64 5, k .u64 7] [sl (f := some t0), sl (f := some t0), sl (f := some t1), sl (f := some t1)]) =
    (.ok [d .u64 1, d .u64 1, d .u64 1, k .u64 1] : Res (List Known)) := by decide

/-- `slicer/from.cpp:87-115` -/
example : (do
      let t0 ← ex (EndK.all.div (d .u64 2))
      let t1 ← ex (EndK.all.div (k .u64 2))
      sliceShapeK [d .u64 3, k .u64 5, d .u64 7, k .u64 9] [sl (f := some t0), sl (f := some t0), sl (f := some t1), sl (f := some t1)]) =
    (.ok [d .u64 2, d .u64 3, d .u64 4, k .u64 5] : Res (List Known)) := by decide

/-- `slicer/from.cpp:117-161` -/
example : (do
      let tdd ← ex (do let e ← EndK.all.mul (d .u64 2); e.div (d .u64 5))
      let tdc ← ex (do let e ← EndK.all.mul (d .u64 2); e.div (k .u64 5))
      let tcd ← ex (do let e ← EndK.all.mul (k .u64 2); e.div (d .u64 5))
      let tcc ← ex (do let e ← EndK.all.mul (k .u64 2); e.div (k .u64 5))
      sliceShapeK [d .u64 3, d .u64 5, d .u64 7, d .u64 9, k .u64 11, k .u64 13, k .u64 15, k .u64 17] [sl (f := some tdd), sl (f := some tdc), sl (f := some tcd), sl (f := some tcc), sl (f := some tdd), sl (f := some tdc), sl (f := some tcd), sl (f := some tcc)]) =
    (.ok [d .u64 2, d .u64 3, d .u64 5, d .u64 6, d .u64 7, d .u64 8, d .u64 9, k .u64 11] : Res (List Known)) := by decide

/-- `slicer/from.cpp:163-204` -/
example : (do
      let tdd ← ex (do let e ← EndK.all.mul (d .u64 2); let e ← e.div (d .u64 5); e.add (d .u64 2))
      let tdc ← ex (do let e ← EndK.all.mul (d .u64 2); let e ← e.div (k .u64 5); e.add (d .u64 2))
      let tcd ← ex (do let e ← EndK.all.mul (k .u64 2); let e ← e.div (d .u64 5); e.add (d .u64 2))
      let tcc ← ex (do let e ← EndK.all.mul (k .u64 2); let e ← e.div (k .u64 5); e.add (d .u64 2))
      sliceShapeK [d .u64 5, d .u64 7, d .u64 9, d .u64 11, k .u64 13, k .u64 15, k .u64 17, k .u64 19] [sl (f := some tdd), sl (f := some tdc), sl (f := some tcd), sl (f := some tcc), sl (f := some tdd), sl (f := some tdc), sl (f := some tcd), sl (f := some tcc)]) =
    (.ok [d .u64 1, d .u64 3, d .u64 4, d .u64 5, d .u64 6, d .u64 7, d .u64 9, d .u64 10] : Res (List Known)) := by decide

/-- `slicer/from.cpp:206-248` -/
example : (do
      let tdd ← ex (do let e ← EndK.all.mul (d .u64 2); let e ← e.div (d .u64 5); e.add (k .u64 2))
      let tdc ← ex (do let e ← EndK.all.mul (d .u64 2); let e ← e.div (k .u64 5); e.add (k .u64 2))
      let tcd ← ex (do let e ← EndK.all.mul (k .u64 2); let e ← e.div (d .u64 5); e.add (k .u64 2))
      let tcc ← ex (do let e ← EndK.all.mul (k .u64 2); let e ← e.div (k .u64 5); e.add (k .u64 2))
      sliceShapeK [d .u64 5, d .u64 7, d .u64 9, d .u64 11, k .u64 13, k .u64 15, k .u64 17, k .u64 19] [sl (f := some tdd), sl (f := some tdc), sl (f := some tcd), sl (f := some tcc), sl (f := some tdd), sl (f := some tdc), sl (f := some tcd), sl (f := some tcc)]) =
    (.ok [d .u64 1, d .u64 3, d .u64 4, d .u64 5, d .u64 6, d .u64 7, d .u64 9, k .u64 10] : Res (List Known)) := by decide

/-- `slicer/to.cpp:57-82` -/
example : (do
      let t0 ← ex (EndK.all.sub (d .u64 1))
      let t1 ← ex (EndK.all.sub (k .u64 1))
      sliceShapeK [d .u64 1, k .u64 3, d .u64 5, k .u64 7] [sl (t := some t0), sl (t := some t0), sl (t := some t1), sl (t := some t1)]) =
    (.ok [d .u64 0, d .u64 2, d .u64 4, k .u64 6] : Res (List Known)) := by decide

/-- `slicer/to.cpp:84-109` -/
example : (do
      let t0 ← ex (EndK.all.div (d .u64 2))
      let t1 ← ex (EndK.all.div (k .u64 2))
      sliceShapeK [d .u64 3, k .u64 5, d .u64 7, k .u64 9] [sl (t := some t0), sl (t := some t0), sl (t := some t1), sl (t := some t1)]) =
    (.ok [d .u64 1, d .u64 2, d .u64 3, k .u64 4] : Res (List Known)) := by decide

/-- `slicer/to.cpp:111-150` -/
example : (do
      let tdd ← ex (do let e ← EndK.all.mul (d .u64 2); e.div (d .u64 5))
      let tdc ← ex (do let e ← EndK.all.mul (d .u64 2); e.div (k .u64 5))
      let tcd ← ex (do let e ← EndK.all.mul (k .u64 2); e.div (d .u64 5))
      let tcc ← ex (do let e ← EndK.all.mul (k .u64 2); e.div (k .u64 5))
      sliceShapeK [d .u64 3, d .u64 5, d .u64 7, d .u64 9, k .u64 11, k .u64 13, k .u64 15, k .u64 17] [sl (t := some tdd), sl (t := some tdc), sl (t := some tcd), sl (t := some tcc), sl (t := some tdd), sl (t := some tdc), sl (t := some tcd), sl (t := some tcc)]) =
    (.ok [d .u64 1, d .u64 2, d .u64 2, d .u64 3, d .u64 4, d .u64 5, d .u64 6, k .u64 6] : Res (List Known)) := by decide

/-- `slicer/to.cpp:152-194` -/
example : (do
      let tdd ← ex (do let e ← EndK.all.mul (d .u64 2); let e ← e.div (d .u64 5); e.add (d .u64 2))
      let tdc ← ex (do let e ← EndK.all.mul (d .u64 2); let e ← e.div (k .u64 5); e.add (d .u64 2))
      let tcd ← ex (do let e ← EndK.all.mul (k .u64 2); let e ← e.div (d .u64 5); e.add (d .u64 2))
      let tcc ← ex (do let e ← EndK.all.mul (k .u64 2); let e ← e.div (k .u64 5); e.add (d .u64 2))
      sliceShapeK [d .u64 5, d .u64 7, d .u64 9, d .u64 11, k .u64 13, k .u64 15, k .u64 17, k .u64 19] [sl (t := some tdd), sl (t := some tdc), sl (t := some tcd), sl (t := some tcc), sl (t := some tdd), sl (t := some tdc), sl (t := some tcd), sl (t := some tcc)]) =
    (.ok [d .u64 4, d .u64 4, d .u64 5, d .u64 6, d .u64 7, d .u64 8, d .u64 8, d .u64 9] : Res (List Known)) := by decide

/-- `slicer/to.cpp:196-239` -/
example : (do
      let tdd ← ex (do let e ← EndK.all.mul (d .u64 2); let e ← e.div (d .u64 5); e.add (k .u64 2))
      let tdc ← ex (do let e ← EndK.all.mul (d .u64 2); let e ← e.div (k .u64 5); e.add (k .u64 2))
      let tcd ← ex (do let e ← EndK.all.mul (k .u64 2); let e ← e.div (d .u64 5); e.add (k .u64 2))
      let tcc ← ex (do let e ← EndK.all.mul (k .u64 2); let e ← e.div (k .u64 5); e.add (k .u64 2))
      sliceShapeK [d .u64 5, d .u64 7, d .u64 9, d .u64 11, k .u64 13, k .u64 15, k .u64 17, k .u64 19] [sl (t := some tdd), sl (t := some tdc), sl (t := some tcd), sl (t := some tcc), sl (t := some tdd), sl (t := some tdc), sl (t := some tcd), sl (t := some tcc)]) =
    (.ok [d .u64 4, d .u64 4, d .u64 5, d .u64 6, d .u64 7, d .u64 8, d .u64 8, k .u64 9] : Res (List Known)) := by decide

/-- `slicer/to.cpp:11-38` -/
example : sliceShapeK [d .u64 1, d .u64 2, k .u64 3, k .u64 5]
      [sl (t := some (.int (d .u64 1))), sl (t := some (.int (k .u64 2))), sl (t := some (.int (d .u64 3))),
        sl (t := some (.int (k .u64 5)))] = .ok [d .u64 1, k .u64 2, d .u64 3, k .u64 5] := by decide

/-- `slicer/to.cpp:40-57` -/
example : sliceShapeK [d .i64 1, k .i64 3] [sl (t := some (.ext .all)), sl (t := some (.ext .all))] = .ok [d .i64 1, k .i64 3] := by decide

/-- `slicer/length.cpp:12-54` -/
example : sliceShapeK [d .i32 13, d .i32 15, d .i32 47, d .i32 27]
      [sl (l := some (.int (d .u32 1)))] =
      .ok [d .u32 1] ∧
    sliceShapeK [d .i32 13, d .i32 15, d .i32 47, d .i32 27]
      [sl (l := some (.int (d .u32 1))), sl (l := some (.int (d .u32 4)))] =
      .ok [d .u32 1, d .u32 4] ∧
    sliceShapeK [d .i32 13, d .i32 15, d .i32 47, d .i32 27]
      [sl (l := some (.int (d .u32 1))), sl (l := some (.int (d .u32 4))), sl (l := some (.int (d .u32 8)))] =
      .ok [d .u32 1, d .u32 4, d .u32 8] ∧
    sliceShapeK [d .i32 13, d .i32 15, d .i32 47, d .i32 27]
      [sl (l := some (.int (d .u32 1))), sl (l := some (.int (d .u32 4))), sl (l := some (.int (d .u32 8))), sl (l := some (.int (d .u32 9)))] =
      .ok [d .u32 1, d .u32 4, d .u32 8, d .u32 9] ∧
    sliceShapeK [d .i32 13, d .i32 15, d .i32 47, d .i32 27]
      [sl (l := some (.int (k .u32 1)))] =
      .ok [k .u32 1] ∧
    sliceShapeK [d .i32 13, d .i32 15, d .i32 47, d .i32 27]
      [sl (l := some (.int (k .u32 1))), sl (l := some (.int (k .u32 4)))] =
      .ok [k .u32 1, k .u32 4] ∧
    sliceShapeK [d .i32 13, d .i32 15, d .i32 47, d .i32 27]
      [sl (l := some (.int (k .u32 1))), sl (l := some (.int (k .u32 4))), sl (l := some (.int (k .u32 8)))] =
      .ok [k .u32 1, k .u32 4, k .u32 8] ∧
    sliceShapeK [d .i32 13, d .i32 15, d .i32 47, d .i32 27]
      [sl (l := some (.int (k .u32 1))), sl (l := some (.int (k .u32 4))), sl (l := some (.int (k .u32 8))), sl (l := some (.int (k .u32 9)))] =
      .ok [k .u32 1, k .u32 4, k .u32 8, k .u32 9] := by decide

/-- `slicer/length.cpp:56-100` -/
example : sliceShapeK [d .i32 13, d .i32 15, d .i32 47, d .i32 27]
      [sl (l := some (.int (d .u32 1))) (f := some (.int (d .i32 4)))] =
      .ok [d .u32 1] ∧
    sliceShapeK [d .i32 13, d .i32 15, d .i32 47, d .i32 27]
      [sl (l := some (.int (d .u32 1))) (f := some (.int (d .i32 4))), sl (l := some (.int (d .u32 4))) (f := some (.int (d .i32 4)))] =
      .ok [d .u32 1, d .u32 4] ∧
    sliceShapeK [d .i32 13, d .i32 15, d .i32 47, d .i32 27]
      [sl (l := some (.int (d .u32 1))) (f := some (.int (d .i32 4))), sl (l := some (.int (d .u32 4))) (f := some (.int (d .i32 4))), sl (l := some (.int (d .u32 8))) (f := some (.int (d .i32 4)))] =
      .ok [d .u32 1, d .u32 4, d .u32 8] ∧
    sliceShapeK [d .i32 13, d .i32 15, d .i32 47, d .i32 27]
      [sl (l := some (.int (d .u32 1))) (f := some (.int (d .i32 4))), sl (l := some (.int (d .u32 4))) (f := some (.int (d .i32 4))), sl (l := some (.int (d .u32 8))) (f := some (.int (d .i32 4))), sl (l := some (.int (d .u32 9))) (f := some (.int (d .i32 4)))] =
      .ok [d .u32 1, d .u32 4, d .u32 8, d .u32 9] ∧
    sliceShapeK [d .i32 13, d .i32 15, d .i32 47, d .i32 27]
      [sl (l := some (.int (k .u32 1))) (f := some (.int (k .i32 2)))] =
      .ok [k .u32 1] ∧
    sliceShapeK [d .i32 13, d .i32 15, d .i32 47, d .i32 27]
      [sl (l := some (.int (k .u32 1))) (f := some (.int (k .i32 2))), sl (l := some (.int (k .u32 4))) (f := some (.int (k .i32 2)))] =
      .ok [k .u32 1, k .u32 4] ∧
    sliceShapeK [d .i32 13, d .i32 15, d .i32 47, d .i32 27]
      [sl (l := some (.int (k .u32 1))) (f := some (.int (k .i32 2))), sl (l := some (.int (k .u32 4))) (f := some (.int (k .i32 2))), sl (l := some (.int (k .u32 8))) (f := some (.int (k .i32 2)))] =
      .ok [k .u32 1, k .u32 4, k .u32 8] ∧
    sliceShapeK [d .i32 13, d .i32 15, d .i32 47, d .i32 27]
      [sl (l := some (.int (k .u32 1))) (f := some (.int (k .i32 2))), sl (l := some (.int (k .u32 4))) (f := some (.int (k .i32 2))), sl (l := some (.int (k .u32 8))) (f := some (.int (k .i32 2))), sl (l := some (.int (k .u32 9))) (f := some (.int (k .i32 2)))] =
      .ok [k .u32 1, k .u32 4, k .u32 8, k .u32 9] := by decide

/-- `slicer/length.cpp:102-146` -/
example : sliceShapeK [d .i32 13, d .i32 15, d .i32 47, d .i32 27]
      [sl (l := some (.int (d .u32 1))) (t := some (.int (d .i32 100)))] =
      .ok [d .u32 1] ∧
    sliceShapeK [d .i32 13, d .i32 15, d .i32 47, d .i32 27]
      [sl (l := some (.int (d .u32 1))) (t := some (.int (d .i32 100))), sl (l := some (.int (d .u32 4))) (t := some (.int (d .i32 100)))] =
      .ok [d .u32 1, d .u32 4] ∧
    sliceShapeK [d .i32 13, d .i32 15, d .i32 47, d .i32 27]
      [sl (l := some (.int (d .u32 1))) (t := some (.int (d .i32 100))), sl (l := some (.int (d .u32 4))) (t := some (.int (d .i32 100))), sl (l := some (.int (d .u32 8))) (t := some (.int (d .i32 100)))] =
      .ok [d .u32 1, d .u32 4, d .u32 8] ∧
    sliceShapeK [d .i32 13, d .i32 15, d .i32 47, d .i32 27]
      [sl (l := some (.int (d .u32 1))) (t := some (.int (d .i32 100))), sl (l := some (.int (d .u32 4))) (t := some (.int (d .i32 100))), sl (l := some (.int (d .u32 8))) (t := some (.int (d .i32 100))), sl (l := some (.int (d .u32 9))) (t := some (.int (d .i32 100)))] =
      .ok [d .u32 1, d .u32 4, d .u32 8, d .u32 9] ∧
    sliceShapeK [d .i32 13, d .i32 15, d .i32 47, d .i32 27]
      [sl (l := some (.int (k .u32 1))) (t := some (.int (k .i32 100)))] =
      .ok [k .u32 1] ∧
    sliceShapeK [d .i32 13, d .i32 15, d .i32 47, d .i32 27]
      [sl (l := some (.int (k .u32 1))) (t := some (.int (k .i32 100))), sl (l := some (.int (k .u32 4))) (t := some (.int (k .i32 100)))] =
      .ok [k .u32 1, k .u32 4] ∧
    sliceShapeK [d .i32 13, d .i32 15, d .i32 47, d .i32 27]
      [sl (l := some (.int (k .u32 1))) (t := some (.int (k .i32 100))), sl (l := some (.int (k .u32 4))) (t := some (.int (k .i32 100))), sl (l := some (.int (k .u32 8))) (t := some (.int (k .i32 100)))] =
      .ok [k .u32 1, k .u32 4, k .u32 8] ∧
    sliceShapeK [d .i32 13, d .i32 15, d .i32 47, d .i32 27]
      [sl (l := some (.int (k .u32 1))) (t := some (.int (k .i32 100))), sl (l := some (.int (k .u32 4))) (t := some (.int (k .i32 100))), sl (l := some (.int (k .u32 8))) (t := some (.int (k .i32 100))), sl (l := some (.int (k .u32 9))) (t := some (.int (k .i32 100)))] =
      .ok [k .u32 1, k .u32 4, k .u32 8, k .u32 9] := by decide

/-- `slicer/length.cpp:148-185` -/
example : sliceShapeK [d .i32 13, d .i32 15, d .i32 47, d .i32 27]
      [sl (l := some (.int (d .u32 1))) (b := some (d .i32 2))] =
      .ok [d .u32 1] ∧
    sliceShapeK [d .i32 13, d .i32 15, d .i32 47, d .i32 27]
      [sl (l := some (.int (d .u32 1))) (b := some (d .i32 2)), sl (l := some (.int (d .u32 4))) (b := some (d .i32 2))] =
      .ok [d .u32 1, d .u32 4] ∧
    sliceShapeK [d .i32 13, d .i32 15, d .i32 47, d .i32 27]
      [sl (l := some (.int (d .u32 1))) (b := some (d .i32 2)), sl (l := some (.int (d .u32 4))) (b := some (d .i32 2)), sl (l := some (.int (d .u32 8))) (b := some (d .i32 2))] =
      .ok [d .u32 1, d .u32 4, d .u32 8] ∧
    sliceShapeK [d .i32 13, d .i32 15, d .i32 47, d .i32 27]
      [sl (l := some (.int (d .u32 1))) (b := some (d .i32 2)), sl (l := some (.int (d .u32 4))) (b := some (d .i32 2)), sl (l := some (.int (d .u32 8))) (b := some (d .i32 2)), sl (l := some (.int (d .u32 9))) (b := some (d .i32 2))] =
      .ok [d .u32 1, d .u32 4, d .u32 8, d .u32 9] ∧
    sliceShapeK [d .i32 13, d .i32 15, d .i32 47, d .i32 27]
      [sl (l := some (.int (k .u32 1))) (b := some (k .i32 4))] =
      .ok [k .u32 1] ∧
    sliceShapeK [d .i32 13, d .i32 15, d .i32 47, d .i32 27]
      [sl (l := some (.int (k .u32 1))) (b := some (k .i32 4)), sl (l := some (.int (k .u32 4))) (b := some (k .i32 4))] =
      .ok [k .u32 1, k .u32 4] ∧
    sliceShapeK [d .i32 13, d .i32 15, d .i32 47, d .i32 27]
      [sl (l := some (.int (k .u32 1))) (b := some (k .i32 4)), sl (l := some (.int (k .u32 4))) (b := some (k .i32 4)), sl (l := some (.int (k .u32 8))) (b := some (k .i32 4))] =
      .ok [k .u32 1, k .u32 4, k .u32 8] ∧
    sliceShapeK [d .i32 13, d .i32 15, d .i32 47, d .i32 27]
      [sl (l := some (.int (k .u32 1))) (b := some (k .i32 4)), sl (l := some (.int (k .u32 4))) (b := some (k .i32 4)), sl (l := some (.int (k .u32 8))) (b := some (k .i32 4)), sl (l := some (.int (k .u32 9))) (b := some (k .i32 4))] =
      .ok [k .u32 1, k .u32 4, k .u32 8, k .u32 9] := by decide

/-- The slicer of `test/unit/utility/slicer/api.cpp:13-32` for a run-time number. -/
private def own (v : Int) : AnySlicer :=
  .custom { reindex := none, reshape := some fun sh n => sh.getD n 0 + 10 * v, restride := none, value := none, hasStep := none, interval := false }

/-- The same for a constant; the extent is then a constant, which `Model/Custom` does not distinguish. -/
private def ownK (v : Int) : AnySlicer :=
  .custom { reindex := none, reshape := some fun _ n => n + 10 * v, restride := none, value := none, hasStep := none, interval := false }

/-- `test/unit/utility/slicer/api.cpp:35-79`. -/
example : shapeSliceAny [7] [own 1] = .ok [17] ∧ shapeSliceAny [7, 3] [own 1, own 2] = .ok [17, 23] ∧
    shapeSliceAny [7, 3, 5] [own 1, own 2, own 3] = .ok [17, 23, 35] ∧
    shapeSliceAny [7, 3, 5, 2] [own 1, own 2, own 3, own 4] = .ok [17, 23, 35, 42] ∧
    shapeSliceAny [7, 3, 5, 2, 6, 8, 4] [own 1, own 2, own 3, own 4, own 5, own 6, own 7] = .ok [17, 23, 35, 42, 56, 68, 74] := by
  decide

/-- `test/unit/utility/slicer/api.cpp:81-127`. -/
example : shapeSliceAny [7] [ownK 1] = .ok [10] ∧ shapeSliceAny [7, 3] [ownK 1, ownK 2] = .ok [10, 21] ∧
    shapeSliceAny [7, 3, 5] [ownK 1, ownK 2, ownK 3] = .ok [10, 21, 32] ∧
    shapeSliceAny [7, 3, 5, 2] [ownK 1, ownK 2, ownK 3, ownK 4] = .ok [10, 21, 32, 43] ∧
    shapeSliceAny [7, 3, 5, 2, 6, 8, 4] [ownK 1, ownK 2, ownK 3, ownK 4, ownK 5, ownK 6, ownK 7] = .ok [10, 21, 32, 43, 54, 65, 76] := by
  decide

end Kwk.Tests
