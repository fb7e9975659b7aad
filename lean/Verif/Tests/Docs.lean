import Verif.Model.Conversions
import Verif.Model.Effects
import Verif.Model.Options
import Verif.Model.Print
import Verif.Model.TypedPrint

/-!
# Examples of the documentation, run on the model

The programs of `test/doc` and the tests of empty views, with the model in place of the library.  Floating-point data are
replaced by integers.
-/

namespace Kwk.Tests.Docs

/-- Memory with one block. -/
private def mem (l : List Int) : Mem Int := fun p => if p.blk = 0 ∧ 0 ≤ p.off then l[p.off.toNat]? else none

/-- The first `n` elements of the block. -/
private def content (m : Mem Int) (n : Nat) : List (Option Int) := (List.range n).map fun (k : Nat) => m ⟨0, k⟩

/-! `test/doc/algorithms/for_each.cpp:11-38` -/

private def data : List Int := [3, -4, 2, -8, 15, 267]

/-- `view{source = data}`. -/
private def v : Option Container := (makeView (τ := Unit) [.source ⟨(), some ⟨0, 0⟩, .array (.cArray 6 .elem)⟩]).bind Built.view

example : v.map (fun c => (c.shape, c.base)) = some ([6], ⟨0, 0⟩) := by decide +kernel

/-- `[](int& n) { n++; }`, then `Sum`. -/
example : (v.bind fun c => match (do
      let (_, m) ← forEachElems (fun (u : Unit) ps m => do
        let x ← load m (ps.headD ⟨9, 9⟩)
        let m ← store m (ps.headD ⟨9, 9⟩) (x + 1)
        pure (u, m)) () c [] (mem data)
      let (s, m) ← forEachElems (fun (s : Int) ps m => do
        let x ← load m (ps.headD ⟨9, 9⟩)
        pure (s + x, m)) 0 c [] m
      pure (content m 6, s.returned) : Res _) with
    | .ok r => some r
    | .error _ => none) = some ([4, -3, 3, -7, 16, 268].map some, some 281) := by decide +kernel

/-! `test/doc/algorithms/for_each_index.cpp:11-33` -/

example : (match forEachIndex (fun (u : Unit) p is m => do
      let x ← load m p
      let m ← store m p (x + (1000 * is.getD 0 0 + 100 * is.getD 1 0))
      pure (u, m)) () (Container.ofShape ⟨0, 0⟩ [3, 3]) (mem [3, 4, 2, 8, 15, 27, 56, 9, 36]) with
    | .ok r => some (content r.2 9)
    | .error _ => none) = some ([3, 104, 202, 1008, 1115, 1227, 2056, 2109, 2236].map some) := by decide +kernel

/-! `test/doc/algorithms/for_each_shape.cpp:11-20` -/

example : (match forEachShapeCtx (fun (t : List (List Int)) is => pure (t ++ [is])) [] [4, 3, 2] with
    | .ok r => r.returned.map (·.take 7)
    | .error _ => none) = some [[0, 0, 0], [0, 0, 1], [0, 1, 0], [0, 1, 1], [0, 2, 0], [0, 2, 1], [1, 0, 0]] := by decide +kernel

/-! `test/doc/shape/compatible.cpp:11-26` -/

/-- `shape_t`, `shape<_, 3, _>`. -/
private def shapeT : Desc := normalizeExtents [.joker, .int 3, .joker]

/-- `shape_t x = of_size(args...)`. -/
private def converted (args : List BuildArg) : Option (Bool × Option Shape) :=
  match ofSize .checked args with
  | some (.ok s) => some (isConstructibleFrom shapeT s.desc && constructCompiles shapeT s.desc,
      match convertPrefilled .checked shapeT s with
      | .ok r => some r.values
      | .error _ => none)
  | _ => none

example : converted [.int .i32 4, .const 3, .int .i32 8] = some (true, some [4, 3, 8]) := by decide +kernel
example : converted [.int .i32 4, .const 3, .const 5] = some (true, some [4, 3, 5]) := by decide +kernel
-- "4 x 3 x fixed<5> is incompatible": the library accepts it (C129)
example : converted [.int .i32 4, .int .i32 3, .const 5] = some (true, some [4, 3, 5]) := by decide +kernel

/-! `test/doc/shape/named_axis.cpp:9-45` -/

private def width : AxisId := .named "width"
private def height : AxisId := .named "height"
private def depth : AxisId := .named "depth"
private def phase : AxisId := .named "phase"

private def values (r : Res Prefilled) : Option Shape :=
  match r with
  | .ok s => some s.values
  | .error _ => none

example : values (Prefilled.ofNamed .checked (normalizeExtents [.axis width none, .axis height none]) 0 [(height, .val 8), (width, .val 10)])
    = some [10, 8] := by decide +kernel
example : values (Prefilled.ofExtents .checked (normalizeExtents [.axis width none, .axis height none]) 0 [.val 10, .val 8])
    = some [10, 8] := by decide +kernel
example : isOrdered (normalizeExtents [.joker, .axis phase none, .joker]) [.plain (.val 11), .named phase (.val 10), .plain (.val 15)]
    = true := by decide +kernel
example : values (Prefilled.ofMixed .checked (normalizeExtents [.joker, .axis phase none, .joker]) 0
    [.plain (.val 11), .named phase (.val 10), .plain (.val 15)]) = some [11, 10, 15] := by decide +kernel
example : isOrdered (normalizeExtents [.joker, .axis phase none, .joker]) [.plain (.val 11), .plain (.val 15), .named phase (.val 10)]
    = false := by decide +kernel

/-- `shape<depth[66], width[23]>`. -/
private def s4 : Desc := normalizeExtents [.axis depth (some (.static 66)), .axis width (some (.static 23))]

example : (Prefilled.default s4).values = [66, 23] := by decide +kernel
example : (descSize s4).size = 1 := by decide +kernel
example : values (Prefilled.ofExtents .checked (normalizeExtents [.axis width none, .axis height (some (.static 23))]) 0 [.val 9, .joker])
    = some [9, 23] := by decide +kernel
example : values (Prefilled.ofExtents .checked s4 0 [.val 66, .val 23]) = some [66, 23] := by decide +kernel
example : Prefilled.ofExtents .checked s4 0 [.val 6, .val 32] = .error .assertion := by decide +kernel
example : values (Prefilled.ofNamed .checked (normalizeExtents [.axis (.named "count") (some (.dynamic .i8))]) 0 [(.named "count", .val 100)])
    = some [100] := by decide +kernel
example : (descSize (normalizeExtents [.axis (.named "count") (some (.dynamic .i8))])).size = 1 := by decide +kernel

/-! `test/doc/shape/numerical_axis.cpp:9-40` -/

example : values (Prefilled.ofExtents .checked (normalizeExtents [.joker, .joker, .joker]) 0 [.val 3, .val 5, .val 9]) = some [3, 5, 9] := by
  decide +kernel
example : values (Prefilled.ofExtents .checked (normalizeExtents [.joker, .joker, .joker]) 0 [.val 3, .val 5]) = some [1, 3, 5] := by
  decide +kernel
example : (descSize (normalizeExtents [.joker, .joker, .joker])).size = 12 := by decide +kernel
example : (Prefilled.default (normalizeExtents [.int 17, .int 31])).values = [17, 31] := by decide +kernel
example : values (Prefilled.ofExtents .checked (normalizeExtents [.int 17, .int 31]) 0 [.joker, .joker]) = some [17, 31] := by decide +kernel
example : values (Prefilled.ofExtents .checked (normalizeExtents [.int 17, .int 31]) 0 [.val 17, .val 31]) = some [17, 31] := by decide +kernel
example : values (Prefilled.ofExtents .checked (normalizeExtents [.int 17, .joker]) 0 [.joker, .val 31]) = some [17, 31] := by decide +kernel
example : (descSize (normalizeExtents [.int 17, .int 31])).size = 1 := by decide +kernel
example : values (Prefilled.ofExtents .checked (normalizeExtents [.type .u8, .type .u8]) 0 [.val 100, .val 100]) = some [100, 100] := by
  decide +kernel
example : (descSize (normalizeExtents [.type .u8, .type .u8])).size = 2 := by decide +kernel

/-! `test/doc/shape/odd_sized.cpp:11-20` -/

example : values (convertPrefilled .checked (normalizeExtents [.joker, .joker]) ⟨normalizeExtents [.joker, .joker, .joker, .joker],
    [4, 8, 5, 2]⟩) = some [160, 2] := by decide +kernel
example : values (convertPrefilled .checked (normalizeExtents [.joker, .joker, .joker]) ⟨normalizeExtents [.joker], [7]⟩)
    = some [1, 1, 7] := by decide +kernel

/-! `test/doc/tutorial/tutorial-01.cpp:10-21`, `test/doc/tutorial/tutorial-01-label.cpp:10-20` -/

example : (match (Container.ofShape ⟨0, 0⟩ [2, 3]).print (toString (α := Int)) (mem [1, 3, 5, 7, 9, 11]) with
    | .ok t => some t
    | .error _ => none) = some "[ 1 3 5 ]\n[ 7 9 11 ]\n" := by decide +kernel

example : (match ({ Container.ofShape ⟨0, 0⟩ [2, 3] with label := some "The Original Data" } : Container).print (toString (α := Int))
      (mem [1, 3, 5, 7, 9, 11]) with
    | .ok t => some t
    | .error _ => none) = some "The Original Data:\n  [ 1 3 5 ]\n  [ 7 9 11 ]\n" := by decide +kernel

/-! `test/unit/container/view/empty/*.cpp` -/

example : ∀ k ∈ [SourceKind.array (.cArray 1 .elem), .array (.stdArray 0 .elem), .range 0, .ptr],
    ((makeView (τ := Unit) [.source ⟨(), some ⟨0, 0⟩, k⟩, .size ⟨[0], false⟩]).bind Built.view).map
      (fun c => (c.numel, c.shape, c.static)) = some (0, [0], false) := by decide +kernel
example : viewSize false [⟨.implicit 0, .dynamic .u64⟩] = 16 := by decide +kernel

end Kwk.Tests.Docs
