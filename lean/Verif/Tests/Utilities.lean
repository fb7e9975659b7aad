import Verif.Model.SourceTypes
import Verif.Model.Known
import Verif.Model.EndRatio
import Verif.Model.Interp
import Verif.Model.AxisOps
import Verif.Model.Build
import Verif.Model.Ownership

/-!
# Unit tests of the utilities and of the container concepts, run on the model

The tests of `test/unit/utility/meta`, `test/unit/utility/interpolator`, `test/unit/utility/extensions` and
`test/unit/concepts/container.cpp`, `test/unit/concepts/axis.cpp`, with the model in place of the library.
-/

namespace Kwk.Tests.Utilities

/-! `test/unit/utility/meta/end.cpp:12-76` -/

private def e : EndT := EndT.all

example : e.shift = 0 ∧ e.frac.num = 1 ∧ e.frac.denum = 1 := by decide -- lines 16-18
example : (e.add 3).shift = 3 ∧ (e.add 3).frac.eq ⟨1, 1⟩ = true := by decide -- lines 25-26
example : (e.add 5).shift = 5 ∧ (e.add 5).frac.eq ⟨1, 1⟩ = true := by decide -- lines 28-29
example : (e.sub 3).shift = -3 ∧ (e.sub 3).frac.eq ⟨1, 1⟩ = true := by decide -- lines 36-37
example : (EndT.rsub 5 e).shift = 5 ∧ (EndT.rsub 5 e).frac.eq ⟨-1, 1⟩ = true := by decide -- lines 39-40
example : (e.mul 3).shift = 0 ∧ (e.mul 3).frac.eq ⟨3, 1⟩ = true := by decide -- lines 47-48
example : ((e.add 2).mul 3).shift = 2 * 3 ∧ ((e.add 2).mul 3).frac.eq ⟨3, 1⟩ = true := by decide -- lines 50-51
example : (e.mul 5).shift = 0 ∧ (e.mul 5).frac.eq ⟨5, 1⟩ = true := by decide -- lines 53-54
example : ((e.add 7).mul 5).shift = 5 * 7 ∧ ((e.add 7).mul 5).frac.eq ⟨5, 1⟩ = true := by decide -- lines 56-57
example : (e.div 3).shift = 0 ∧ (e.div 3).frac.eq ⟨1, 3⟩ = true := by decide -- lines 64-65
example : ((e.add 2).div 3).shift = 2 ∧ ((e.add 2).div 3).frac.eq ⟨1, 3⟩ = true := by decide -- lines 67-68
example : (((e.mul 2).div 3).add 1).shift = 3 ∧ (((e.mul 2).div 3).add 1).frac.eq ⟨2, 3⟩ = true := by
  decide -- lines 70-71
example : ((((e.mul 2).div 3).add 1).div 2).shift = 3 ∧ ((((e.mul 2).div 3).add 1).div 2).frac.eq ⟨2, 6⟩ = true := by
  decide -- lines 73-74

/-! `test/unit/utility/meta/fixed.cpp:24-39`: the literals, given by their characters (48 is `'0'`). -/

example : literalC [48] = ⟨.u8, 0⟩ := by decide -- lines 30, 34
example : literalC [49, 54, 53, 52, 48] = ⟨.u16, 16540⟩ := by decide -- lines 31, 35
example : literalC [49, 50, 51, 52, 53, 54, 55] = ⟨.u32, 1234567⟩ := by decide -- lines 32, 36

/-! `test/unit/utility/meta/ratio.cpp:13-135`: values, and whether numerator and denominator are constants. -/

/-- A ratio of numbers with their types. -/
private structure RatioK where
  num : Known
  denum : Known

/-- A run-time `int`. -/
private def d (v : Int) : Known := ⟨⟨.i32, v⟩, false⟩
/-- A constant `v_c`. -/
private def c (v : Int) : Known := ⟨⟨.u8, v⟩, true⟩

private def rdd : RatioK := ⟨d 1, d 3⟩
private def rsd : RatioK := ⟨c 5, d 7⟩
private def rds : RatioK := ⟨d 9, c 11⟩
private def rss : RatioK := ⟨c 13, c 15⟩

/-- The values of a ratio; `include/kwk/utility/ratio.hpp:16-28`. -/
private def RatioK.value (r : RatioK) : Ratio := ⟨r.num.1.value, r.denum.1.value⟩

/-- Values and constness of `a + b`; `include/kwk/utility/ratio.hpp:33-39`. -/
private def add (a b : RatioK) : Res (Known × Known) := do
  let x ← Known.op constMul a.num b.denum
  let y ← Known.op constMul b.num a.denum
  let n ← Known.op constAdd x y
  let m ← Known.op constMul a.denum b.denum
  pure (n, m)

/-- Values and constness of `a - b`; `include/kwk/utility/ratio.hpp:41-47`. -/
private def sub (a b : RatioK) : Res (Known × Known) := do
  let x ← Known.op constMul a.num b.denum
  let y ← Known.op constMul b.num a.denum
  let n ← Known.op constSub x y
  let m ← Known.op constMul a.denum b.denum
  pure (n, m)

/-- Values and constness of `a * b`; `include/kwk/utility/ratio.hpp:49-53`. -/
private def mul (a b : RatioK) : Res (Known × Known) := do
  let n ← Known.op constMul a.num b.num
  let m ← Known.op constMul a.denum b.denum
  pure (n, m)

/-- Values and constness of `a / b`; `include/kwk/utility/ratio.hpp:67-71`. -/
private def div (a b : RatioK) : Res (Known × Known) := do
  let n ← Known.op constMul a.num b.denum
  let m ← Known.op constMul a.denum b.num
  pure (n, m)

/-- The result equals the model of ratios in `ℤ`, equals the expected ratio, and has the expected constness. -/
private def agrees (r : Res (Known × Known)) (model expected : Ratio) (sn sd : Bool) : Bool :=
  match r with
  | .ok (n, m) => decide ((⟨n.1.value, m.1.value⟩ : Ratio) = model) && model.eq expected && n.2 == sn && m.2 == sd
  | _ => false

example : agrees (add rdd rdd) (rdd.value.add rdd.value) ⟨2, 3⟩ false false = true := by decide -- line 23
example : agrees (add rdd rsd) (rdd.value.add rsd.value) ⟨7*1+5*3, 3*7⟩ false false = true := by decide -- line 27
example : agrees (add rsd rds) (rsd.value.add rds.value) ⟨5*11+9*7, 7*11⟩ false false = true := by decide -- line 31
example : agrees (add rds rss) (rds.value.add rss.value) ⟨9*15+13*11, 11*15⟩ false true = true := by decide -- line 35
example : agrees (add rss rss) (rss.value.add rss.value) ⟨13*15+13*15, 15*15⟩ true true = true := by decide -- line 39

example : agrees (sub rdd rdd) (rdd.value.sub rdd.value) ⟨0, 3⟩ false false = true := by decide -- line 55
example : agrees (sub rdd rsd) (rdd.value.sub rsd.value) ⟨7*1-5*3, 3*7⟩ false false = true := by decide -- line 59
example : agrees (sub rsd rds) (rsd.value.sub rds.value) ⟨5*11-9*7, 7*11⟩ false false = true := by decide -- line 63
example : agrees (sub rds rss) (rds.value.sub rss.value) ⟨9*15-13*11, 11*15⟩ false true = true := by decide -- line 67
example : agrees (sub rss rss) (rss.value.sub rss.value) ⟨13*15-13*15, 15*15⟩ true true = true := by decide -- line 71

example : agrees (mul rdd rdd) (rdd.value.mul rdd.value) ⟨1, 9⟩ false false = true := by decide -- line 86
example : agrees (mul rdd rsd) (rdd.value.mul rsd.value) ⟨1*5, 3*7⟩ false false = true := by decide -- line 90
example : agrees (mul rsd rds) (rsd.value.mul rds.value) ⟨5*9, 7*11⟩ false false = true := by decide -- line 94
example : agrees (mul rds rss) (rds.value.mul rss.value) ⟨9*13, 11*15⟩ false true = true := by decide -- line 98
example : agrees (mul rss rss) (rss.value.mul rss.value) ⟨13*13, 15*15⟩ true true = true := by decide -- line 102

example : agrees (div rdd rdd) (rdd.value.div rdd.value) ⟨1, 1⟩ false false = true := by decide -- line 117
example : agrees (div rdd rsd) (rdd.value.div rsd.value) ⟨1*7, 5*3⟩ false false = true := by decide -- line 121
example : agrees (div rsd rds) (rsd.value.div rds.value) ⟨5*11, 9*7⟩ true false = true := by decide -- line 125
example : agrees (div rds rss) (rds.value.div rss.value) ⟨9*15, 11*13⟩ false true = true := by decide -- line 129
example : agrees (div rss rss) (rss.value.div rss.value) ⟨13*15, 15*13⟩ true true = true := by decide -- line 133

/-! `test/unit/utility/interpolator/floor.cpp:11-55`, `test/unit/utility/interpolator/linear.cpp:11-50`: the arrays are
functions of the position.  For whole numbers the test of one dimension accepts an error of 1; the value expected here is
the exact one. -/

/-- The value at a position of an array given by its elements in order; outside there is no value. -/
private def arr (shape : List Nat) (data : List Int) (p : List Int) : Res ℚ :=
  let rec go : List Nat → List Int → Nat → Option Nat
    | [], [], k => some k
    | n :: ns, i :: is, k => if 0 ≤ i ∧ i < n then go ns is (k * n + i.toNat) else none
    | _, _, _ => none
  match go shape p 0 with
  | some k => .ok (data.getD k 0)
  | none => .error .outOfBounds

example : ((List.range 10).all fun i =>
    decide (interpFloor (arr [5] [1, 2, 3, 4, 5]) [(i : ℚ) / 2] = .ok (((i / 2 : Nat) : ℚ) + 1))) = true := by
  decide +kernel

private def grid : List Int := [1, 2, 3, 4, 51, 52, 53, 54, 101, 102, 103, 104, 151, 152, 153, 154]

example : ((List.range 8).all fun j => (List.range 8).all fun i =>
    decide (interpFloor (arr [4, 4] grid) [(j : ℚ) / 2, (i : ℚ) / 2]
      = .ok (((i / 2 : Nat) : ℚ) + 1 + 50 * ((j / 2 : Nat) : ℚ)))) = true := by decide +kernel

example : ((List.range 4).all fun k => (List.range 8).all fun j => (List.range 8).all fun i =>
    decide (interpFloor (arr [2, 4, 4] (grid ++ grid.map (- ·))) [(k : ℚ) / 2, (j : ℚ) / 2, (i : ℚ) / 2]
      = .ok ((((i / 2 : Nat) : ℚ) + 1 + 50 * ((j / 2 : Nat) : ℚ)) * (if k ≥ 2 then -1 else 1)))) = true := by
  decide +kernel

example : ((List.range 10).all fun i =>
    decide (interpLinear (arr [2] [0, 2]) [(i : ℚ) / 10] = .ok ((i : ℚ) / 5))) = true := by decide +kernel

example : ((List.range 4).all fun j => (List.range 4).all fun i =>
    decide (interpLinear (arr [2, 2] [1, 2, 3, 4]) [(j : ℚ) / 4, (i : ℚ) / 4]
      = .ok (1 + (i : ℚ) / 4 + 2 * ((j : ℚ) / 4)))) = true := by decide +kernel

example : ((List.range 4).all fun k => (List.range 4).all fun j => (List.range 4).all fun i =>
    decide (interpLinear (arr [2, 2, 2] [1, 2, 3, 4, 5, 6, 7, 8]) [(k : ℚ) / 4, (j : ℚ) / 4, (i : ℚ) / 4]
      = .ok (1 + (i : ℚ) / 4 + 2 * ((j : ℚ) / 4) + 4 * ((k : ℚ) / 4)))) = true := by decide +kernel

/-! `test/unit/utility/extensions/as_dimension.cpp:11-19`, `test/unit/utility/extensions/to_descriptor.cpp:11-22` -/

example : asDimension .joker 33 = 33 := by decide
example : asDimension (BuildArg.int .i32 42).arg 0 = 42 := by decide
example : asDimension (BuildArg.named (.named "width") (.int .i32 63)).arg 0 = 63 := by decide
example : asDimension (BuildArg.named (.along 6) (.int .i32 13)).arg 0 = 13 := by decide

example : toDescriptor .joker = .joker := by decide
example : toDescriptor (.int .i32 42) = .type .i32 := by decide
example : toDescriptor (.const 37) = .int 37 := by decide
example : toDescriptor (.named (.named "width") (.int .i32 63)) = .axis (.named "width") (some (.dynamic .i32)) := by decide
example : toDescriptor (.named (.named "width") (.const 45)) = .axis (.named "width") (some (.static 45)) := by decide
example : toDescriptor (.named (.along 6) (.int .i32 13)) = .axis (.along 6) (some (.dynamic .i32)) := by decide
example : toDescriptor (.named (.along 3) (.const 13)) = .axis (.along 3) (some (.static 13)) := by decide

/-! `test/unit/concepts/axis.cpp:21-42` -/

example : (normalizeExtent 0 (.axis (.along 3) none)).isDynamic = true := by decide
example : (normalizeExtent 0 (.axis (.named "height") none)).isDynamic = true := by decide
example : (normalizeExtent 0 (.axis (.named "phase") none)).isDynamic = true := by decide
example : (normalizeExtent 0 (.axis (.along 3) (some (.static 7)))).isDynamic = false := by decide
example : (normalizeExtent 0 (.axis (.named "height") (some (.static 9)))).isDynamic = false := by decide
example : (normalizeExtent 0 (.axis (.named "phase") (some (.static 11)))).isDynamic = false := by decide

/-! `test/unit/concepts/container.cpp:13-97`: with `false` for `float` and `true` for `int`. -/

private def n2 : Desc := normalizeExtents [.joker, .joker]
private def n3 : Desc := normalizeExtents [.joker, .joker, .joker]
private def n4x : Desc := normalizeExtents [.int 4, .joker]
private def n5xx : Desc := normalizeExtents [.int 5, .joker, .joker]

private def table2D : ContainerType Bool := ⟨false, n2, .table⟩
private def table46 : ContainerType Bool := ⟨false, normalizeExtents [.int 4, .int 6], .table⟩
private def view3D : ContainerType Bool := ⟨true, n3, .view⟩
private def view55 : ContainerType Bool := ⟨true, normalizeExtents [.int 5, .int 5, .joker], .view⟩

/-- The answers of a concept for no setting, the type `float`, the type `int`, and the four shapes. -/
private def answers (f : ContainerType Bool → Wanted Bool → Bool) (t : ContainerType Bool) : List Bool :=
  [f t {}, f t { elem := some false }, f t { elem := some true }, f t { size := some n2 }, f t { size := some n3 },
    f t { size := some n4x }, f t { size := some n5xx }]

example : answers isContainer table2D = [true, true, false, true, false, false, false] := by decide -- lines 19-24
example : answers isContainer table46 = [true, true, false, true, false, true, false] := by decide -- lines 26-31
example : answers isContainer view3D = [true, false, true, false, true, false, false] := by decide -- lines 33-39
example : answers isContainer view55 = [true, false, true, false, true, false, true] := by decide -- lines 41-47
example : answers isTable table2D = [true, true, false, true, false, false, false] := by decide -- lines 52-55
example : answers isTable table46 = [true, true, false, true, false, true, false] := by decide -- lines 57-60
example : answers isTable view3D = List.replicate 7 false := by decide -- lines 62-66
example : answers isTable view55 = List.replicate 7 false := by decide -- lines 68-72
example : answers isView table2D = List.replicate 7 false := by decide -- lines 77-80
example : answers isView table46 = List.replicate 7 false := by decide -- lines 82-85
example : answers isView view3D = [true, false, true, false, true, false, false] := by decide -- lines 87-91
example : answers isView view55 = [true, false, true, false, true, false, true] := by decide -- lines 93-97

/-! `test/unit/concepts/range.cpp:23-37`: `std::array<int, 8>`, `std::vector<float>`, `std::list<void*>`. -/

example : (ObjType.stdArray 8 (.scalar 0 false) false).isContiguousRange = true := by decide
example : (ObjType.vector (.scalar 1 false) false).isContiguousRange = true := by decide
example : (ObjType.list (.pointer (.scalar 2 false) false) false).isContiguousRange = false := by decide
example : (ObjType.stdArray 8 (.scalar 0 false) false).isContiguousStaticRange = true := by decide
example : (ObjType.vector (.scalar 1 false) false).isContiguousStaticRange = false := by decide
example : (ObjType.list (.pointer (.scalar 2 false) false) false).isContiguousStaticRange = false := by decide

end Kwk.Tests.Utilities
