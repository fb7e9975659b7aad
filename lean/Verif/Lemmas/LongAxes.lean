import Verif.Spec.LongAxes
import Verif.Lemmas.TypedPrint
import Verif.Lemmas.TypedSlice

/-! # Lemmas: signed numbers of up to 64 bits -/

namespace Kwk
open Spec

theorem common_cases {t u : IntType} (ht : ComputesSigned t) (hu : ComputesSigned u) :
    (t.common u = .i64 ∧ (t = .i64 ∨ u = .i64)) ∨ (t.common u = .i32 ∧ t ≠ .i64 ∧ u ≠ .i64) := by
  simp only [ComputesSigned, List.mem_cons, List.not_mem_nil, or_false] at ht hu
  rcases ht with rfl | rfl | rfl | rfl | rfl | rfl <;>
    rcases hu with rfl | rfl | rfl | rfl | rfl | rfl <;> decide

theorem common_signed_true {t u : IntType} (ht : ComputesSigned t) (hu : ComputesSigned u) :
    (t.common u).signed = true ∧ ComputesSigned (t.common u) := by
  rcases common_cases ht hu with ⟨h, -⟩ | ⟨h, -⟩ <;> rw [h] <;> decide

theorem i64_fits {v : Int} : IntType.i64.Fits v ↔ -9223372036854775808 ≤ v ∧ v < 9223372036854775808 := by
  unfold IntType.Fits IntType.lo IntType.hi IntType.i64
  norm_num

theorem i32_fits {v : Int} : IntType.i32.Fits v ↔ -2147483648 ≤ v ∧ v < 2147483648 := by
  unfold IntType.Fits IntType.lo IntType.hi IntType.i32
  norm_num

/-- A number of a type that computes signed is one of `std::int64_t`. -/
theorem long_i64 {c : Coord} (h : LongNumber c) : IntType.i64.Fits c.value := by
  obtain ⟨h1, h2⟩ := h
  simp only [ComputesSigned, List.mem_cons, List.not_mem_nil, or_false] at h1
  rcases h1 with e | e | e | e | e | e <;> rw [e] at h2 <;> rw [i64_fits] <;>
    simp only [IntType.Fits, IntType.lo, IntType.hi, IntType.i8, IntType.u8, IntType.i16, IntType.u16, IntType.i32, IntType.i64] at h2 <;>
    norm_num at h2 <;> omega

/-- A number of a type that computes signed is an `int` or has the type `std::int64_t`. -/
theorem long_i32 {c : Coord} (h : LongNumber c) : IntType.i32.Fits c.value ∨ c.type = .i64 := by
  obtain ⟨h1, h2⟩ := h
  simp only [ComputesSigned, List.mem_cons, List.not_mem_nil, or_false] at h1
  rcases h1 with e | e | e | e | e | e
  case inr.inr.inr.inr.inr => exact .inr e
  all_goals
    left
    rw [e] at h2
    rw [i32_fits]
    simp only [IntType.Fits, IntType.lo, IntType.hi, IntType.i8, IntType.u8, IntType.i16, IntType.u16, IntType.i32] at h2
    norm_num at h2
    omega

/-- An operation whose result is a number of the common type. -/
theorem long_op {f : Int → Int → Int} {a b : Coord} (ha : LongNumber a) (hb : LongNumber b)
    (h : (a.type.common b.type).Fits (f a.value b.value)) :
    constOp f a b = .ok ⟨a.type.common b.type, f a.value b.value⟩ ∧ LongNumber ⟨a.type.common b.type, f a.value b.value⟩ := by
  obtain ⟨hs, hc⟩ := common_signed_true ha.1 hb.1
  refine ⟨?_, hc, h⟩
  unfold constOp
  simp only
  rw [IntType.wrap_fits (IntType.common_fits ha.2 hs), IntType.wrap_fits (IntType.common_fits_right hb.2 hs), IntType.op_fits h]
  rfl

/-- An operation whose result is not a number of the common type overflows. -/
theorem long_op_overflow {f : Int → Int → Int} {a b : Coord} (ha : LongNumber a) (hb : LongNumber b)
    (h : ¬ (a.type.common b.type).Fits (f a.value b.value)) : constOp f a b = .error .overflow := by
  obtain ⟨hs, hc⟩ := common_signed_true ha.1 hb.1
  unfold constOp
  simp only
  rw [IntType.wrap_fits (IntType.common_fits ha.2 hs), IntType.wrap_fits (IntType.common_fits_right hb.2 hs)]
  unfold IntType.op
  rw [if_pos hs, if_neg h]
  rfl

/-- The result of an operation is a number of the common type if it is one of `std::int64_t` and an operand has that type, or
if it is an `int`. -/
theorem common_fits_of {t u : IntType} (ht : ComputesSigned t) (hu : ComputesSigned u) {v : Int}
    (h : IntType.i32.Fits v ∨ (t = .i64 ∨ u = .i64) ∧ IntType.i64.Fits v) : (t.common u).Fits v := by
  rcases common_cases ht hu with ⟨e, -⟩ | ⟨e, h1, h2⟩ <;> rw [e]
  · rcases h with h | h
    · rw [i32_fits] at h; rw [i64_fits]; omega
    · exact h.2
  · rcases h with h | h
    · exact h
    · rcases h.1 with h | h
      · exact absurd h h1
      · exact absurd h h2

theorem long_zero : LongNumber ⟨.i32, 0⟩ := by decide
theorem long_fixedOne : LongNumber fixedOne := by decide

theorem fits_zero {c : IntType} (h : ComputesSigned c) : c.Fits 0 := by
  simp only [ComputesSigned, List.mem_cons, List.not_mem_nil, or_false] at h
  rcases h with e | e | e | e | e | e <;> rw [e] <;> decide

/-- A comparison with zero. -/
theorem ltT_long {c : Coord} (h : LongNumber c) :
    ltT c ⟨.i32, 0⟩ = decide (c.value < 0) ∧ ltT ⟨.i32, 0⟩ c = decide (0 < c.value) := by
  obtain ⟨hs, hc⟩ := common_signed_true h.1 (u := .i32) (by decide)
  have h1 : (c.type.common .i32).wrap c.value = c.value := IntType.wrap_fits (IntType.common_fits h.2 hs)
  have h2 : (c.type.common .i32).wrap 0 = 0 := IntType.wrap_fits (fits_zero hc)
  constructor
  · unfold ltT
    simp only
    rw [h1, h2]
  · unfold ltT
    simp only
    rw [IntType.common_comm, h1, h2]

/-- A division of non-negative numbers. -/
theorem long_div {a b : Coord} (ha : LongNumber a) (hb : LongNumber b) (h0 : 0 ≤ a.value) (h1 : 0 < b.value) :
    constDiv a b = .ok ⟨a.type.common b.type, a.value / b.value⟩ ∧ LongNumber ⟨a.type.common b.type, a.value / b.value⟩ := by
  obtain ⟨hs, hc⟩ := common_signed_true ha.1 hb.1
  have hA := IntType.common_fits (u := b.type) ha.2 hs
  have hq : (a.type.common b.type).Fits (a.value / b.value) :=
    IntType.fits_between hA (Int.ediv_nonneg h0 h1.le) (Int.ediv_le_self _ h0)
  refine ⟨?_, hc, hq⟩
  unfold constDiv
  simp only
  rw [IntType.wrap_fits hA, IntType.wrap_fits (IntType.common_fits_right hb.2 hs)]
  have : cdiv a.value b.value = .ok (a.value / b.value) := by
    unfold cdiv
    rw [if_neg (by omega), Int.tdiv_eq_ediv_of_nonneg h0]; rfl
  rw [this]
  simp only [bind, Except.bind]
  rw [IntType.op_fits hq]
  rfl

theorem long_mod {a b : Coord} (ha : LongNumber a) (hb : LongNumber b) (h0 : 0 ≤ a.value) (h1 : 0 < b.value) :
    modT a b = .ok ⟨a.type.common b.type, a.value % b.value⟩ := by
  obtain ⟨hs, hc⟩ := common_signed_true ha.1 hb.1
  unfold modT
  simp only
  rw [IntType.wrap_fits (IntType.common_fits ha.2 hs), IntType.wrap_fits (IntType.common_fits_right hb.2 hs)]
  have : cmod a.value b.value = .ok (a.value % b.value) := by
    unfold cmod
    rw [if_neg (by omega), Int.tmod_eq_emod_of_nonneg h0]; rfl
  rw [this]
  rfl

/-- The number of steps. -/
theorem sliceEvalT_long {v c : Coord} (hv : LongNumber v) (h0 : 0 ≤ v.value) (h : LongNumber c) (hne : c.value ≠ 0)
    (hneg : c.type.Fits (-c.value)) :
    ∃ r, sliceEvalT v c = .ok r ∧ sliceEval v.value c.value = .ok r.value := by
  have hw : ∃ w, absT c = .ok w ∧ w.value = (if c.value < 0 then -c.value else c.value) ∧ LongNumber w ∧ 0 < w.value := by
    have hpr : ComputesSigned c.type.promote ∧ c.type.promote.signed = true := by
      have := h.1
      simp only [ComputesSigned, List.mem_cons, List.not_mem_nil, or_false] at this
      rcases this with e | e | e | e | e | e <;> rw [e] <;> decide
    unfold absT
    rw [(ltT_long h).1]
    by_cases hn : c.value < 0
    · rw [if_pos (by simpa using hn), if_pos hn]
      have hf := IntType.promote_fits hneg
      refine ⟨⟨c.type.promote, -c.value⟩, ?_, rfl, ⟨hpr.1, hf⟩, by simp only; omega⟩
      unfold constNeg
      simp only
      rw [IntType.wrap_fits (IntType.promote_fits h.2), IntType.op_fits hf]
      rfl
    · rw [if_neg (by simpa using hn), if_neg hn]
      exact ⟨_, rfl, rfl, ⟨hpr.1, IntType.promote_fits h.2⟩, by simp only; omega⟩
  obtain ⟨w, ew, vw, sw, pw⟩ := hw
  unfold sliceEvalT sliceEval
  by_cases h00 : v.value = 0
  · rw [if_pos h00, if_pos h00]
    exact ⟨_, rfl, rfl⟩
  · rw [if_neg h00, if_neg h00, ew]
    simp only [bind, Except.bind]
    have e1 := long_mod hv sw h0 pw
    obtain ⟨e2, l2⟩ := long_div hv sw h0 pw
    rw [e1, e2]
    simp only
    have hq : 0 ≤ v.value / w.value := Int.ediv_nonneg h0 pw.le
    have hle : (if v.value % w.value ≠ 0 then 1 else 0) + v.value / w.value ≤ v.value := by
      have e := Int.mul_ediv_add_emod v.value w.value
      have := Int.emod_nonneg v.value pw.ne'
      have : v.value / w.value ≤ w.value * (v.value / w.value) := le_mul_of_one_le_left hq pw
      split <;> omega
    have hl1 : LongNumber ⟨.i32, if v.value % w.value ≠ 0 then 1 else 0⟩ := by
      split <;> decide
    obtain ⟨hs, hc⟩ := common_signed_true hv.1 sw.1
    have hfit : (IntType.i32.common (v.type.common w.type)).Fits v.value :=
      IntType.common_fits_right (IntType.common_fits hv.2 hs) (common_signed_true (by decide) hc).1
    obtain ⟨e3, -⟩ := long_op (f := (· + ·)) hl1 l2 (IntType.fits_between hfit (by
      show 0 ≤ (if v.value % w.value ≠ 0 then (1 : Int) else 0) + v.value / w.value
      split <;> omega) hle)
    refine ⟨_, e3, ?_⟩
    unfold cmod cdiv
    rw [← vw, if_neg pw.ne', if_neg pw.ne', Int.tmod_eq_emod_of_nonneg h0, Int.tdiv_eq_ediv_of_nonneg h0]
    rfl

theorem RepSigned.long {c : Coord} {v : Int} (h : RepSigned c v) : LongNumber c := by
  refine ⟨computesSigned h.type, ?_⟩
  have := h.type
  rw [h.value]
  simp only [List.mem_cons, List.not_mem_nil, or_false] at this
  rcases this with e | e <;> rw [e]
  · exact fits_signed rfl (by decide) h.rep.small
  · exact fits_signed rfl (by decide) h.rep.small

theorem i64_of {v : Int} (h : I64 v) : IntType.i64.Fits v := i64_fits.2 ⟨h.1.le, h.2⟩

/-- Evaluating an expression on `end`. -/
theorem size_long {e : EndExprT} {d : Coord} (hd : d.type = .i64) (hd' : IntType.i64.Fits d.value) (h : e.LongAt d.value) :
    ∃ c r, e.build = .ok c ∧ c.size d = .ok r ∧ e.erase.build.size d.value = .ok r.value ∧ LongNumber r ∧ r.type = .i64 := by
  obtain ⟨h2, h3, h4, h5, h6⟩ := h
  obtain ⟨c, ec, hc⟩ := signed_build h2
  have ld : LongNumber d := ⟨by rw [hd]; decide, by rw [hd]; exact hd'⟩
  have vn : c.num.value = e.factor := hc.num.value
  have vs : c.shift.value = e.offset := hc.shift.value
  have vd : c.denum.value = e.divisor := hc.denum.value
  obtain ⟨em, lm⟩ := long_op (f := (· * ·)) ld hc.num.long (common_fits_of ld.1 hc.num.long.1 (.inr ⟨.inl hd, by
    show IntType.i64.Fits (d.value * c.num.value)
    rw [vn]; exact i64_of h3⟩))
  have tm : d.type.common c.num.type = .i64 := by
    rcases common_cases ld.1 hc.num.long.1 with ⟨e, -⟩ | ⟨-, e, -⟩
    · exact e
    · exact absurd hd e
  rw [tm] at em lm
  obtain ⟨ea, la⟩ := long_op (f := (· + ·)) lm hc.shift.long (common_fits_of lm.1 hc.shift.long.1 (.inr ⟨.inl rfl, by
    show IntType.i64.Fits (d.value * c.num.value + c.shift.value)
    rw [vn, vs, i64_fits]; omega⟩))
  have ta : IntType.i64.common c.shift.type = .i64 := by
    rcases common_cases (t := .i64) (by decide) hc.shift.long.1 with ⟨e, -⟩ | ⟨-, e, -⟩
    · exact e
    · exact absurd rfl e
  simp only [ta] at ea la
  obtain ⟨et, lt⟩ := long_div la hc.denum.long (by simp only; rw [vn, vs]; exact h4) (by rw [vd]; exact h6)
  have tt : IntType.i64.common c.denum.type = .i64 := by
    rcases common_cases (t := .i64) (by decide) hc.denum.long.1 with ⟨e, -⟩ | ⟨-, e, -⟩
    · exact e
    · exact absurd rfl e
  simp only [tt] at et lt
  refine ⟨c, _, ec, ?_, ?_, lt, rfl⟩
  · unfold EndC.size
    rw [show constMul d c.num = _ from em]
    simp only [bind, Except.bind]
    rw [show constAdd _ c.shift = _ from ea]
    exact et
  · simp only [vn, vs, vd]
    show (if e.divisor = 0 then _ else Except.ok (Int.tdiv (d.value * e.factor + e.offset) e.divisor)) = _
    rw [if_neg h6.ne', Int.tdiv_eq_ediv_of_nonneg h4]

theorem bound_long {b : BoundT} {d : Coord} {v : Int} (hd : d.type = .i64) (hd' : IntType.i64.Fits d.value) (h : b.LongAt d.value)
    (hv : Denotes d.value b.erase v) :
    ∃ c r, b.build = .ok c ∧ c.value d = .ok r ∧ r.value = v ∧ LongNumber r ∧ (r.type = .i64 ∨ b = .int r) := by
  have e := value_of_denotes hv
  cases b with
  | int i => exact ⟨.int i, i, rfl, rfl, Except.ok.inj e, h, .inr rfl⟩
  | ext x =>
    obtain ⟨c, r, h1, h2, h3, h4, h5⟩ := size_long hd hd' h
    refine ⟨.ext c, r, ?_, h2, ?_, h4, .inl h5⟩
    · simp only [BoundT.build, h1]; rfl
    · exact Except.ok.inj (h3.symm.trans e)

/-- An optional bound. -/
theorem opt_long {b : Option BoundT} {d : Coord} {v dflt : Int} (hd : d.type = .i64) (hd' : IntType.i64.Fits d.value)
    (h : ∀ y ∈ b, y.LongAt d.value) (hv : DenotesOr d.value dflt (b.map (·.erase)) v) :
    (b = none ∧ v = dflt ∧ SlicerT.buildOpt b = .ok none) ∨
      ∃ c r, b.isSome = true ∧ SlicerT.buildOpt b = .ok (some c) ∧ c.value d = .ok r ∧ r.value = v ∧ LongNumber r ∧
        (r.type = .i64 ∨ b = some (.int r)) := by
  cases b with
  | none => cases hv; exact .inl ⟨rfl, rfl, rfl⟩
  | some b =>
    cases hv with
    | some hv =>
      obtain ⟨c, r, h1, h2, h3, h4, h5⟩ := bound_long hd hd' (h b rfl) hv
      refine .inr ⟨c, r, rfl, ?_, h2, h3, h4, by simpa using h5⟩
      simp only [SlicerT.buildOpt, h1]; rfl

/-- Where an interval starts. -/
theorem reindexT_long {b : Option BoundT} {st : Option Coord} {d : Coord} {v dflt : Int} (hd : d.type = .i64)
    (hd' : IntType.i64.Fits d.value) (h : ∀ y ∈ b, y.LongAt d.value)
    (hd0 : 0 < d.value) (hst : ∀ s ∈ st, LongNumber s) (hv : DenotesOr d.value dflt (b.map (·.erase)) v)
    (hdf : dflt = match st with | some s => if 0 < s.value then 0 else d.value - 1 | none => 0) :
    ∃ bc, SlicerT.buildOpt b = .ok bc ∧ (∀ e l, ∃ o, reindexT d (.interval bc st e l) = .ok o ∧ o.value = v ∧ LongNumber o) ∧
      bc.isSome = b.isSome ∧
      ∀ c ∈ bc, ∃ r, c.value d = .ok r ∧ r.value = v ∧ LongNumber r ∧ (r.type = .i64 ∨ b = some (.int r)) := by
  rcases opt_long hd hd' h hv with ⟨rfl, rfl, hb⟩ | ⟨c, r, hs, hb, hr, hrv, hrl, hri⟩
  · refine ⟨none, hb, fun e l => ?_, rfl, by simp⟩
    cases st with
    | none => exact ⟨⟨.i32, 0⟩, rfl, by simp [hdf], by decide⟩
    | some s =>
      have hS := hst s rfl
      unfold reindexT
      simp only [(ltT_long hS).2]
      simp only at hdf
      rw [hd]
      by_cases h0 : 0 < s.value
      · rw [if_pos (by simpa using h0)]
        rw [if_pos h0] at hdf
        exact ⟨_, rfl, hdf.symm, by decide⟩
      · rw [if_neg (by simpa using h0)]
        rw [if_neg h0] at hdf
        have ld : LongNumber d := ⟨by rw [hd]; decide, by rw [hd]; exact hd'⟩
        have hf : IntType.i64.Fits (d.value - 1) := IntType.fits_between hd' (by omega) (by omega)
        obtain ⟨et, -⟩ := long_op (f := (· - ·)) ld (b := ⟨.i32, 1⟩) (by decide) (by
          show (d.type.common .i32).Fits (d.value - 1)
          rw [hd]
          exact hf)
        rw [show constSub d ⟨.i32, 1⟩ = _ from et]
        refine ⟨_, rfl, ?_, ?_⟩
        · show IntType.i64.wrap (d.value - 1) = v
          rw [IntType.wrap_fits hf, hdf]
        · refine ⟨by show ComputesSigned .i64; decide, ?_⟩
          show IntType.i64.Fits (IntType.i64.wrap (d.value - 1))
          rw [IntType.wrap_fits hf]
          exact hf
  · refine ⟨some c, hb, fun e l => ⟨r, hr, hrv, hrl⟩, by rw [hs]; rfl, ?_⟩
    intro c' hc'
    cases hc'
    exact ⟨r, hr, hrv, hrl, hri⟩

/-- The type of the extent of an interval with a step is as wide as the operands. -/
theorem convert_long {n v : Coord} {b e s : IntType} (hb : ComputesSigned b) (he : ComputesSigned e) (hs : ComputesSigned s)
    (hv : IntType.i64.Fits v.value) (h : IntType.i32.Fits v.value ∨ b = .i64 ∨ e = .i64) (h0 : 0 ≤ n.value) (hn : n.value ≤ v.value) :
    (n.convert (steppedType b e s)).value = n.value := by
  refine IntType.wrap_fits ?_
  have key : steppedType b e s = .i32 ∨ steppedType b e s = .i64 := by
    simp only [ComputesSigned, List.mem_cons, List.not_mem_nil, or_false] at hb he hs
    rcases hb with rfl | rfl | rfl | rfl | rfl | rfl <;>
      rcases he with rfl | rfl | rfl | rfl | rfl | rfl <;>
      rcases hs with rfl | rfl | rfl | rfl | rfl | rfl <;> decide
  have wide : b = .i64 ∨ e = .i64 → steppedType b e s = .i64 := by
    intro h
    simp only [ComputesSigned, List.mem_cons, List.not_mem_nil, or_false] at hb he hs
    rcases h with rfl | rfl
    · rcases he with rfl | rfl | rfl | rfl | rfl | rfl <;>
        rcases hs with rfl | rfl | rfl | rfl | rfl | rfl <;> decide
    · rcases hb with rfl | rfl | rfl | rfl | rfl | rfl <;>
        rcases hs with rfl | rfl | rfl | rfl | rfl | rfl <;> decide
  rcases h with h | h
  · have h1 := IntType.fits_between h h0 hn
    rcases key with e | e <;> rw [e]
    · exact h1
    · rw [i32_fits] at h1
      rw [i64_fits]
      omega
  · rw [wide h]
    exact IntType.fits_between hv h0 hn

/-- One axis. -/
theorem axis_long {d : Coord} {g : Int} {x : SlicerT} {l : List Int} (hdt : d.type = .i64) (hdf : IntType.i64.Fits d.value)
    (hx : x.LongAt d.value g) (hp : Picks d.value x.erase l) (hne : l ≠ []) :
    ∃ xc o n, x.build = .ok xc ∧ reindexT d xc = .ok o ∧ reindex d.value x.erase = .ok o.value ∧ LongNumber o ∧
      sliceExtentT d xc = .ok n ∧ n.value = (l.length : Int) ∧
      ∀ gc, (restrideT gc xc = .ok gc ∧ x.step = ⟨.i32, 1⟩) ∨ restrideT gc xc = constMul x.step gc := by
  obtain ⟨o, r1, r2, r3, r4, r5⟩ := picks_axis hp
  rw [step_erase] at r5
  have ld : LongNumber d := ⟨by rw [hdt]; decide, by rw [hdt]; exact hdf⟩
  have hpos : 0 < l.length := List.length_pos_iff.2 hne
  obtain ⟨hstep, hneg, -, hm⟩ := hx
  have hd0 : 0 < d.value := by
    obtain ⟨y, hy⟩ := List.exists_mem_of_ne_nil l hne
    have := r4 y hy
    omega
  cases x with
  | joker => exact ⟨.joker, ⟨.i32, 0⟩, d, rfl, rfl, rfl, by decide, rfl, Except.ok.inj r2, fun gc => .inl ⟨rfl, rfl⟩⟩
  | index i => exact ⟨.index i, i, fixedOne, rfl, rfl, rfl, hm, rfl, Except.ok.inj r2, fun gc => .inl ⟨rfl, rfl⟩⟩
  | ext e =>
    obtain ⟨c, r, h1, h2, h3, h4, -⟩ := size_long hdt hdf hm
    refine ⟨.ext c, r, fixedOne, ?_, h2, h3, h4, rfl, Except.ok.inj r2, fun gc => .inl ⟨rfl, rfl⟩⟩
    simp only [SlicerT.build, h1]; rfl
  | interval b st e len =>
    obtain ⟨hb, he, hl, hlast⟩ := hm
    have hres : ∀ bc ec lc gc, (restrideT gc (.interval bc st ec lc) = .ok gc ∧ (SlicerT.interval b st e len).step = ⟨.i32, 1⟩) ∨
        restrideT gc (.interval bc st ec lc) = constMul (SlicerT.interval b st e len).step gc := by
      intro bc ec lc gc
      cases st with
      | none => exact .inl ⟨rfl, rfl⟩
      | some s => exact .inr rfl
    have hsts : ∀ s ∈ st, LongNumber s := by
      intro s hs
      cases hs
      exact hstep
    have key : ∀ bc ec lc o n, SlicerT.buildOpt b = .ok bc → SlicerT.buildOpt e = .ok ec → SlicerT.buildOpt len = .ok lc →
        reindexT d (.interval bc st ec lc) = .ok o →
        reindex d.value (SlicerT.interval b st e len).erase = .ok o.value → LongNumber o →
        sliceExtentT d (.interval bc st ec lc) = .ok n → n.value = (l.length : Int) →
        ∃ xc o n, (SlicerT.interval b st e len).build = .ok xc ∧ reindexT d xc = .ok o ∧
          reindex d.value (SlicerT.interval b st e len).erase = .ok o.value ∧ LongNumber o ∧ sliceExtentT d xc = .ok n ∧
          n.value = (l.length : Int) ∧
          ∀ gc, (restrideT gc xc = .ok gc ∧ (SlicerT.interval b st e len).step = ⟨.i32, 1⟩) ∨
            restrideT gc xc = constMul (SlicerT.interval b st e len).step gc := by
      intro bc ec lc o n h1 h2 h3 h4 h5 h5' h6 h7
      refine ⟨.interval bc st ec lc, o, n, ?_, h4, h5, h5', h6, h7, hres bc ec lc⟩
      simp only [SlicerT.build, h1, h2, h3, bind, Except.bind]; rfl
    have hsv : (st.map (·.value)).getD 1 = (SlicerT.interval b st e len).step.value := by cases st <;> rfl
    rcases picks_interval hp with ⟨hL, bv, ev, hbv, hev, hs, h0, h1, h2, hn⟩ | ⟨hL, hE, s, bv, hS, hbv, hs, h0, h1, hn⟩ |
      ⟨hE, lenB, bv, hL, hs, hbv, hn⟩
    · -- up
      obtain rfl : len = none := by simpa using hL
      have hdef : (0 : Int) = match st with | some s => if 0 < s.value then 0 else d.value - 1 | none => 0 := by
        cases st with
        | none => rfl
        | some s => simp only; rw [if_pos (by simpa using hs)]
      obtain ⟨bc, hbc, hre, hsome, hval⟩ := reindexT_long hdt hdf hb hd0 hsts hbv hdef
      obtain ⟨ec, hec, heval⟩ : ∃ ec, SlicerT.buildOpt e = .ok ec ∧
          ((ec = none ∧ ev = d.value) ∨ ∃ c r, ec = some c ∧ c.value d = .ok r ∧ r.value = ev ∧ LongNumber r) := by
        rcases opt_long hdt hdf he hev with ⟨-, h, h'⟩ | ⟨c, r, -, h', h3, h4, h5, -⟩
        · exact ⟨none, h', .inl ⟨rfl, h⟩⟩
        · exact ⟨some c, h', .inr ⟨c, r, rfl, h3, h4, h5⟩⟩
      obtain ⟨o', ho, hov, hol⟩ := hre ec none
      have hoo : reindex d.value (SlicerT.interval b st e none).erase = .ok o'.value := by
        rw [hov]
        refine reindex_interval hbv ?_
        refine hdef.trans ?_
        cases st <;> rfl
      have hB : ∃ B, fixExtremumT d bc ⟨.i32, 0⟩ = .ok B ∧ B.value = bv ∧ LongNumber B := by
        cases bc with
        | some c =>
          obtain ⟨r, h1, h2, h3, -⟩ := hval c rfl
          exact ⟨r, h1, h2, h3⟩
        | none =>
          cases b with
          | some => simp at hsome
          | none => cases hbv; exact ⟨_, rfl, rfl, by decide⟩
      have hE : ∃ E, fixExtremumT d ec d = .ok E ∧ E.value = ev ∧ LongNumber E := by
        rcases heval with ⟨rfl, h⟩ | ⟨c, r, rfl, h3, h4, h5⟩
        · exact ⟨d, rfl, h.symm, ld⟩
        · exact ⟨r, h3, h4, h5⟩
      obtain ⟨B, eB, vB, lB⟩ := hB
      obtain ⟨E, eE, vE, lE⟩ := hE
      have h64 := long_i64 lE
      have sEB : IntType.i64.Fits (E.value - B.value) := by
        rw [i64_fits] at h64 ⊢; rw [vE] at h64; rw [vE, vB]; omega
      have nEB : 0 ≤ E.value - B.value := by rw [vE, vB]; omega
      have cEB : (E.type.common B.type).Fits (E.value - B.value) := by
        refine IntType.fits_between (IntType.common_fits lE.2 (common_signed_true lE.1 lB.1).1) nEB ?_
        rw [vB]; omega
      have hs' : 0 < (SlicerT.interval b st e none).step.value := by rw [← hsv]; exact hs
      have hext : ∃ n, sliceExtentT d (.interval bc st ec none) = .ok n ∧ n.value = steps (ev - bv) (SlicerT.interval b st e none).step.value := by
        by_cases hany : (bc.isSome || ec.isSome) = true
        · obtain ⟨et, lt⟩ := long_op (f := (· - ·)) lE lB cEB
          have et : constSub E B = _ := et
          obtain ⟨n, en, vn⟩ := sliceEvalT_long lt nEB hstep r5 hneg
          rw [sliceEval_pos hs' nEB] at vn
          have sn : 0 ≤ n.value ∧ n.value ≤ E.value - B.value := by
            have h1 := steps_nonneg hs' nEB
            have h2 := steps_le hs' nEB
            rw [Except.ok.inj vn] at h1 h2
            exact ⟨h1, h2⟩
          cases st with
          | none =>
            refine ⟨n, ?_, by rw [← Except.ok.inj vn, vB, vE]⟩
            simp only [sliceExtentT, hany, if_true, Option.isSome_none, Bool.false_eq_true, if_false, bind, Except.bind, eB, eE, et]
            exact en
          | some s =>
            have : ltT s ⟨.i32, 0⟩ = false := by
              rw [(ltT_long (c := s) hstep).1]
              have hs' : 0 < s.value := hs'
              simp only [decide_eq_false_iff_not]; omega
            have en : sliceEvalT ⟨E.type.common B.type, E.value - B.value⟩ s = .ok n := en
            have hwide : IntType.i32.Fits (E.value - B.value) ∨ B.type = .i64 ∨ E.type = .i64 := by
              rcases long_i32 lE with h | h
              · exact .inl (IntType.fits_between h nEB (by rw [vB]; omega))
              · exact .inr (.inr h)
            refine ⟨n.convert (steppedType B.type E.type s.type), ?_,
              by rw [convert_long (s := s.type) (v := ⟨.i64, E.value - B.value⟩) lB.1 lE.1 hstep.1 sEB hwide sn.1 sn.2, ← Except.ok.inj vn, vB, vE]⟩
            simp only [sliceExtentT, hany, if_true, Option.isSome_some, bind, Except.bind, eB, eE, et, Option.getD_some, this,
              Bool.not_false, en]
            rfl
        · obtain ⟨n, en, vn⟩ := sliceEvalT_long ld hd0.le hstep r5 hneg
          rw [sliceEval_pos hs' hd0.le] at vn
          obtain ⟨rfl, rfl⟩ : bc = none ∧ ec = none := by
            cases bc <;> cases ec <;> simp at hany ⊢
          have hb0 : bv = 0 := by
            rw [← vB]
            cases eB
            rfl
          have he0 : ev = d.value := by
            rw [← vE]
            cases eE
            rfl
          refine ⟨n, ?_, by rw [← Except.ok.inj vn, hb0, he0, sub_zero]⟩
          cases st with
          | none => exact en
          | some s => exact en
      obtain ⟨n, en, vn⟩ := hext
      refine key bc ec none o' n hbc hec rfl ho hoo hol en ?_
      rw [hn, vn, hsv]
    · -- down
      obtain rfl : len = none := by simpa using hL
      obtain rfl : e = none := by simpa using hE
      obtain ⟨sc, rfl, rfl⟩ : ∃ sc, st = some sc ∧ sc.value = s := by
        cases st with
        | none => simp at hS
        | some sc => exact ⟨sc, rfl, by simpa using hS⟩
      have hstep : LongNumber sc := hstep
      have hdef : d.value - 1 = match some sc with | some s => if 0 < s.value then 0 else d.value - 1 | none => 0 := by
        simp only; rw [if_neg (by omega)]
      obtain ⟨bc, hbc, hre, hsome, hval⟩ := reindexT_long hdt hdf hb hd0 hsts hbv hdef
      obtain ⟨o', ho, hov, hol⟩ := hre none none
      have hoo : reindex d.value (SlicerT.interval b (some sc) none none).erase = .ok o'.value := by
        rw [hov]
        exact reindex_interval hbv hdef
      have hlt : ltT sc ⟨.i32, 0⟩ = true := by rw [(ltT_long hstep).1]; simpa using hs
      have hnonneg : 0 ≤ bv := by
        by_contra hc
        obtain rfl : bv = -1 := by omega
        rw [show (-1 : Int) + 1 = 0 by rfl] at hn
        have := steps_le (v := 0) (s := -sc.value) (by omega) le_rfl
        omega
      have hext : ∃ n, sliceExtentT d (.interval bc (some sc) none none) = .ok n ∧ n.value = steps (bv + 1) (-sc.value) := by
        cases bc with
        | none =>
          obtain ⟨n, en, vn⟩ := sliceEvalT_long ld hd0.le hstep r5 hneg
          rw [sliceEval_neg hs hd0.le] at vn
          refine ⟨n, en, ?_⟩
          rw [← Except.ok.inj vn]
          congr 1
          cases b with
          | some => simp at hsome
          | none => cases hbv; omega
        | some c =>
          obtain ⟨r, er, vr, lr, hri⟩ := hval c rfl
          have hd64 := hdf
          have sr1 : IntType.i64.Fits (r.value + 1) := by
            rw [i64_fits] at hd64 ⊢; rw [vr]; omega
          have nr1 : 0 ≤ r.value + 1 := by rw [vr]; omega
          have cr1 : (r.type.common .u8).Fits (r.value + 1) := by
            rcases hri with h | h
            · rw [h]; exact sr1
            · have hl := hlast r h (by simpa using hs)
              rcases common_cases (u := .u8) lr.1 (by decide) with ⟨e, _⟩ | ⟨e, h1, -⟩
              · rw [e]; exact sr1
              · rw [e]
                have : r.type.promote = .i32 := by
                  have := lr.1
                  simp only [ComputesSigned, List.mem_cons, List.not_mem_nil, or_false] at this
                  rcases this with e | e | e | e | e | e
                  case inr.inr.inr.inr.inr => exact absurd e h1
                  all_goals rw [e]; rfl
                rw [this] at hl
                exact hl
          obtain ⟨et, lt⟩ := long_op (f := (· + ·)) lr (b := ⟨.u8, 1⟩) (by decide) cr1
          have et : constAdd r ⟨.u8, 1⟩ = _ := et
          obtain ⟨n, en, vn⟩ := sliceEvalT_long lt nr1 hstep r5 hneg
          rw [sliceEval_neg hs nr1] at vn
          have sn : 0 ≤ n.value ∧ n.value ≤ r.value + 1 := by
            have h1 := steps_nonneg (s := -sc.value) (by omega) nr1
            have h2 := steps_le (s := -sc.value) (by omega) nr1
            rw [Except.ok.inj vn] at h1 h2
            exact ⟨h1, h2⟩
          refine ⟨n.convert (steppedType r.type d.type sc.type), ?_,
            by rw [convert_long (s := sc.type) (v := ⟨.i64, r.value + 1⟩) lr.1 ld.1 hstep.1 sr1 (.inr (.inr hdt)) sn.1 sn.2, ← Except.ok.inj vn, vr]⟩
          simp only [sliceExtentT, Option.isSome_some, Bool.true_or, if_true, fixExtremumT, er, bind, Except.bind, pure, Except.pure,
            Option.getD_some, hlt, Bool.not_true, Bool.false_eq_true, if_false]
          rw [et]
          simp only [en]
      obtain ⟨n, en, vn⟩ := hext
      exact key bc none none o' n hbc rfl rfl ho hoo hol en (by rw [hn, vn])
    · -- length
      obtain rfl : e = none := by simpa using hE
      obtain ⟨lt, rfl, rfl⟩ : ∃ lt, len = some lt ∧ lt.erase = lenB := by
        cases len with
        | none => simp at hL
        | some lt => exact ⟨lt, rfl, by simpa using hL⟩
      have hdef : (if (st.map (·.value)).getD 1 < 0 then d.value - 1 else 0) =
          match st with | some s => if 0 < s.value then 0 else d.value - 1 | none => 0 := by
        cases st with
        | none => rfl
        | some s =>
          simp only [Option.map_some, Option.getD_some] at hs ⊢
          by_cases h : s.value < 0
          · rw [if_pos h, if_neg (by omega)]
          · rw [if_neg h, if_pos (by omega)]
      obtain ⟨bc, hbc, hre, -, -⟩ := reindexT_long hdt hdf hb hd0 hsts hbv hdef
      obtain ⟨lc, n, h1, h2, h3, -⟩ := bound_long hdt hdf (hl lt rfl) hn
      obtain ⟨o', ho, hov, hol⟩ := hre none (some lc)
      refine key bc none (some lc) o' n hbc rfl ?_ ho ?_ hol h2 h3
      · simp only [SlicerT.buildOpt, h1]; rfl
      · rw [hov]
        refine reindex_interval hbv ?_
        refine hdef.trans ?_
        cases st <;> rfl

end Kwk
