import Verif.Lemmas.Reader
import Verif.Model.Print
import Verif.Props.EndRatio
import Verif.Props.Slicing

/-!
# Properties C77, C78: written `end` expressions and slicers
-/

namespace Kwk
open Spec

/-! ## C77

Full property: the text of an `end` expression, read with the usual precedence of operators, has the value of the
expression.  False when there is a divisor and an offset (`C77_text_false`): the offset is written after the division but
was multiplied by the divisor. -/

/-- The full property. -/
def C77_statement : Prop :=
  ∀ (e : EndExpr) (n : Int), e.NoZeroDiv → readText e.build.text.render n = some (e.value n)

theorem render_eq (e : EndT) :
    e.text.render = factorText e.frac.num false ++ divisorText e.frac.denum false ++ offsetText e.shift false := by
  unfold EndT.text EndText.render factorText divisorText offsetText
  by_cases h1 : e.frac.num = 1 <;> by_cases h2 : e.frac.denum = 1 <;> by_cases h3 : e.shift = 0 <;>
    simp [h1, h2, h3, mark]

theorem read_render (e : EndT) (n : ℚ) :
    readText e.text.render n = some (e.frac.num * n / e.frac.denum + e.shift) := by
  rw [render_eq, read_end]

/-- **C77** (partial) The text has the value of the expression exactly when the object has no offset or a divisor of 1.
Missing: the other expressions (false). -/
theorem C77_text_partial (e : EndExpr) (h : e.NoZeroDiv) (n : Int) :
    readText e.build.text.render n = some (e.value n) ↔ e.build.frac.denum = 1 ∨ e.build.shift = 0 := by
  obtain ⟨h1, h2⟩ := build_value e
  have hd : (e.build.frac.denum : ℚ) ≠ 0 := by exact_mod_cast h1.1 h
  rw [read_render, h2 h n, Option.some.injEq]
  push_cast
  rw [add_div, mul_comm (n : ℚ), add_right_inj, eq_div_iff hd, mul_right_eq_self₀]
  norm_cast

example := C77_text_partial (.div (.sub .all 1) 2) ⟨trivial, by decide⟩ 9

/-- **C77** (partial, common forms) `end`, `end ± k`, `end * k`, `end / k` and `end * j / k` are written as they are. -/
theorem C77_common_forms_partial (n k j : Int) :
    readText EndT.all.text.render n = some (n : ℚ) ∧ readText (EndT.all.add k).text.render n = some (n + k : ℚ) ∧
    readText (EndT.all.sub k).text.render n = some (n - k : ℚ) ∧
    readText (EndT.all.mul k).text.render n = some (n * k : ℚ) ∧
    readText (EndT.all.div k).text.render n = some (n / k : ℚ) ∧
    readText ((EndT.all.mul j).div k).text.render n = some (n * j / k : ℚ) := by
  refine ⟨?_, ?_, ?_, ?_, ?_, ?_⟩ <;> rw [read_render] <;>
    simp [EndT.all, EndT.add, EndT.sub, EndT.mul, EndT.div, Ratio.scale, Ratio.divInt, mul_comm, sub_eq_add_neg]

/-- **C77** is false: `end/2 + 1` is written as `end/2+2`. -/
theorem C77_text_false : ¬ C77_statement ∧ (EndExpr.add (.div .all 2) 1).build.text.render = "end/2+2" := by
  refine ⟨fun h => ?_, by decide +kernel⟩
  have := h (.add (.div .all 2) 1) 0 ⟨trivial, by decide⟩
  rw [read_render] at this
  norm_num [EndExpr.build, EndT.add, EndT.div, EndT.all, Ratio.divInt, EndExpr.value] at this

example : (EndT.all.sub 3).text.render = "end-3" ∧ ((EndT.all.mul 2).div 3).text.render = "2 * end/3" := by
  decide +kernel
example : (EndExpr.sub (.mul .all 2) 3).NoZeroDiv ∧ (EndExpr.sub (.mul .all 2) 3).build.frac.denum = 1 ∧
    readText (EndExpr.sub (.mul .all 2) 3).build.text.render 5 = some 7 := ⟨trivial, by decide, by decide +kernel⟩

/-! ## C78

Full property: the text `b:s:e` of a slicer with a positive step describes its selection: it starts at `b` and contains the
`b + k*s` below `e` (with `b` and `e` rounded toward zero).  False when a length is given together with `to`, or with `end`
expressions, and where C77 fails (`C78_text_false`). -/

/-- The text describes the slicer on an axis of extent `d`. -/
def Describes (d : Int) (sl : Slicer) (txt : String) : Prop :=
  ∃ (b e : ℚ) (s : Int), readSlicer txt d = some (b, (s : ℚ), e) ∧
    (0 ≤ trunc b → trunc b ≤ trunc e → trunc e ≤ d →
      reindex d sl = .ok (trunc b) ∧
      ∃ N, sliceExtent d sl = .ok N ∧ ∀ k, 0 ≤ k → (trunc b + k * s < trunc e ↔ k < N))

/-- The full property. -/
def C78_statement : Prop :=
  ∀ (d : Int) (begin : Option Bound) (step : Option Int) (stop len : Option Bound) (txt : String),
    slicerText begin step stop len = some txt → 0 < step.getD 1 → Describes d (.interval begin step stop len) txt

/-- A bound whose text has its value (C77). -/
def Bound.Readable : Bound → Prop
  | .int _ => True
  | .ext e => e.frac.denum = 1 ∨ e.shift = 0 ∧ e.frac.denum ≠ 0

theorem trunc_int (i : Int) : trunc (i : ℚ) = i := by simp [trunc]

theorem read_begin (n : ℚ) : readBound "begin".toList n = some 0 := if_pos rfl

theorem readBound_text {txt : String} {n q : ℚ} (h : readText txt n = some q) : readBound txt.toList n = some q := by
  unfold readBound
  rw [if_neg, String.ofList_toList, h]
  intro e
  rw [← String.toList_inj.1 e.symm] at h
  revert h
  unfold readText
  rw [show lex none "begin".toList = none by decide +kernel]
  intro h
  cases h

theorem read_value {b : Bound} (h : b.Readable) (d : Int) :
    ∃ q, readText (BoundText.value b).render d = some q ∧ Denotes d b (trunc q) := by
  cases b with
  | int i =>
    refine ⟨i, ?_, ?_⟩
    · have := read_int i false d
      simpa [mark, BoundText.render] using this
    · rw [trunc_int]
      exact .int i
  | ext e =>
    refine ⟨_, read_render e d, ?_⟩
    rcases h with h | ⟨h, h0⟩
    · have := Denotes.ext (d := d) e (by rw [h]; decide)
      rw [h] at this ⊢
      push_cast at this
      simpa [mul_comm] using this
    · have := Denotes.ext (d := d) e h0
      rw [h] at this ⊢
      push_cast at this
      simpa [mul_comm] using this

/-- The text of a start or stop has a value. -/
theorem read_part {t : BoundText} (h : ∀ b, t = .value b → b.Readable) (d : Int) :
    ∃ q, readBound t.render.toList d = some q ∧ ':' ∉ t.render.toList ∧
      (∀ b, t = .value b → Denotes d b (trunc q)) ∧ (t = .begin → q = 0) ∧ (t = .end_ → q = d) := by
  cases t with
  | begin => exact ⟨0, read_begin _, by decide +kernel, by simp, by simp, by simp⟩
  | end_ =>
    have e : readText "end" (d : ℚ) = some (d : ℚ) := by
      unfold readText
      rw [show lex none "end".toList = some [.ext] by decide +kernel]
      simp [evalToks, atom, evalRest]
    exact ⟨d, readBound_text e, by decide +kernel, by simp, by simp, by simp⟩
  | value b =>
    obtain ⟨q, h1, h2⟩ := read_value (h b rfl) d
    refine ⟨q, readBound_text h1, no_colon h1, ?_, by simp, by simp⟩
    rintro b' ⟨⟩
    exact h2

/-- The text of a slicer has values. -/
theorem read_slicerText {begin : Option Bound} {step : Option Int} {stop len : Option Bound} {x y : BoundText}
    {s : Option Int} (h : sliceText begin step stop len = some (x, s, y))
    (hx : ∀ b, x = .value b → b.Readable) (hy : ∀ b, y = .value b → b.Readable) (d : Int) :
    ∃ txt p q, slicerText begin step stop len = some txt ∧ s = step ∧
      readSlicer txt d = some (p, ((step.getD 1 : Int) : ℚ), q) ∧
      readBound x.render.toList d = some p ∧ readBound y.render.toList d = some q := by
  obtain ⟨p, hp, cp, -⟩ := read_part hx d
  obtain ⟨q, hq, cq, -⟩ := read_part hy d
  have hs : s = step := by
    simp only [sliceText, Option.bind_eq_some_iff, Option.some.injEq, Prod.mk.injEq] at h
    obtain ⟨_, _, _, _, _, h, _⟩ := h
    exact h.symm
  subst hs
  refine ⟨_, p, q, by rw [slicerText, h]; rfl, rfl, ?_, hp, hq⟩
  unfold readSlicer
  cases s with
  | none =>
    simp only [String.toList_append, List.append_assoc]
    rw [show ":".toList = [':'] from rfl, show "".toList = [] from rfl]
    simp only [List.cons_append, List.nil_append]
    rw [cut_colon cp, cut_nil cq]
    simp [hp, hq]
  | some s =>
    have hr := read_int s false d
    simp only [mark, Bool.false_eq_true, if_false, String.append_empty] at hr
    simp only [String.toList_append, List.append_assoc]
    rw [show ":".toList = [':'] from rfl]
    simp only [List.cons_append, List.nil_append]
    rw [cut_colon cp, cut_colon (no_colon hr), cut_nil cq]
    rw [Int.toString_eq_repr] at hr
    simp [hp, hq, hr]

/-- **C78** (partial) True for slicers without length, and for an integer length after an integer or no `from`, without
`to`.  Missing: the other slicers with a length, and `end` expressions that are written wrongly (false). -/
theorem C78_text_partial (d : Int) (begin : Option Bound) (step : Option Int) (stop len : Option Bound)
    (txt : String) (h : slicerText begin step stop len = some txt) (hs : 0 < step.getD 1)
    (hb : ∀ b ∈ begin, b.Readable) (he : ∀ b ∈ stop, b.Readable)
    (hl : len = none ∨ stop = none ∧ (∃ n, len = some (.int n)) ∧ (begin = none ∨ ∃ b, begin = some (.int b))) :
    Describes d (.interval begin step stop len) txt := by
  obtain ⟨⟨x, st, y⟩, ht, -⟩ := Option.map_eq_some_iff.1 h
  have ht' := ht
  simp only [sliceText, Option.bind_eq_some_iff, Option.some.injEq, Prod.mk.injEq] at ht
  obtain ⟨x', ha, y', hc, rfl, rfl, rfl⟩ := ht
  have hx : ∀ b, x' = .value b → b.Readable := by
    rintro b rfl
    cases begin with
    | some v =>
      simp only [startText, Option.some.injEq, BoundText.value.injEq] at ha
      subst ha
      exact hb v rfl
    | none =>
      rcases hl with rfl | ⟨rfl, ⟨n, rfl⟩, -⟩
      · cases stop <;> simp [startText] at ha
      · simp [startText] at ha
  have hy : ∀ b, y' = .value b → b.Readable := by
    rintro b rfl
    cases stop with
    | some v =>
      simp only [stopText, Option.some.injEq, BoundText.value.injEq] at hc
      subst hc
      exact he v rfl
    | none =>
      rcases hl with rfl | ⟨-, ⟨n, rfl⟩, rfl | ⟨v, rfl⟩⟩
      · cases begin <;> simp [stopText] at hc
      · simp [stopText, Bound.scale] at hc
        subst hc
        trivial
      · simp [stopText, Bound.scale, Bound.plus] at hc
        subst hc
        trivial
  obtain ⟨txt', p, q, h1, -, h2, h3, h4⟩ := read_slicerText ht' hx hy d
  obtain rfl : txt = txt' := Option.some.inj (h.symm.trans h1)
  obtain ⟨p', hp, -, p1, p2, -⟩ := read_part hx d
  obtain ⟨q', hq, -, q1, -, q3⟩ := read_part hy d
  obtain rfl : p' = p := Option.some.inj (hp.symm.trans h3)
  obtain rfl : q' = q := Option.some.inj (hq.symm.trans h4)
  refine ⟨p', q', step.getD 1, h2, fun h0 hbe hed => ?_⟩
  have hbeg : DenotesOr d 0 begin (trunc p') ∧ reindex d (.interval begin step stop len) = .ok (trunc p') := by
    cases begin with
    | some v =>
      simp only [startText, Option.some.injEq] at ha
      subst ha
      exact ⟨.some (p1 v rfl), value_of_denotes (p1 v rfl)⟩
    | none =>
      have : x' = .begin := by
        rcases hl with rfl | ⟨rfl, ⟨n, rfl⟩, -⟩
        · cases stop <;> simp [startText] at ha <;> exact ha.symm
        · simp [startText] at ha; exact ha.symm
      rw [p2 this, show (0 : ℚ) = ((0 : Int) : ℚ) by simp, trunc_int]
      refine ⟨.none, ?_⟩
      cases step with
      | none => rfl
      | some s =>
        simp only [Option.getD_some] at hs
        simp only [reindex, gt_iff_lt, if_pos hs]
        rfl
  refine ⟨hbeg.2, ?_⟩
  rcases hl with rfl | ⟨rfl, ⟨n, rfl⟩, hbeg'⟩
  · have hend : DenotesOr d d stop (trunc q') := by
      cases stop with
      | some v =>
        simp only [stopText, Option.some.injEq] at hc
        subst hc
        exact .some (q1 v rfl)
      | none =>
        have : y' = .end_ := by
          cases begin <;> simp [stopText] at hc <;> exact hc.symm
        rw [q3 this, trunc_int]
        exact .none
    have hx := C45_extent (len := .int 0) (n := 0) (s := step.getD 1) h0 hbe hed (begin := begin) (stop := stop)
    cases step with
    | none =>
      refine ⟨_, hx.2.1 hbeg.1 hend, fun k _ => ?_⟩
      simp only [Option.getD_none]
      omega
    | some s =>
      obtain ⟨N, h1, -, h2⟩ := hx.1 hs hbeg.1 hend
      exact ⟨N, h1, h2⟩
  · have hy' : trunc q' = trunc p' + n * step.getD 1 := by
      rcases hbeg' with rfl | ⟨v, rfl⟩
      · simp [startText, stopText, Bound.scale] at ha hc
        subst ha hc
        have hq := q1 _ rfl
        rw [p2 rfl, show (0 : ℚ) = ((0 : Int) : ℚ) by simp, trunc_int]
        generalize trunc q' = w at hq
        cases hq
        ring
      · simp [startText, stopText, Bound.scale, Bound.plus] at ha hc
        subst ha hc
        have hp := p1 _ rfl
        have hq := q1 _ rfl
        generalize trunc p' = v' at hp
        generalize trunc q' = w at hq
        cases hq
        cases hp
        rfl
    refine ⟨n, rfl, fun k _ => ?_⟩
    rw [hy', add_lt_add_iff_left, mul_lt_mul_iff_left₀ hs]

example : slicerText (some (.int 1)) (some 3) (some (.ext (EndT.all.sub 2))) none = some "1:3:end-2" ∧
    Describes 10 (.interval (some (.int 1)) (some 3) (some (.ext (EndT.all.sub 2))) none) "1:3:end-2" :=
  ⟨by decide +kernel, C78_text_partial 10 _ _ _ _ _ (by decide +kernel) (by decide)
    (by simp only [Option.mem_def, Option.some.injEq, forall_eq']; trivial)
    (by simp only [Option.mem_def, Option.some.injEq, forall_eq']; exact .inl rfl) (.inl rfl)⟩

/-- **C78** (which slicers can be written, exact) A slicer has a text unless its length and its only other bound are both `end` expressions.
Missing: these slicers (false). -/
theorem C78_written_exact_partial (begin : Option Bound) (step : Option Int) (stop len : Option Bound) :
    (slicerText begin step stop len).isSome = true ↔
      ¬ ∃ e l, len = some (.ext l) ∧ ((begin = some (.ext e) ∧ stop = none) ∨ (begin = none ∧ stop = some (.ext e))) := by
  rcases begin with _ | (b | b) <;> rcases stop with _ | (e | e) <;> rcases len with _ | (l | l) <;>
    simp [slicerText, sliceText, startText, stopText, Bound.minus, Bound.plus, Bound.scale]

example : slicerText none none none none = some "begin:end" ∧
    slicerText none (some 2) (some (.ext EndT.all)) (some (.ext EndT.all)) = none :=
  ⟨by decide +kernel, by decide +kernel⟩

/-- **C78** (a length with `from` and `to`, partial) `slice(from=b, to=e, by=s, length=n)` with bounds that are written
correctly and in order is described by its text exactly if `n` is the number of indexes `b + k*s` below `e`.  Missing: the other
lengths (false). -/
theorem C78_from_to_length_exact_partial (d b e n : Int) (bb ee ll : Bound) (step : Option Int) (txt : String)
    (h : slicerText (some bb) step (some ee) (some ll) = some txt) (hs : 0 < step.getD 1)
    (hb : bb.Readable) (he : ee.Readable) (db : Denotes d bb b) (de : Denotes d ee e) (dl : Denotes d ll n)
    (h0 : 0 ≤ b) (hbe : b ≤ e) (hed : e ≤ d) (hn : 0 ≤ n) :
    Describes d (.interval (some bb) step (some ee) (some ll)) txt ↔
      (n - 1) * step.getD 1 < e - b ∧ e - b ≤ n * step.getD 1 := by
  have ht : sliceText (some bb) step (some ee) (some ll) = some (.value bb, step, .value ee) := rfl
  have hx : ∀ v, BoundText.value bb = .value v → v.Readable := by rintro v ⟨⟩; exact hb
  have hy : ∀ v, BoundText.value ee = .value v → v.Readable := by rintro v ⟨⟩; exact he
  obtain ⟨txt', p, q, h1, -, h2, h3, h4⟩ := read_slicerText ht hx hy d
  obtain rfl : txt = txt' := Option.some.inj (h.symm.trans h1)
  obtain ⟨p', hp, -, p1, -⟩ := read_part hx d
  obtain ⟨q', hq, -, q1, -⟩ := read_part hy d
  obtain rfl : p' = p := Option.some.inj (hp.symm.trans h3)
  obtain rfl : q' = q := Option.some.inj (hq.symm.trans h4)
  have ep : trunc p' = b := Except.ok.inj ((value_of_denotes (p1 _ rfl)).symm.trans (value_of_denotes db))
  have eq : trunc q' = e := Except.ok.inj ((value_of_denotes (q1 _ rfl)).symm.trans (value_of_denotes de))
  have hN : sliceExtent d (.interval (some bb) step (some ee) (some ll)) = .ok n := value_of_denotes dl
  generalize hst : step.getD 1 = s at *
  constructor
  · rintro ⟨b', e', s', hr, hd⟩
    rw [h2] at hr
    simp only [Option.some.injEq, Prod.mk.injEq, Int.cast_inj] at hr
    obtain ⟨rfl, rfl, rfl⟩ := hr
    rw [ep, eq] at hd
    obtain ⟨-, N, hN', hk⟩ := hd h0 hbe hed
    obtain rfl : n = N := Except.ok.inj (hN.symm.trans hN')
    have k1 := hk n hn
    refine ⟨?_, by rw [lt_self_iff_false, iff_false] at k1; linarith⟩
    rcases hn.eq_or_lt with rfl | hpos
    · linarith
    · have := (hk (n - 1) (by omega)).2 (by omega)
      linarith
  · rintro ⟨k1, k2⟩
    refine ⟨p', q', s, h2, fun _ _ _ => ?_⟩
    rw [ep, eq]
    refine ⟨value_of_denotes db, n, hN, fun k hk => ⟨fun hlt => ?_, fun hlt => ?_⟩⟩
    · by_contra hc
      have := mul_le_mul_of_nonneg_right (not_lt.1 hc) hs.le
      linarith
    · have : k * s ≤ (n - 1) * s := mul_le_mul_of_nonneg_right (by omega) hs.le
      linarith

example : slicerText (some (.int 1)) (some 3) (some (.int 9)) (some (.int 3)) = some "1:3:9" ∧ Denotes 9 (.int 3) 3 :=
  ⟨by decide +kernel, .int 3⟩

/-- **C78** (a length with `to` and without `from`, partial) `slice(to=e, by=s, length=n)` is described by its text exactly
if it starts at the beginning, that is if `e = n*s`.  Missing: the other lengths (false). -/
theorem C78_to_length_exact_partial (d e n : Int) (step : Option Int) (txt : String)
    (h : slicerText none step (some (.int e)) (some (.int n)) = some txt) (hs : 0 < step.getD 1)
    (h0 : n * step.getD 1 ≤ e) (hed : e ≤ d) (hn : 0 ≤ n) :
    Describes d (.interval none step (some (.int e)) (some (.int n))) txt ↔ e = n * step.getD 1 := by
  have ht : sliceText none step (some (.int e)) (some (.int n)) =
      some (.value (.int (e - n * step.getD 1)), step, .value (.int e)) := rfl
  have hx : ∀ v, BoundText.value (.int (e - n * step.getD 1)) = .value v → v.Readable := by rintro v ⟨⟩; trivial
  have hy : ∀ v, BoundText.value (.int e) = .value v → v.Readable := by rintro v ⟨⟩; trivial
  obtain ⟨txt', p, q, h1, -, h2, h3, h4⟩ := read_slicerText ht hx hy d
  obtain rfl : txt = txt' := Option.some.inj (h.symm.trans h1)
  obtain ⟨p', hp, -, p1, -⟩ := read_part hx d
  obtain ⟨q', hq, -, q1, -⟩ := read_part hy d
  obtain rfl : p' = p := Option.some.inj (hp.symm.trans h3)
  obtain rfl : q' = q := Option.some.inj (hq.symm.trans h4)
  have ep : trunc p' = e - n * step.getD 1 := Except.ok.inj (value_of_denotes (p1 _ rfl)).symm
  have eq : trunc q' = e := Except.ok.inj (value_of_denotes (q1 _ rfl)).symm
  have hR : reindex d (.interval none step (some (.int e)) (some (.int n))) = .ok 0 := by
    cases step with
    | none => rfl
    | some s =>
      simp only [Option.getD_some] at hs
      simp only [reindex, gt_iff_lt, if_pos hs]
      rfl
  have hnn := mul_nonneg hn hs.le
  constructor
  · rintro ⟨b', e', s', hr, hd⟩
    rw [h2] at hr
    simp only [Option.some.injEq, Prod.mk.injEq, Int.cast_inj] at hr
    obtain ⟨rfl, rfl, rfl⟩ := hr
    rw [ep, eq] at hd
    obtain ⟨h5, -⟩ := hd (by linarith) (by linarith) hed
    have := Except.ok.inj (h5.symm.trans hR)
    linarith
  · intro hen
    refine ⟨p', q', step.getD 1, h2, fun _ _ _ => ?_⟩
    rw [ep, eq, hen, sub_self]
    refine ⟨by rw [← hen]; exact hR, n, rfl, fun k hk => ?_⟩
    rw [zero_add, mul_lt_mul_iff_left₀ hs]

example : slicerText none (some 2) (some (.int 6)) (some (.int 3)) = some "0:2:6" ∧ (6 : Int) = 3 * 2 := by decide +kernel

/-- **C78** is false: `slice(to=8, length=3)` is written `5:8` but starts at 0; `slice(from=2, to=8, length=3)` is written
`2:8` but selects three indexes; `slice(length=end/2, by=2)` on 3 elements is written `begin:2:2 * end/2`,
that is 0 and 2, but selects one index; and `slice(to = end/2+1)` on 4 elements is written `begin:end/2+2` but selects three
indexes. -/
theorem C78_text_false : ¬ C78_statement ∧
    slicerText none none (some (.int 8)) (some (.int 3)) = some "5:8" ∧
    reindex 10 (slice («to» := some (.int 8)) (length := some (.int 3))) = .ok 0 ∧
    slicerText (some (.int 2)) none (some (.int 8)) (some (.int 3)) = some "2:8" ∧
    sliceExtent 10 (slice (from_ := some (.int 2)) («to» := some (.int 8)) (length := some (.int 3))) = .ok 3 ∧
    slicerText none (some 2) none (some (.ext (EndT.all.div 2))) = some "begin:2:2 * end/2" ∧
    readSlicer "begin:2:2 * end/2" 3 = some (0, 2, 3) ∧
    sliceExtent 3 (slice (by_ := some 2) (length := some (.ext (EndT.all.div 2)))) = .ok 1 ∧
    slicerText none none (some (.ext ((EndT.all.div 2).add 1))) none = some "begin:end/2+2" ∧
    readSlicer "begin:end/2+2" 4 = some (0, 1, 4) ∧
    sliceExtent 4 (slice («to» := some (.ext ((EndT.all.div 2).add 1)))) = .ok 3 := by
  refine ⟨fun h => ?_, by decide +kernel⟩
  obtain ⟨b, e, s, h1, h2⟩ := h 10 none none (some (.int 8)) (some (.int 3)) "5:8" (by decide +kernel) (by decide)
  rw [show readSlicer "5:8" (10 : Int) = some (5, 1, 8) by decide +kernel] at h1
  simp only [Option.some.injEq, Prod.mk.injEq] at h1
  obtain ⟨rfl, -, rfl⟩ := h1
  rw [show (5 : ℚ) = ((5 : Int) : ℚ) by simp, show (8 : ℚ) = ((8 : Int) : ℚ) by simp] at h2
  simp only [trunc_int] at h2
  have := (h2 (by decide) (by decide) (by decide)).1
  revert this
  decide

end Kwk
