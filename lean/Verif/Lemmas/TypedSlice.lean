import Verif.Spec.TypedSlice
import Verif.Lemmas.TypedViews

/-! # Lemmas: slicing with typed numbers -/

namespace Kwk
open Spec

/-- The typed object represents the mathematical one. -/
structure RepEnd (c : EndC) (e : EndT) : Prop where
  shift : Rep c.shift e.shift
  num : Rep c.num e.frac.num
  denum : Rep c.denum e.frac.denum

theorem rep_coord {c : Coord} (ht : NotUnsignedInt c.type) (h : I32 c.value) : Rep c c.value := ⟨ht, h, .inl rfl⟩

theorem rep_build {e : EndExprT} (h : e.Moderate NotUnsignedInt) : ∃ c, e.build = .ok c ∧ RepEnd c e.erase.build := by
  induction e with
  | all => exact ⟨.all, rfl, ⟨by decide, by decide, .inl rfl⟩, rep_fixedOne, rep_fixedOne⟩
  | add e o ih =>
    obtain ⟨h, h1, h2, h3, h4⟩ := h
    obtain ⟨c, ec, hc⟩ := ih h
    obtain ⟨m, em, hm, -⟩ := rep_op modular_mul (rep_coord h1 h2) hc.denum h3
    obtain ⟨a, ea, ha, -⟩ := rep_op modular_add hc.shift hm h4
    refine ⟨{ c with shift := a }, ?_, ha, hc.num, hc.denum⟩
    simp only [EndExprT.build, ec, EndC.add, bind, Except.bind]
    rw [show constMul o c.denum = _ from em]
    simp only
    rw [show constAdd c.shift m = _ from ea]
    rfl
  | sub e o ih =>
    obtain ⟨h, h1, h2, h3, h4⟩ := h
    obtain ⟨c, ec, hc⟩ := ih h
    obtain ⟨m, em, hm, -⟩ := rep_op modular_mul (rep_coord h1 h2) hc.denum h3
    obtain ⟨a, ea, ha, -⟩ := rep_op modular_sub hc.shift hm h4
    refine ⟨{ c with shift := a }, ?_, ha, hc.num, hc.denum⟩
    simp only [EndExprT.build, ec, EndC.sub, bind, Except.bind]
    rw [show constMul o c.denum = _ from em]
    simp only
    rw [show constSub c.shift m = _ from ea]
    rfl
  | rsub o e ih =>
    obtain ⟨h, h1, h2, h3, h4⟩ := h
    obtain ⟨c, ec, hc⟩ := ih h
    obtain ⟨m, em, hm, -⟩ := rep_op modular_mul (rep_coord h1 h2) hc.denum h3
    obtain ⟨a, ea, ha, -⟩ := rep_op modular_sub hm hc.shift h4
    obtain ⟨n, en, hn⟩ := rep_neg hc.num
    refine ⟨{ c with shift := a, num := n }, ?_, ha, hn, hc.denum⟩
    simp only [EndExprT.build, ec, EndC.rsub, bind, Except.bind]
    rw [show constMul o c.denum = _ from em]
    simp only
    rw [show constSub m c.shift = _ from ea]
    simp only [en]
    rfl
  | mul e o ih =>
    obtain ⟨h, h1, h2, h3, h4⟩ := h
    obtain ⟨c, ec, hc⟩ := ih h
    obtain ⟨m, em, hm, -⟩ := rep_op modular_mul hc.shift (rep_coord h1 h2) h3
    obtain ⟨a, ea, ha, -⟩ := rep_op modular_mul hc.num (rep_coord h1 h2) h4
    refine ⟨{ c with shift := m, num := a }, ?_, hm, ha, hc.denum⟩
    simp only [EndExprT.build, ec, EndC.mul, bind, Except.bind]
    rw [show constMul c.shift o = _ from em, show constMul c.num o = _ from ea]
    rfl
  | div e o ih =>
    obtain ⟨h, h1, h2, h3⟩ := h
    obtain ⟨c, ec, hc⟩ := ih h
    obtain ⟨m, em, hm, -⟩ := rep_op modular_mul hc.denum (rep_coord h1 h2) h3
    refine ⟨{ c with denum := m }, ?_, hc.shift, hc.num, hm⟩
    simp only [EndExprT.build, ec, EndC.div, bind, Except.bind]
    rw [show constMul c.denum o = _ from em]
    rfl

/-- Evaluating an expression on `end`. -/
theorem size_fits {e : EndExprT} {d : Coord} (h : e.FitsAt NotUnsignedInt d) (hd : I32 d.value) :
    ∃ c r, e.build = .ok c ∧ c.size d = .ok r ∧ e.erase.build.size d.value = .ok r.value ∧ Small r.value := by
  obtain ⟨h1, h2, h3, h4, h5, h6⟩ := h
  obtain ⟨c, ec, hc⟩ := rep_build h2
  obtain ⟨m, em, hm, -⟩ := rep_op modular_mul (rep_coord h1 hd) hc.num h3
  obtain ⟨a, ea, ha, -⟩ := rep_op modular_add hm hc.shift ⟨lt_of_lt_of_le (by decide) h4, h5⟩
  have va : a.value = d.value * e.factor + e.offset := ha.exact h4
  have vd : c.denum.value = e.divisor := hc.denum.exact h6.le
  have sa : Small a.value := by rw [va]; exact ⟨h4, h5⟩
  have sd : Small c.denum.value := by rw [vd]; exact ⟨h6.le, hc.denum.small.2⟩
  obtain ⟨t, et⟩ := constDiv_small sa sd (by rw [vd]; exact h6)
  refine ⟨c, ⟨t, a.value / c.denum.value⟩, ec, ?_, ?_, sa.ediv sd.1⟩
  · unfold EndC.size
    rw [show constMul d c.num = _ from em]
    simp only [bind, Except.bind]
    rw [show constAdd m c.shift = _ from ea]
    exact et
  · simp only [va, vd]
    show (if e.divisor = 0 then _ else Except.ok (Int.tdiv (d.value * e.factor + e.offset) e.divisor)) = _
    rw [if_neg h6.ne', Int.tdiv_eq_ediv_of_nonneg h4]

theorem bound_fits {b : BoundT} {d : Coord} {v : Int} (h : b.FitsAt NotUnsignedInt d) (hd : I32 d.value) (hv : Denotes d.value b.erase v) :
    ∃ c r, b.build = .ok c ∧ c.value d = .ok r ∧ r.value = v := by
  have e := value_of_denotes hv
  cases b with
  | int i => exact ⟨.int i, i, rfl, rfl, Except.ok.inj e⟩
  | ext x =>
    obtain ⟨c, r, h1, h2, h3, h4⟩ := size_fits h hd
    refine ⟨.ext c, r, ?_, h2, ?_⟩
    · simp only [BoundT.build, h1]; rfl
    · exact Except.ok.inj (h3.symm.trans e)

/-- An optional bound. -/
theorem opt_fits {b : Option BoundT} {d : Coord} {v dflt : Int} (h : ∀ y ∈ b, y.FitsAt NotUnsignedInt d) (hd : I32 d.value)
    (hv : DenotesOr d.value dflt (b.map (·.erase)) v) :
    (b = none ∧ v = dflt ∧ SlicerT.buildOpt b = .ok none) ∨
      ∃ c r, b.isSome = true ∧ SlicerT.buildOpt b = .ok (some c) ∧ c.value d = .ok r ∧ r.value = v := by
  cases b with
  | none => cases hv; exact .inl ⟨rfl, rfl, rfl⟩
  | some b =>
    cases hv with
    | some hv =>
      obtain ⟨c, r, h1, h2, h3⟩ := bound_fits (h b rfl) hd hv
      refine .inr ⟨c, r, rfl, ?_, h2, h3⟩
      simp only [SlicerT.buildOpt, h1]; rfl

/-- A step: positive, or negative of a signed type. -/
structure StepOK (c : Coord) : Prop where
  fits : c.type.Fits c.value
  small : I32 c.value
  plain : c.value < 0 → NotUnsignedInt c.type
  ne : c.value ≠ 0

theorem signed_of_neg {t : IntType} {v : Int} (h : t.Fits v) (hv : v < 0) : t.signed = true := by
  by_contra hs
  have := h.1
  unfold IntType.lo at this
  rw [if_neg hs] at this
  omega

theorem step_common {c : Coord} (h : StepOK c) : (c.type.common .i32).wrap c.value = c.value := by
  have hb := IntType.common_bits c.type .i32
  by_cases hv : c.value < 0
  · have hs := signed_of_neg h.fits hv
    have : (c.type.common .i32).signed = true := by
      have hp := h.plain hv
      simp only [NotUnsignedInt, List.mem_cons, List.not_mem_nil, or_false] at hp
      rcases hp with e | e | e | e | e | e | e <;> rw [e] at hs ⊢ <;> first | rfl | exact absurd hs (by decide)
    exact IntType.wrap_fits (fits_signed this hb h.small)
  · exact IntType.wrap_fits (IntType.fits_of_bits hb (by omega) h.small.2)

theorem ltT_step {c : Coord} (h : StepOK c) :
    ltT c ⟨.i32, 0⟩ = decide (c.value < 0) ∧ ltT ⟨.i32, 0⟩ c = decide (0 < c.value) := by
  have h1 := step_common h
  have h2 : ∀ t : IntType, 32 ≤ t.bits → t.wrap 0 = 0 := fun t ht => IntType.wrap_fits (IntType.fits_of_bits ht le_rfl (by decide))
  constructor
  · unfold ltT
    simp only
    rw [h1, h2 _ (IntType.common_bits _ _)]
  · unfold ltT
    simp only
    rw [IntType.common_comm, h1, h2 _ (IntType.common_bits _ _)]

theorem sliceEvalT_ok {v c : Coord} (hv : Small v.value) (h : StepOK c) :
    ∃ r, sliceEvalT v c = .ok r ∧ sliceEval v.value c.value = .ok r.value := by
  have hw : ∃ w, absT c = .ok w ∧
      w.value = (if c.value < 0 then -c.value else c.value) ∧ Small w.value ∧ 0 < w.value := by
    unfold absT
    rw [(ltT_step h).1]
    have := h.small.1; have := h.small.2; have := h.ne
    by_cases hn : c.value < 0
    · rw [if_pos (by simpa using hn), if_pos hn]
      obtain ⟨r, er, hr⟩ := rep_neg (rep_coord (h.plain hn) h.small)
      have e := hr.exact (by omega)
      exact ⟨r, er, e, by rw [e]; exact ⟨by omega, by omega⟩, by omega⟩
    · rw [if_neg (by simpa using hn), if_neg hn]
      exact ⟨_, rfl, rfl, ⟨by simp only; omega, by simp only; omega⟩, by simp only; omega⟩
  obtain ⟨w, ew, vw, sw, pw⟩ := hw
  unfold sliceEvalT sliceEval
  by_cases h0 : v.value = 0
  · rw [if_pos h0, if_pos h0]
    exact ⟨_, rfl, rfl⟩
  · rw [if_neg h0, if_neg h0, ew]
    simp only [bind, Except.bind]
    obtain ⟨t1, e1⟩ := modT_small hv sw pw
    obtain ⟨t2, e2⟩ := constDiv_small hv sw pw
    rw [e1, e2]
    simp only
    have hq : Small (v.value / w.value) := hv.ediv sw.1
    have hle : (if v.value % w.value ≠ 0 then 1 else 0) + v.value / w.value ≤ v.value := by
      have := hv.1
      have e := Int.mul_ediv_add_emod v.value w.value
      have := Int.emod_nonneg v.value pw.ne'
      have : v.value / w.value ≤ w.value * (v.value / w.value) := le_mul_of_one_le_left hq.1 pw
      split <;> omega
    obtain ⟨t3, e3⟩ := constAdd_small (a := ⟨.i32, if v.value % w.value ≠ 0 then 1 else 0⟩) (b := ⟨t2, v.value / w.value⟩)
      ⟨by simp only; split <;> omega, by simp only; split <;> omega⟩ hq
      ⟨by simp only; have := hq.1; split <;> omega, by simp only; have := hv.2; omega⟩
    refine ⟨_, e3, ?_⟩
    unfold cmod cdiv
    rw [← vw, if_neg pw.ne', if_neg pw.ne', Int.tmod_eq_emod_of_nonneg hv.1, Int.tdiv_eq_ediv_of_nonneg hv.1]
    rfl

theorem constSub_small {a b : Coord} (ha : Small a.value) (hb : Small b.value)
    (hf : Small (a.value - b.value)) : ∃ t, constSub a b = .ok ⟨t, a.value - b.value⟩ :=
  constOp_small ha hb hf

theorem steps_le {v s : Int} (hs : 0 < s) (hv : 0 ≤ v) : steps v s ≤ v := by
  unfold steps
  have e := Int.mul_ediv_add_emod v s
  have := Int.emod_nonneg v hs.ne'
  have h0 := Int.ediv_nonneg hv hs.le
  have : v / s ≤ s * (v / s) := le_mul_of_one_le_left h0 hs
  split <;> omega

theorem stepOK_one : StepOK ⟨.i32, 1⟩ := ⟨by decide, by decide, by decide, by decide⟩

theorem step_erase (x : SlicerT) : stepOf x.erase = x.step.value := by
  cases x with
  | interval b st e l => cases st <;> rfl
  | _ => rfl

theorem stepOK_of {d : Coord} {g : Int} {x : SlicerT} (hx : x.FitsAt NotUnsignedInt d g) (hg : 0 < g) (h : x.step.value ≠ 0) : StepOK x.step := by
  obtain ⟨h1, h2, h3, -⟩ := hx
  refine ⟨h1, ⟨?_, ?_⟩, h3, h⟩
  · have := h2.1
    by_contra hn
    nlinarith
  · have := h2.2
    by_contra hn
    nlinarith

/-- Where an interval starts. -/
theorem reindexT_interval {b : Option BoundT} {st : Option Coord} {d : Coord} {v dflt : Int} (h : ∀ y ∈ b, y.FitsAt NotUnsignedInt d)
    (hd : Small d.value) (hd0 : 0 < d.value) (hst : ∀ s ∈ st, StepOK s) (hv : DenotesOr d.value dflt (b.map (·.erase)) v)
    (hdf : dflt = match st with | some s => if 0 < s.value then 0 else d.value - 1 | none => 0) :
    ∃ bc, SlicerT.buildOpt b = .ok bc ∧ (∀ e l, ∃ o, reindexT d (.interval bc st e l) = .ok o ∧ o.value = v) ∧
      bc.isSome = b.isSome ∧ ∀ c ∈ bc, ∃ r, c.value d = .ok r ∧ r.value = v := by
  have hI : I32 d.value := ⟨by have := hd.1; omega, hd.2⟩
  rcases opt_fits h hI hv with ⟨rfl, rfl, hb⟩ | ⟨c, r, hs, hb, hr, hrv⟩
  · refine ⟨none, hb, fun e l => ?_, rfl, by simp⟩
    cases st with
    | none => exact ⟨⟨.i32, 0⟩, rfl, by simp [hdf]⟩
    | some s =>
      have hS := hst s rfl
      unfold reindexT
      simp only [(ltT_step hS).2]
      simp only at hdf
      by_cases h0 : 0 < s.value
      · rw [if_pos (by simpa using h0)]
        rw [if_pos h0] at hdf
        exact ⟨_, rfl, hdf.symm⟩
      · rw [if_neg (by simpa using h0)]
        rw [if_neg h0] at hdf
        have hsub : Small (d.value - 1) := ⟨by omega, by have := hd.2; omega⟩
        obtain ⟨t, et⟩ := constSub_small (b := ⟨.i32, 1⟩) hd (by decide : (0 : Int) ≤ 1 ∧ (1 : Int) < 2147483648) hsub
        rw [et]
        refine ⟨_, rfl, ?_⟩
        simp only
        rw [IntType.wrap_fits (IntType.fits_of_bits (IntType.common_bits _ _) hsub.1 hsub.2), hdf]
  · refine ⟨some c, hb, fun e l => ⟨r, hr, hrv⟩, by rw [hs]; rfl, ?_⟩
    intro c' hc'
    cases hc'
    exact ⟨r, hr, hrv⟩

theorem picks_interval {d : Int} {B : Option Bound} {S : Option Int} {E L : Option Bound} {l : List Int}
    (h : Picks d (.interval B S E L) l) :
    (L = none ∧ ∃ b e, DenotesOr d 0 B b ∧ DenotesOr d d E e ∧ 0 < S.getD 1 ∧ 0 ≤ b ∧ b ≤ e ∧ e ≤ d ∧
      (l.length : Int) = steps (e - b) (S.getD 1)) ∨
    (L = none ∧ E = none ∧ ∃ s b, S = some s ∧ DenotesOr d (d - 1) B b ∧ s < 0 ∧ -1 ≤ b ∧ b < d ∧
      (l.length : Int) = steps (b + 1) (-s)) ∨
    (E = none ∧ ∃ len b, L = some len ∧ S.getD 1 ≠ 0 ∧ DenotesOr d (if S.getD 1 < 0 then d - 1 else 0) B b ∧
      Denotes d len (l.length : Int)) := by
  have len : ∀ (n : Int) (f : Int → Int), 0 ≤ n → ((((upTo n).map f).length : Nat) : Int) = n := by
    intro n f hn; rw [List.length_map, upTo_length]; omega
  cases h with
  | @up _ _ _ b e s hb he hst hs h0 h1 h2 =>
    subst hst
    exact .inl ⟨rfl, b, e, hb, he, hs, h0, h1, h2, by rw [selectUp_eq hs h0 h2, len _ _ (steps_nonneg hs (by omega))]⟩
  | @down _ s b hb hs h0 h1 =>
    exact .inr (.inl ⟨rfl, rfl, s, b, rfl, hb, hs, h0, h1, by
      rw [selectDown_eq hs h1, len _ _ (steps_nonneg (by omega) (by omega))]⟩)
  | @length _ len' _ b n s hst hs hb hn h0 hin =>
    subst hst
    exact .inr (.inr ⟨rfl, len', b, rfl, hs, hb, by rw [len _ _ h0]; exact hn⟩)

theorem reindex_interval {d v dflt : Int} {B : Option Bound} {S : Option Int} {E L : Option Bound} (h : DenotesOr d dflt B v)
    (hdf : dflt = match S with | some s => if 0 < s then 0 else d - 1 | none => 0) : reindex d (.interval B S E L) = .ok v := by
  cases h with
  | none =>
    subst hdf
    cases S <;> rfl
  | some h => exact value_of_denotes h

theorem convert_small {n : Coord} (h : Small n.value) (b e s : IntType) : (n.convert (steppedType b e s)).value = n.value :=
  IntType.wrap_fits (IntType.fits_of_bits (IntType.common_bits _ _) h.1 h.2)

/-- One axis. -/
theorem axis_typed {d : Coord} {g : Int} {x : SlicerT} {l : List Int} (hx : x.FitsAt NotUnsignedInt d g) (hg : 0 < g) (hd : Small d.value)
    (hp : Picks d.value x.erase l) (hne : l ≠ []) :
    ∃ xc o n, x.build = .ok xc ∧ reindexT d xc = .ok o ∧ reindex d.value x.erase = .ok o.value ∧
      sliceExtentT d xc = .ok n ∧ n.value = (l.length : Int) ∧
      ∀ gc, (restrideT gc xc = .ok gc ∧ x.step = ⟨.i32, 1⟩) ∨ restrideT gc xc = constMul x.step gc := by
  have hI : I32 d.value := ⟨by have := hd.1; omega, hd.2⟩
  obtain ⟨o, r1, r2, r3, r4, r5⟩ := picks_axis hp
  rw [step_erase] at r5
  have hst := stepOK_of hx hg r5
  have hpos : 0 < l.length := List.length_pos_iff.2 hne
  cases x with
  | joker => exact ⟨.joker, ⟨.i32, 0⟩, d, rfl, rfl, rfl, rfl, Except.ok.inj r2, fun gc => .inl ⟨rfl, rfl⟩⟩
  | index i => exact ⟨.index i, i, fixedOne, rfl, rfl, rfl, rfl, Except.ok.inj r2, fun gc => .inl ⟨rfl, rfl⟩⟩
  | ext e =>
    obtain ⟨c, r, h1, h2, h3, h4⟩ := size_fits hx.2.2.2 hI
    refine ⟨.ext c, r, fixedOne, ?_, h2, h3, rfl, Except.ok.inj r2, fun gc => .inl ⟨rfl, rfl⟩⟩
    simp only [SlicerT.build, h1]; rfl
  | interval b st e len =>
    obtain ⟨-, -, -, hb, he, hl⟩ := hx
    have hres : ∀ bc ec lc gc, (restrideT gc (.interval bc st ec lc) = .ok gc ∧ (SlicerT.interval b st e len).step = ⟨.i32, 1⟩) ∨
        restrideT gc (.interval bc st ec lc) = constMul (SlicerT.interval b st e len).step gc := by
      intro bc ec lc gc
      cases st with
      | none => exact .inl ⟨rfl, rfl⟩
      | some s => exact .inr rfl
    have hsts : ∀ s ∈ st, StepOK s := by
      intro s hs
      cases hs
      exact hst
    have hd0 : 0 < d.value := by
      obtain ⟨y, hy⟩ := List.exists_mem_of_ne_nil l hne
      have := r4 y hy
      omega
    have key : ∀ bc ec lc o n, SlicerT.buildOpt b = .ok bc → SlicerT.buildOpt e = .ok ec → SlicerT.buildOpt len = .ok lc →
        reindexT d (.interval bc st ec lc) = .ok o →
        reindex d.value (SlicerT.interval b st e len).erase = .ok o.value →
        sliceExtentT d (.interval bc st ec lc) = .ok n → n.value = (l.length : Int) →
        ∃ xc o n, (SlicerT.interval b st e len).build = .ok xc ∧ reindexT d xc = .ok o ∧
          reindex d.value (SlicerT.interval b st e len).erase = .ok o.value ∧ sliceExtentT d xc = .ok n ∧
          n.value = (l.length : Int) ∧
          ∀ gc, (restrideT gc xc = .ok gc ∧ (SlicerT.interval b st e len).step = ⟨.i32, 1⟩) ∨
            restrideT gc xc = constMul (SlicerT.interval b st e len).step gc := by
      intro bc ec lc o n h1 h2 h3 h4 h5 h6 h7
      refine ⟨.interval bc st ec lc, o, n, ?_, h4, h5, h6, h7, hres bc ec lc⟩
      simp only [SlicerT.build, h1, h2, h3, bind, Except.bind]; rfl
    have hsv : (st.map (·.value)).getD 1 = (SlicerT.interval b st e len).step.value := by cases st <;> rfl
    rcases picks_interval hp with ⟨hL, bv, ev, hbv, hev, hs, h0, h1, h2, hn⟩ | ⟨hL, hE, s, bv, hS, hbv, hs, h0, h1, hn⟩ |
      ⟨hE, lenB, bv, hL, hs, hbv, hn⟩
    · -- up
      obtain rfl : len = none := by simpa using hL
      have hdf : (0 : Int) = match st with | some s => if 0 < s.value then 0 else d.value - 1 | none => 0 := by
        cases st with
        | none => rfl
        | some s => simp only; rw [if_pos (by simpa using hs)]
      obtain ⟨bc, hbc, hre, hsome, hval⟩ := reindexT_interval hb hd hd0 hsts hbv hdf
      obtain ⟨ec, hec, heval⟩ : ∃ ec, SlicerT.buildOpt e = .ok ec ∧
          ((ec = none ∧ ev = d.value) ∨ ∃ c r, ec = some c ∧ c.value d = .ok r ∧ r.value = ev) := by
        rcases opt_fits he hI hev with ⟨-, h, h'⟩ | ⟨c, r, -, h', h3, h4⟩
        · exact ⟨none, h', .inl ⟨rfl, h⟩⟩
        · exact ⟨some c, h', .inr ⟨c, r, rfl, h3, h4⟩⟩
      obtain ⟨o', ho, hov⟩ := hre ec none
      have hoo : reindex d.value (SlicerT.interval b st e none).erase = .ok o'.value := by
        rw [hov]
        refine reindex_interval hbv ?_
        refine hdf.trans ?_
        cases st <;> rfl
      have hB : ∃ B, fixExtremumT d bc ⟨.i32, 0⟩ = .ok B ∧ B.value = bv := by
        cases bc with
        | some c => exact hval c rfl
        | none =>
          cases b with
          | some => simp at hsome
          | none => cases hbv; exact ⟨_, rfl, rfl⟩
      have hE : ∃ E, fixExtremumT d ec d = .ok E ∧ E.value = ev := by
        rcases heval with ⟨rfl, h⟩ | ⟨c, r, rfl, h3, h4⟩
        · exact ⟨d, rfl, h.symm⟩
        · exact ⟨r, h3, h4⟩
      obtain ⟨B, eB, vB⟩ := hB
      obtain ⟨E, eE, vE⟩ := hE
      have := hd.2
      have sB : Small B.value := by rw [vB]; exact ⟨h0, by omega⟩
      have sE : Small E.value := by rw [vE]; exact ⟨by omega, by omega⟩
      have sEB : Small (E.value - B.value) := by rw [vE, vB]; exact ⟨by omega, by omega⟩
      have hs' : 0 < (SlicerT.interval b st e none).step.value := by rw [← hsv]; exact hs
      have hext : ∃ n, sliceExtentT d (.interval bc st ec none) = .ok n ∧ n.value = steps (ev - bv) (SlicerT.interval b st e none).step.value := by
        by_cases hany : (bc.isSome || ec.isSome) = true
        · obtain ⟨t, et⟩ := constSub_small sE sB sEB
          obtain ⟨n, en, vn⟩ := sliceEvalT_ok (v := ⟨t, E.value - B.value⟩) sEB hst
          rw [sliceEval_pos hs' sEB.1] at vn
          have sn : Small n.value := by
            have h1 := steps_nonneg hs' sEB.1
            have h2 := steps_le hs' sEB.1
            rw [Except.ok.inj vn] at h1 h2
            exact ⟨h1, lt_of_le_of_lt h2 sEB.2⟩
          cases st with
          | none =>
            refine ⟨n, ?_, by rw [← Except.ok.inj vn, vB, vE]⟩
            simp only [sliceExtentT, hany, if_true, Option.isSome_none, Bool.false_eq_true, if_false, bind, Except.bind, eB, eE, et]
            exact en
          | some s =>
            have : ltT s ⟨.i32, 0⟩ = false := by
              rw [(ltT_step (c := s) hst).1]
              have hs' : 0 < s.value := hs'
              simp only [decide_eq_false_iff_not]; omega
            have en : sliceEvalT ⟨t, E.value - B.value⟩ s = .ok n := en
            refine ⟨n.convert (steppedType B.type E.type s.type), ?_, by rw [convert_small sn, ← Except.ok.inj vn, vB, vE]⟩
            simp only [sliceExtentT, hany, if_true, Option.isSome_some, bind, Except.bind, eB, eE, et, Option.getD_some, this,
              Bool.not_false, en]
            rfl
        · obtain ⟨n, en, vn⟩ := sliceEvalT_ok hd hst
          rw [sliceEval_pos hs' hd.1] at vn
          obtain ⟨rfl, rfl⟩ : bc = none ∧ ec = none := by
            cases bc <;> cases ec <;> simp at hany ⊢
          have hb0 : bv = 0 := by
            rw [← vB]
            cases eB
            rfl
          have he0 : ev = d.value := by
            rw [← vE]
            cases eE
            rfl
          refine ⟨n, ?_, by rw [← Except.ok.inj vn, hb0, he0, sub_zero]⟩
          cases st with
          | none => exact en
          | some s => exact en
      obtain ⟨n, en, vn⟩ := hext
      refine key bc ec none o' n hbc hec rfl ho hoo en ?_
      rw [hn, vn, hsv]
    · -- down
      obtain rfl : len = none := by simpa using hL
      obtain rfl : e = none := by simpa using hE
      obtain ⟨sc, rfl, rfl⟩ : ∃ sc, st = some sc ∧ sc.value = s := by
        cases st with
        | none => simp at hS
        | some sc => exact ⟨sc, rfl, by simpa using hS⟩
      have hst : StepOK sc := hst
      have hdf : d.value - 1 = match some sc with | some s => if 0 < s.value then 0 else d.value - 1 | none => 0 := by
        simp only; rw [if_neg (by omega)]
      obtain ⟨bc, hbc, hre, hsome, hval⟩ := reindexT_interval hb hd hd0 hsts hbv hdf
      obtain ⟨o', ho, hov⟩ := hre none none
      have hoo : reindex d.value (SlicerT.interval b (some sc) none none).erase = .ok o'.value := by
        rw [hov]
        exact reindex_interval hbv hdf
      have hlt : ltT sc ⟨.i32, 0⟩ = true := by rw [(ltT_step hst).1]; simpa using hs
      have := hd.2
      have hnonneg : 0 ≤ bv := by
        by_contra hc
        obtain rfl : bv = -1 := by omega
        rw [show (-1 : Int) + 1 = 0 by rfl] at hn
        have := steps_le (v := 0) (s := -sc.value) (by omega) le_rfl
        omega
      have hext : ∃ n, sliceExtentT d (.interval bc (some sc) none none) = .ok n ∧ n.value = steps (bv + 1) (-sc.value) := by
        cases bc with
        | none =>
          obtain ⟨n, en, vn⟩ := sliceEvalT_ok hd hst
          rw [sliceEval_neg hs hd.1] at vn
          refine ⟨n, en, ?_⟩
          rw [← Except.ok.inj vn]
          congr 1
          cases b with
          | some => simp at hsome
          | none => cases hbv; omega
        | some c =>
          obtain ⟨r, er, vr⟩ := hval c rfl
          have sr : Small r.value := by rw [vr]; exact ⟨by omega, by omega⟩
          have sr1 : Small (r.value + 1) := by rw [vr]; exact ⟨by omega, by omega⟩
          obtain ⟨t, et⟩ := constAdd_small (a := r) (b := ⟨.u8, 1⟩) sr (by decide : (0 : Int) ≤ 1 ∧ (1 : Int) < 2147483648) sr1
          obtain ⟨n, en, vn⟩ := sliceEvalT_ok (v := ⟨t, r.value + 1⟩) sr1 hst
          rw [sliceEval_neg hs sr1.1] at vn
          have sn : Small n.value := by
            have h1 := steps_nonneg (s := -sc.value) (by omega) sr1.1
            have h2 := steps_le (s := -sc.value) (by omega) sr1.1
            rw [Except.ok.inj vn] at h1 h2
            exact ⟨h1, lt_of_le_of_lt h2 sr1.2⟩
          refine ⟨n.convert (steppedType r.type d.type sc.type), ?_, by rw [convert_small sn, ← Except.ok.inj vn, vr]⟩
          simp only [sliceExtentT, Option.isSome_some, Bool.true_or, if_true, fixExtremumT, er, bind, Except.bind, pure, Except.pure,
            Option.getD_some, hlt, Bool.not_true, Bool.false_eq_true, if_false]
          rw [et]
          simp only [en]
      obtain ⟨n, en, vn⟩ := hext
      exact key bc none none o' n hbc rfl rfl ho hoo en (by rw [hn, vn])
    · -- length
      obtain rfl : e = none := by simpa using hE
      obtain ⟨lt, rfl, rfl⟩ : ∃ lt, len = some lt ∧ lt.erase = lenB := by
        cases len with
        | none => simp at hL
        | some lt => exact ⟨lt, rfl, by simpa using hL⟩
      have hdf : (if (st.map (·.value)).getD 1 < 0 then d.value - 1 else 0) =
          match st with | some s => if 0 < s.value then 0 else d.value - 1 | none => 0 := by
        cases st with
        | none => rfl
        | some s =>
          simp only [Option.map_some, Option.getD_some] at hs ⊢
          by_cases h : s.value < 0
          · rw [if_pos h, if_neg (by omega)]
          · rw [if_neg h, if_pos (by omega)]
      obtain ⟨bc, hbc, hre, -, -⟩ := reindexT_interval hb hd hd0 hsts hbv hdf
      obtain ⟨lc, n, h1, h2, h3⟩ := bound_fits (hl lt rfl) hI hn
      obtain ⟨o', ho, hov⟩ := hre none (some lc)
      refine key bc none (some lc) o' n hbc rfl ?_ ho ?_ h2 h3
      · simp only [SlicerT.buildOpt, h1]; rfl
      · rw [hov]
        refine reindex_interval hbv ?_
        refine hdf.trans ?_
        cases st <;> rfl

theorem axes_typed {s : List Coord} {g : List Int} {xs : List SlicerT} {ls : List (List Int)}
    (hx : SlicerT.FitsAll NotUnsignedInt s g xs) (hg : ∀ v ∈ g, 0 < v) (hlen : g.length = s.length)
    (hs : ∀ d ∈ s, Small d.value) (hp : PicksAll (vals s) (xs.map (·.erase)) ls) (hne : ∀ l ∈ ls, l ≠ []) :
    ∃ xcs os shp, xs.mapM SlicerT.build = .ok xcs ∧
      (s.zip xcs).mapM (fun x : Coord × SlicerC => reindexT x.1 x.2) = .ok os ∧
      ((vals s).zip (xs.map (·.erase))).mapM (fun x : Int × Slicer => reindex x.1 x.2) = .ok (vals os) ∧
      (s.zip xcs).mapM (fun x : Coord × SlicerC => sliceExtentT x.1 x.2) = .ok shp ∧ vals shp = pickShape ls ∧
      List.Forall₂ (fun x xc => ∀ gc, (restrideT gc xc = .ok gc ∧ SlicerT.step x = ⟨.i32, 1⟩) ∨
        restrideT gc xc = constMul (SlicerT.step x) gc) xs xcs ∧ ∀ x ∈ xs, StepOK x.step := by
  induction s generalizing g xs ls with
  | nil =>
    cases xs with
    | cons => cases hp
    | nil =>
      cases hp
      exact ⟨[], [], [], rfl, rfl, rfl, rfl, rfl, .nil, by simp⟩
  | cons d s ih =>
    cases xs with
    | nil => cases hp
    | cons x xs =>
      cases g with
      | nil => simp at hlen
      | cons v g =>
        cases hp with
        | @cons _ _ _ _ l ls hp hps =>
          obtain ⟨xcs, os, shp, a1, a2, a3, a4, a5, a6, a7⟩ := ih (g := g) hx.2 (fun v hv => hg v (by simp [hv])) (by simpa using hlen)
            (fun d hd => hs d (by simp [hd])) hps (fun l hl => hne l (by simp [hl]))
          obtain ⟨xc, o, n, b1, b2, b3, b4, b5, b6⟩ := axis_typed hx.1 (hg v (by simp)) (hs d (by simp)) hp (hne l (by simp))
          refine ⟨xc :: xcs, o :: os, n :: shp, ?_, ?_, ?_, ?_, ?_, .cons b6 a6, ?_⟩
          · rw [List.mapM_cons, b1, a1]; rfl
          · rw [List.zip_cons_cons, List.mapM_cons]
            simp only [b2, a2]; rfl
          · simp only [List.map_cons, List.zip_cons_cons, List.mapM_cons] at a3 ⊢
            simp only [b3, a3]; rfl
          · rw [List.zip_cons_cons, List.mapM_cons]
            simp only [b4, a4]; rfl
          · rw [pickShape, List.map_cons, ← b5]
            show n.value :: vals shp = _
            rw [a5]
            rfl
          · intro y hy
            rcases List.mem_cons.1 hy with rfl | hy
            · refine stepOK_of hx.1 (hg v (by simp)) ?_
              have := (picks_axis hp).choose_spec.2.2.2.2
              rwa [step_erase] at this
            · exact a7 y hy

/-- Represented strides. -/
theorem restrides_rep {st : List Coord} {g : List Int} {xs : List SlicerT} {xcs : List SlicerC} {s : List Coord}
    (hst : List.Forall₂ Rep st g) (hx : SlicerT.FitsAll NotUnsignedInt s g xs) (hs : s.length = g.length)
    (hxc : List.Forall₂ (fun x xc => ∀ gc, (restrideT gc xc = .ok gc ∧ SlicerT.step x = ⟨.i32, 1⟩) ∨
        restrideT gc xc = constMul (SlicerT.step x) gc) xs xcs)
    (hok : ∀ x ∈ xs, StepOK x.step) (hty : ∀ x ∈ xs, NotUnsignedInt x.step.type) (hlen : xs.length = g.length) :
    ∃ str, (st.zip xcs).mapM (fun x : Coord × SlicerC => restrideT x.1 x.2) = .ok str ∧
      List.Forall₂ Rep str (g.zipWith restride (xs.map (·.erase))) := by
  induction hst generalizing xs xcs s with
  | nil => exact ⟨[], rfl, by simp⟩
  | @cons c v st g hc hst ih =>
    cases hxc with
    | nil => simp at hlen
    | @cons x xc xs xcs h1 h2 =>
      cases s with
      | nil => simp at hs
      | cons d s =>
        obtain ⟨str, e, hr⟩ := ih (s := s) hx.2 (by simpa using hs) h2 (fun x hx => hok x (by simp [hx])) (fun x hx => hty x (by simp [hx]))
          (by simpa using hlen)
        have : ∃ r, restrideT c xc = .ok r ∧ Rep r (restride v x.erase) := by
          rw [restride_eq, step_erase]
          rcases h1 c with ⟨h, h'⟩ | h
          · refine ⟨c, h, ?_⟩
            rw [h', one_mul]
            exact hc
          · obtain ⟨r, er, hr, -⟩ := rep_op modular_mul (rep_coord (hty x (by simp)) (hok x (by simp)).small) hc hx.1.2.1
            exact ⟨r, h.trans er, hr⟩
        obtain ⟨r, er, hr'⟩ := this
        refine ⟨r :: str, ?_, .cons hr' hr⟩
        rw [List.zip_cons_cons, List.mapM_cons]
        simp only [er, e]; rfl

/-- Positive steps, any types. -/
theorem restrides_small {st : List Coord} {xs : List SlicerT} {xcs : List SlicerC} {s : List Coord}
    (hst : ∀ c ∈ st, Small c.value) (hx : SlicerT.FitsAll NotUnsignedInt s (vals st) xs) (hs : s.length = st.length)
    (hxc : List.Forall₂ (fun x xc => ∀ gc, (restrideT gc xc = .ok gc ∧ SlicerT.step x = ⟨.i32, 1⟩) ∨
        restrideT gc xc = constMul (SlicerT.step x) gc) xs xcs)
    (hok : ∀ x ∈ xs, StepOK x.step) (hpos : ∀ x ∈ xs, 0 < x.step.value) (hlen : xs.length = st.length) :
    ∃ str, (st.zip xcs).mapM (fun x : Coord × SlicerC => restrideT x.1 x.2) = .ok str ∧
      vals str = (vals st).zipWith restride (xs.map (·.erase)) ∧ ∀ c ∈ str, Small c.value := by
  induction st generalizing xs xcs s with
  | nil => exact ⟨[], rfl, rfl, by simp⟩
  | cons c st ih =>
    cases hxc with
    | nil => simp at hlen
    | @cons x xc xs xcs h1 h2 =>
      cases s with
      | nil => simp at hs
      | cons d s =>
        obtain ⟨str, e, hv, hr⟩ := ih (s := s) (fun c hc => hst c (by simp [hc])) hx.2 (by simpa using hs) h2 (fun x hx => hok x (by simp [hx])) (fun x hx => hpos x (by simp [hx]))
          (by simpa using hlen)
        have : ∃ r, restrideT c xc = .ok r ∧ r.value = restride c.value x.erase ∧ Small r.value := by
          rw [restride_eq, step_erase]
          rcases h1 c with ⟨h, h'⟩ | h
          · refine ⟨c, h, ?_, hst c (by simp)⟩
            rw [h', one_mul]
          · have h0 := hpos x (by simp)
            have hc := hst c (by simp)
            have hsm : Small (x.step.value * c.value) := ⟨mul_nonneg h0.le hc.1, hx.1.2.1.2⟩
            obtain ⟨t, er⟩ := constMul_small (a := x.step) (b := c) ⟨h0.le, (hok x (by simp)).small.2⟩ hc hsm
            exact ⟨_, h.trans er, rfl, hsm⟩
        obtain ⟨r, er, hv', hr'⟩ := this
        refine ⟨r :: str, ?_, ?_, ?_⟩
        · rw [List.zip_cons_cons, List.mapM_cons]
          simp only [er, e]; rfl
        · show r.value :: vals str = restride c.value x.erase :: (vals st).zipWith restride (xs.map (·.erase))
          rw [hv, hv']
        · intro y hy
          rcases List.mem_cons.1 hy with rfl | hy
          · exact hr'
          · exact hr y hy

/-- Along every axis, the steps of a selection stay within the extent. -/
theorem picksAll_abs {ds : List Int} {sl : List Slicer} {ls : List (List Int)} (h : PicksAll ds sl ls) {i : List Int}
    (hi : InBox (pickShape ls) i) :
    ∃ e p, InBox ds p ∧ List.Forall₂ (fun i j => |j| ≤ i) p e ∧
      ∀ g : List Int, g.length = ds.length → (g.zipWith restride sl).zipWith (· * ·) i = g.zipWith (· * ·) e := by
  induction h generalizing i with
  | nil => exact ⟨[], [], .nil, .nil, fun g hg => by cases g <;> simp at hg ⊢⟩
  | @cons d ds s sl l ls hp _ ih =>
    rw [pickShape, List.map_cons] at hi
    obtain ⟨k, i, rfl, hk, hi⟩ := inBox_cons_left hi
    obtain ⟨e, p, h1, h2, h3⟩ := ih hi
    obtain ⟨o, -, -, r3, r4, -⟩ := picks_axis hp
    have hget : ∀ k : Int, 0 ≤ k → k < l.length → l.getD k.toNat 0 = o + k * stepOf s := by
      intro k h0 hk
      have := getD_upTo_map (l.length : Int) k (fun k => o + k * stepOf s) h0 hk
      rw [← r3] at this; exact this
    have hmem : ∀ k : Int, 0 ≤ k → k < l.length → l.getD k.toNat 0 ∈ l := by
      intro k h0 hk
      rw [List.getD_eq_getElem?_getD, List.getElem?_eq_getElem (by omega)]
      exact List.getElem_mem _
    have a0 := r4 _ (hmem 0 le_rfl (by omega))
    have a1 := r4 _ (hmem k hk.1 hk.2)
    rw [hget 0 le_rfl (by omega)] at a0
    rw [hget k hk.1 hk.2] at a1
    refine ⟨stepOf s * k :: e, |stepOf s * k| :: p, inBox_cons.2 ⟨⟨abs_nonneg _, ?_⟩, h1⟩, .cons le_rfl h2, ?_⟩
    · rw [mul_comm, abs_lt]
      constructor <;> omega
    · intro g hg
      cases g with
      | nil => simp at hg
      | cons v g =>
        rw [List.zipWith_cons_cons, List.zipWith_cons_cons, List.zipWith_cons_cons, h3 g (by simpa using hg), restride_eq]
        congr 1
        ring

theorem picks_length_le {d : Int} {sl : Slicer} {l : List Int} (h : Picks d sl l) (hne : l ≠ []) : (l.length : Int) ≤ d := by
  obtain ⟨o, -, -, r3, r4, r5⟩ := picks_axis h
  have hpos : 0 < l.length := List.length_pos_iff.2 hne
  have hget : ∀ k : Int, 0 ≤ k → k < l.length → o + k * stepOf sl ∈ l := by
    intro k h0 hk
    rw [r3]
    exact List.mem_map_of_mem (mem_upTo.2 ⟨h0, hk⟩)
  have a0 := r4 _ (hget 0 le_rfl (by omega))
  have a1 := r4 _ (hget (l.length - 1) (by omega) (by omega))
  rcases lt_or_gt_of_ne r5 with h | h
  · nlinarith
  · nlinarith

theorem pickShape_le {ds : List Int} {sl : List Slicer} {ls : List (List Int)} (h : PicksAll ds sl ls) (hne : ∀ l ∈ ls, l ≠ [])
    {b : Int} (hb : ∀ d ∈ ds, d ≤ b) : ∀ n ∈ pickShape ls, n ≤ b := by
  induction h with
  | nil => simp [pickShape]
  | @cons d ds s sl l ls hp _ ih =>
    intro n hn
    rw [pickShape, List.map_cons] at hn
    rcases List.mem_cons.1 hn with rfl | hn
    · exact le_trans (picks_length_le hp (hne l (by simp))) (hb d (by simp))
    · exact ih (fun l hl => hne l (by simp [hl])) (fun d hd => hb d (by simp [hd])) n hn

/-- The fold of `asStrideT`. -/
def strideFoldT (s : List Coord) : Res (List Coord) :=
  kumiFoldLeft (fun (a : Res (List Coord)) (m : Coord) => do
      let a ← a
      let g ← constMul m (a.headD fixedOne)
      pure (g :: a)) s (pure [fixedOne])

theorem asStrideT_cons (d : Coord) (s : List Coord) : asStrideT (d :: s) = strideFoldT s := by
  cases s with
  | nil => rfl
  | cons e s => rfl

theorem strideFoldT_append {a b st : List Coord} (h : strideFoldT (a ++ b) = .ok st) :
    strideFoldT b = .ok (st.drop a.length) ∧ st.length = a.length + b.length + 1 := by
  unfold strideFoldT kumiFoldLeft at *
  induction a generalizing st with
  | nil =>
    refine ⟨h, ?_⟩
    rw [List.nil_append] at h
    induction b generalizing st with
    | nil => cases h; rfl
    | cons m b ih =>
      rw [List.foldr_cons] at h
      cases e : List.foldr (fun b a => do
        let a ← a
        let g ← constMul b (a.headD fixedOne)
        pure (g :: a)) (pure [fixedOne] : Res (List Coord)) b with
      | error => rw [e] at h; cases h
      | ok st' =>
        rw [e] at h
        simp only [bind, Except.bind] at h
        split at h
        · cases h
        · cases h
          have := ih e
          simp only [List.length_nil, List.length_cons] at this ⊢
          omega
  | cons m a ih =>
    rw [List.cons_append, List.foldr_cons] at h
    cases e : List.foldr (fun b a => do
      let a ← a
      let g ← constMul b (a.headD fixedOne)
      pure (g :: a)) (pure [fixedOne] : Res (List Coord)) (a ++ b) with
    | error => rw [e] at h; cases h
    | ok st' =>
      rw [e] at h
      simp only [bind, Except.bind] at h
      split at h
      · cases h
      · cases h
        obtain ⟨h1, h2⟩ := ih e
        refine ⟨h1, ?_⟩
        simp only [List.length_cons]
        omega

/-- Merging axes keeps the strides of the others. -/
theorem asStrideT_drop {d : Coord} {s st : List Coord} {k : Nat} (h : asStrideT s = .ok st) (hk : k < s.length) :
    asStrideT (d :: s.drop (k + 1)) = .ok (st.drop k) ∧ st.length = s.length := by
  cases s with
  | nil => simp at hk
  | cons e s =>
    rw [asStrideT_cons] at h ⊢
    rw [List.drop_succ_cons]
    rw [← List.take_append_drop k s] at h
    have h2 := strideFoldT_append h
    have hl : (s.take k).length = k := by
      rw [List.length_take]; simp at hk; omega
    rw [hl] at h2
    refine ⟨h2.1, ?_⟩
    have := h2.2
    rw [List.length_drop] at this
    simp only [List.length_cons] at hk ⊢
    omega

theorem foldlM_constMul {hs : List Coord} {c : Coord} (h0 : 0 < c.value) (hs0 : ∀ d ∈ vals hs, 0 < d)
    (hf : c.value * (vals hs).prod < 2147483648) :
    ∃ r, hs.foldlM constMul c = .ok r ∧ r.value = c.value * (vals hs).prod ∧
      (NotUnsignedInt c.type → (∀ d ∈ hs, NotUnsignedInt d.type) → NotUnsignedInt r.type) := by
  induction hs generalizing c with
  | nil => exact ⟨c, rfl, by simp, fun h _ => h⟩
  | cons d hs ih =>
    have hd : 0 < d.value := hs0 _ (by simp)
    have hs' : ∀ d ∈ vals hs, 0 < d := fun x hx => hs0 x (List.mem_cons_of_mem _ hx)
    have hp : 0 < (vals hs).prod := by rw [← padded_eq_prod hs']; exact lt_of_lt_of_le zero_lt_one (paddedCount_pos _)
    rw [show vals (d :: hs) = d.value :: vals hs from rfl, List.prod_cons] at hf ⊢
    have hcd : 0 < c.value * d.value := mul_pos h0 hd
    have hlt : c.value * d.value < 2147483648 := by nlinarith
    obtain ⟨t, et⟩ := constMul_small (a := c) (b := d) ⟨h0.le, by nlinarith⟩ ⟨hd.le, by nlinarith⟩ ⟨hcd.le, hlt⟩
    obtain ⟨r, er, hr, hty⟩ := ih (c := ⟨t, c.value * d.value⟩) hcd hs' (by simp only; rw [mul_assoc]; exact hf)
    refine ⟨r, ?_, by rw [hr]; ring, ?_⟩
    · rw [List.foldlM_cons, et]
      exact er
    · intro h1 h2
      refine hty ?_ fun d hd => h2 d (by simp [hd])
      have := constOp_type et
      simp only at this ⊢
      rw [this]
      exact (common_plain h1 (h2 d (by simp))).1

theorem compressT_ok {n : Nat} {s : List Coord} (h0 : 0 < n) (hn : n ≤ s.length) (hs : ∀ d ∈ vals s, 0 < d)
    (hf : (vals s).prod < 2147483648) :
    ∃ c, compressT n s = .ok c ∧ vals c = compress n (vals s) ∧
      ((∀ d ∈ s, NotUnsignedInt d.type) → ∀ d ∈ c, NotUnsignedInt d.type) ∧
      ∀ st, asStrideT s = .ok st → asStrideT c = .ok (st.drop (st.length - n)) := by
  by_cases h : n = s.length
  · refine ⟨s, by rw [compressT, if_pos h]; rfl, by rw [compress, if_pos (by simpa using h)], fun h => h, ?_⟩
    intro st hst
    rw [hst]
    cases s with
    | nil => simp at h; omega
    | cons d s =>
      have := (asStrideT_drop (d := d) (k := 0) hst (by simp)).2
      rw [this, h, Nat.sub_self, List.drop_zero]
  · cases s with
    | nil => simp at hn; omega
    | cons d s =>
      have htake : (d :: s).take ((d :: s).length - n + 1) = d :: s.take ((d :: s).length - n) := rfl
      have hd : 0 < d.value := hs _ (by simp)
      have hs' : ∀ x ∈ vals s, 0 < x := fun x hx => hs x (List.mem_cons_of_mem _ hx)
      have hpos : ∀ l : List Coord, (∀ x ∈ l, x ∈ s) → 0 < (vals l).prod := fun l hl => by
        rw [← padded_eq_prod (s := vals l)]
        · exact lt_of_lt_of_le zero_lt_one (paddedCount_pos _)
        · intro x hx
          obtain ⟨c, hc, rfl⟩ := List.mem_map.1 hx
          exact hs' _ (List.mem_map_of_mem (hl c hc))
      have hprod : (vals (d :: s)).prod = d.value * (vals (s.take ((d :: s).length - n))).prod *
          (vals (s.drop ((d :: s).length - n))).prod := by
        rw [mul_assoc, ← List.prod_append, vals, vals, vals, ← List.map_append, List.take_append_drop]
        rfl
      have hp2 := hpos (s.drop ((d :: s).length - n)) fun x hx => List.mem_of_mem_drop hx
      have hp1 := hpos (s.take ((d :: s).length - n)) fun x hx => List.mem_of_mem_take hx
      rw [hprod] at hf
      have hlt : d.value * (vals (s.take ((d :: s).length - n))).prod < 2147483648 := by
        have := mul_pos hd hp1
        nlinarith
      obtain ⟨r, er, hr, hty⟩ := foldlM_constMul hd (fun x hx => by
        obtain ⟨c, hc, rfl⟩ := List.mem_map.1 hx
        exact hs' _ (List.mem_map_of_mem (List.mem_of_mem_take hc))) hlt
      refine ⟨r :: (d :: s).drop ((d :: s).length - n + 1), ?_, ?_, ?_, ?_⟩
      · unfold compressT
        rw [if_neg h, htake]
        simp only [er, bind, Except.bind]; rfl
      · rw [compress_eq h0 (by simpa using hn)]
        rw [show (vals (d :: s)).length = (d :: s).length from List.length_map _, vals, vals, ← List.map_take, ← List.map_drop, htake,
          List.map_cons, hr]
        rfl
      · intro hp x hx
        rcases List.mem_cons.1 hx with rfl | hx
        · exact hty (hp d (by simp)) fun y hy => hp y (List.mem_cons_of_mem _ (List.mem_of_mem_take hy))
        · exact hp x (List.mem_of_mem_drop hx)
      · intro st hst
        obtain ⟨h1, h2⟩ := asStrideT_drop (d := r) (k := (d :: s).length - n) hst (by omega)
        rw [h2]
        exact h1

end Kwk
