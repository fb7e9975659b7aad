import Verif.Lemmas.Reader
import Verif.Lemmas.TypedSlice
import Verif.Model.TypedPrint

/-! # Lemmas: texts of typed numbers -/

namespace Kwk
open Spec

/-- The coordinate is a signed number of at least 32 bits with the value `v`. -/
structure RepSigned (c : Coord) (v : Int) : Prop where
  rep : Rep c v
  type : c.type ∈ [IntType.i32, .i64]

theorem RepSigned.value {c : Coord} {v : Int} (h : RepSigned c v) : c.value = v :=
  h.rep.signed (by have := h.type; rintro e; rw [e] at this; revert this; decide)

theorem common_signed {t u : IntType} (ht : t ∈ [IntType.i32, .i64]) (hu : ComputesSigned u) :
    t.common u ∈ [IntType.i32, .i64] ∧ u.common t ∈ [IntType.i32, .i64] := by
  simp only [List.mem_cons, List.not_mem_nil, or_false, ComputesSigned] at ht hu
  rcases ht with rfl | rfl <;> rcases hu with rfl | rfl | rfl | rfl | rfl | rfl <;> decide

theorem computesSigned {t : IntType} (ht : t ∈ [IntType.i32, .i64]) : ComputesSigned t := by
  simp only [List.mem_cons, List.not_mem_nil, or_false] at ht
  rcases ht with rfl | rfl <;> decide

theorem notUnsignedInt {t : IntType} (h : ComputesSigned t) : NotUnsignedInt t := by
  simp only [List.mem_cons, List.not_mem_nil, or_false, ComputesSigned] at h
  rcases h with rfl | rfl | rfl | rfl | rfl | rfl <;> decide

theorem signed_op_left {f : Int → Int → Int} (hf : Modular f) {a b : Coord} {v : Int} (ha : RepSigned a v)
    (hb : ComputesSigned b.type) (h32 : I32 b.value) (h : I32 (f v b.value)) :
    ∃ r, constOp f a b = .ok r ∧ RepSigned r (f v b.value) := by
  obtain ⟨r, e, hr, ht⟩ := rep_op hf ha.rep (rep_coord (notUnsignedInt hb) h32) h
  exact ⟨r, e, hr, ht ▸ (common_signed ha.type hb).1⟩

theorem signed_op_right {f : Int → Int → Int} (hf : Modular f) {a b : Coord} {v : Int} (ha : RepSigned a v)
    (hb : ComputesSigned b.type) (h32 : I32 b.value) (h : I32 (f b.value v)) :
    ∃ r, constOp f b a = .ok r ∧ RepSigned r (f b.value v) := by
  obtain ⟨r, e, hr, ht⟩ := rep_op hf (rep_coord (notUnsignedInt hb) h32) ha.rep h
  exact ⟨r, e, hr, ht ▸ (common_signed ha.type hb).2⟩

theorem signed_op {f : Int → Int → Int} (hf : Modular f) {a b : Coord} {v w : Int} (ha : RepSigned a v)
    (hb : RepSigned b w) (h : I32 (f v w)) : ∃ r, constOp f a b = .ok r ∧ RepSigned r (f v w) := by
  obtain ⟨r, e, hr, ht⟩ := rep_op hf ha.rep hb.rep h
  exact ⟨r, e, hr, ht ▸ (common_signed ha.type (computesSigned hb.type)).1⟩

theorem signed_neg {a : Coord} {v : Int} (ha : RepSigned a v) : ∃ r, constNeg a = .ok r ∧ RepSigned r (-v) := by
  obtain ⟨r, e, hr⟩ := rep_neg ha.rep
  refine ⟨r, e, hr, ?_⟩
  have : r.type = a.type.promote := by
    unfold constNeg at e
    simp only [bind, Except.bind] at e
    split at e
    · cases e
    · cases e; rfl
  rw [this]
  have := ha.type
  simp only [List.mem_cons, List.not_mem_nil, or_false] at this
  rcases this with h | h <;> rw [h] <;> decide

/-- All members are signed. -/
structure SignedEnd (c : EndC) (e : EndT) : Prop where
  shift : RepSigned c.shift e.shift
  num : RepSigned c.num e.frac.num
  denum : RepSigned c.denum e.frac.denum

theorem signed_build {e : EndExprT} (h : e.Moderate ComputesSigned) :
    ∃ c, e.build = .ok c ∧ SignedEnd c e.erase.build := by
  induction e with
  | all =>
    exact ⟨.all, rfl, ⟨⟨by decide, by decide, .inl rfl⟩, by decide⟩, ⟨rep_fixedOne, by decide⟩, ⟨rep_fixedOne, by decide⟩⟩
  | add e o ih =>
    obtain ⟨h, h1, h2, h3, h4⟩ := h
    obtain ⟨c, ec, hc⟩ := ih h
    obtain ⟨m, em, hm⟩ := signed_op_right modular_mul hc.denum h1 h2 h3
    obtain ⟨a, ea, ha⟩ := signed_op modular_add hc.shift hm h4
    refine ⟨{ c with shift := a }, ?_, ha, hc.num, hc.denum⟩
    simp only [EndExprT.build, ec, EndC.add, bind, Except.bind]
    rw [show constMul o c.denum = _ from em]
    simp only
    rw [show constAdd c.shift m = _ from ea]
    rfl
  | sub e o ih =>
    obtain ⟨h, h1, h2, h3, h4⟩ := h
    obtain ⟨c, ec, hc⟩ := ih h
    obtain ⟨m, em, hm⟩ := signed_op_right modular_mul hc.denum h1 h2 h3
    obtain ⟨a, ea, ha⟩ := signed_op modular_sub hc.shift hm h4
    refine ⟨{ c with shift := a }, ?_, ha, hc.num, hc.denum⟩
    simp only [EndExprT.build, ec, EndC.sub, bind, Except.bind]
    rw [show constMul o c.denum = _ from em]
    simp only
    rw [show constSub c.shift m = _ from ea]
    rfl
  | rsub o e ih =>
    obtain ⟨h, h1, h2, h3, h4⟩ := h
    obtain ⟨c, ec, hc⟩ := ih h
    obtain ⟨m, em, hm⟩ := signed_op_right modular_mul hc.denum h1 h2 h3
    obtain ⟨a, ea, ha⟩ := signed_op modular_sub hm hc.shift h4
    obtain ⟨n, en, hn⟩ := signed_neg hc.num
    refine ⟨{ c with shift := a, num := n }, ?_, ha, hn, hc.denum⟩
    simp only [EndExprT.build, ec, EndC.rsub, bind, Except.bind]
    rw [show constMul o c.denum = _ from em]
    simp only
    rw [show constSub m c.shift = _ from ea]
    simp only [en]
    rfl
  | mul e o ih =>
    obtain ⟨h, h1, h2, h3, h4⟩ := h
    obtain ⟨c, ec, hc⟩ := ih h
    obtain ⟨m, em, hm⟩ := signed_op_left modular_mul hc.shift h1 h2 h3
    obtain ⟨a, ea, ha⟩ := signed_op_left modular_mul hc.num h1 h2 h4
    refine ⟨{ c with shift := m, num := a }, ?_, hm, ha, hc.denum⟩
    simp only [EndExprT.build, ec, EndC.mul, bind, Except.bind]
    rw [show constMul c.shift o = _ from em, show constMul c.num o = _ from ea]
    rfl
  | div e o ih =>
    obtain ⟨h, h1, h2, h3⟩ := h
    obtain ⟨c, ec, hc⟩ := ih h
    obtain ⟨m, em, hm⟩ := signed_op_left modular_mul hc.denum h1 h2 h3
    refine ⟨{ c with denum := m }, ?_, hc.shift, hc.num, hm⟩
    simp only [EndExprT.build, ec, EndC.div, bind, Except.bind]
    rw [show constMul c.denum o = _ from em]
    rfl

theorem put_plain {v : Coord} {k : Bool} (h : v.type.bits ≠ 8 ∨ k = true) : v.put false k = toString v.value ++ mark k := by
  unfold Coord.put mark
  rw [if_neg (by rintro ⟨h1, h2⟩; rcases h with h | h <;> simp_all)]
  simp

theorem bits_signed {t : IntType} (h : t ∈ [IntType.i32, .i64]) : t.bits ≠ 8 ∧ t.signed = true ∧ t.promote.signed = true := by
  simp only [List.mem_cons, List.not_mem_nil, or_false] at h
  rcases h with rfl | rfl <;> decide

theorem put_pos {v : Coord} {k : Bool} (h : v.type ∈ [IntType.i32, .i64]) :
    v.put true k = (if 0 ≤ v.value then "+" else "") ++ (toString v.value ++ mark k) := by
  obtain ⟨h1, h2, h3⟩ := bits_signed h
  have : (if k then v.type.promote else v.type).signed = true := by cases k <;> assumption
  unfold Coord.put mark
  rw [if_neg (by simp [h1]), this]
  simp [String.append_assoc]

theorem signed_print {c : EndC} {e : EndT} (h : SignedEnd c e) (k : Bool × Bool × Bool) :
    c.print k = factorText e.frac.num k.1 ++ divisorText e.frac.denum k.2.1 ++ offsetText e.shift k.2.2 := by
  unfold EndC.print factorText divisorText offsetText
  rw [put_plain (.inl (bits_signed h.num.type).1), put_plain (.inl (bits_signed h.denum.type).1), put_pos h.shift.type,
    h.num.value, h.denum.value, h.shift.value]

theorem read_signed {c : EndC} {e : EndT} (h : SignedEnd c e) (k : Bool × Bool × Bool) (n : ℚ) :
    readText (c.print k) n = some (e.frac.num * n / e.frac.denum + e.shift) := by
  rw [signed_print h, read_end]

end Kwk
