import Verif.Spec.Walk
import Verif.Props.LongAxes
import Verif.Props.Mixed
import Verif.Props.Machine

/-! # Lemmas: visiting elements of containers of all integer types -/

namespace Kwk
open Spec

/-! ## Types of results -/

/-- A set of types with `int` and `std::uint8_t` in which one can compute. -/
structure ClosedTypes (P : IntType → Prop) : Prop where
  i32 : P .i32
  u8 : P .u8
  common : ∀ t u, P t → P u → P (t.common u)
  promote : ∀ t, P t → P t.promote

theorem closed_signed : ClosedTypes ComputesSigned where
  i32 := by decide
  u8 := by decide
  common := fun _ _ ht hu => (common_signed_true ht hu).2
  promote := by
    intro t ht
    simp only [ComputesSigned, List.mem_cons, List.not_mem_nil, or_false] at ht
    rcases ht with rfl | rfl | rfl | rfl | rfl | rfl <;> decide

theorem closed_any : ClosedTypes fun _ => True := by
  constructor <;> intros <;> trivial

theorem closed_notUnsigned : ClosedTypes NotUnsignedInt where
  i32 := by decide
  u8 := by decide
  common := by
    intro t u ht hu
    simp only [NotUnsignedInt, List.mem_cons, List.not_mem_nil, or_false] at ht hu
    rcases ht with rfl | rfl | rfl | rfl | rfl | rfl | rfl <;>
      rcases hu with rfl | rfl | rfl | rfl | rfl | rfl | rfl <;> decide
  promote := by
    intro t ht
    simp only [NotUnsignedInt, List.mem_cons, List.not_mem_nil, or_false] at ht
    rcases ht with rfl | rfl | rfl | rfl | rfl | rfl | rfl <;> decide

theorem op_in {t : IntType} {v r : Int} (e : t.op v = .ok r) : t.Fits r := by
  unfold IntType.op at e
  split at e
  · split at e
    · cases e; assumption
    · cases e
  · cases e
    rename_i hs
    unfold IntType.wrap IntType.Fits IntType.lo IntType.hi
    simp only [hs, false_and, if_false, Bool.false_eq_true]
    have : (0 : Int) < 2 ^ t.bits := by positivity
    exact ⟨Int.emod_nonneg _ this.ne', Int.emod_lt_of_pos _ this⟩

theorem constOp_in {f : Int → Int → Int} {a b r : Coord} (h : constOp f a b = .ok r) :
    r.type = a.type.common b.type ∧ r.type.Fits r.value := by
  unfold constOp at h
  simp only [bind, Except.bind] at h
  split at h
  · cases h
  · cases h
    rename_i e
    exact ⟨rfl, op_in e⟩

theorem constDiv_in {a b r : Coord} (h : constDiv a b = .ok r) : r.type = a.type.common b.type ∧ r.type.Fits r.value := by
  unfold constDiv at h
  simp only [bind, Except.bind] at h
  split at h
  · cases h
  · split at h
    · cases h
    · cases h
      rename_i e
      exact ⟨rfl, op_in e⟩

theorem constNeg_in {a r : Coord} (h : constNeg a = .ok r) : r.type = a.type.promote ∧ r.type.Fits r.value := by
  unfold constNeg at h
  simp only [bind, Except.bind] at h
  split at h
  · cases h
  · cases h
    rename_i e
    exact ⟨rfl, op_in e⟩

theorem modT_in {a b r : Coord} (h : modT a b = .ok r) : r.type = a.type.common b.type := by
  unfold modT at h
  simp only [bind, Except.bind] at h
  split at h
  · cases h
  · cases h; rfl

theorem absT_in {a r : Coord} (h : absT a = .ok r) : r.type = a.type.promote := by
  unfold absT at h
  split at h
  · exact (constNeg_in h).1
  · cases h; rfl

theorem sliceEvalT_in {s b r : Coord} (h : sliceEvalT s b = .ok r) (hz : (evalType s.type b.type).Fits 0) :
    r.type = evalType s.type b.type ∧ r.type.Fits r.value := by
  unfold sliceEvalT at h
  simp only [bind, Except.bind] at h
  split at h
  · cases h
    exact ⟨rfl, hz⟩
  · split at h
    · cases h
    · rename_i w ew
      have tw := absT_in ew
      split at h
      · cases h
      · split at h
        · cases h
        · rename_i q eq
          obtain ⟨h1, h2⟩ := constOp_in h
          refine ⟨?_, h2⟩
          rw [h1, (constDiv_in eq).1, tw]
          rfl

/-- The numbers of an expression on `end`. -/
def EndC.Types (P : IntType → Prop) (e : EndC) : Prop := P e.shift.type ∧ P e.num.type ∧ P e.denum.type

theorem build_types {P : IntType → Prop} (hP : ClosedTypes P) {e : EndExprT} {c : EndC} (h : e.build = .ok c)
    (hn : ∀ o ∈ e.numbers, P o.type) : c.Types P := by
  induction e generalizing c with
  | all => cases h; exact ⟨hP.i32, hP.i32, hP.i32⟩
  | add e o ih =>
    simp only [EndExprT.build, EndC.add, bind, Except.bind] at h
    split at h
    · cases h
    rename_i c0 e0
    obtain ⟨h1, h2, h3⟩ := ih e0 fun o ho => hn o (List.mem_cons_of_mem _ ho)
    split at h
    · cases h
    rename_i m em
    split at h
    · cases h
    rename_i a ea
    cases h
    refine ⟨?_, h2, h3⟩
    rw [(constOp_in ea).1, (constOp_in em).1]
    exact hP.common _ _ h1 (hP.common _ _ (hn o (by simp [EndExprT.numbers])) h3)
  | sub e o ih =>
    simp only [EndExprT.build, EndC.sub, bind, Except.bind] at h
    split at h
    · cases h
    rename_i c0 e0
    obtain ⟨h1, h2, h3⟩ := ih e0 fun o ho => hn o (List.mem_cons_of_mem _ ho)
    split at h
    · cases h
    rename_i m em
    split at h
    · cases h
    rename_i a ea
    cases h
    refine ⟨?_, h2, h3⟩
    rw [(constOp_in ea).1, (constOp_in em).1]
    exact hP.common _ _ h1 (hP.common _ _ (hn o (by simp [EndExprT.numbers])) h3)
  | rsub o e ih =>
    simp only [EndExprT.build, EndC.rsub, bind, Except.bind] at h
    split at h
    · cases h
    rename_i c0 e0
    obtain ⟨h1, h2, h3⟩ := ih e0 fun o ho => hn o (List.mem_cons_of_mem _ ho)
    split at h
    · cases h
    rename_i m em
    split at h
    · cases h
    rename_i a ea
    split at h
    · cases h
    rename_i n en
    cases h
    refine ⟨?_, ?_, h3⟩
    · rw [(constOp_in ea).1, (constOp_in em).1]
      exact hP.common _ _ (hP.common _ _ (hn o (by simp [EndExprT.numbers])) h3) h1
    · rw [(constNeg_in en).1]
      exact hP.promote _ h2
  | mul e o ih =>
    simp only [EndExprT.build, EndC.mul, bind, Except.bind] at h
    split at h
    · cases h
    rename_i c0 e0
    obtain ⟨h1, h2, h3⟩ := ih e0 fun o ho => hn o (List.mem_cons_of_mem _ ho)
    split at h
    · cases h
    rename_i m em
    split at h
    · cases h
    rename_i a ea
    cases h
    have ho := hn o (by simp [EndExprT.numbers])
    refine ⟨?_, ?_, h3⟩
    · rw [(constOp_in em).1]; exact hP.common _ _ h1 ho
    · rw [(constOp_in ea).1]; exact hP.common _ _ h2 ho
  | div e o ih =>
    simp only [EndExprT.build, EndC.div, bind, Except.bind] at h
    split at h
    · cases h
    rename_i c0 e0
    obtain ⟨h1, h2, h3⟩ := ih e0 fun o ho => hn o (List.mem_cons_of_mem _ ho)
    split at h
    · cases h
    rename_i m em
    cases h
    refine ⟨h1, h2, ?_⟩
    rw [(constOp_in em).1]
    exact hP.common _ _ h3 (hn o (by simp [EndExprT.numbers]))

theorem size_in {e : EndC} {d r : Coord} (h : e.size d = .ok r) :
    r.type = ((d.type.common e.num.type).common e.shift.type).common e.denum.type ∧ r.type.Fits r.value := by
  unfold EndC.size at h
  simp only [bind, Except.bind] at h
  split at h
  · cases h
  rename_i m em
  split at h
  · cases h
  rename_i a ea
  obtain ⟨h1, h2⟩ := constDiv_in h
  refine ⟨?_, h2⟩
  rw [h1, (constOp_in ea).1, (constOp_in em).1]

/-- A number of one of the types. -/
def NumberIn (P : IntType → Prop) (c : Coord) : Prop := P c.type ∧ c.type.Fits c.value

theorem size_number {P : IntType → Prop} (hP : ClosedTypes P) {e : EndC} {d r : Coord} (he : e.Types P) (hd : P d.type)
    (h : e.size d = .ok r) : NumberIn P r := by
  obtain ⟨h1, h2⟩ := size_in h
  refine ⟨?_, h2⟩
  rw [h1]
  exact hP.common _ _ (hP.common _ _ (hP.common _ _ hd he.2.1) he.1) he.2.2

theorem bound_number {P : IntType → Prop} (hP : ClosedTypes P) {b : BoundT} {c : BoundC} {d r : Coord} (hb : b.build = .ok c)
    (hn : ∀ o ∈ b.numbers, NumberIn P o) (hd : P d.type) (h : c.value d = .ok r) : NumberIn P r := by
  cases b with
  | int i => cases hb; cases h; exact hn _ (by simp [BoundT.numbers])
  | ext e =>
    simp only [BoundT.build, bind, Except.bind] at hb
    split at hb
    · cases hb
    rename_i c' ec
    cases hb
    exact size_number hP (build_types hP ec fun o ho => (hn o ho).1) hd h

theorem opt_number {P : IntType → Prop} (hP : ClosedTypes P) {b : Option BoundT} {c : Option BoundC} {d r : Coord}
    (hb : SlicerT.buildOpt b = .ok c) (hn : ∀ o ∈ (b.map (·.numbers)).getD [], NumberIn P o) (hd : P d.type) {dflt : Coord}
    (hdf : NumberIn P dflt) (h : fixExtremumT d c dflt = .ok r) : NumberIn P r := by
  cases b with
  | none => cases hb; cases h; exact hdf
  | some b =>
    simp only [SlicerT.buildOpt, bind, Except.bind] at hb
    split at hb
    · cases hb
    rename_i c' ec
    cases hb
    exact bound_number hP ec hn hd h

theorem common_fits_zero {t u : IntType} : (t.common u).Fits 0 ∧ 0 < (t.common u).bits := by
  have hpos : 0 < (t.common u).bits := by
    have : 0 < t.promote.bits := by
      unfold IntType.promote
      split
      · decide
      · omega
    have h2 : 0 < u.promote.bits := by
      unfold IntType.promote
      split
      · decide
      · omega
    unfold IntType.common
    repeat' split
    all_goals assumption
  refine ⟨?_, hpos⟩
  unfold IntType.Fits IntType.lo IntType.hi
  have : (2 : Int) ≤ 2 ^ (t.common u).bits := by
    calc (2 : Int) = 2 ^ 1 := rfl
      _ ≤ _ := pow_le_pow_right₀ (by norm_num) hpos
  split <;> omega

theorem eval_zero {t u : IntType} : (evalType t u).Fits 0 := by
  unfold evalType
  exact common_fits_zero.1

theorem stepped_bits {b e s : IntType} : 0 < (steppedType b e s).bits := by
  unfold steppedType
  exact common_fits_zero.2

set_option maxHeartbeats 1000000 in
/-- What `reshape` computes for an interval without length. -/
theorem extent_in {d n : Coord} {b e : Option BoundC} {st : Option Coord} (h : sliceExtentT d (.interval b st e none) = .ok n) :
    n.type.Fits n.value ∧ ((b = none ∧ e = none ∧ n.type = evalType d.type (st.getD fixedOne).type) ∨
      ∃ B E, fixExtremumT d b ⟨.i32, 0⟩ = .ok B ∧ fixExtremumT d e d = .ok E ∧
        ((st = none ∧ n.type = evalType (E.type.common B.type) .i32) ∨ ∃ s, st = some s ∧ n.type = steppedType B.type E.type s.type)) := by
  unfold sliceExtentT at h
  simp only at h
  by_cases hany : (b.isSome || e.isSome) = true
  · rw [if_pos hany] at h
    simp only [bind, Except.bind] at h
    split at h
    · cases h
    rename_i B eB
    split at h
    · cases h
    rename_i E eE
    cases st with
    | none =>
      simp only [Option.isSome_none, Bool.false_eq_true, if_false] at h
      split at h
      · cases h
      rename_i v ev
      obtain ⟨h1, h2⟩ := sliceEvalT_in h eval_zero
      rw [(constOp_in ev).1] at h1
      exact ⟨h2, .inr ⟨B, E, eB, eE, .inl ⟨rfl, h1⟩⟩⟩
    | some s =>
      simp only [Option.isSome_some, if_true, Option.getD_some] at h
      have hn : ∃ k : Coord, n = k.convert (steppedType B.type E.type s.type) := by
        split at h
        · split at h
          · cases h
          split at h
          · cases h
          · exact ⟨_, (Except.ok.inj h).symm⟩
        · split at h
          · cases h
          split at h
          · cases h
          · exact ⟨_, (Except.ok.inj h).symm⟩
      obtain ⟨k, hk⟩ := hn
      clear h
      have h1 : n.type = steppedType B.type E.type s.type := by rw [hk]; rfl
      have h2 : n.value = (steppedType B.type E.type s.type).wrap k.value := by rw [hk]; rfl
      refine ⟨?_, .inr ⟨B, E, eB, eE, .inr ⟨s, rfl, h1⟩⟩⟩
      rw [h1, h2]
      exact IntType.wrap_mem _ stepped_bits _
  · rw [if_neg hany] at h
    obtain ⟨rfl, rfl⟩ : b = none ∧ e = none := by
      cases b <;> cases e <;> simp at hany ⊢
    obtain ⟨h1, h2⟩ := sliceEvalT_in h eval_zero
    exact ⟨h2, .inl ⟨rfl, rfl, h1⟩⟩

/-- The extents of a slice are numbers of the types that the arguments and the extents have. -/
theorem extent_number {P : IntType → Prop} (hP : ClosedTypes P) {x : SlicerT} {xc : SlicerC} {d n : Coord} (hb : x.build = .ok xc)
    (hn : ∀ o ∈ x.numbers, NumberIn P o) (hd : NumberIn P d) (h : sliceExtentT d xc = .ok n) : NumberIn P n := by
  have he : ∀ t u, P t → P u → P (evalType t u) := fun t u ht hu => hP.common _ _ hP.i32 (hP.common _ _ ht (hP.promote _ hu))
  have hs : ∀ b e s, P b → P e → P s → P (steppedType b e s) := fun b e s hb he' hs =>
    hP.common _ _ (he _ _ (hP.common _ _ he' hb) hs) (he _ _ (hP.common _ _ hb hP.u8) hs)
  cases x with
  | joker => cases hb; cases h; exact hd
  | index i => cases hb; cases h; exact ⟨hP.i32, by show IntType.i32.Fits 1; decide⟩
  | ext e =>
    simp only [SlicerT.build, bind, Except.bind] at hb
    split at hb
    · cases hb
    cases hb; cases h
    exact ⟨hP.i32, by show IntType.i32.Fits 1; decide⟩
  | interval b st e l =>
    simp only [SlicerT.build, bind, Except.bind] at hb
    split at hb
    · cases hb
    rename_i bc eb
    split at hb
    · cases hb
    rename_i ec ee
    split at hb
    · cases hb
    rename_i lc el
    cases hb
    simp only [SlicerT.numbers, List.mem_append] at hn
    cases lc with
    | some lv =>
      have : fixExtremumT d (some lv) d = .ok n := h
      exact opt_number hP el (fun o ho => hn o (.inr ho)) hd.1 hd this
    | none =>
      obtain ⟨hf, h'⟩ := extent_in h
      clear h
      refine ⟨?_, hf⟩
      rcases h' with ⟨-, -, h⟩ | ⟨B, E, eB, eE, h⟩
      · rw [h]
        refine he _ _ hd.1 ?_
        cases st with
        | none => exact hP.i32
        | some s => exact (hn s (by simp)).1
      · have hB := opt_number hP eb (fun o ho => hn o (by simp [ho])) hd.1 ⟨hP.i32, by show IntType.i32.Fits 0; decide⟩ eB
        have hE := opt_number hP ee (fun o ho => hn o (by simp [ho])) hd.1 hd eE
        rcases h with ⟨-, h⟩ | ⟨s, rfl, h⟩
        · rw [h]; exact he _ _ (hP.common _ _ hE.1 hB.1) hP.i32
        · rw [h]; exact hs _ _ _ hB.1 hE.1 (hn s (by simp)).1

theorem extents_number {P : IntType → Prop} (hP : ClosedTypes P) {xs : List SlicerT} {xcs : List SlicerC} {s shp : List Coord}
    (hb : xs.mapM SlicerT.build = .ok xcs) (hn : ∀ x ∈ xs, ∀ o ∈ x.numbers, NumberIn P o) (hs : ∀ d ∈ s, NumberIn P d)
    (h : (s.zip xcs).mapM (fun x : Coord × SlicerC => sliceExtentT x.1 x.2) = .ok shp) : ∀ n ∈ shp, NumberIn P n := by
  induction xs generalizing xcs s shp with
  | nil => cases hb; simp at h; cases h; simp
  | cons x xs ih =>
    rw [List.mapM_cons] at hb
    simp only [bind, Except.bind] at hb
    split at hb
    · cases hb
    rename_i xc ex
    split at hb
    · cases hb
    rename_i xcs' exs
    cases hb
    cases s with
    | nil => simp at h; cases h; simp
    | cons d s =>
      rw [List.zip_cons_cons, List.mapM_cons] at h
      simp only [bind, Except.bind] at h
      split at h
      · cases h
      rename_i n en
      split at h
      · cases h
      rename_i shp' es
      cases h
      intro y hy
      rcases List.mem_cons.1 hy with rfl | hy
      · exact extent_number hP ex (hn x (by simp)) (hs d (by simp)) en
      · exact ih exs (fun x hx => hn x (by simp [hx])) (fun d hd => hs d (by simp [hd])) es y hy

end Kwk
