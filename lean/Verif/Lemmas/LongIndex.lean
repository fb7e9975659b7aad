import Verif.Lemmas.LongSlices
import Verif.Lemmas.MachineSearch

/-! # Lemmas: linear indexes with 64-bit extents and coordinates of any types -/

namespace Kwk
open Spec

/-- A non-negative number of a type is one of every common type. -/
theorem common_fits_nonneg {t u : IntType} {v : Int} (h : t.Fits v) (h0 : 0 ≤ v) :
    (t.common u).Fits v ∧ (u.common t).Fits v := by
  have key : (t.common u).Fits v := by
    refine ⟨le_trans (IntType.lo_nonpos _) h0, ?_⟩
    have hp := (IntType.promote_fits h).2
    unfold IntType.common
    split
    · rename_i hlt
      refine lt_of_lt_of_le hp ?_
      have e : (2 : Int) ^ (t.promote.bits + 1) ≤ 2 ^ u.promote.bits := pow_le_pow_right₀ (by decide) (by omega)
      rw [pow_succ] at e
      have e0 : (0 : Int) < 2 ^ t.promote.bits := by positivity
      unfold IntType.hi
      split <;> split <;> omega
    · split
      · exact hp
      · refine lt_of_lt_of_le hp ?_
        have e : (0 : Int) < 2 ^ t.promote.bits := by positivity
        unfold IntType.hi
        simp only [Bool.and_eq_true]
        split <;> split <;> first | omega | (simp_all; try omega)
  exact ⟨key, by rw [IntType.common_comm]; exact key⟩

/-- A non-negative number of its type. -/
def Natural (c : Coord) : Prop := 0 ≤ c.value ∧ c.type.Fits c.value

theorem natural_op {f : Int → Int → Int} {a b : Coord} (ha : Natural a) (hb : Natural b) (h0 : 0 ≤ f a.value b.value)
    (h : (a.type.common b.type).Fits (f a.value b.value)) :
    constOp f a b = .ok ⟨a.type.common b.type, f a.value b.value⟩ ∧ Natural ⟨a.type.common b.type, f a.value b.value⟩ := by
  refine ⟨?_, h0, h⟩
  unfold constOp
  simp only
  rw [IntType.wrap_fits (common_fits_nonneg ha.2 ha.1).1, IntType.wrap_fits (common_fits_nonneg hb.2 hb.1).2, IntType.op_fits h]
  rfl

/-- Strides of a shape with 64-bit extents: the last is the constant one. -/
def WideStrides : List Coord → Prop
  | [] => True
  | [c] => c = fixedOne
  | c :: d :: r => 64 ≤ c.type.bits ∧ WideStrides (d :: r)

theorem strides_wide {s : List Coord} (ht : ∀ c ∈ s, 64 ≤ c.type.bits) (hs : ∀ d ∈ vals s, 0 < d) (hf : (vals s).prod < 2 ^ 63) :
    ∃ r, asStrideT s = .ok r ∧ vals r = sfx (vals s) ∧ WideStrides r ∧ ∀ c ∈ r, Natural c := by
  have key : ∀ s : List Coord, (∀ c ∈ s, 64 ≤ c.type.bits) → (∀ d ∈ vals s, 0 < d) → (vals s).prod < 2 ^ 63 →
      ∃ r, strideFoldT s = .ok r ∧ vals r = (vals s).prod :: sfx (vals s) ∧ WideStrides r ∧ ∀ c ∈ r, Natural c := by
    intro s
    unfold strideFoldT kumiFoldLeft
    induction s with
    | nil => intros; exact ⟨[fixedOne], rfl, rfl, rfl, fun c hc => by rw [List.mem_singleton.1 hc]; exact ⟨by decide, by decide⟩⟩
    | cons d s ih =>
      intro ht hs hf
      have hs' : ∀ d ∈ vals s, 0 < d := fun x hx => hs x (List.mem_cons_of_mem _ hx)
      have h0 : 0 < (vals s).prod := prod_pos' hs'
      have hd : 0 < d.value := hs _ (by simp)
      rw [show vals (d :: s) = d.value :: vals s from rfl, List.prod_cons] at hf
      have hlt : (vals s).prod < 2 ^ 63 := by nlinarith
      have hdl : d.value < 2 ^ 63 := by nlinarith
      obtain ⟨r, e, hv, hst, hl⟩ := ih (fun c hc => ht c (by simp [hc])) hs' hlt
      rw [List.foldr_cons, e]
      cases r with
      | nil => simp at hv
      | cons a r =>
        have ha : a.value = (vals s).prod := (List.cons.inj hv).1
        have hdt := ht d (by simp)
        have hw := IntType.common_bits_ge d.type a.type
        obtain ⟨g1, g2⟩ := natural_op (f := (· * ·)) (a := d) (b := a) ⟨hd.le, IntType.fits_of_bits64 hdt hd.le hdl⟩ (hl a (by simp))
          (by rw [ha]; positivity) (by
            rw [ha]
            exact IntType.fits_of_bits64 (by omega) (by positivity) hf)
        refine ⟨⟨d.type.common a.type, d.value * a.value⟩ :: a :: r, ?_, ?_, ⟨?_, hst⟩, ?_⟩
        · simp only [bind, Except.bind, List.headD_cons]
          rw [show constMul d a = _ from g1]
          rfl
        · show d.value * a.value :: vals (a :: r) = _
          rw [hv, ha]
          simp [sfx]
        · simp only; omega
        · intro c hc
          rcases List.mem_cons.1 hc with rfl | hc
          · exact g2
          · exact hl c hc
  cases s with
  | nil => exact ⟨[], rfl, rfl, trivial, by simp⟩
  | cons d s =>
    have hs' : ∀ d ∈ vals s, 0 < d := fun x hx => hs x (List.mem_cons_of_mem _ hx)
    have h0 : 0 < (vals s).prod := prod_pos' hs'
    have hd : 0 < d.value := hs _ (by simp)
    rw [show vals (d :: s) = d.value :: vals s from rfl, List.prod_cons] at hf
    obtain ⟨r, e, hv, hr⟩ := key s (fun c hc => ht c (by simp [hc])) hs' (by nlinarith)
    exact ⟨r, by rw [asStrideT_cons]; exact e, by rw [hv]; simp [sfx], hr⟩

theorem linearize_nonneg' {g i : List Int} (hg : ∀ v ∈ g, 0 ≤ v) (hi : ∀ v ∈ i, 0 ≤ v) : 0 ≤ linearize g i := by
  induction g generalizing i with
  | nil => simp [linearize]
  | cons v g ih =>
    cases i with
    | nil => simp [linearize]
    | cons w i =>
      rw [linearize_cons]
      have := mul_nonneg (hg v (by simp)) (hi w (by simp))
      have := ih (fun v hv => hg v (by simp [hv])) (i := i) fun v hv => hi v (by simp [hv])
      omega

theorem linearize_wide {st is : List Coord} {acc : Coord} (hst : WideStrides st) (hn : ∀ c ∈ st, Natural c)
    (his : ∀ c ∈ is, Natural c) (hlen : st.length = is.length) (ha : Natural acc) (hz : 64 ≤ acc.type.bits ∨ acc.value = 0)
    (hsum : acc.value + linearize (vals st) (vals is) < 2 ^ 63) :
    ∃ t, (st.zip is).foldlM (fun acc (gi : Coord × Coord) => do constAdd acc (← constMul gi.1 gi.2)) acc =
      (.ok ⟨t, acc.value + linearize (vals st) (vals is)⟩ : Res Coord) := by
  induction st generalizing is acc with
  | nil => exact ⟨acc.type, by simp [linearize]; rfl⟩
  | cons g st ih =>
    cases is with
    | nil => simp at hlen
    | cons i is =>
      have hg := hn g (by simp)
      have hi := his i (by simp)
      have hmul := mul_nonneg hg.1 hi.1
      simp only [vals, List.map_cons] at hsum ⊢
      rw [linearize_cons] at hsum ⊢
      have hrest : 0 ≤ linearize (st.map (·.value)) (is.map (·.value)) :=
        linearize_nonneg' (by simpa using fun c hc => (hn c (by simp [hc])).1) (by simpa using fun c hc => (his c (by simp [hc])).1)
      have ha0 := ha.1
      have hw1 := IntType.common_bits_ge g.type i.type
      cases st with
      | nil =>
        obtain rfl : g = fixedOne := hst
        cases is with
        | cons => simp at hlen
        | nil =>
          have e1 : fixedOne.value * i.value = i.value := one_mul _
          obtain ⟨g1, g2⟩ := natural_op (f := (· * ·)) hg hi hmul (by rw [e1]; exact (common_fits_nonneg hi.2 hi.1).2)
          simp only [e1] at g1 g2 hsum ⊢
          have hw2 := IntType.common_bits_ge acc.type (fixedOne.type.common i.type)
          obtain ⟨g3, -⟩ := natural_op (f := (· + ·)) ha g2 (add_nonneg ha0 hi.1) (by
            rcases hz with hz | hz
            · exact IntType.fits_of_bits64 (by simp only; omega) (add_nonneg ha0 hi.1) (by simp only; omega)
            · simp only
              rw [hz, zero_add]
              exact (common_fits_nonneg g2.2 g2.1).2)
          refine ⟨acc.type.common (fixedOne.type.common i.type), ?_⟩
          simp only [List.zip_cons_cons, List.zip_nil_left, List.foldlM_cons, List.foldlM_nil, bind, Except.bind]
          rw [show constMul fixedOne i = _ from g1]
          simp only
          rw [show constAdd acc _ = _ from g3]
          simp [linearize]
          rfl
      | cons g' st =>
        obtain ⟨hw, hst⟩ := hst
        obtain ⟨g1, g2⟩ := natural_op (f := (· * ·)) hg hi hmul (IntType.fits_of_bits64 (by omega) hmul (by omega))
        have hw2 := IntType.common_bits_ge acc.type (g.type.common i.type)
        obtain ⟨g3, g4⟩ := natural_op (f := (· + ·)) ha g2 (add_nonneg ha0 hmul)
          (IntType.fits_of_bits64 (by simp only; omega) (add_nonneg ha0 hmul) (by simp only; omega))
        obtain ⟨t, ht⟩ := ih (is := is) hst (fun c hc => hn c (by simp [hc])) (fun c hc => his c (by simp [hc])) (by simpa using hlen) g4
          (.inl (by simp only; omega)) (by simp only [vals]; omega)
        refine ⟨t, ?_⟩
        rw [List.zip_cons_cons, List.foldlM_cons]
        simp only [bind, Except.bind] at ht ⊢
        rw [show constMul g i = _ from g1]
        simp only
        rw [show constAdd acc _ = _ from g3]
        simp only
        rw [ht, add_assoc]

end Kwk
