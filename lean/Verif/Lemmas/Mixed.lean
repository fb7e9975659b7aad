import Verif.Model.Mixed
import Verif.Lemmas.Machine

/-! # Lemmas: arithmetic with the usual conversions -/

namespace Kwk
open Spec

theorem IntType.common_bits (t u : IntType) : 32 ≤ (t.common u).bits := by
  have h (t : IntType) : 32 ≤ t.promote.bits := by
    unfold promote; split
    · decide
    · omega
  unfold common
  split
  · exact h _
  · split
    · exact h _
    · exact h _

theorem IntType.fits_of_bits {t : IntType} (h : 32 ≤ t.bits) {v : Int} (h0 : 0 ≤ v) (h1 : v < 2147483648) :
    t.Fits v := by
  refine ⟨by have := t.lo_nonpos; omega, ?_⟩
  have : (2 : Int) ^ 32 ≤ 2 ^ t.bits := pow_le_pow_right₀ (by decide) h
  unfold hi
  split <;> omega

/-- A value that `int` can represent as a non-negative number. -/
def Small (v : Int) : Prop := 0 ≤ v ∧ v < 2147483648

theorem constOp_small {f : Int → Int → Int} {a b : Coord} (ha : Small a.value) (hb : Small b.value)
    (hf : Small (f a.value b.value)) : ∃ t, constOp f a b = .ok ⟨t, f a.value b.value⟩ := by
  have hb32 := IntType.common_bits a.type b.type
  refine ⟨a.type.common b.type, ?_⟩
  unfold constOp
  simp only
  rw [IntType.wrap_fits (IntType.fits_of_bits hb32 ha.1 ha.2),
    IntType.wrap_fits (IntType.fits_of_bits hb32 hb.1 hb.2),
    IntType.op_fits (IntType.fits_of_bits hb32 hf.1 hf.2)]
  rfl

theorem constMul_small {a b : Coord} (ha : Small a.value) (hb : Small b.value)
    (hf : Small (a.value * b.value)) : ∃ t, constMul a b = .ok ⟨t, a.value * b.value⟩ :=
  constOp_small ha hb hf

theorem constAdd_small {a b : Coord} (ha : Small a.value) (hb : Small b.value)
    (hf : Small (a.value + b.value)) : ∃ t, constAdd a b = .ok ⟨t, a.value + b.value⟩ :=
  constOp_small ha hb hf

theorem constDiv_small {a b : Coord} (ha : Small a.value) (hb : Small b.value) (h0 : 0 < b.value) :
    ∃ t, constDiv a b = .ok ⟨t, a.value / b.value⟩ := by
  have hb32 := IntType.common_bits a.type b.type
  refine ⟨a.type.common b.type, ?_⟩
  have hd : Small (a.value / b.value) :=
    ⟨Int.ediv_nonneg ha.1 hb.1, lt_of_le_of_lt (Int.ediv_le_self _ ha.1) ha.2⟩
  unfold constDiv
  simp only
  rw [IntType.wrap_fits (IntType.fits_of_bits hb32 ha.1 ha.2),
    IntType.wrap_fits (IntType.fits_of_bits hb32 hb.1 hb.2)]
  have : cdiv a.value b.value = .ok (a.value / b.value) := by
    unfold cdiv
    rw [if_neg (by omega), Int.tdiv_eq_ediv_of_nonneg ha.1]
    rfl
  rw [this]
  simp only [bind, Except.bind]
  rw [IntType.op_fits (IntType.fits_of_bits hb32 hd.1 hd.2)]
  rfl

theorem modT_small {a b : Coord} (ha : Small a.value) (hb : Small b.value) (h0 : 0 < b.value) :
    ∃ t, modT a b = .ok ⟨t, a.value % b.value⟩ := by
  have hb32 := IntType.common_bits a.type b.type
  refine ⟨a.type.common b.type, ?_⟩
  unfold modT
  simp only
  rw [IntType.wrap_fits (IntType.fits_of_bits hb32 ha.1 ha.2),
    IntType.wrap_fits (IntType.fits_of_bits hb32 hb.1 hb.2)]
  have : cmod a.value b.value = .ok (a.value % b.value) := by
    unfold cmod
    rw [if_neg (by omega), Int.tmod_eq_emod_of_nonneg ha.1]
    rfl
  rw [this]
  rfl

/-- The values of typed numbers. -/
abbrev vals (s : List Coord) : List Int := s.map (·.value)

theorem small_prod {s : List Int} (hs : NonNeg s) (hf : paddedCount s < 2147483648) : Small s.prod :=
  ⟨prod_nonneg' hs, lt_of_le_of_lt (prod_le_padded hs) hf⟩

theorem le_padded {s : List Int} {d : Int} (h : d ∈ s) : d ≤ paddedCount s := by
  induction s with
  | nil => simp at h
  | cons e s ih =>
    rw [paddedCount_cons]
    have h1 : 1 ≤ max 1 e := le_max_left _ _
    have h2 := paddedCount_pos s
    rcases List.mem_cons.mp h with rfl | h
    · have : d ≤ max 1 d := le_max_right _ _
      nlinarith
    · have := ih h
      nlinarith

theorem small_mem {s : List Int} (hs : NonNeg s) (hf : paddedCount s < 2147483648) {d : Int} (h : d ∈ s) :
    Small d := ⟨hs d h, lt_of_le_of_lt (le_padded h) hf⟩

theorem numelT_fold {s : List Coord} (hs : NonNeg (vals s)) (hf : paddedCount (vals s) < 2147483648) :
    ∃ t, kumiFoldLeft (fun (a : Res Coord) (b : Coord) => do constMul (← a) b) s (pure fixedOne) =
      .ok ⟨t, (vals s).prod⟩ := by
  unfold kumiFoldLeft
  induction s with
  | nil => exact ⟨.i32, rfl⟩
  | cons d s ih =>
    have hs' : NonNeg (vals s) := fun x hx => hs x (by simp_all)
    have hf' : paddedCount (vals s) < 2147483648 :=
      lt_of_le_of_lt (padded_tail (d := d.value)) (by simpa using hf)
    obtain ⟨t, h⟩ := ih hs' hf'
    rw [List.foldr_cons, h]
    simp only [bind, Except.bind, vals, List.map_cons, List.prod_cons]
    rw [mul_comm d.value]
    refine constMul_small (a := ⟨t, (vals s).prod⟩) (small_prod hs' hf') (small_mem hs hf (by simp)) ?_
    have := small_prod hs hf
    rw [mul_comm]
    simpa using this

theorem asStrideT_fold {s : List Coord} (hs : NonNeg (vals s)) (hf : paddedCount (vals s) < 2147483648) :
    ∃ r, kumiFoldLeft (fun (a : Res (List Coord)) (m : Coord) => do
      let a ← a
      let g ← constMul m (a.headD fixedOne)
      pure (g :: a)) s (pure [fixedOne]) = .ok r ∧ vals r = (vals s).prod :: sfx (vals s) := by
  unfold kumiFoldLeft
  induction s with
  | nil => exact ⟨[fixedOne], rfl, rfl⟩
  | cons d s ih =>
    have hs' : NonNeg (vals s) := fun x hx => hs x (by simp_all)
    have hf' : paddedCount (vals s) < 2147483648 :=
      lt_of_le_of_lt (padded_tail (d := d.value)) (by simpa using hf)
    obtain ⟨r, h, hr⟩ := ih hs' hf'
    rw [List.foldr_cons, h]
    have hhead : (r.headD fixedOne).value = (vals s).prod := by
      cases r with
      | nil => simp at hr
      | cons a r => simpa using (List.cons.inj hr).1
    obtain ⟨t, ht⟩ := constMul_small (a := d) (b := r.headD fixedOne) (small_mem hs hf (by simp))
      (by rw [hhead]; exact small_prod hs' hf')
      (by rw [hhead]; have := small_prod hs hf; simpa using this)
    refine ⟨⟨t, d.value * (r.headD fixedOne).value⟩ :: r, ?_, ?_⟩
    · simp only [bind, Except.bind, ht]; rfl
    · simp only [vals, List.map_cons] at hr ⊢
      rw [hr, hhead]
      simp [sfx]

theorem asStrideT_eq {s : List Coord} (hs : NonNeg (vals s)) (hf : paddedCount (vals s) < 2147483648) :
    ∃ r, asStrideT s = .ok r ∧ vals r = asStride (vals s) := by
  match s with
  | [] => exact ⟨[], rfl, rfl⟩
  | [d] => exact ⟨[fixedOne], rfl, rfl⟩
  | d :: e :: ds =>
    obtain ⟨r, h, hr⟩ := asStrideT_fold (s := e :: ds) (fun x hx => hs x (by simp_all))
      (lt_of_le_of_lt (padded_tail (d := d.value)) (by simpa using hf))
    exact ⟨r, h, by rw [hr, asStride_eq_sfx]; simp [sfx]⟩

theorem linearizeT_aux {g i : List Coord} {acc : Coord} {N : Int} (hN : N < 2147483648)
    (h0 : 0 ≤ acc.value)
    (hnn : List.Forall₂ (fun a b : Coord => 0 ≤ b.value ∧ b.value < 2147483648 ∧ 0 ≤ a.value ∧ a.value < 2147483648) g i)
    (hle : acc.value + linearize (vals g) (vals i) ≤ N) :
    ∃ t, (g.zip i).foldlM (fun acc (gi : Coord × Coord) => do constAdd acc (← constMul gi.1 gi.2)) acc =
      (.ok ⟨t, acc.value + linearize (vals g) (vals i)⟩ : Res Coord) := by
  induction hnn generalizing acc with
  | nil => exact ⟨acc.type, by simp [linearize]; rfl⟩
  | @cons a b g i hab hrest ih =>
    have hnn : 0 ≤ linearize (vals g) (vals i) := by
      clear * - hrest
      induction hrest with
      | nil => simp [linearize]
      | @cons a b g i h _ ih =>
        simp only [vals, List.map_cons] at ih ⊢
        rw [linearize_cons]
        have := mul_nonneg h.2.2.1 h.1
        omega
    simp only [vals, List.map_cons] at hle hnn ih ⊢
    rw [linearize_cons] at hle ⊢
    have hab' := mul_nonneg hab.2.2.1 hab.1
    obtain ⟨t, ht⟩ := constMul_small (a := a) (b := b) ⟨hab.2.2.1, hab.2.2.2⟩ ⟨hab.1, hab.2.1⟩ ⟨hab', by omega⟩
    obtain ⟨u, hu⟩ := constAdd_small (a := acc) (b := ⟨t, a.value * b.value⟩) ⟨h0, by omega⟩ ⟨hab', by simp only; omega⟩
      ⟨by simp only; omega, by simp only; omega⟩
    simp only at hu
    obtain ⟨v, hv⟩ := ih (acc := ⟨u, acc.value + a.value * b.value⟩) (by simp only; omega) (by simp only; omega)
    refine ⟨v, ?_⟩
    rw [List.zip_cons_cons, List.foldlM_cons]
    simp only [bind, Except.bind] at hv ⊢
    rw [ht]
    simp only
    rw [hu]
    simp only
    rw [hv, add_assoc]

theorem Small.ediv {a b : Int} (ha : Small a) (hb : 0 ≤ b) : Small (a / b) :=
  ⟨Int.ediv_nonneg ha.1 hb, lt_of_le_of_lt (Int.ediv_le_self _ ha.1) ha.2⟩

theorem coordsT_tail {idx : Coord} (hi : Small idx.value) {st ds : List Coord}
    (hst : ∀ c ∈ st, Small c.value ∧ 0 < c.value) (hds : ∀ c ∈ ds, Small c.value ∧ 0 < c.value) :
    ∃ cs, (st.zip ds).mapM (fun (st, d) => do modT (← constDiv idx st) d) = (.ok cs : Res (List Coord)) ∧
      ((vals st).zip (vals ds)).mapM (fun (st, d) => do cmod (← cdiv idx.value st) d) = (.ok (vals cs) : Res (List Int)) ∧
      ∀ c ∈ cs, 0 ≤ c.value ∧ c.value ≤ idx.value := by
  induction st generalizing ds with
  | nil => exact ⟨[], rfl, rfl, by simp⟩
  | cons g st ih =>
    cases ds with
    | nil => exact ⟨[], rfl, rfl, by simp⟩
    | cons d ds =>
      obtain ⟨cs, h1, h2, h3⟩ := ih (fun c hc => hst c (by simp [hc])) (ds := ds) (fun c hc => hds c (by simp [hc]))
      have hg := hst g (by simp)
      have hd := hds d (by simp)
      obtain ⟨t, ht⟩ := constDiv_small hi hg.1 hg.2
      obtain ⟨u, hu⟩ := modT_small (a := ⟨t, idx.value / g.value⟩) (hi.ediv hg.1.1) hd.1 hd.2
      refine ⟨⟨u, idx.value / g.value % d.value⟩ :: cs, ?_, ?_, ?_⟩
      · rw [List.zip_cons_cons, List.mapM_cons]
        simp only [bind, Except.bind] at h1 ⊢
        rw [ht]
        simp only
        rw [hu, h1]
        rfl
      · simp only [vals, List.map_cons, List.zip_cons_cons, List.mapM_cons]
        have e1 : cdiv idx.value g.value = .ok (idx.value / g.value) := by
          unfold cdiv
          rw [if_neg (by omega), Int.tdiv_eq_ediv_of_nonneg hi.1]; rfl
        have e2 : cmod (idx.value / g.value) d.value = .ok (idx.value / g.value % d.value) := by
          unfold cmod
          rw [if_neg (by omega), Int.tmod_eq_emod_of_nonneg (hi.ediv hg.1.1).1]; rfl
        simp only [bind, Except.bind, vals] at h2 ⊢
        rw [e1]
        simp only
        rw [e2, h2]
        rfl
      · intro c hc
        rcases List.mem_cons.mp hc with rfl | hc
        · refine ⟨Int.emod_nonneg _ (by omega), ?_⟩
          have a1 := Int.ediv_le_self (b := g.value) hi.1
          have a2 : idx.value / g.value % d.value ≤ idx.value / g.value := by
            have b1 := Int.mul_ediv_add_emod (idx.value / g.value) d.value
            have b2 := mul_nonneg hd.1.1 (Int.ediv_nonneg (hi.ediv hg.1.1).1 hd.1.1)
            omega
          simp only
          omega
        · exact h3 c hc

theorem containsM_of_inBox {s : List Int} {p : List Coord} (hp : InBox s (vals p))
    (hty : List.Forall₂ (fun d c => c.type.Fits d) s p) : containsM s p = true := by
  unfold containsM
  induction hty with
  | nil => rfl
  | @cons d c s p h _ ih =>
    rw [vals, List.map_cons, inBox_cons] at hp
    rw [List.zipWith_cons_cons, List.foldr_cons, ih hp.2, IntType.wrap_fits h]
    simpa using hp.1.2

theorem sfx_small {s : List Int} (hs : ∀ d ∈ s, 0 < d) (hf : paddedCount s < 2147483648) :
    ∀ g ∈ sfx s, Small g ∧ 0 < g := by
  induction s with
  | nil => simp [sfx]
  | cons d s ih =>
    have hs' : ∀ d ∈ s, 0 < d := fun x hx => hs x (by simp [hx])
    have hf' : paddedCount s < 2147483648 := lt_of_le_of_lt (padded_tail (d := d)) hf
    intro g hg
    simp only [sfx, List.mem_cons] at hg
    rcases hg with rfl | hg
    · exact ⟨small_prod (fun x hx => (hs' x hx).le) hf', by
        rw [← padded_eq_prod hs']; have := paddedCount_pos s; omega⟩
    · exact ih hs' hf' g hg

/-- `coordinatesT` computes what `coordinates` computes. -/
theorem coordinatesT_eq (md : Mode) {idx : Coord} {s : List Coord} (hne : s ≠ []) (hs : ∀ d ∈ vals s, 0 < d)
    (hf : paddedCount (vals s) < 2147483648) (h0 : 0 ≤ idx.value) (hlt : idx.value < (vals s).prod)
    (hfit : idx.type.Fits idx.value) {p : List Int} (hp : coordinates md idx.value (vals s) = .ok p) :
    ∃ cs, coordinatesT md idx s = .ok cs ∧ vals cs = p ∧ ∀ c ∈ cs, c.type = idx.type := by
  have hnn : NonNeg (vals s) := fun d hd => (hs d hd).le
  have hprod := small_prod hnn hf
  have hi : Small idx.value := ⟨h0, by have := hprod.2; omega⟩
  obtain ⟨r, hr, hrv⟩ := asStrideT_eq hnn hf
  obtain ⟨tn, hn⟩ : ∃ t, numelT s = .ok ⟨t, (vals s).prod⟩ := by
    obtain ⟨t, h⟩ := numelT_fold hnn hf
    cases s with
    | nil => exact absurd rfl hne
    | cons d s =>
      refine ⟨.i32, ?_⟩
      rw [numelT, h]
      · simp only [bind, Except.bind]
        rw [IntType.wrap_fits (IntType.fits_of_bits (by decide) hprod.1 hprod.2)]
        rfl
      · simp
  have hlt' : ltT idx ⟨tn, (vals s).prod⟩ = true := by
    have hb := IntType.common_bits idx.type tn
    unfold ltT
    simp only [decide_eq_true_eq]
    rw [IntType.wrap_fits (IntType.fits_of_bits hb hi.1 hi.2),
      IntType.wrap_fits (IntType.fits_of_bits hb hprod.1 hprod.2)]
    exact hlt
  have hstr : ∀ c ∈ r, Small c.value ∧ 0 < c.value := fun c hc =>
    sfx_small hs hf c.value (by rw [← asStride_eq_sfx, ← hrv]; exact List.mem_map_of_mem hc)
  obtain ⟨d, s, rfl⟩ := List.exists_cons_of_ne_nil hne
  obtain ⟨g, r, rfl⟩ : ∃ g r', r = g :: r' := by
    cases r with
    | nil => rw [asStride_eq_sfx] at hrv; simp [sfx] at hrv
    | cons g r => exact ⟨g, r, rfl⟩
  have hg := hstr g (by simp)
  obtain ⟨t0, h0'⟩ := constDiv_small hi hg.1 hg.2
  obtain ⟨cs, h1, h2, h3⟩ := coordsT_tail hi (st := r) (ds := s) (fun c hc => hstr c (by simp [hc]))
    (fun c hc => ⟨small_mem hnn hf (by simp; right; exact ⟨c, hc, rfl⟩), hs _ (by simp; right; exact ⟨c, hc, rfl⟩)⟩)
  refine ⟨((⟨t0, idx.value / g.value⟩ : Coord) :: cs).map fun c => ⟨idx.type, idx.type.wrap c.value⟩, ?_, ?_, ?_⟩
  · unfold coordinatesT
    have hck : checkIndexT md idx (d :: s) = .ok () := by
      cases md
      · unfold checkIndexT
        rw [hn]
        simp only [bind, Except.bind]
        rw [hlt']
        rfl
      · rfl
    rw [hck, hr]
    simp only [bind, Except.bind]
    simp only [List.headD_cons, List.tail_cons]
    rw [h0']
    simp only [bind, Except.bind] at h1 ⊢
    rw [h1]
    rfl
  · have hp' : coordinates md idx.value (vals (d :: s)) = .ok (idx.value / g.value :: vals cs) := by
      unfold coordinates
      have : decide (idx.value < numel (vals (d :: s))) = true := by
        rw [numel_eq_prod (by simp)]; exact decide_eq_true hlt
      rw [this, show kwkAssert md true = .ok () by cases md <;> rfl, ← hrv]
      simp only [bind, Except.bind, vals, List.map_cons, List.headD_cons, List.tail_cons] at h2 ⊢
      have e1 : cdiv idx.value g.value = .ok (idx.value / g.value) := by
        unfold cdiv
        rw [if_neg (by omega), Int.tdiv_eq_ediv_of_nonneg hi.1]; rfl
      rw [e1]
      simp only
      rw [h2]
      rfl
    rw [hp] at hp'
    have hp'' := Except.ok.inj hp'
    rw [hp'']
    have hw (v : Int) (h0 : 0 ≤ v) (h1 : v ≤ idx.value) : idx.type.wrap v = v :=
      IntType.wrap_fits (IntType.fits_between hfit h0 h1)
    simp only [vals, List.map_cons, List.map_map]
    rw [hw _ (hi.ediv hg.1.1).1 (Int.ediv_le_self _ hi.1)]
    congr 1
    refine List.map_congr_left fun c hc => ?_
    exact hw _ (h3 c hc).1 (h3 c hc).2
  · intro c hc
    simp only [List.mem_map] at hc
    obtain ⟨_, _, rfl⟩ := hc
    rfl

end Kwk
