import Verif.Model.MachineSearch
import Verif.Lemmas.Mixed
import Verif.Lemmas.Search
import Verif.Spec.Rank

/-!
# Lemmas: binary searches with machine integers

`Roomy`: numbers on which the index computations are exact, because they are small or have a 64-bit type.
-/

namespace Kwk
open Spec

variable {α β σ : Type}

/-- A number that is below `2^31`, or below `2^63` and of a 64-bit type. -/
def Roomy (c : Coord) : Prop := 0 ≤ c.value ∧ c.value < 2 ^ 63 ∧ (c.value < 2147483648 ∨ 64 ≤ c.type.bits)

theorem IntType.fits_of_bits64 {t : IntType} (h : 64 ≤ t.bits) {v : Int} (h0 : 0 ≤ v) (h1 : v < 2 ^ 63) : t.Fits v := by
  refine ⟨by have := t.lo_nonpos; omega, ?_⟩
  have : (2 : Int) ^ 64 ≤ 2 ^ t.bits := pow_le_pow_right₀ (by decide) h
  unfold hi
  split <;> omega

theorem IntType.common_bits_ge (t u : IntType) : t.bits ≤ (t.common u).bits ∧ u.bits ≤ (t.common u).bits := by
  have h (t : IntType) : t.bits ≤ t.promote.bits := by
    unfold promote; split
    · next h => show _ ≤ (32 : Nat); omega
    · omega
  have h1 := h t
  have h2 := h u
  unfold common
  split
  · exact ⟨by omega, h2⟩
  · split
    · exact ⟨h1, by omega⟩
    · next g1 g2 =>
      have e : t.promote.bits = u.promote.bits := by omega
      show t.bits ≤ t.promote.bits ∧ u.bits ≤ t.promote.bits
      omega

theorem Roomy.fits_common {a b : Coord} (ha : Roomy a) : (a.type.common b.type).Fits a.value ∧ (b.type.common a.type).Fits a.value := by
  obtain ⟨h0, h1, h2⟩ := ha
  have g1 := IntType.common_bits a.type b.type
  have g2 := IntType.common_bits b.type a.type
  have g3 := IntType.common_bits_ge a.type b.type
  have g4 := IntType.common_bits_ge b.type a.type
  rcases h2 with h2 | h2
  · exact ⟨IntType.fits_of_bits g1 h0 h2, IntType.fits_of_bits g2 h0 h2⟩
  · exact ⟨IntType.fits_of_bits64 (by omega) h0 h1, IntType.fits_of_bits64 (by omega) h0 h1⟩

/-- Exact operation. -/
theorem constOp_roomy {f : Int → Int → Int} {a b : Coord} (ha : Roomy a) (hb : Roomy b)
    (h0 : 0 ≤ f a.value b.value) (h1 : f a.value b.value < 2 ^ 63)
    (h2 : f a.value b.value < 2147483648 ∨ 64 ≤ a.type.bits ∨ 64 ≤ b.type.bits) :
    constOp f a b = .ok ⟨a.type.common b.type, f a.value b.value⟩ ∧ Roomy ⟨a.type.common b.type, f a.value b.value⟩ := by
  have g1 := IntType.common_bits a.type b.type
  have g3 := IntType.common_bits_ge a.type b.type
  have hr : Roomy ⟨a.type.common b.type, f a.value b.value⟩ := ⟨h0, h1, by simp only; omega⟩
  refine ⟨?_, hr⟩
  have hfit : (a.type.common b.type).Fits (f a.value b.value) := by
    rcases h2 with h2 | h2
    · exact IntType.fits_of_bits g1 h0 h2
    · exact IntType.fits_of_bits64 (by omega) h0 h1
  unfold constOp
  simp only
  rw [IntType.wrap_fits (ha.fits_common (b := b)).1, IntType.wrap_fits (hb.fits_common (b := a)).2, IntType.op_fits hfit]
  rfl

/-- Exact division. -/
theorem constDiv_roomy {a b : Coord} (ha : Roomy a) (hb : Roomy b) (h0 : 0 < b.value) :
    constDiv a b = .ok ⟨a.type.common b.type, a.value / b.value⟩ ∧ Roomy ⟨a.type.common b.type, a.value / b.value⟩ := by
  have hle := Int.ediv_le_self b.value ha.1
  have hnn : 0 ≤ a.value / b.value := Int.ediv_nonneg ha.1 hb.1
  have g3 := IntType.common_bits_ge a.type b.type
  refine ⟨?_, hnn, by have := ha.2.1; simp only; omega, ?_⟩
  · unfold constDiv
    simp only
    rw [IntType.wrap_fits (ha.fits_common (b := b)).1, IntType.wrap_fits (hb.fits_common (b := a)).2]
    have : cdiv a.value b.value = .ok (a.value / b.value) := by
      unfold cdiv
      rw [if_neg (by omega), Int.tdiv_eq_ediv_of_nonneg ha.1]; rfl
    rw [this]
    simp only [bind, Except.bind]
    rw [IntType.op_fits (IntType.fits_between (ha.fits_common (b := b)).1 hnn hle)]
    rfl
  · have := ha.2.2
    simp only; omega

/-- Exact remainder. -/
theorem modT_roomy {a b : Coord} (ha : Roomy a) (hb : Roomy b) (h0 : 0 < b.value) :
    modT a b = .ok ⟨a.type.common b.type, a.value % b.value⟩ := by
  unfold modT
  simp only
  rw [IntType.wrap_fits (ha.fits_common (b := b)).1, IntType.wrap_fits (hb.fits_common (b := a)).2]
  have : cmod a.value b.value = .ok (a.value % b.value) := by
    unfold cmod
    rw [if_neg (by omega), Int.tmod_eq_emod_of_nonneg ha.1]; rfl
  rw [this]
  rfl

/-- Positive extents with a product below `2^31`, or below `2^63` and 64-bit types. -/
structure Exact (s : List Coord) : Prop where
  pos : ∀ d ∈ vals s, 0 < d
  lt : (vals s).prod < 2 ^ 63
  wide : (vals s).prod < 2147483648 ∨ ∀ c ∈ s, 64 ≤ c.type.bits

theorem prod_pos' {s : List Int} (h : ∀ d ∈ s, 0 < d) : 0 < s.prod := by
  rw [← padded_eq_prod h]; exact lt_of_lt_of_le zero_lt_one (paddedCount_pos _)

theorem Exact.tail {d : Coord} {s : List Coord} (h : Exact (d :: s)) : Exact s := by
  have hpos : ∀ x ∈ vals s, 0 < x := fun x hx => h.pos x (by simp_all)
  have hle : (vals s).prod ≤ (vals (d :: s)).prod := by
    have h1 := prod_pos' hpos
    have h2 : 0 < d.value := h.pos _ (by simp)
    simp only [vals, List.map_cons, List.prod_cons] at *
    nlinarith
  refine ⟨hpos, lt_of_le_of_lt hle h.lt, ?_⟩
  rcases h.wide with h1 | h1
  · exact .inl (lt_of_le_of_lt hle h1)
  · exact .inr fun c hc => h1 c (List.mem_cons_of_mem _ hc)

theorem Exact.head {d : Coord} {s : List Coord} (h : Exact (d :: s)) : Roomy d := by
  have h1 := prod_pos' h.tail.pos
  have h2 : 0 < d.value := h.pos _ (by simp)
  have h3 : d.value ≤ (vals (d :: s)).prod := by
    simp only [vals, List.map_cons, List.prod_cons] at *
    nlinarith
  refine ⟨h2.le, lt_of_le_of_lt h3 h.lt, ?_⟩
  rcases h.wide with h4 | h4
  · exact .inl (lt_of_le_of_lt h3 h4)
  · exact .inr (h4 d (by simp))

theorem Exact.all {s : List Coord} (h : Exact s) : ∀ c ∈ s, Roomy c := by
  induction s with
  | nil => simp
  | cons d s ih =>
    intro c hc
    rcases List.mem_cons.1 hc with rfl | hc
    · exact h.head
    · exact ih h.tail c hc

theorem roomy_fixedOne : Roomy fixedOne := ⟨by decide, by decide, by decide⟩

/-- The product of the extents, in one fold. -/
theorem numel_fold_exact {s : List Coord} (h : Exact s) :
    ∃ c, kumiFoldLeft (fun (a : Res Coord) (b : Coord) => do constMul (← a) b) s (pure fixedOne) = .ok c ∧
      c.value = (vals s).prod ∧ Roomy c ∧ (s ≠ [] → (∀ c ∈ s, 64 ≤ c.type.bits) → 64 ≤ c.type.bits) := by
  unfold kumiFoldLeft
  induction s with
  | nil => exact ⟨fixedOne, rfl, rfl, roomy_fixedOne, fun h => absurd rfl h⟩
  | cons d s ih =>
    obtain ⟨c, e, hv, hr, hw⟩ := ih h.tail
    have hd := h.head
    have hprod : c.value * d.value = (vals (d :: s)).prod := by
      rw [hv]; simp [mul_comm]
    obtain ⟨g1, g2⟩ := constOp_roomy (f := (· * ·)) hr hd (mul_nonneg hr.1 hd.1) (by rw [hprod]; exact h.lt)
      (by
        rcases h.wide with h1 | h1
        · exact .inl (by rw [hprod]; exact h1)
        · exact .inr (.inr (h1 d (by simp))))
    refine ⟨_, ?_, hprod, g2, fun _ h1 => ?_⟩
    · rw [List.foldr_cons, e]
      exact g1
    · have := IntType.common_bits_ge c.type d.type
      have := h1 d (by simp)
      simp only
      omega

theorem numelT_exact {s : List Coord} (hne : s ≠ []) (h : Exact s) :
    numelT s = .ok ⟨.i32, IntType.i32.wrap (vals s).prod⟩ := by
  obtain ⟨c, e, hv, -⟩ := numel_fold_exact h
  cases s with
  | nil => exact absurd rfl hne
  | cons d s =>
    unfold numelT
    simp only
    rw [e]
    simp only [bind, Except.bind]
    rw [hv]
    rfl

/-- The strides of an exact shape. -/
theorem asStride_fold_exact {s : List Coord} (h : Exact s) :
    ∃ r, kumiFoldLeft (fun (a : Res (List Coord)) (m : Coord) => do
      let a ← a
      let g ← constMul m (a.headD fixedOne)
      pure (g :: a)) s (pure [fixedOne]) = .ok r ∧ vals r = (vals s).prod :: sfx (vals s) ∧ ∀ c ∈ r, Roomy c := by
  unfold kumiFoldLeft
  induction s with
  | nil => exact ⟨[fixedOne], rfl, rfl, by simpa using roomy_fixedOne⟩
  | cons d s ih =>
    obtain ⟨r, e, hv, hr⟩ := ih h.tail
    have hd := h.head
    have hhead : (r.headD fixedOne).value = (vals s).prod ∧ Roomy (r.headD fixedOne) := by
      cases r with
      | nil => simp at hv
      | cons a r => exact ⟨by simpa using (List.cons.inj hv).1, hr a (by simp)⟩
    have hprod : d.value * (r.headD fixedOne).value = (vals (d :: s)).prod := by
      rw [hhead.1]; simp
    obtain ⟨g1, g2⟩ := constOp_roomy (f := (· * ·)) hd hhead.2 (mul_nonneg hd.1 hhead.2.1) (by rw [hprod]; exact h.lt)
      (by
        rcases h.wide with h1 | h1
        · exact .inl (by rw [hprod]; exact h1)
        · exact .inr (.inl (h1 d (by simp))))
    refine ⟨⟨d.type.common (r.headD fixedOne).type, d.value * (r.headD fixedOne).value⟩ :: r, ?_, ?_, ?_⟩
    · rw [List.foldr_cons, e]
      simp only [bind, Except.bind]
      rw [show constMul d (r.headD fixedOne) = _ from g1]
      rfl
    · rw [show vals (_ :: r) = _ :: vals r from rfl, hv]
      simp only [hprod, sfx, vals, List.map_cons]
    · intro c hc
      rcases List.mem_cons.1 hc with rfl | hc
      · exact g2
      · exact hr c hc

theorem asStrideT_exact {s : List Coord} (h : Exact s) :
    ∃ r, asStrideT s = .ok r ∧ vals r = sfx (vals s) ∧ ∀ c ∈ r, Roomy c := by
  match s with
  | [] => exact ⟨[], rfl, rfl, by simp⟩
  | [d] => exact ⟨[fixedOne], rfl, rfl, by simpa using roomy_fixedOne⟩
  | d :: e :: ds =>
    obtain ⟨r, h1, h2, h3⟩ := asStride_fold_exact h.tail
    exact ⟨r, h1, by rw [h2]; simp [sfx], h3⟩

theorem sfx_pos {s : List Int} (hs : ∀ d ∈ s, 0 < d) : ∀ g ∈ sfx s, 0 < g := by
  induction s with
  | nil => simp [sfx]
  | cons d s ih =>
    have hs' : ∀ d ∈ s, 0 < d := fun x hx => hs x (by simp [hx])
    intro g hg
    simp only [sfx, List.mem_cons] at hg
    rcases hg with rfl | hg
    · exact prod_pos' hs'
    · exact ih hs' g hg

theorem i32_wrap_wrap (v : Int) : IntType.i32.wrap (IntType.i32.wrap v) = IntType.i32.wrap v := by
  simp only [IntType.wrap, IntType.i32, IntType.hi]
  norm_num
  split <;> split <;> omega

/-- The coordinates of an `int`. -/
theorem coordsT_tail_exact {k : Int} (hk : Small k) {st ds : List Coord} (hst : ∀ c ∈ st, Roomy c ∧ 0 < c.value)
    (hds : ∀ c ∈ ds, Roomy c ∧ 0 < c.value) :
    ∃ cs, (st.zip ds).mapM (fun (st, d) => do modT (← constDiv ⟨.i32, k⟩ st) d) = (.ok cs : Res (List Coord)) ∧
      ((vals st).zip (vals ds)).mapM (fun (st, d) => do cmod (← cdiv k st) d) = (.ok (vals cs) : Res (List Int)) ∧
      ∀ c ∈ cs, Small c.value := by
  induction st generalizing ds with
  | nil => exact ⟨[], rfl, rfl, by simp⟩
  | cons g st ih =>
    cases ds with
    | nil => exact ⟨[], rfl, rfl, by simp⟩
    | cons d ds =>
      obtain ⟨cs, h1, h2, h3⟩ := ih (fun c hc => hst c (by simp [hc])) (ds := ds) (fun c hc => hds c (by simp [hc]))
      have hg := hst g (by simp)
      have hd := hds d (by simp)
      have hkr : Roomy ⟨.i32, k⟩ := ⟨hk.1, by have := hk.2; simp only; omega, .inl hk.2⟩
      obtain ⟨ht, htr⟩ := constDiv_roomy hkr hg.1 hg.2
      have hu := modT_roomy htr hd.1 hd.2
      refine ⟨⟨(IntType.i32.common g.type).common d.type, k / g.value % d.value⟩ :: cs, ?_, ?_, ?_⟩
      · rw [List.zip_cons_cons, List.mapM_cons]
        simp only [bind, Except.bind] at h1 ⊢
        rw [ht]
        simp only
        rw [hu, h1]
        rfl
      · simp only [vals, List.map_cons, List.zip_cons_cons, List.mapM_cons]
        have e1 : cdiv k g.value = .ok (k / g.value) := by
          unfold cdiv
          rw [if_neg (by omega), Int.tdiv_eq_ediv_of_nonneg hk.1]; rfl
        have e2 : cmod (k / g.value) d.value = .ok (k / g.value % d.value) := by
          unfold cmod
          rw [if_neg (by omega), Int.tmod_eq_emod_of_nonneg (hk.ediv hg.1.1).1]; rfl
        simp only [bind, Except.bind, vals] at h2 ⊢
        rw [e1]
        simp only
        rw [e2, h2]
        rfl
      · intro c hc
        rcases List.mem_cons.mp hc with rfl | hc
        · refine ⟨Int.emod_nonneg _ (by omega), ?_⟩
          have a2 : k / g.value % d.value ≤ k / g.value := by
            have b1 := Int.mul_ediv_add_emod (k / g.value) d.value
            have b2 := mul_nonneg hd.1.1 (Int.ediv_nonneg (hk.ediv hg.1.1).1 hd.1.1)
            omega
          have := (hk.ediv hg.1.1).2
          simp only
          omega
        · exact h3 c hc

/-- `coordinates` of an `int` index on an exact shape. -/
theorem coordinatesT_exact (md : Mode) {k : Int} {s : List Coord} (hne : s ≠ []) (h : Exact s) (hk : Small k)
    (hlt : k < (vals s).prod) (hn : k < IntType.i32.wrap (vals s).prod) {p : List Int}
    (hp : coordinates md k (vals s) = .ok p) :
    coordinatesT md ⟨.i32, k⟩ s = .ok (p.map fun i => ⟨.i32, i⟩) ∧ ∀ i ∈ p, Small i := by
  obtain ⟨r, hr, hrv, hrr⟩ := asStrideT_exact h
  have hstr : ∀ c ∈ r, Roomy c ∧ 0 < c.value := fun c hc =>
    ⟨hrr c hc, sfx_pos h.pos c.value (by rw [← hrv]; exact List.mem_map_of_mem hc)⟩
  have hext : ∀ c ∈ s, Roomy c ∧ 0 < c.value := fun c hc => ⟨h.all c hc, h.pos _ (List.mem_map_of_mem hc)⟩
  have hnum := numelT_exact hne h
  obtain ⟨d, s, rfl⟩ := List.exists_cons_of_ne_nil hne
  obtain ⟨g, r, rfl⟩ : ∃ g r', r = g :: r' := by
    cases r with
    | nil => simp [sfx] at hrv
    | cons g r => exact ⟨g, r, rfl⟩
  have hg := hstr g (by simp)
  have hkr : Roomy ⟨.i32, k⟩ := ⟨hk.1, by have := hk.2; simp only; omega, .inl hk.2⟩
  obtain ⟨h0, -⟩ := constDiv_roomy hkr hg.1 hg.2
  obtain ⟨cs, h1, h2, h3⟩ := coordsT_tail_exact hk (st := r) (ds := s) (fun c hc => hstr c (by simp [hc]))
    (fun c hc => hext c (by simp [hc]))
  have hp' : coordinates md k (vals (d :: s)) = .ok (k / g.value :: vals cs) := by
    unfold coordinates
    have : decide (k < numel (vals (d :: s))) = true := by
      rw [numel_eq_prod (by simp)]; exact decide_eq_true hlt
    rw [this, show kwkAssert md true = .ok () by cases md <;> rfl, asStride_eq_sfx, ← hrv]
    simp only [bind, Except.bind, vals, List.map_cons, List.headD_cons, List.tail_cons] at h2 ⊢
    have e1 : cdiv k g.value = .ok (k / g.value) := by
      unfold cdiv
      rw [if_neg (by omega), Int.tdiv_eq_ediv_of_nonneg hk.1]; rfl
    rw [e1]
    simp only
    rw [h2]
    rfl
  rw [hp'] at hp
  cases hp
  have hall : ∀ i ∈ k / g.value :: vals cs, Small i := by
    intro i hi
    rcases List.mem_cons.1 hi with rfl | hi
    · exact hk.ediv hg.1.1
    · obtain ⟨c, hc, rfl⟩ := List.mem_map.1 hi
      exact h3 c hc
  refine ⟨?_, hall⟩
  unfold coordinatesT
  have hlt' : ltT ⟨.i32, k⟩ ⟨.i32, IntType.i32.wrap (vals (d :: s)).prod⟩ = true := by
    unfold ltT
    simp only [decide_eq_true_eq]
    have e : IntType.i32.common .i32 = .i32 := rfl
    rw [e, i32_wrap_wrap, IntType.wrap_fits (IntType.fits_of_bits (by decide) hk.1 hk.2)]
    exact hn
  have hck : checkIndexT md ⟨.i32, k⟩ (d :: s) = .ok () := by
    cases md
    · unfold checkIndexT
      rw [hnum]
      simp only [bind, Except.bind]
      rw [hlt']
      rfl
    · rfl
  rw [hck, hr]
  simp only [bind, Except.bind]
  simp only [List.headD_cons, List.tail_cons]
  rw [h0]
  simp only [bind, Except.bind] at h1 ⊢
  rw [h1]
  have hw : ∀ i, Small i → IntType.i32.wrap i = i := fun i hi => IntType.wrap_fits (IntType.fits_of_bits (by decide) hi.1 hi.2)
  simp only [pure, Except.pure, List.map_cons, vals, List.map_map]
  rw [hw _ (hk.ediv hg.1.1)]
  congr 2
  apply List.map_congr_left
  intro c hc
  simp only [Function.comp]
  rw [hw _ (h3 c hc)]

/-- The offset of `int` coordinates. -/
theorem linearizeT_exact {g : List Coord} {i : List Int} {acc : Coord} (hacc : Roomy acc)
    (hg : ∀ c ∈ g, Roomy c) (hi : ∀ x ∈ i, Small x) (hlen : g.length = i.length)
    (hle : acc.value + linearize (vals g) i < 2147483648) :
    ∃ t, (g.zip (i.map fun x => (⟨.i32, x⟩ : Coord))).foldlM
        (fun acc (gi : Coord × Coord) => do constAdd acc (← constMul gi.1 gi.2)) acc =
      (.ok ⟨t, acc.value + linearize (vals g) i⟩ : Res Coord) := by
  induction g generalizing i acc with
  | nil =>
    cases i with
    | nil => exact ⟨acc.type, by simp [linearize]; rfl⟩
    | cons x i => simp at hlen
  | cons a g ih =>
    cases i with
    | nil => simp at hlen
    | cons x i =>
      have ha := hg a (by simp)
      have hx := hi x (by simp)
      have hnn : 0 ≤ linearize (vals g) i := by
        have h1 : ∀ c ∈ g, Roomy c := fun c hc => hg c (by simp [hc])
        have h2 : ∀ y ∈ i, Small y := fun c hc => hi c (by simp [hc])
        have h3 : g.length = i.length := by simpa using hlen
        clear * - h1 h2 h3
        induction g generalizing i with
        | nil => simp [linearize]
        | cons b g ih =>
          cases i with
          | nil => simp at h3
          | cons y i =>
            have := mul_nonneg (h1 b (by simp)).1 (h2 y (by simp)).1
            have := ih i (fun c hc => h1 c (by simp [hc])) (fun y hy => h2 y (by simp [hy])) (by simpa using h3)
            simp only [vals, List.map_cons] at this ⊢
            rw [linearize_cons]
            omega
      simp only [vals, List.map_cons] at hle hnn ih ⊢
      rw [linearize_cons] at hle ⊢
      have hax := mul_nonneg ha.1 hx.1
      have h0 := hacc.1
      have hxr : Roomy ⟨.i32, x⟩ := ⟨hx.1, by have := hx.2; simp only; omega, .inl hx.2⟩
      obtain ⟨g1, g2⟩ := constOp_roomy (f := (· * ·)) ha hxr hax (by simp only; omega) (.inl (by simp only; omega))
      obtain ⟨g3, g4⟩ := constOp_roomy (f := (· + ·)) hacc g2 (by simp only; omega) (by simp only; omega)
        (.inl (by simp only; omega))
      obtain ⟨v, hv⟩ := ih (i := i) g4 (fun c hc => hg c (by simp [hc])) (fun y hy => hi y (by simp [hy])) (by simpa using hlen)
        (by simp only; omega)
      refine ⟨v, ?_⟩
      rw [List.zip_cons_cons, List.foldlM_cons]
      simp only [bind, Except.bind] at hv ⊢
      rw [show constMul a ⟨.i32, x⟩ = _ from g1]
      simp only
      rw [show constAdd acc _ = _ from g3]
      simp only
      rw [hv, add_assoc]

/-- The plain container with the same values. -/
def TypedContainer.plain (c : TypedContainer) : Container := Container.ofShape c.base (vals c.shape)

/-- Reading the element of an `int` rank. -/
theorem TypedContainer.get_exact {c : TypedContainer} (hne : c.shape ≠ []) (h : Exact c.shape) (m : Mem α) {p : List Int}
    (hp : InBox (vals c.shape) p) (hs : ∀ i ∈ p, Small i) (hlin : linearize (sfx (vals c.shape)) p < 2147483648) :
    c.get m (p.map fun i => ⟨.i32, i⟩) = c.plain.get m p := by
  obtain ⟨r, hr, hrv, hrr⟩ := asStrideT_exact h
  have hlen : r.length = p.length := by
    have := congrArg List.length hrv
    rw [sfx_length] at this
    have h3 := hp.length_eq
    simp at this h3
    omega
  obtain ⟨t, ht⟩ := linearizeT_exact (acc := ⟨.i32, 0⟩) ⟨by decide, by decide, by decide⟩ hrr hs hlen
    (by rw [hrv]; simpa using hlin)
  unfold TypedContainer.get elementT
  rw [hr]
  have ht' : linearizeT r (p.map fun i => ⟨.i32, i⟩) = .ok ⟨t, linearize (sfx (vals c.shape)) p⟩ := by
    rw [← hrv]; simpa [linearizeT] using ht
  simp only [bind, Except.bind, ht', pure, Except.pure]
  have hb := (lin_bounds hp).1
  unfold ptrAdd
  simp only
  rw [IntType.wrap_fits (IntType.fits_of_bits (by decide) hb hlin)]
  have hd : c.plain.Default := ofShape_default (by simpa using hne)
  unfold Container.get
  congr 1
  rw [addr_default hd hp]
  rfl

/-- The number of elements, cut to an `int`, is at most the number of elements. -/
theorem i32_wrap_le {n : Int} (h : 0 ≤ n) : IntType.i32.wrap n ≤ n ∧ IntType.i32.wrap n < 2147483648 := by
  simp only [IntType.wrap, IntType.i32, IntType.hi]
  norm_num
  constructor <;> split <;> omega

/-- One probe. -/
theorem probe_exact (md : Mode) {c : TypedContainer} (hne : c.shape ≠ []) (h : Exact c.shape) {m : Mem α} {k : Int}
    (h0 : 0 ≤ k) (hk : k < IntType.i32.wrap (vals c.shape).prod) :
    ∃ p, InBox (vals c.shape) p ∧ linearize (sfx (vals c.shape)) p = k ∧ coordinates md k (vals c.shape) = .ok p ∧
      coordinatesT md ⟨.i32, k⟩ c.shape = .ok (p.map fun i => ⟨.i32, i⟩) ∧
      c.get m (p.map fun i => ⟨.i32, i⟩) = c.plain.get m p := by
  have hw := i32_wrap_le (prod_pos' h.pos).le
  have hlt : k < (vals c.shape).prod := by omega
  obtain ⟨p, hp, hlin⟩ := lin_surj (fun d hd => (h.pos d hd).le) h0 hlt
  have hco : coordinates md k (vals c.shape) = .ok p := by
    rw [← hlin]; exact coordinates_lin md (by simpa using hne) hp
  obtain ⟨h1, h2⟩ := coordinatesT_exact md hne h ⟨h0, by omega⟩ hlt hk hco
  exact ⟨p, hp, hlin, hco, h1, c.get_exact hne h m hp h2 (by omega)⟩

/-- The loop on `int`s does what the loop on unbounded numbers does, as long as it stays below `numel()`. -/
theorem searchLoopM_eq (md : Mode) {m : Mem α} {c : TypedContainer} (hne : c.shape ≠ []) (h : Exact c.shape)
    (adv : α → StateT σ Res Bool) : ∀ (fuel : Nat) (count first it : Int), 0 ≤ first → 0 ≤ count →
      first + count ≤ IntType.i32.wrap (vals c.shape).prod →
      searchLoopM md m c adv fuel ⟨count, first, it⟩ = searchLoop md m c.plain adv fuel ⟨count, first, it⟩ := by
  have hw := i32_wrap_le (prod_pos' h.pos).le
  intro fuel
  induction fuel with
  | zero => intro count first it _ _ _; rfl
  | succ fuel ih =>
    intro count first it hf hc hn
    unfold searchLoopM searchLoop
    by_cases hpos : count > 0
    · have e2 : count.tdiv 2 = count / 2 := Int.tdiv_eq_ediv_of_nonneg (by omega)
      obtain ⟨p, hp, hlin, hco, hcoT, hget⟩ := probe_exact md hne h (m := m) (k := first + count / 2) (by omega) (by omega)
      have fit : ∀ v : Int, 0 ≤ v → v < 2147483648 → IntType.i32.op v = .ok v := fun v h1 h2 =>
        IntType.op_fits (IntType.fits_of_bits (by decide) h1 h2)
      have ec : cdiv count 2 = .ok (count / 2) := by
        unfold cdiv; rw [if_neg (by decide), e2]; rfl
      simp only [hpos, if_true, e2, ec]
      funext s
      have hsh : c.plain.shape = vals c.shape := rfl
      simp only [bind, StateT.bind, liftM, monadLift, MonadLift.monadLift, StateT.lift, Except.bind, pure, Except.pure,
        fit (count / 2) (by omega) (by omega), fit (first + count / 2) (by omega) (by omega), hcoT, hsh, hco, hget]
      cases c.plain.get m p with
      | error e => rfl
      | ok v =>
        simp only
        cases adv v s with
        | error e => rfl
        | ok r =>
          obtain ⟨b, s'⟩ := r
          cases b
          · simp only [Bool.false_eq_true, if_false]
            rw [ih _ _ _ hf (by omega) (by omega)]
          · simp only [if_true, bind, StateT.bind, StateT.lift, Except.bind, pure,
              Except.pure, fit (first + count / 2 + 1) (by omega) (by omega), fit (count / 2 + 1) (by omega) (by omega),
              fit (count - (count / 2 + 1)) (by omega) (by omega)]
            rw [ih _ _ _ (by omega) (by omega) (by omega)]
    · simp only [hpos, if_false]

/-- Where a predicate that holds on a prefix of `0 … n-1` stops. -/
theorem cut_point (n : Nat) (Q : Int → Bool) (h : ∀ i j : Int, 0 ≤ i → i < j → j < n → Q j = true → Q i = true) :
    ∃ j : Int, 0 ≤ j ∧ j ≤ n ∧ ∀ k : Int, 0 ≤ k → k < n → Q k = decide (k < j) := by
  induction n with
  | zero => exact ⟨0, le_rfl, by simp, fun k h0 h1 => by simp at h1; omega⟩
  | succ n ih =>
    obtain ⟨j, h0, h1, h2⟩ := ih fun i j hi hij hj => h i j hi hij (by push_cast; omega)
    by_cases hq : Q n = true
    · refine ⟨n + 1, by omega, by push_cast; omega, fun k hk0 hk1 => ?_⟩
      push_cast at hk1
      have : Q k = true := by
        by_cases e : k = n
        · rw [e]; exact hq
        · exact h k n hk0 (by omega) (by push_cast; omega) hq
      rw [this]; simp; omega
    · refine ⟨j, h0, by push_cast; omega, fun k hk0 hk1 => ?_⟩
      push_cast at hk1
      by_cases e : k = n
      · rw [e]
        have : Q n = false := by simpa using hq
        rw [this]; simp; omega
      · exact h2 k hk0 (by omega)

/-- The loop, when only the first `N` elements are known. -/
theorem searchLoop_rank (md : Mode) {m : Mem α} {c : Container} (el : Int → α) (N : Int)
    (hprobe : ∀ k, 0 ≤ k → k < N → ∃ p, coordinates md k c.shape = .ok p ∧ c.get m p = .ok (el k))
    (adv : α → StateT σ Res Bool) (P : α → Bool) (hadv : ∀ e s, adv e s = .ok (P e, s)) (j : Int)
    (hj : ∀ k, 0 ≤ k → k < N → P (el k) = decide (k < j)) (s : σ) :
    ∀ (fuel : Nat) (count first it : Int), 0 ≤ first → 0 ≤ count → first + count ≤ N → count.toNat < fuel →
      first ≤ j → j ≤ first + count →
      searchLoop md m c adv fuel ⟨count, first, it⟩ s = .ok (⟨0, j, if count = 0 then it else j⟩, s) := by
  intro fuel
  induction fuel with
  | zero => intro count first it _ _ _ h; omega
  | succ fuel ih =>
    intro count first it hf hc hn hfuel h1 h2
    unfold searchLoop
    by_cases hpos : count > 0
    · have e2 : count.tdiv 2 = count / 2 := Int.tdiv_eq_ediv_of_nonneg (by omega)
      obtain ⟨p, hco, hget⟩ := hprobe (first + count / 2) (by omega) (by omega)
      simp only [hpos, if_true, e2, bind, StateT.bind, liftM, monadLift, MonadLift.monadLift, StateT.lift, hco, Except.bind, pure,
        Except.pure, hget, hadv, hj (first + count / 2) (by omega) (by omega)]
      rw [if_neg (show ¬ count = 0 by omega)]
      by_cases hlt : first + count / 2 < j
      · simp only [hlt, decide_true, if_true]
        rw [ih _ _ _ (by omega) (by omega) (by omega) (by omega) (by omega) (by omega)]
        by_cases e : count - (count / 2 + 1) = 0
        · rw [if_pos e]
          have : first + count / 2 + 1 = j := by omega
          rw [this]
        · rw [if_neg e]
      · simp only [hlt, decide_false, Bool.false_eq_true, if_false]
        rw [ih _ _ _ hf (by omega) (by omega) (by omega) h1 (by omega)]
        by_cases e : count / 2 = 0
        · rw [if_pos e]
          have : first + count / 2 = j := by omega
          rw [this]
        · rw [if_neg e]
    · have : count = 0 := by omega
      subst this
      have : first = j := by omega
      subst this
      simp [pure, StateT.pure, Except.pure]

/-- What the searches return: the first of the positions they look at where `P` fails. -/
theorem searchFrom_first (md : Mode) {m : Mem α} {c : TypedContainer} {val : List Int → α} (hel : Elems c.plain m val)
    (hne : c.shape ≠ []) (h : Exact c.shape) (adv : α → StateT σ Res Bool) (P : α → Bool)
    (hadv : ∀ e s, adv e s = .ok (P e, s))
    (hpart : ∀ p q, InBox (vals c.shape) p → InBox (vals c.shape) q → p < q → P (val q) = true → P (val p) = true) (s : σ) :
    ∃ r, searchFrom md m c adv (IntType.i32.wrap (vals c.shape).prod) s = .ok (r, s) ∧
      IsFirst (vals c.shape) (fun p => linearize (sfx (vals c.shape)) p < IntType.i32.wrap (vals c.shape).prod ∧ P (val p) = false)
        r := by
  have hw := i32_wrap_le (prod_pos' h.pos).le
  have hnn : NonNeg (vals c.shape) := fun d hd => (h.pos d hd).le
  generalize hN : IntType.i32.wrap (vals c.shape).prod = n at *
  by_cases hn0 : n ≤ 0
  · refine ⟨none, ?_, ?_, ?_⟩
    · have e1 : searchLoopM md m c adv (n.toNat + 1) ⟨n, 0, 0⟩ s = .ok (⟨n, 0, 0⟩, s) := by
        unfold searchLoopM
        rw [if_neg (show ¬ n > 0 by omega)]
        rfl
      unfold searchFrom
      simp only [bind, StateT.bind, e1, Except.bind]
      rw [if_neg (show ¬ (0 : Int) < n by omega)]
      rfl
    · refine ⟨fun _ p hp hlt => ?_, fun _ => rfl⟩
      have := (lin_bounds hp).1
      omega
    · intro p
      refine ⟨fun e => (by cases e), fun ⟨hp, hlt, _⟩ => ?_⟩
      have := (lin_bounds hp).1
      omega
  · -- the element of each rank
    have hpos : ∀ k : Int, ∃ p, 0 ≤ k → k < n → InBox (vals c.shape) p ∧ linearize (sfx (vals c.shape)) p = k := by
      intro k
      by_cases hk : 0 ≤ k ∧ k < n
      · obtain ⟨p, hp, hl⟩ := lin_surj hnn hk.1 (show k < (vals c.shape).prod by omega)
        exact ⟨p, fun _ _ => ⟨hp, hl⟩⟩
      · exact ⟨[], fun a b => absurd ⟨a, b⟩ hk⟩
    choose pos hposs using hpos
    have hlinpos : ∀ p, InBox (vals c.shape) p → linearize (sfx (vals c.shape)) p < n →
        pos (linearize (sfx (vals c.shape)) p) = p := by
      intro p hp hlt
      have := hposs _ (lin_bounds hp).1 hlt
      exact lin_inj this.1 hp this.2
    obtain ⟨j, hj0, hj1, hj⟩ := cut_point n.toNat (fun k => P (val (pos k))) (by
      intro i j hi hij hjn hq
      have hjn' : j < n := by omega
      obtain ⟨a1, a2⟩ := hposs i hi (by omega)
      obtain ⟨b1, b2⟩ := hposs j (by omega) hjn'
      exact hpart _ _ a1 b1 ((lin_lt_iff a1 b1).1 (by omega)) hq)
    have hn : (n.toNat : Int) = n := by omega
    rw [hn] at hj1
    have hloop : searchLoopM md m c adv (n.toNat + 1) ⟨n, 0, 0⟩ s = .ok (⟨0, j, j⟩, s) := by
      rw [searchLoopM_eq md hne h adv _ _ _ _ le_rfl (by omega) (by omega),
        searchLoop_rank md (fun k => val (pos k)) n ?_ adv P hadv j (fun k h0 h1 => hj k h0 (by omega)) s _ _ _ _ le_rfl (by omega)
          (by omega) (by omega) hj0 (by omega), if_neg (by omega)]
      intro k h0 hk
      obtain ⟨p, hp, hlin, hco, -, -⟩ := probe_exact md hne h (m := m) (k := k) h0 (by omega)
      obtain ⟨a1, a2⟩ := hposs k h0 hk
      have : p = pos k := lin_inj hp a1 (by omega)
      exact ⟨p, hco, by rw [hel p hp, this]⟩
    have hrun : searchFrom md m c adv n s = .ok (if j < n then some (pos j) else none, s) := by
      unfold searchFrom
      simp only [bind, StateT.bind, hloop, Except.bind]
      by_cases hlt : j < n
      · obtain ⟨p, hp, hlin, -, hcoT, -⟩ := probe_exact md hne h (m := m) (k := j) hj0 (by omega)
        obtain ⟨a1, a2⟩ := hposs j hj0 hlt
        have : p = pos j := lin_inj hp a1 (by omega)
        simp only [hlt, if_true, bind, StateT.bind, liftM, monadLift, MonadLift.monadLift, StateT.lift, Except.bind, pure,
          Except.pure, hcoT, StateT.pure, List.map_map, this]
        congr 3
        simp [Function.comp_def]
      · simp only [hlt, if_false]
        rfl
    refine ⟨_, hrun, ?_, ?_⟩
    · by_cases hlt : j < n
      · rw [if_pos hlt]
        refine ⟨fun e => (by cases e), fun hall => ?_⟩
        obtain ⟨a1, a2⟩ := hposs j hj0 hlt
        exact absurd ⟨by omega, by have := hj j hj0 (by omega); simpa using this⟩ (hall (pos j) a1)
      · rw [if_neg hlt]
        refine ⟨fun _ p hp ⟨h1, h2⟩ => ?_, fun _ => rfl⟩
        have h3 := hj _ (lin_bounds hp).1 (by omega)
        simp only [hlinpos p hp h1, h2] at h3
        have := of_decide_eq_false h3.symm
        omega
    · intro p
      constructor
      · intro e
        by_cases hlt : j < n
        · rw [if_pos hlt] at e
          cases e
          obtain ⟨a1, a2⟩ := hposs j hj0 hlt
          refine ⟨a1, ⟨by omega, by have := hj j hj0 (by omega); simpa using this⟩, fun q hq hqlt ⟨h1, h2⟩ => ?_⟩
          have h3 := hj _ (lin_bounds hq).1 (by omega)
          simp only [hlinpos q hq h1, h2] at h3
          have h4 := of_decide_eq_false h3.symm
          have h5 := (lin_lt_iff hq a1).2 hqlt
          omega
        · rw [if_neg hlt] at e; cases e
      · rintro ⟨hp, ⟨h1, h2⟩, hmin⟩
        have h3 := hj _ (lin_bounds hp).1 (by omega)
        simp only [hlinpos p hp h1, h2] at h3
        have h4 := of_decide_eq_false h3.symm
        have hlt : j < n := by omega
        rw [if_pos hlt]
        obtain ⟨a1, a2⟩ := hposs j hj0 hlt
        congr 1
        apply lin_inj a1 hp
        by_contra hne'
        have h5 : linearize (sfx (vals c.shape)) (pos j) < linearize (sfx (vals c.shape)) p := by omega
        exact hmin (pos j) a1 ((lin_lt_iff a1 hp).1 h5) ⟨by omega, by have := hj j hj0 (by omega); simpa using this⟩

end Kwk
