import Verif.Lemmas.MixedInterp
import Verif.Lemmas.Contiguous
import Verif.Props.FloatInterp
import Verif.Props.Walk

/-!
# Property C154: interpolation at points with coordinates of any arithmetic types

`rnd p` is the rounding of the floating-point type with `p` significant bits.
-/

namespace Kwk
open Spec

/-- The error allowed for `n` coordinates: that of `float` arithmetic, one axis after the other. -/
def Spec.mixedBound (n : ℕ) : ℚ := (1 + (1 / 2) ^ 24) ^ (2 * n + 2 ^ n + 1) - 1

/-- Full statement of **C154**: for containers with extents of any types and points inside of their grid, with coordinates of any
arithmetic types, linear interpolation is as accurate as `float` arithmetic, and floor interpolation reads the element below. -/
def C154_statement : Prop :=
  (∀ (rnd : ℕ → ℚ → ℚ) (elem : Option ℕ) (m : Int → Res (Option ℚ)) (c : ContainerT) (val : List Int → ℚ) (ps : List PointCoord),
    Formats rnd → RowMajorT c → HasElements m c (fun q => some (val q)) → (∀ v ∈ ps, v.Valid) →
    InsideGrid (vals c.shape) (ps.map PointCoord.number) →
    ∃ r, c.linear rnd elem m ps = .ok (some r) ∧ |r - multilinear val (ps.map PointCoord.number)| ≤
      mixedBound ps.length * multilinear (fun q => |val q|) (ps.map PointCoord.number)) ∧
  (∀ (m : Int → Res ℚ) (c : ContainerT) (val : List Int → ℚ) (ps : List PointCoord),
    RowMajorT c → HasElements m c val → (∀ v ∈ ps, v.Valid) → PointInside (vals c.shape) (ps.map PointCoord.number) →
    c.floor m ps = .ok (val (ps.map fun v => ⌊v.number⌋)))

/-- **C154** Error bound, for coordinates of any types whose integral parts are smaller than the largest `int`: the result differs from
the exact multilinear interpolation by at most `(1+2^-24)^(2N+2^N+1) - 1` times the interpolation of the absolute values. -/
theorem C154_error_partial {rnd : ℕ → ℚ → ℚ} (hr : Formats rnd) (elem : Option ℕ) (data : List Int → Res (Option ℚ))
    (val : List Int → ℚ) (ps : List PointCoord) (hv : ∀ v ∈ ps, v.Valid) (hp : ∀ v ∈ ps, 0 ≤ v.number ∧ v.number < 2147483647)
    (hd : ∀ q, Corner (ps.map PointCoord.number) q → data q = .ok (some (val q))) :
    ∃ r, interpLinearX rnd elem data ps = .ok (some r) ∧ |r - multilinear val (ps.map PointCoord.number)| ≤
      mixedBound ps.length * multilinear (fun q => |val q|) (ps.map PointCoord.number) := by
  have hu : (0 : ℚ) ≤ (1 / 2) ^ 24 := by positivity
  have hp0 : ∀ v ∈ ps.map PointCoord.number, 0 ≤ v := by
    intro v hv
    obtain ⟨w, hw, rfl⟩ := List.mem_map.1 hv
    exact (hp w hw).1
  obtain ⟨cf, hs, hcf⟩ := interpSetupX_rel (rnd := rnd)
    (fun n k x e => Representable k x ∧ Approx ((1 / 2) ^ 24) (2 * n) x e e) ps (fun v h => intRange_of (hp v h)) (by
      rintro v hvp n k x e hk ⟨hx, ha⟩
      have hk0 : 0 < k := by omega
      cases v with
      | int c =>
        simp only [PointCoord.low, PointCoord.high, PointCoord.productBits, PointCoord.number, truncQ_int, sub_self, sub_zero, mul_one,
          mul_zero]
        rw [mulBits_one hr hk0 hx, mulBits_zero hr hx]
        exact ⟨⟨hx, ha.mono hu (by omega)⟩, representable_zero k, ⟨by simp, by simp⟩⟩
      | flt p v =>
        have hval : 24 ≤ p ∧ Representable p v := hv _ hvp
        have h0 : 0 ≤ v := (hp _ hvp).1
        obtain ⟨w1, w2, w3⟩ := flt_weights hr h0 hval.2
        simp only [PointCoord.low, PointCoord.high, PointCoord.productBits, PointCoord.number]
        have hkp : k ≤ max k p := le_max_left _ _
        have hpk : p ≤ max k p := le_max_right _ _
        have hx' := representable_mono hkp hx
        have hp24 : 24 ≤ max k p := le_trans hk hkp
        have hre := hr.relError hp24
        have f0 : 0 ≤ v - (truncQ v : ℚ) := by rw [truncQ_nonneg h0]; exact Int.fract_nonneg v
        have f1 : v - (truncQ v : ℚ) ≤ 1 := by rw [truncQ_nonneg h0]; exact (Int.fract_lt_one v).le
        rw [w1, w3, mulBits_eq hr hx' (representable_mono hpk (hr.result p _ (by omega))),
          mulBits_eq hr hx' (representable_mono hpk w2)]
        refine ⟨⟨hr.result _ _ (by omega), ?_⟩, hr.result _ _ (by omega), ?_⟩
        · have h1 : Approx ((1 / 2) ^ 24) 1 (rnd p (1 - (v - truncQ v))) (1 - (v - truncQ v)) (1 - (v - truncQ v)) :=
            (Approx.refl (by rw [abs_of_nonneg (by linarith)])).rnd hu (hr.relError hval.1)
          exact (ha.mul hu h1).rnd hu hre
        · have h1 : Approx ((1 / 2) ^ 24) 0 (v - truncQ v) (v - truncQ v) (v - truncQ v) :=
            Approx.refl (by rw [abs_of_nonneg f0])
          exact ((ha.mul hu h1).rnd hu hre).mono hu (l := 2 * (n + 1)) (by omega))
    ⟨representable_one (by norm_num), Approx.refl (by norm_num)⟩
  refine ⟨_, interpLinearX_some hs hcf.length_eq fun q hq => hd q ((corner_iff hp0 q).1 hq), ?_⟩
  rw [← wsum_interpSetup val _ hp0, ← wsum_interpSetup (fun q => |val q|) _ hp0]
  have hn : (interpSetup (ps.map PointCoord.number)).1.length = 2 ^ ps.length := by
    unfold interpSetup; rw [interp_count]; simp
  have h24 : 24 ≤ resultBits elem (coeffBits 24 ps) := le_trans (coeffBits_ge 24 ps) (resultBits_ge elem _)
  have := product_error hu (hr.relError h24) val (2 * ps.length) _ cf _ (interpSetup_ne _) (interpSetup_length _)
    (hcf.imp fun _ _ h => h.2)
  rw [hn] at this
  exact this

/-- A `double`, an unsigned integer and a `float`. -/
example := C154_error_partial roundBits_formats (some 53)
  (fun q => .ok (some (10 * (q.headD 0 : ℚ) + (q.getD 1 0 : ℚ)))) (fun q => 10 * (q.headD 0 : ℚ) + (q.getD 1 0 : ℚ))
  [.flt 53 (3 / 2), .int ⟨.u8, 2⟩, .flt 24 (1 / 4)]
  (by
    intro v hv
    simp only [List.mem_cons, List.not_mem_nil, or_false] at hv
    rcases hv with rfl | rfl | rfl
    · exact ⟨by norm_num, 3, -1, by norm_num, by norm_num⟩
    · show IntType.u8.Fits 2; decide
    · exact ⟨by norm_num, 1, -2, by norm_num, by norm_num⟩)
  (by
    intro v hv
    simp only [List.mem_cons, List.not_mem_nil, or_false] at hv
    rcases hv with rfl | rfl | rfl <;> norm_num [PointCoord.number])
  (fun _ _ => rfl)

/-! ## Containers -/

theorem le_prod_of_pos {s : List Int} (h : ∀ d ∈ s, 0 < d) {d : Int} (hd : d ∈ s) : d ≤ s.prod := by
  induction s with
  | nil => simp at hd
  | cons e s ih =>
    have he := h e (by simp)
    have hs : 0 < s.prod := by
      clear ih hd
      induction s with
      | nil => simp
      | cons f s ih => rw [List.prod_cons]; exact mul_pos (h f (by simp)) (ih fun x hx => h x (by simp at hx ⊢; tauto))
    rw [List.prod_cons]
    rcases List.mem_cons.1 hd with rfl | hd
    · nlinarith
    · have := ih (fun x hx => h x (by simp [hx])) hd
      nlinarith

theorem read_ok {β : Type} {m : Int → Res β} {c : ContainerT} {val : List Int → β} (hc : RowMajorT c) (he : HasElements m c val)
    {is : List Coord} (hf : ∀ i ∈ is, i.type.Fits i.value) (hb : InBox (vals c.shape) (vals is)) :
    c.read m is = .ok (val (vals is)) := by
  unfold ContainerT.read
  rw [rowMajor_at hc hb hf]
  simp only [bind, Except.bind]
  obtain ⟨k, hk⟩ := List.getElem?_of_mem (mem_positions.2 hb)
  have := positions_rank hk
  rw [rowPlace_eq, ← this]
  exact he k _ hk

theorem insideGrid_bound {s : List Int} {ps : List ℚ} (h : InsideGrid s ps) {b : Int} (hs : ∀ d ∈ s, d ≤ b) :
    ∀ v ∈ ps, 0 ≤ v ∧ v < (b : ℚ) - 1 := by
  unfold InsideGrid at h
  induction h with
  | nil => simp
  | @cons d v s ps h _ ih =>
    intro w hw
    rcases List.mem_cons.1 hw with rfl | hw
    · have hd : d ≤ b := hs d (by simp)
      have hd' : (d : ℚ) ≤ (b : ℚ) := by exact_mod_cast hd
      exact ⟨h.1, by linarith [h.2]⟩
    · exact ih (fun e he => hs e (by simp [he])) w hw

theorem linear_ok {rnd : ℕ → ℚ → ℚ} (hr : Formats rnd) (elem : Option ℕ) {m : Int → Res (Option ℚ)} {c : ContainerT}
    {val : List Int → ℚ} (hc : RowMajorT c) (he : HasElements m c fun q => some (val q)) {ps : List PointCoord} (hv : ∀ v ∈ ps, v.Valid)
    (hg : InsideGrid (vals c.shape) (ps.map PointCoord.number)) (hs : ∀ d ∈ vals c.shape, d ≤ 2147483648) :
    ∃ r, c.linear rnd elem m ps = .ok (some r) ∧ |r - multilinear val (ps.map PointCoord.number)| ≤
      mixedBound ps.length * multilinear (fun q => |val q|) (ps.map PointCoord.number) := by
  have hb := insideGrid_bound hg hs
  refine C154_error_partial hr elem _ val ps hv (fun v h => ?_) fun q hq => ?_
  · have := hb _ (List.mem_map_of_mem h)
    exact ⟨this.1, by have := this.2; norm_num at this; exact this⟩
  · have hp0 : ∀ v ∈ ps.map PointCoord.number, 0 ≤ v := fun v h => (hb v h).1
    have hin := corners_inBox hg ((corner_iff hp0 q).2 hq)
    have hq' : vals (q.map fun i => (⟨.i32, i⟩ : Coord)) = q := by simp [vals, Function.comp_def]
    have := read_ok (is := q.map fun i => (⟨.i32, i⟩ : Coord)) hc he (by
      intro i hi
      obtain ⟨j, hj, rfl⟩ := List.mem_map.1 hi
      have key : ∀ (s p : List Int), InBox s p → (∀ d ∈ s, d ≤ 2147483648) → ∀ j ∈ p, 0 ≤ j ∧ j < 2147483648 := by
        intro s p hsp
        unfold InBox at hsp
        induction hsp with
        | nil => simp
        | cons h _ ih =>
          intro hs j hj
          rcases List.mem_cons.1 hj with rfl | hj
          · have := hs _ List.mem_cons_self
            omega
          · exact ih (fun e he => hs e (by simp [he])) j hj
      have := key _ _ hin hs j hj
      exact i32_fits_iff.2 (by simp only; omega)) (by rw [hq']; exact hin)
    rw [hq'] at this
    exact this

/-- **C154** Linear interpolation in containers: whatever the types of the extents, of the coordinates and of the elements, the result
at a point of the grid (not on its upper border) is as accurate as `float` arithmetic, if no extent is larger than `2^31`; in
particular in all containers of less than `2^31` elements. -/
theorem C154_container_partial {rnd : ℕ → ℚ → ℚ} (hr : Formats rnd) (elem : Option ℕ) {m : Int → Res (Option ℚ)} {c : ContainerT}
    {val : List Int → ℚ} (hc : RowMajorT c) (he : HasElements m c fun q => some (val q)) {ps : List PointCoord} (hv : ∀ v ∈ ps, v.Valid)
    (hg : InsideGrid (vals c.shape) (ps.map PointCoord.number))
    (hs : (∀ d ∈ vals c.shape, d ≤ 2147483648) ∨ (vals c.shape).prod < 2147483648) :
    ∃ r, c.linear rnd elem m ps = .ok (some r) ∧ |r - multilinear val (ps.map PointCoord.number)| ≤
      mixedBound ps.length * multilinear (fun q => |val q|) (ps.map PointCoord.number) := by
  refine linear_ok hr elem hc he hv hg ?_
  rcases hs with hs | hs
  · exact hs
  · intro d hd
    have hpos : ∀ d ∈ vals c.shape, 0 < d := by
      intro d hd
      obtain ⟨e, he, rfl⟩ := List.mem_map.1 hd
      exact (hc.2.1 e he).1
    have := le_prod_of_pos hpos hd
    omega

/-- **C154** Floor interpolation reads the element at the coordinates rounded down, in containers of any extents and with coordinates
of any types; also in those of more than `2^31` elements. -/
theorem C154_floor {β : Type} {m : Int → Res β} {c : ContainerT} {val : List Int → β} (hc : RowMajorT c) (he : HasElements m c val)
    {ps : List PointCoord} (hg : PointInside (vals c.shape) (ps.map PointCoord.number)) :
    c.floor m ps = .ok (val (ps.map fun v => ⌊v.number⌋)) := by
  have hpos : ∀ d ∈ vals c.shape, 0 < d := by
    intro d hd
    obtain ⟨e, he, rfl⟩ := List.mem_map.1 hd
    exact (hc.2.1 e he).1
  have hprod : (vals c.shape).prod < 2 ^ 63 := by
    rcases hc.2.2 with h | ⟨-, h⟩
    · exact lt_trans h (by norm_num)
    · exact h
  have hle : ∀ d ∈ vals c.shape, d < 2 ^ 63 := fun d hd => lt_of_le_of_lt (le_prod_of_pos hpos hd) hprod
  have hin : InBox (vals c.shape) (ps.map fun v => ⌊v.number⌋) ∧ ∀ v ∈ ps, 0 ≤ v.number ∧ ⌊v.number⌋ < 2 ^ 63 := by
    clear hc he hpos hprod
    generalize vals c.shape = s at hg hle
    induction s generalizing ps with
    | nil =>
      cases ps with
      | nil => exact ⟨.nil, by simp⟩
      | cons v ps => cases hg
    | cons d s ih =>
      cases ps with
      | nil => cases hg
      | cons v ps =>
        rw [List.map_cons] at hg
        cases hg with
        | cons h hg =>
          obtain ⟨i1, i2⟩ := ih hg fun e he => hle e (by simp [he])
          have hfl : ⌊v.number⌋ < d := Int.floor_lt.2 h.2
          have h0 : 0 ≤ ⌊v.number⌋ := Int.floor_nonneg.2 h.1
          refine ⟨.cons ⟨h0, hfl⟩ i1, fun w hw => ?_⟩
          rcases List.mem_cons.1 hw with rfl | hw
          · exact ⟨h.1, lt_trans hfl (hle d (by simp))⟩
          · exact i2 w hw
  have hcast : ∀ v ∈ ps, v.castPtrdiff = .ok ⟨.i64, ⌊v.number⌋⟩ := by
    intro v hvp
    obtain ⟨h0, h1⟩ := hin.2 v hvp
    have hf : IntType.i64.Fits ⌊v.number⌋ := by
      have : 0 ≤ ⌊v.number⌋ := Int.floor_nonneg.2 h0
      exact i64_fits.2 ⟨by omega, by omega⟩
    cases v with
    | int a =>
      simp only [PointCoord.number, Int.floor_intCast] at hf ⊢
      show Except.ok (⟨.i64, IntType.i64.wrap a.value⟩ : Coord) = _
      rw [IntType.wrap_fits hf]
    | flt p v =>
      simp only [PointCoord.number] at hf h0 ⊢
      simp only [PointCoord.castPtrdiff, IntType.op, truncQ_nonneg h0, hf, if_true]
      rfl
  unfold ContainerT.floor
  rw [mapM_ok ps _ _ hcast]
  simp only [bind, Except.bind]
  have hq : vals (ps.map fun v => (⟨.i64, ⌊v.number⌋⟩ : Coord)) = ps.map fun v => ⌊v.number⌋ := by
    simp [vals, Function.comp_def]
  rw [← hq] at hin
  rw [read_ok hc he (by
    intro i hi
    obtain ⟨v, hvp, rfl⟩ := List.mem_map.1 hi
    obtain ⟨h0, h1⟩ := hin.2 v hvp
    have : 0 ≤ ⌊v.number⌋ := Int.floor_nonneg.2 h0
    exact i64_fits.2 ⟨by simp only; omega, by simp only; omega⟩) hin.1, hq]

/-! ## Grid points and integer coordinates -/

/-- **C154** At a grid point, given by integers, by floating-point numbers or by both, the element itself is returned, without any error,
if the type of the result represents it. -/
theorem C154_grid_partial {rnd : ℕ → ℚ → ℚ} (hr : Formats rnd) (elem : Option ℕ) (data : List Int → Res (Option ℚ))
    (val : List Int → ℚ) (ps : List PointCoord) (p : List Int) (hv : ∀ v ∈ ps, v.Valid)
    (hp : ps.map PointCoord.number = p.map fun (i : Int) => (i : ℚ)) (hi : ∀ i ∈ p, 0 ≤ i ∧ i < 2147483647)
    (hx : Representable (resultBits elem 24) (val p))
    (hd : ∀ q, Corner (p.map fun (i : Int) => (i : ℚ)) q → data q = .ok (some (val q))) :
    interpLinearX rnd elem data ps = .ok (some (val p)) := by
  have hmem : ∀ v ∈ ps, ∃ i ∈ p, v.number = (i : ℚ) := by
    intro v hvp
    have := List.mem_map_of_mem (f := PointCoord.number) hvp
    rw [hp] at this
    obtain ⟨i, h1, h2⟩ := List.mem_map.1 this
    exact ⟨i, h1, h2.symm⟩
  obtain ⟨cf, hs, hcf⟩ := interpSetupX_rel (rnd := rnd) (fun _ _ x e => x = e ∧ (e = 0 ∨ e = 1)) ps (by
      intro v hvp
      obtain ⟨i, hip, e⟩ := hmem v hvp
      unfold IntRange
      rw [e, truncQ_int]
      have := hi i hip
      omega) (by
      intro v hvp n k x e hk
      obtain ⟨i, hip, en⟩ := hmem v hvp
      have hk' : 0 < v.productBits k := lt_of_lt_of_le (by omega) (productBits_ge v)
      have hw : v.low rnd = 1 ∧ v.high rnd = 0 := by
        cases v with
        | int c => exact ⟨rfl, rfl⟩
        | flt q v =>
          have hval : 24 ≤ q ∧ Representable q v := hv _ hvp
          simp only [PointCoord.number] at en
          subst en
          obtain ⟨w1, -, w3⟩ := flt_weights hr (by exact_mod_cast (hi i hip).1) hval.2
          simp only [truncQ_int, sub_self, sub_zero] at w1 w3
          rw [hr.keeps q 1 (representable_one (by omega))] at w3
          exact ⟨w3, w1⟩
      rw [hw.1, hw.2, en, truncQ_int]
      rintro ⟨rfl, rfl | rfl⟩
      · rw [mulBits_one hr hk' (representable_zero _), mulBits_zero hr (representable_zero _)]; simp
      · rw [mulBits_one hr hk' (representable_one hk'), mulBits_zero hr (representable_one hk')]; simp) ⟨rfl, .inr rfl⟩
  have e : cf = (interpSetup (ps.map PointCoord.number)).2 := List.forall₂_eq_eq_eq ▸ hcf.imp fun _ _ h => h.1
  subst e
  have hb : 24 ≤ coeffBits 24 ps := coeffBits_ge 24 ps
  have hres : resultBits elem 24 ≤ resultBits elem (coeffBits 24 ps) := by
    unfold resultBits
    cases elem with
    | none => exact hb
    | some q => exact max_le_max_right q hb
  have hpos : 0 < resultBits elem (coeffBits 24 ps) := lt_of_lt_of_le (by omega) (le_trans hb (resultBits_ge elem _))
  have hval := hr.keeps _ _ (representable_mono hres hx)
  have hz := hr.keeps _ _ (representable_zero (resultBits elem (coeffBits 24 ps)))
  have h132 := C132_grid_point (fun x => x) (rnd (resultBits elem (coeffBits 24 ps))) data val p rfl rfl (fun _ _ => rfl) hz hval
    (fun i hip => by have := hi i hip; omega) hd
  rw [← h132]
  unfold interpLinearX interpLinearF
  rw [hs, ← hp]
  have hid : ∀ (ps : List ℚ), (∀ v ∈ ps, IntRange v) → interpSetupF (fun x => x) ps = .ok (interpSetup ps) := by
    intro ps h
    obtain ⟨cf, h1, h2⟩ := interpSetupF_rel (fun x => x) (fun _ x e => x = e) ps h
      (by rintro v _ _ x _ rfl; exact ⟨rfl, rfl⟩) rfl
    rw [h1, (List.forall₂_eq_eq_eq ▸ h2 : cf = (interpSetup ps).2)]
  rw [hid _ (by
    intro v hvp
    rw [hp] at hvp
    obtain ⟨i, hip, rfl⟩ := List.mem_map.1 hvp
    unfold IntRange
    rw [truncQ_int]
    have := hi i hip
    omega)]
  rfl

/-- **C154** An integer coordinate of any type is as good as the same number given as a `float`: the results are the same, whatever the
other coordinates and the elements. -/
theorem C154_integer {rnd : ℕ → ℚ → ℚ} (hr : Formats rnd) (elem : Option ℕ) (data : List Int → Res (Option ℚ))
    (before after : List PointCoord) (c : Coord) (hb : ∀ v ∈ before, IntRange v.number) (h0 : 0 ≤ c.value)
    (h1 : c.value < 2147483647) (hc : Representable 24 (c.value : ℚ)) :
    interpLinearX rnd elem data (before ++ .int c :: after) = interpLinearX rnd elem data (before ++ .flt 24 c.value :: after) := by
  obtain ⟨cf, hs, hcf⟩ := interpSetupX_rel (rnd := rnd) (fun _ k x _ => Representable k x) before hb (by
    intro v hvp n k x e hk _
    have : 0 < v.productBits k := lt_of_lt_of_le (by omega) (productBits_ge v)
    exact ⟨hr.result _ _ this, hr.result _ _ this⟩) (representable_one (by norm_num))
  have hk := coeffBits_ge 24 before
  have hrep : ∀ x ∈ cf, Representable (coeffBits 24 before) x := by
    clear hs
    generalize (interpSetup (before.map PointCoord.number)).2 = es at hcf
    intro x hx
    induction hcf with
    | nil => simp at hx
    | cons h _ ih =>
      rcases List.mem_cons.1 hx with rfl | hx
      · exact h
      · exact ih hx
  obtain ⟨w1, -, w3⟩ := flt_weights hr (by exact_mod_cast h0) hc
  simp only [truncQ_int, sub_self, sub_zero] at w1 w3
  rw [hr.keeps 24 1 (representable_one (by norm_num))] at w3
  have hir : IntRange (PointCoord.int c).number := by
    unfold IntRange PointCoord.number
    rw [truncQ_int]
    omega
  have hir' : IntRange (PointCoord.flt 24 c.value).number := hir
  unfold interpLinearX interpSetupX at *
  rw [List.foldlM_append, List.foldlM_append, hs]
  simp only [bind, Except.bind, List.foldlM_cons]
  rw [interpStepX_ok _ hir [], interpStepX_ok _ hir' []]
  simp only [PointCoord.low, PointCoord.high, PointCoord.productBits, PointCoord.number, w1, w3, max_eq_left hk]

/-! ## The exact condition -/

theorem foldX_not_ok {rnd : ℕ → ℚ → ℚ} {ps : List PointCoord} {v : PointCoord} (hv : v ∈ ps)
    (h : ∀ acc r, interpStepX rnd acc v ≠ .ok r) (acc r : Cell) : ps.foldlM (interpStepX rnd) acc ≠ .ok r := by
  induction ps generalizing acc with
  | nil => simp at hv
  | cons w ps ih =>
    rw [List.foldlM_cons]
    intro e
    cases hw : interpStepX rnd acc w with
    | error f => rw [hw] at e; cases e
    | ok a =>
      rw [hw] at e
      rcases List.mem_cons.1 hv with rfl | hv
      · exact h _ _ hw
      · exact ih hv a e

/-- **C154** Exactly in which containers linear interpolation works with coordinates of all types at all points of the grid: those where
no extent is larger than `2^31`. -/
theorem C154_exact_partial {rnd : ℕ → ℚ → ℚ} (hr : Formats rnd) (elem : Option ℕ) {m : Int → Res (Option ℚ)} {c : ContainerT}
    {val : List Int → ℚ} (hc : RowMajorT c) (he : HasElements m c fun q => some (val q)) (h2 : ∀ d ∈ vals c.shape, 2 ≤ d) :
    (∀ ps : List PointCoord, (∀ v ∈ ps, v.Valid) → InsideGrid (vals c.shape) (ps.map PointCoord.number) →
      ∃ r, c.linear rnd elem m ps = .ok (some r) ∧ |r - multilinear val (ps.map PointCoord.number)| ≤
        mixedBound ps.length * multilinear (fun q => |val q|) (ps.map PointCoord.number)) ↔
    ∀ d ∈ vals c.shape, d ≤ 2147483648 := by
  refine ⟨fun h => ?_, fun hs ps hv hg => linear_ok hr elem hc he hv hg hs⟩
  by_contra hbad
  push Not at hbad
  obtain ⟨d, hd, hbig⟩ := hbad
  let g : Int → PointCoord := fun d => if 2147483648 < d then .int ⟨.i64, 2147483647⟩ else .int ⟨.i64, 0⟩
  obtain ⟨r, e, -⟩ := h ((vals c.shape).map g) (by
      intro v hv
      obtain ⟨x, -, rfl⟩ := List.mem_map.1 hv
      simp only [g]
      split <;> (show IntType.i64.Fits _; decide)) (by
      unfold InsideGrid
      generalize vals c.shape = s at h2
      induction s with
      | nil => exact .nil
      | cons x s ih =>
        refine .cons ?_ (ih fun y hy => h2 y (by simp [hy]))
        have hx2 : (2 : ℚ) ≤ (x : ℚ) := by exact_mod_cast h2 x (by simp)
        simp only [g]
        split
        · rename_i hx
          have hx' : (2147483648 : ℚ) < (x : ℚ) := by exact_mod_cast hx
          simp only [PointCoord.number]
          norm_num
          linarith
        · simp only [PointCoord.number]
          norm_num
          linarith)
  have hmem : PointCoord.int ⟨.i64, 2147483647⟩ ∈ (vals c.shape).map g :=
    List.mem_map.2 ⟨d, hd, by simp only [g]; rw [if_pos hbig]⟩
  unfold ContainerT.linear interpLinearX interpSetupX at e
  cases hf : ((vals c.shape).map g).foldlM (interpStepX rnd) ⟨[[]], [1], 24⟩ with
  | error f => rw [hf] at e; cases e
  | ok a =>
    refine foldX_not_ok hmem ?_ _ _ hf
    intro acc r
    have hop : IntType.i32.op ((truncQ (PointCoord.int ⟨.i64, 2147483647⟩).number) + 1) = .error .overflow := by
      simp only [PointCoord.number, truncQ_int]
      exact i32_op_error (by norm_num)
    have hci : (PointCoord.int ⟨.i64, 2147483647⟩).castInt = .ok (truncQ (PointCoord.int ⟨.i64, 2147483647⟩).number) := by
      simp only [PointCoord.number, truncQ_int]
      decide
    unfold interpStepX
    rw [hci]
    simp only [bind, Except.bind, weights_ok, hop]
    exact fun h => by cases h

/-- A vector of `2^31 + 1` zeros. -/
private def longVector : ContainerT := ⟨0, [⟨.i64, 2147483649⟩], [fixedOne]⟩

private theorem longVector_rowMajor : RowMajorT longVector := by
  unfold RowMajorT
  refine ⟨rfl, ?_, .inr ⟨?_, ?_⟩⟩ <;> decide

/-- The full statement is false: in a vector of more than `2^31` elements, the coordinate `2147483647` given as a 64-bit integer leads to an
`int` overflow. -/
theorem C154_false : ¬ C154_statement := by
  intro h
  have := (C154_exact_partial roundBits_formats none (m := fun _ => .ok (some 0)) (val := fun _ => 0) longVector_rowMajor
    (fun _ _ _ => rfl) (by decide)).1 fun ps hv hg => h.1 _ _ _ _ _ _ roundBits_formats longVector_rowMajor (fun _ _ _ => rfl) hv hg
  exact absurd this (by decide)

/-- Larger 64-bit coordinates are not rejected, but cut to an `int`: at `2^32` the elements 0 and 1 are read, with the weights `1 - 2^32`
(rounded to `float`: `-2^32`) and `2^32`, so that the element there has no influence. -/
theorem C154_cut_false : (¬ ∀ (data : List Int → Res (Option ℚ)) (val : List Int → ℚ) (c : Coord), c.type.Fits c.value → 0 ≤ c.value →
    (∀ q, data q = .ok (some (val q))) → Representable 24 (val [c.value]) →
    interpLinearX roundBits none data [.int c] = .ok (some (val [c.value]))) ∧
    interpLinearX roundBits none (fun q => .ok (some (if q = [0] then 1 else 0))) [.int ⟨.i64, 4294967296⟩] = .ok (some (-4294967296)) ∧
    interpLinearX roundBits none (fun q => .ok (some (if q = [1] then 1 else 0))) [.int ⟨.i64, 4294967296⟩] = .ok (some 4294967296) := by
  refine ⟨fun h => ?_, by decide +kernel, by decide +kernel⟩
  have h1 := h (fun q => .ok (some (if q = [4294967296] then 1 else 0))) (fun q => if q = [4294967296] then 1 else 0) ⟨.i64, 4294967296⟩
    (by decide) (by decide) (fun _ => rfl) ⟨1, 0, by norm_num, by simp⟩
  have h2 : interpLinearX roundBits none (fun q => .ok (some (if q = [4294967296] then 1 else 0))) [.int ⟨.i64, 4294967296⟩] =
      .ok (some 0) := by decide +kernel
  rw [h2] at h1
  exact absurd h1 (by decide +kernel)

/-! ## Examples -/

/-- A 3 x 4 container with extents of the types `unsigned char` and `long`, with the elements 0, 1, ... -/
private def exGrid : ContainerT := ⟨0, [⟨.u8, 3⟩, ⟨.i64, 4⟩], [⟨.i64, 4⟩, fixedOne]⟩

private theorem exGrid_rowMajor : RowMajorT exGrid := by
  unfold RowMajorT
  refine ⟨rfl, ?_, .inl ?_⟩ <;> decide

private theorem exGrid_elements : HasElements (fun k => .ok (some (k : ℚ))) exGrid
    fun q => some ((4 * q.headD 0 + q.getD 1 0 : Int) : ℚ) := by
  intro k p h
  have hall : ∀ k ∈ List.range 12, ∀ p ∈ (positions [3, 4])[k]?, (0 + (k : Int) : Int) = 4 * p.headD 0 + p.getD 1 0 := by decide
  have hk : k < 12 := (List.getElem?_eq_some_iff.1 h).1
  exact congrArg (fun x : Int => Except.ok (some (x : ℚ))) (hall k (List.mem_range.2 hk) p h)

private theorem exPoint_valid : ∀ v ∈ [PointCoord.flt 53 (3 / 2), .int ⟨.u16, 2⟩], v.Valid := by
  intro v hv
  simp only [List.mem_cons, List.not_mem_nil, or_false] at hv
  rcases hv with rfl | rfl
  · exact ⟨by norm_num, 3, -1, by norm_num, by norm_num⟩
  · show IntType.u16.Fits 2; decide

private theorem exPoint_inside : InsideGrid (vals exGrid.shape) ([PointCoord.flt 53 (3 / 2), .int ⟨.u16, 2⟩].map PointCoord.number) :=
  .cons (by norm_num [PointCoord.number]) (.cons (by norm_num [PointCoord.number]) .nil)

example := C154_container_partial roundBits_formats none exGrid_rowMajor exGrid_elements exPoint_valid exPoint_inside (.inr (by decide))

/-- The result at this point is 8: halfway between the elements 6 and 10. -/
example : exGrid.linear roundBits none (fun k => .ok (some (k : ℚ))) [.flt 53 (3 / 2), .int ⟨.u16, 2⟩] = .ok (some 8) := by
  decide +kernel

example := C154_floor exGrid_rowMajor exGrid_elements (ps := [.flt 53 (3 / 2), .int ⟨.u16, 2⟩])
  (.cons (by norm_num [PointCoord.number]) (.cons (by norm_num [PointCoord.number]) .nil))

example : exGrid.floor (fun k => .ok (some (k : ℚ))) [.flt 53 (3 / 2), .int ⟨.u16, 2⟩] = .ok (some 6) := by decide +kernel

example := C154_grid_partial roundBits_formats none (fun q => .ok (some (q.headD 0 : ℚ))) (fun q => (q.headD 0 : ℚ))
  [.flt 53 1, .int ⟨.u16, 2⟩] [1, 2] (by
    intro v hv
    simp only [List.mem_cons, List.not_mem_nil, or_false] at hv
    rcases hv with rfl | rfl
    · exact ⟨by norm_num, 1, 0, by norm_num, by norm_num⟩
    · show IntType.u16.Fits 2; decide) (by simp [PointCoord.number]) (by decide) ⟨1, 0, by decide, by simp⟩ (fun _ _ => rfl)

example := C154_integer roundBits_formats (some 53) (fun q => .ok (some (q.headD 0 : ℚ))) [.flt 53 (3 / 2)] [.flt 24 (1 / 4)] ⟨.u16, 2⟩
  (by
    intro v hv
    obtain rfl := List.mem_singleton.1 hv
    unfold IntRange PointCoord.number
    decide +kernel) (by decide) (by decide) ⟨1, 1, by norm_num, by norm_num⟩

example := C154_exact_partial roundBits_formats none exGrid_rowMajor exGrid_elements (by decide)

end Kwk
