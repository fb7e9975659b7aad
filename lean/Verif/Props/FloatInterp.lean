import Verif.Lemmas.FloatInterp
import Verif.Lemmas.NumberWitnesses
import Verif.Lemmas.RoundBits
import Verif.Props.Interp

/-!
# Property C132: linear interpolation in floating-point arithmetic

`rc` is the rounding of the type of the coordinates and weights, `rv` that of the result.
-/

namespace Kwk
open Spec

theorem intRange_of {v : ℚ} (h : 0 ≤ v ∧ v < 2147483647) : IntRange v := by
  unfold IntRange
  rw [truncQ_nonneg h.1]
  have h1 : 0 ≤ ⌊v⌋ := Int.floor_nonneg.2 h.1
  have h2 : ⌊v⌋ < 2147483647 := by rw [Int.floor_lt]; exact_mod_cast h.2
  omega

theorem corner_iff {ps : List ℚ} (hp : ∀ v ∈ ps, 0 ≤ v) (q : List Int) : q ∈ (interpSetup ps).1 ↔ Corner ps q :=
  C58_surrounding ps hp q

theorem corner_int_iff (p : List Int) (q : List Int) :
    q ∈ (interpSetup (p.map fun (i : Int) => (i : ℚ))).1 ↔ Corner (p.map fun (i : Int) => (i : ℚ)) q := by
  rw [mem_interpSetup]
  unfold Corner
  rw [List.forall₂_map_left_iff, List.forall₂_map_left_iff]
  simp only [truncQ_int, Int.floor_intCast]

/-- At a grid point the first corner is the point, with weight 1, and all other weights are 0. -/
private theorem setup_grid (p : List Int) : ∀ (done : List Int) (cs : List (List Int)) (n : ℕ),
    ∃ cs' n', (p.map fun (i : Int) => (i : ℚ)).foldl interpStep (done :: cs, 1 :: List.replicate n (0 : ℚ)) =
      ((done ++ p) :: cs', 1 :: List.replicate n' (0 : ℚ)) := by
  induction p with
  | nil => intro done cs n; exact ⟨cs, n, by simp⟩
  | cons i p ih =>
    intro done cs n
    rw [List.map_cons, List.foldl_cons]
    have h : interpStep (done :: cs, 1 :: List.replicate n (0 : ℚ)) (i : ℚ) = ((done ++ [i]) ::
        (cs.map (fun e => e ++ [i]) ++ (done :: cs).map fun e => e ++ [i + 1]),
        1 :: List.replicate (n + (n + 1)) (0 : ℚ)) := by
      simp [interpStep, truncQ_int, List.replicate_add, List.replicate_succ]
    rw [h]
    obtain ⟨cs', n', h'⟩ := ih (done ++ [i]) (cs.map (fun e => e ++ [i]) ++ (done :: cs).map fun e => e ++ [i + 1])
      (n + (n + 1))
    exact ⟨cs', n', by rw [h']; simp⟩

/-- **C132** At a grid point the element itself is returned, without any error, if the result type represents it and the
neighbours are finite. -/
theorem C132_grid_point (rc rv : ℚ → ℚ) (data : List Int → Res (Option ℚ)) (val : List Int → ℚ) (p : List Int)
    (h0 : rc 0 = 0) (h1 : rc 1 = 1) (hc : ∀ i ∈ p, rc (i : ℚ) = (i : ℚ)) (hv0 : rv 0 = 0) (hv : rv (val p) = val p)
    (hi : ∀ i ∈ p, -2147483648 ≤ i ∧ i < 2147483647)
    (hd : ∀ q, Corner (p.map fun (i : Int) => (i : ℚ)) q → data q = .ok (some (val q))) :
    interpLinearF rc rv data (p.map fun (i : Int) => (i : ℚ)) = .ok (some (val p)) := by
  obtain ⟨cf, hs, hcf⟩ := interpSetupF_rel rc (fun _ x e => x = e ∧ (e = 0 ∨ e = 1)) (p.map fun (i : Int) => (i : ℚ)) (by
      intro v hv
      obtain ⟨i, hip, rfl⟩ := List.mem_map.1 hv
      unfold IntRange
      rw [truncQ_int]
      exact hi i hip) (by
      intro v hv _ x e
      obtain ⟨i, hip, rfl⟩ := List.mem_map.1 hv
      rintro ⟨rfl, rfl | rfl⟩ <;> simp [lowF, highF, truncQ_int, hc i hip, h0, h1]) ⟨rfl, .inr rfl⟩
  have e : cf = (interpSetup (p.map fun (i : Int) => (i : ℚ))).2 :=
    List.forall₂_eq_eq_eq ▸ hcf.imp fun _ _ h => h.1
  have hm := mapM_ok (interpSetup (p.map fun (i : Int) => (i : ℚ))).1 data (fun q => some (val q))
    fun q hq => hd q ((corner_int_iff p q).1 hq)
  unfold interpLinearF
  rw [hs]
  show (do
    let pos ← (interpSetup (p.map fun (i : Int) => (i : ℚ))).1.mapM data
    return interpProductF rv pos cf) = _
  rw [hm]
  show Except.ok (interpProductF rv _ cf) = _
  rw [interpProductF_some rv val _ cf (interpSetup_ne _) (by rw [e]; exact interpSetup_length _), e]
  obtain ⟨cs', n', hg⟩ := setup_grid p [] [] 0
  rw [show (interpSetup (p.map fun (i : Int) => (i : ℚ))) = (([] ++ p) :: cs', 1 :: List.replicate n' (0 : ℚ)) from hg]
  simp only [List.nil_append, List.headD_cons, List.tail_cons, mul_one, hv]
  congr 2
  have key : ∀ (cs : List (List Int)) (n : ℕ),
      (List.zipWith (fun q e => rv (rv (val q) * e)) cs (List.replicate n (0 : ℚ))).foldl (fun a b => rv (a + b)) (val p) =
        val p := by
    intro cs
    induction cs with
    | nil => intro n; simp
    | cons c cs ih =>
      intro n
      cases n with
      | zero => simp
      | succ n =>
        simp only [List.replicate_succ, List.zipWith_cons_cons, List.foldl_cons, mul_zero, hv0, add_zero, hv]
        exact ih n
  exact key cs' n'

/-- **C132** The result is finite exactly if all `2^N` corners are: an infinite element or a NaN spoils the result at every
point of the cells around it, even where its weight is 0. -/
theorem C132_finite (rc rv : ℚ → ℚ) (data : List Int → Res (Option ℚ)) (val : List Int → Option ℚ) (ps : List ℚ)
    (hp : ∀ v ∈ ps, 0 ≤ v ∧ v < 2147483647) (hd : ∀ q, Corner ps q → data q = .ok (val q)) :
    ∃ r, interpLinearF rc rv data ps = .ok r ∧ (r.isSome ↔ ∀ q, Corner ps q → (val q).isSome) := by
  have hp0 : ∀ v ∈ ps, 0 ≤ v := fun v hv => (hp v hv).1
  obtain ⟨cf, hs, hcf⟩ := interpSetupF_rel rc (fun _ _ _ => True) ps (fun v hv => intRange_of (hp v hv))
    (fun _ _ _ _ _ _ => ⟨trivial, trivial⟩) trivial
  have hm := mapM_ok (interpSetup ps).1 data val fun q hq => hd q ((corner_iff hp0 q).1 hq)
  refine ⟨interpProductF rv ((interpSetup ps).1.map val) cf, ?_, ?_⟩
  · unfold interpLinearF
    rw [hs]
    show (do
      let pos ← (interpSetup ps).1.mapM data
      return interpProductF rv pos cf) = _
    rw [hm]
    rfl
  · rw [interpProductF_isSome _ _ _ (by rw [List.length_map, hcf.length_eq, interpSetup_length])]
    simp only [List.forall_mem_map, corner_iff hp0]

example := C132_finite (roundBits 24) (roundBits 24) (fun q => .ok (if q = [2, 1] then none else some 5))
  (fun q => if q = [2, 1] then none else some 5) [3 / 2, 0] (by decide +kernel) (fun _ _ => rfl)

/-- The computed result, from the computed weights. -/
private theorem run_setup {rc : ℚ → ℚ} (rv : ℚ → ℚ) {data : List Int → Res (Option ℚ)} {val : List Int → ℚ} {ps : List ℚ}
    (hp0 : ∀ v ∈ ps, 0 ≤ v) (hd : ∀ q, Corner ps q → data q = .ok (some (val q))) {cf : List ℚ}
    (hs : interpSetupF rc ps = .ok ((interpSetup ps).1, cf)) (hl : cf.length = (interpSetup ps).2.length) :
    interpLinearF rc rv data ps = .ok (some
      ((List.zipWith (fun q e => rv (rv (val q) * e)) (interpSetup ps).1.tail cf.tail).foldl (fun a b => rv (a + b))
        (rv (rv (val ((interpSetup ps).1.headD [])) * cf.headD 0)))) := by
  have hm := mapM_ok (interpSetup ps).1 data (fun q => some (val q)) fun q hq => hd q ((corner_iff hp0 q).1 hq)
  unfold interpLinearF
  rw [hs]
  show (do
    let pos ← (interpSetup ps).1.mapM data
    return interpProductF rv pos cf) = _
  rw [hm]
  show Except.ok (interpProductF rv _ cf) = _
  rw [interpProductF_some rv val _ cf (interpSetup_ne _) (by rw [hl]; exact interpSetup_length _)]

/-- The computed result, with the computed weights and their relation to the exact weights. -/
private theorem run_rel (rc rv : ℚ → ℚ) (data : List Int → Res (Option ℚ)) (val : List Int → ℚ) (ps : List ℚ)
    (hp : ∀ v ∈ ps, 0 ≤ v ∧ v < 2147483647) (hd : ∀ q, Corner ps q → data q = .ok (some (val q)))
    (R : ℕ → ℚ → ℚ → Prop)
    (hs : ∀ v ∈ ps, ∀ k x e, R k x e → R (k + 1) (rc (x * lowF rc v)) (e * (1 - (v - truncQ v))) ∧
      R (k + 1) (rc (x * highF rc v)) (e * (v - truncQ v)))
    (h0 : R 0 1 1) :
    ∃ cf, List.Forall₂ (R ps.length) cf (interpSetup ps).2 ∧ interpLinearF rc rv data ps = .ok (some
      ((List.zipWith (fun q e => rv (rv (val q) * e)) (interpSetup ps).1.tail cf.tail).foldl (fun a b => rv (a + b))
        (rv (rv (val ((interpSetup ps).1.headD [])) * cf.headD 0)))) := by
  obtain ⟨cf, hs, hcf⟩ := interpSetupF_rel rc R ps (fun v hv => intRange_of (hp v hv)) hs h0
  exact ⟨cf, hcf, run_setup rv (fun v hv => (hp v hv).1) hd hs hcf.length_eq⟩

/-- The computed weights are not negative. -/
private theorem weightsF_nonneg (rc : ℚ → ℚ) (hrc : ∀ x, 0 ≤ x → 0 ≤ rc x) (ps : List ℚ)
    (hp : ∀ v ∈ ps, 0 ≤ v ∧ v < 2147483647)
    (hx : ∀ v ∈ ps, rc (⌊v⌋ : ℚ) = (⌊v⌋ : ℚ) ∧ rc (Int.fract v) = Int.fract v) :
    ∃ cf, interpSetupF rc ps = .ok ((interpSetup ps).1, cf) ∧ cf.length = (interpSetup ps).2.length ∧ ∀ c ∈ cf, 0 ≤ c := by
  have hp0 : ∀ v ∈ ps, 0 ≤ v := fun v hv => (hp v hv).1
  obtain ⟨cf, hs, hcf⟩ := interpSetupF_rel rc (fun _ x _ => 0 ≤ x) ps (fun v hv => intRange_of (hp v hv)) (by
    intro v hv k x e h
    have ht : ((truncQ v : ℤ) : ℚ) = (⌊v⌋ : ℚ) := by rw [truncQ_nonneg (hp0 v hv)]
    have hb : highF rc v = Int.fract v := by unfold highF; rw [ht, (hx v hv).1]; exact (hx v hv).2
    have ha : lowF rc v = rc (1 - Int.fract v) := by
      unfold lowF; rw [ht, (hx v hv).1]
      show rc (1 - rc (Int.fract v)) = _
      rw [(hx v hv).2]
    rw [ha, hb]
    have f0 := Int.fract_nonneg v
    have f1 := (Int.fract_lt_one v).le
    exact ⟨hrc _ (mul_nonneg h (hrc _ (by linarith))), hrc _ (mul_nonneg h f0)⟩) (by norm_num)
  refine ⟨cf, hs, hcf.length_eq, ?_⟩
  clear hs
  generalize (interpSetup ps).2 = es at hcf
  induction hcf with
  | nil => simp
  | cons h _ ih =>
    intro c hc
    rcases List.mem_cons.1 hc with rfl | hc
    · exact h
    · exact ih c hc

/-- **C132** Error bound: for roundings of relative error at most `u`, if integral and fractional parts of the coordinates are
exact, the result differs from the exact multilinear interpolation by at most `(1+u)^(2N+2^N+1) - 1` times the
interpolation of the absolute values. -/
theorem C132_error (u : ℚ) (hu : 0 ≤ u) (rc rv : ℚ → ℚ) (hrc : RelError u rc) (hrv : RelError u rv)
    (data : List Int → Res (Option ℚ)) (val : List Int → ℚ) (ps : List ℚ)
    (hp : ∀ v ∈ ps, 0 ≤ v ∧ v < 2147483647)
    (hx : ∀ v ∈ ps, rc (⌊v⌋ : ℚ) = (⌊v⌋ : ℚ) ∧ rc (Int.fract v) = Int.fract v)
    (hd : ∀ q, Corner ps q → data q = .ok (some (val q))) :
    ∃ r, interpLinearF rc rv data ps = .ok (some r) ∧
      |r - multilinear val ps| ≤
        ((1 + u) ^ (2 * ps.length + 2 ^ ps.length + 1) - 1) * multilinear (fun q => |val q|) ps := by
  have hp0 : ∀ v ∈ ps, 0 ≤ v := fun v hv => (hp v hv).1
  obtain ⟨cf, hcf, hr⟩ := run_rel rc rv data val ps hp hd (fun k x e => Approx u (2 * k) x e e) (by
    intro v hv k x e h
    have ht : ((truncQ v : ℤ) : ℚ) = (⌊v⌋ : ℚ) := by rw [truncQ_nonneg (hp0 v hv)]
    have hb : highF rc v = Int.fract v := by unfold highF; rw [ht, (hx v hv).1]; exact (hx v hv).2
    have ha : lowF rc v = rc (1 - Int.fract v) := by
      unfold lowF; rw [ht, (hx v hv).1]
      show rc (1 - rc (Int.fract v)) = _
      rw [(hx v hv).2]
    rw [ha, hb, ht]
    have f0 := Int.fract_nonneg v
    have f1 := (Int.fract_lt_one v).le
    constructor
    · have h1 : Approx u 1 (rc (1 - Int.fract v)) (1 - Int.fract v) (1 - Int.fract v) :=
        (Approx.refl (by rw [abs_of_nonneg (by linarith)])).rnd hu hrc
      have := (h.mul hu h1).rnd hu hrc
      exact this
    · have h1 : Approx u 0 (Int.fract v) (Int.fract v) (Int.fract v) := Approx.refl (by rw [abs_of_nonneg f0])
      have := ((h.mul hu h1).rnd hu hrc).mono hu (l := 2 * (k + 1)) (by omega)
      exact this) (Approx.refl (by norm_num))
  refine ⟨_, hr, ?_⟩
  have hn : (interpSetup ps).1.length = 2 ^ ps.length := by
    unfold interpSetup; rw [interp_count]; simp
  have hl := interpSetup_length ps
  rw [← wsum_interpSetup val ps hp0, ← wsum_interpSetup (fun q => |val q|) ps hp0]
  have hne := interpSetup_ne ps
  revert hcf hn hne hl
  generalize interpSetup ps = st
  obtain ⟨cs, es⟩ := st
  simp only
  intro hcf hn hl hne
  cases hcf with
  | nil => exact absurd (List.length_eq_zero_iff.1 hl) hne
  | @cons c e cf es hce hcf =>
    match cs, hl with
    | q :: cs, hl =>
      have hl' : cs.length = es.length := by simpa using hl
      have h1 : Approx u (2 * ps.length + 2) (rv (rv (val q) * c)) (val q * e) (|val q| * e) := by
        have := (((Approx.refl (u := u) (le_refl |val q|)).rnd hu hrv).mul hu hce).rnd hu hrv
        rwa [show 0 + 1 + 2 * ps.length + 1 = 2 * ps.length + 2 by omega] at this
      have h2 := foldl_approx hu hrv val (2 * ps.length) cs cf es _ _ _ _ (by rw [hl', hcf.length_eq]) hcf (le_refl _) h1
      have h3 := h2.err
      simp only [List.length_cons] at hn
      rw [show 2 * ps.length + 2 + cs.length = 2 * ps.length + 2 ^ ps.length + 1 by omega] at h3
      simpa [wsum] using h3

example := C132_error ((1 / 2) ^ 24) (by positivity) (roundBits 24) (roundBits 24) (roundBits_error 24) (roundBits_error 24)
  (fun q => .ok (some (10 * (q.headD 0 : ℚ) + (q.getD 1 0 : ℚ)))) (fun q => 10 * (q.headD 0 : ℚ) + (q.getD 1 0 : ℚ)) [3 / 2, 1 / 4]
  (by decide +kernel) (by decide +kernel) (fun _ _ => rfl)

/-- **C132** Interpolation is monotone: larger elements do not give a smaller result. -/
theorem C132_monotone (rc rv : ℚ → ℚ) (hrc : ∀ x, 0 ≤ x → 0 ≤ rc x) (hrv : Monotone rv)
    (data data' : List Int → Res (Option ℚ)) (val val' : List Int → ℚ) (ps : List ℚ)
    (hp : ∀ v ∈ ps, 0 ≤ v ∧ v < 2147483647)
    (hx : ∀ v ∈ ps, rc (⌊v⌋ : ℚ) = (⌊v⌋ : ℚ) ∧ rc (Int.fract v) = Int.fract v)
    (hd : ∀ q, Corner ps q → data q = .ok (some (val q))) (hd' : ∀ q, Corner ps q → data' q = .ok (some (val' q)))
    (hle : ∀ q, Corner ps q → val q ≤ val' q) :
    ∃ r r', interpLinearF rc rv data ps = .ok (some r) ∧ interpLinearF rc rv data' ps = .ok (some r') ∧ r ≤ r' := by
  have hp0 : ∀ v ∈ ps, 0 ≤ v := fun v hv => (hp v hv).1
  obtain ⟨cf, hs, hl, hc0⟩ := weightsF_nonneg rc hrc ps hp hx
  refine ⟨_, _, run_setup rv hp0 hd hs hl, run_setup rv hp0 hd' hs hl, ?_⟩
  have hq : ∀ q ∈ (interpSetup ps).1, val q ≤ val' q := fun q hq => hle q ((corner_iff hp0 q).1 hq)
  have hne := interpSetup_ne ps
  have mul : ∀ (q : List Int) (c : ℚ), val q ≤ val' q → 0 ≤ c → rv (rv (val q) * c) ≤ rv (rv (val' q) * c) :=
    fun q c h1 h2 => hrv (mul_le_mul_of_nonneg_right (hrv h1) h2)
  have key : ∀ (cs : List (List Int)) (cf : List ℚ) (x x' : ℚ), (∀ q ∈ cs, val q ≤ val' q) → (∀ c ∈ cf, 0 ≤ c) → x ≤ x' →
      (List.zipWith (fun q e => rv (rv (val q) * e)) cs cf).foldl (fun a b => rv (a + b)) x ≤
        (List.zipWith (fun q e => rv (rv (val' q) * e)) cs cf).foldl (fun a b => rv (a + b)) x' := by
    intro cs
    induction cs with
    | nil => intro cf x x' _ _ h; simpa using h
    | cons q cs ih =>
      intro cf x x' h1 h2 h
      cases cf with
      | nil => simpa using h
      | cons c cf =>
        simp only [List.zipWith_cons_cons, List.foldl_cons]
        exact ih cf _ _ (fun q hq => h1 q (by simp [hq])) (fun c hc => h2 c (by simp [hc]))
          (hrv (add_le_add h (mul q c (h1 q (by simp)) (h2 c (by simp)))))
  revert hq hne
  generalize (interpSetup ps).1 = cs
  intro hq hne
  match cs, hne with
  | q :: cs, _ =>
    refine key _ _ _ _ (fun q hq' => hq q (by simpa using Or.inr hq')) (fun c hc => hc0 c (List.mem_of_mem_tail hc)) ?_
    refine mul _ _ (hq _ (by simp)) ?_
    cases cf with
    | nil => simp
    | cons c cf => exact hc0 c (by simp)

/-- **C132** Non-negative elements give a non-negative result. -/
theorem C132_sign (rc rv : ℚ → ℚ) (hrc : ∀ x, 0 ≤ x → 0 ≤ rc x) (hrv : ∀ x, 0 ≤ x → 0 ≤ rv x)
    (data : List Int → Res (Option ℚ)) (val : List Int → ℚ) (ps : List ℚ)
    (hp : ∀ v ∈ ps, 0 ≤ v ∧ v < 2147483647)
    (hx : ∀ v ∈ ps, rc (⌊v⌋ : ℚ) = (⌊v⌋ : ℚ) ∧ rc (Int.fract v) = Int.fract v)
    (hd : ∀ q, Corner ps q → data q = .ok (some (val q))) (hn : ∀ q, Corner ps q → 0 ≤ val q) :
    ∃ r, interpLinearF rc rv data ps = .ok (some r) ∧ 0 ≤ r := by
  have hp0 : ∀ v ∈ ps, 0 ≤ v := fun v hv => (hp v hv).1
  obtain ⟨cf, hs, hl, hc0⟩ := weightsF_nonneg rc hrc ps hp hx
  refine ⟨_, run_setup rv hp0 hd hs hl, ?_⟩
  have hq : ∀ q ∈ (interpSetup ps).1, 0 ≤ val q := fun q hq => hn q ((corner_iff hp0 q).1 hq)
  have hne := interpSetup_ne ps
  have key : ∀ (cs : List (List Int)) (cf : List ℚ) (x : ℚ), (∀ q ∈ cs, 0 ≤ val q) → (∀ c ∈ cf, 0 ≤ c) → 0 ≤ x →
      0 ≤ (List.zipWith (fun q e => rv (rv (val q) * e)) cs cf).foldl (fun a b => rv (a + b)) x := by
    intro cs
    induction cs with
    | nil => intro cf x _ _ h; simpa using h
    | cons q cs ih =>
      intro cf x h1 h2 h
      cases cf with
      | nil => simpa using h
      | cons c cf =>
        simp only [List.zipWith_cons_cons, List.foldl_cons]
        refine ih cf _ (fun q hq => h1 q (by simp [hq])) (fun c hc => h2 c (by simp [hc])) (hrv _ (add_nonneg h ?_))
        exact hrv _ (mul_nonneg (hrv _ (h1 q (by simp))) (h2 c (by simp)))
  revert hq hne
  generalize (interpSetup ps).1 = cs
  intro hq hne
  match cs, hne with
  | q :: cs, _ =>
    refine key _ _ _ (fun q hq' => hq q (by simpa using Or.inr hq')) (fun c hc => hc0 c (List.mem_of_mem_tail hc)) ?_
    refine hrv _ (mul_nonneg (hrv _ (hq _ (by simp))) ?_)
    cases cf with
    | nil => simp
    | cons c cf => exact hc0 c (by simp)

example := C132_sign (roundBits 24) (roundBits 24) (fun x hx => roundBits_nonneg _ hx) (fun x hx => roundBits_nonneg _ hx)
  (fun q => .ok (some ((q.headD 0 : ℚ) ^ 2 / 3))) (fun q => (q.headD 0 : ℚ) ^ 2 / 3) [3 / 2, 1 / 4]
  (by decide +kernel) (by decide +kernel) (fun _ _ => rfl) (fun q _ => by positivity)

/-- **C132** Conversions: a coordinate whose integral part, or that plus one, is not an `int` is undefined behaviour, whatever
the container. -/
theorem C132_int_range (rc rv : ℚ → ℚ) (data : List Int → Res (Option ℚ)) (ps : List ℚ) {v : ℚ} (hv : v ∈ ps)
    (h : 2147483647 ≤ v ∨ v ≤ -2147483649) : interpLinearF rc rv data ps = .error .overflow := by
  unfold interpLinearF interpSetupF
  rw [foldF_error rc ps _ (by
    intro h'
    have := h' v hv
    unfold IntRange truncQ at this
    rcases h with h | h
    · rw [if_pos (by linarith)] at this
      have h2 : (2147483647 : ℤ) ≤ ⌊v⌋ := by rw [Int.le_floor]; exact_mod_cast h
      omega
    · rw [if_neg (by linarith)] at this
      have h2 : ⌈v⌉ ≤ (-2147483649 : ℤ) := by rw [Int.ceil_le]; exact_mod_cast h
      omega)]
  rfl

/-- **C132** Binary formats: rounding to the nearest of the numbers with `p` significant bits satisfies what the other theorems
assume, with `u = 2^-p`, and the integral and fractional parts of a coordinate of that type are exact. -/
theorem C132_formats (p : ℕ) (hp : 0 < p) :
    (∀ x, Representable p (roundBits p x)) ∧ (∀ x y, Representable p y → |roundBits p x - x| ≤ |y - x|) ∧
    (∀ x, Representable p x → roundBits p x = x) ∧ RelError ((1 / 2) ^ p) (roundBits p) ∧
    (∀ x, 0 ≤ x → 0 ≤ roundBits p x) ∧ Monotone (roundBits p) ∧
    (∀ v, 0 ≤ v → Representable p v →
      roundBits p (⌊v⌋ : ℚ) = (⌊v⌋ : ℚ) ∧ roundBits p (Int.fract v) = Int.fract v) := by
  refine ⟨roundBits_representable hp, roundBits_nearest hp, fun x => roundBits_fix, roundBits_error p,
    fun x => roundBits_nonneg p, fun _ _ h => roundBits_mono hp h, fun v hv h => ?_⟩
  have := representable_parts hv h
  rw [truncQ_nonneg hv] at this
  exact ⟨roundBits_fix this.1, roundBits_fix this.2⟩

/-- **C132** In binary formats: coordinates with `p` bits, result type with `pv ≥ p` bits (for example `float` and `double`);
elements bounded by `M` in absolute value. -/
theorem C132_binary (p pv : ℕ) (hp : 0 < p) (hpv : p ≤ pv) (data : List Int → Res (Option ℚ)) (val : List Int → ℚ)
    (ps : List ℚ) (M : ℚ) (hc : ∀ v ∈ ps, 0 ≤ v ∧ v < 2147483647 ∧ Representable p v)
    (hd : ∀ q, Corner ps q → data q = .ok (some (val q)) ∧ |val q| ≤ M) :
    ∃ r, interpLinearF (roundBits p) (roundBits pv) data ps = .ok (some r) ∧
      |r - multilinear val ps| ≤ ((1 + (1 / 2) ^ p) ^ (2 * ps.length + 2 ^ ps.length + 1) - 1) * M ∧
      ((∀ q, Corner ps q → 0 ≤ val q) → 0 ≤ r) := by
  have hf := C132_formats p hp
  have hu : (0 : ℚ) ≤ (1 / 2) ^ p := by positivity
  have hrv : RelError ((1 / 2) ^ p) (roundBits pv) := by
    intro x
    refine le_trans (roundBits_error pv x) (mul_le_mul_of_nonneg_right ?_ (abs_nonneg x))
    exact pow_le_pow_of_le_one (by norm_num) (by norm_num) hpv
  have h1 : ∀ v ∈ ps, 0 ≤ v ∧ v < 2147483647 := fun v hv => ⟨(hc v hv).1, (hc v hv).2.1⟩
  have hx : ∀ v ∈ ps, roundBits p (⌊v⌋ : ℚ) = (⌊v⌋ : ℚ) ∧ roundBits p (Int.fract v) = Int.fract v :=
    fun v hv => hf.2.2.2.2.2.2 v (hc v hv).1 (hc v hv).2.2
  obtain ⟨r, hr, he⟩ := C132_error _ hu _ _ hf.2.2.2.1 hrv data val ps h1 hx fun q hq => (hd q hq).1
  refine ⟨r, hr, le_trans he (mul_le_mul_of_nonneg_left ?_ ?_), fun hn => ?_⟩
  · have key : ∀ (ps : List ℚ) (f : List Int → ℚ), (∀ q, Corner ps q → f q ≤ M) → multilinear f ps ≤ M := by
      intro ps
      induction ps with
      | nil => intro f h; exact h [] .nil
      | cons v ps ih =>
        intro f h
        have i1 := ih (fun q => f (⌊v⌋ :: q)) fun q hq => h _ (.cons (.inl rfl) hq)
        have i2 := ih (fun q => f ((⌊v⌋ + 1) :: q)) fun q hq => h _ (.cons (.inr rfl) hq)
        have f0 := Int.fract_nonneg v
        have f1 := (Int.fract_lt_one v).le
        simp only [multilinear]
        have j1 := mul_le_mul_of_nonneg_left i1 (show 0 ≤ 1 - Int.fract v by linarith)
        have j2 := mul_le_mul_of_nonneg_left i2 f0
        linarith
    exact key ps _ fun q hq => (hd q hq).2
  · have := one_le_pow_u hu (2 * ps.length + 2 ^ ps.length + 1)
    linarith
  · obtain ⟨r', hr', h0⟩ := C132_sign _ _ hf.2.2.2.2.1 (fun x => roundBits_nonneg pv) data val ps h1 hx
      (fun q hq => (hd q hq).1) hn
    rw [hr] at hr'
    cases hr'
    exact h0

/-- In floating-point arithmetic the result can leave the range of the elements (compare `C58_bounds_partial`): with `float`
coordinates and elements all equal to 3, the result at the `float` nearest to 0.025 is larger than 3. -/
theorem C132_constant_false : ¬ ∀ (x : ℚ) (ps : List ℚ), (∀ v ∈ ps, 0 ≤ v ∧ v < 1 ∧ roundBits 24 v = v) →
    interpLinearF (roundBits 24) (roundBits 24) (fun _ => .ok (some x)) ps = .ok (some x) := by
  intro h
  exact absurd (h 3 [13421773 / 536870912] (by decide +kernel)) (by decide +kernel)

/-- At a grid point next to an infinite element or a NaN the result is not finite, although the element at that point is. -/
theorem C132_neighbour_false : ¬ ∀ (data : List Int → Res (Option ℚ)) (p : Int) (x : ℚ), 0 ≤ p → p < 8 →
    (∀ q, ∃ y, data q = .ok y) → data [p] = .ok (some x) → roundBits 24 x = x →
    interpLinearF (roundBits 24) (roundBits 24) data [(p : ℚ)] = .ok (some x) := by
  intro h
  have h1 := h (fun q => .ok (if q = [3] then none else some 5)) 2 5 (by decide) (by decide) (fun q => ⟨_, rfl⟩)
    (by decide) (by decide +kernel)
  exact absurd h1 (by decide +kernel)

/-! ## Concrete cases -/

/-- A 4×4 table with the elements `10*i + j`. -/
private def tens (q : List Int) : Res (Option ℚ) := .ok (some (10 * (q.headD 0 : ℚ) + (q.getD 1 0 : ℚ)))

example : interpLinearF (roundBits 24) (roundBits 24) tens [2, 1] = .ok (some 21) := by decide +kernel

example : interpLinearF (roundBits 24) (roundBits 24) tens [3 / 2, 1 / 4] = .ok (some (61 / 4)) := by decide +kernel

/-- `C132_grid_point`. -/
example : interpLinearF (roundBits 24) (roundBits 24) tens (([2, 1] : List Int).map fun (i : Int) => (i : ℚ)) = .ok (some 21) := by
  rw [C132_grid_point (roundBits 24) (roundBits 24) tens (fun q => 10 * (q.headD 0 : ℚ) + (q.getD 1 0 : ℚ)) [2, 1] (by decide +kernel) (by decide +kernel)
    (by decide +kernel) (by decide +kernel) (by decide +kernel) (by decide) (fun _ _ => rfl)]
  decide +kernel

/-- `C132_binary` (and so `C132_error`, `C132_sign`): `float` coordinates 1.5 and 0.25, relative error below `2^-20`. -/
example : ∃ r, interpLinearF (roundBits 24) (roundBits 53) tens [3 / 2, 1 / 4] = .ok (some r) ∧
    |r - multilinear (fun q => 10 * (q.headD 0 : ℚ) + (q.getD 1 0 : ℚ)) [3 / 2, 1 / 4]| ≤ 1 / 2 ^ 20 * 21 ∧ 0 ≤ r := by
  have h := C132_binary 24 53 (by norm_num) (by norm_num) tens (fun q => 10 * (q.headD 0 : ℚ) + (q.getD 1 0 : ℚ)) [3 / 2, 1 / 4]
    21 (by
      intro v hv
      simp only [List.mem_cons, List.not_mem_nil, or_false] at hv
      rcases hv with rfl | rfl
      · exact ⟨by norm_num, by norm_num, 3, -1, by norm_num, by norm_num⟩
      · exact ⟨by norm_num, by norm_num, 1, -2, by norm_num, by norm_num⟩) (by
      intro q hq
      have hc : ∀ q, Corner [3 / 2, 1 / 4] q → q = [1, 0] ∨ q = [1, 1] ∨ q = [2, 0] ∨ q = [2, 1] := by
        intro q hq
        unfold Corner at hq
        cases hq with
        | cons h hq =>
          cases hq with
          | cons h' hq =>
            cases hq
            rw [show ⌊(3 / 2 : ℚ)⌋ = 1 by decide +kernel] at h
            rw [show ⌊(1 / 4 : ℚ)⌋ = 0 by decide +kernel] at h'
            rcases h with rfl | rfl <;> rcases h' with rfl | rfl <;> simp
      refine ⟨rfl, ?_⟩
      rcases hc q hq with rfl | rfl | rfl | rfl <;> decide +kernel)
  obtain ⟨r, h1, h2, h3⟩ := h
  refine ⟨r, h1, le_trans h2 (by norm_num), h3 ?_⟩
  intro q hq
  unfold Corner at hq
  cases hq with
  | cons h hq =>
    cases hq with
    | cons h' hq =>
      cases hq
      rw [show ⌊(3 / 2 : ℚ)⌋ = 1 by decide +kernel] at h
      rw [show ⌊(1 / 4 : ℚ)⌋ = 0 by decide +kernel] at h'
      rcases h with rfl | rfl <;> rcases h' with rfl | rfl <;> norm_num

/-- `C132_monotone`: elements 2 and 3 against elements 3 and 3, at 0.025. -/
example : ∃ r r', interpLinearF (roundBits 24) (roundBits 24) (fun q => .ok (some (2 + q.headD 0 : ℚ))) [13421773 / 536870912] = .ok (some r) ∧
    interpLinearF (roundBits 24) (roundBits 24) (fun _ => .ok (some 3)) [13421773 / 536870912] = .ok (some r') ∧ r ≤ r' := by
  have hf := C132_formats 24 (by norm_num)
  have hfl : ⌊(13421773 / 536870912 : ℚ)⌋ = 0 := by decide +kernel
  refine C132_monotone _ _ hf.2.2.2.2.1 hf.2.2.2.2.2.1 _ _ (fun q => (2 + q.headD 0 : ℚ)) (fun _ => 3) _ ?_ ?_ (fun _ _ => rfl)
    (fun _ _ => rfl) ?_
  · intro v hv
    rw [List.mem_singleton.1 hv]
    constructor <;> norm_num
  · intro v hv
    rw [List.mem_singleton.1 hv]
    exact hf.2.2.2.2.2.2 _ (by norm_num) ⟨13421773, -29, by norm_num, by norm_num⟩
  · intro q hq
    unfold Corner at hq
    cases hq with
    | cons h hq =>
      cases hq
      rw [hfl] at h
      rcases h with rfl | rfl <;> norm_num

/-- `C132_finite`: a NaN at one corner. -/
example : interpLinearF (roundBits 24) (roundBits 24) (fun q => .ok (if q = [2, 1] then none else some 5)) [3 / 2, 0] = .ok none ∧
    interpLinearF (roundBits 24) (roundBits 24) (fun q => .ok (if q = [2, 2] then none else some 5)) [3 / 2, 0] = .ok (some 5) := by
  decide +kernel

/-- `C132_int_range`: 2^31 is a `float`, but not an `int`. -/
example : interpLinearF (roundBits 24) (roundBits 24) tens [0, 2147483648] = .error .overflow :=
  C132_int_range _ _ tens [0, 2147483648] (v := 2147483648) (by simp) (.inl (by norm_num))

/-- `C132_formats`: 0.1 rounded to a `float`. -/
example : roundBits 24 (1 / 10) = 13421773 / 2 ^ 27 := by decide +kernel

/-- An `int` element of more than 24 bits is not returned exactly with `float` coordinates: the hypothesis on the element in
`C132_grid_point` is needed. -/
example : interpLinearF (roundBits 24) (roundBits 24) (fun _ => .ok (some 16777219)) [0] = .ok (some 16777220) := by
  decide +kernel

end Kwk
