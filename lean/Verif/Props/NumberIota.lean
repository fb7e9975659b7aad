import Verif.Lemmas.NumberStores
import Verif.Lemmas.NumberWitnesses
import Verif.Lemmas.Writing
import Verif.Props.NumberStores

/-!
# Property C137: `iota` with floating-point numbers

`value` has a floating-point type with rounding `r`; `value += step` is computed in a type with rounding `rs` (the larger type) and
converted back.  `idx q` is the linear index of the position `q`.
-/

namespace Kwk
open Spec

/-! ## C137

Full property (`C137_statement`): `iota(c, v)` stores `v + k` at the position of linear index `k`, for floating-point elements too.
False: `value++` is rounded, so that it skips or repeats numbers beyond `2^p` (`C137_gap_false`, `C137_stuck`). -/

/-- **C137** (partial) `iota(c, v)` assigns `v + k` at the position of linear index `k` if these numbers have `p` significant bits.
Missing: other numbers (false). -/
theorem C137_iota_partial (md : Mode) (p p' : ℕ) (t : NumType) (ht : IsType p' t) (r : ℚ → ℚ) (hr : Rounds p r) (m : Mem Num)
    (c : Container) (hd : Distinct c) (hv : Valid c m) (idx : List Int → ℕ)
    (hidx : ∀ q, InBox c.shape q → linearIndex md c.shape q = .ok (idx q)) (v : ℚ)
    (h : ∀ k : ℕ, 0 < k → k < (positions c.shape).length → Representable p (v + k)) :
    Assigns t c m (iotaN t r m c v) (fun _ => True) (fun q => .flt r (.num (v + idx q))) := by
  refine assigns_congr (fun _ _ => Iff.rfl) (fun q hq => ?_) (assigns_counted ht hd hv md r (fun x => r (x + 1)) v idx hidx)
  have hlt := idx_lt hq (hidx q hq)
  have := iterate_exact (v := v) (s := 1) (fun x => r (x + 1)) rfl ((positions c.shape).length - 1)
    (fun k h1 h2 => by rw [mul_one]; exact hr.fix _ (h k h1 (by omega))) (idx q) (by omega)
  rw [this, mul_one]

/-- **C137** (partial) `iota(c, v, s)` assigns `v + k * s` if these numbers have `p` significant bits, also in the type of the sum. -/
theorem C137_step_partial (md : Mode) (p ps p' : ℕ) (t : NumType) (ht : IsType p' t) (r rs : ℚ → ℚ) (hr : Rounds p r)
    (hrs : Rounds ps rs) (m : Mem Num) (c : Container) (hd : Distinct c) (hv : Valid c m) (idx : List Int → ℕ)
    (hidx : ∀ q, InBox c.shape q → linearIndex md c.shape q = .ok (idx q)) (v s : ℚ)
    (h : ∀ k : ℕ, 0 < k → k < (positions c.shape).length → Representable p (v + k * s) ∧ Representable ps (v + k * s)) :
    Assigns t c m (iotaStepN t r rs m c v s) (fun _ => True) (fun q => .flt r (.num (v + idx q * s))) := by
  refine assigns_congr (fun _ _ => Iff.rfl) (fun q hq => ?_) (assigns_counted ht hd hv md r (fun x => r (rs (x + s))) v idx hidx)
  have hlt := idx_lt hq (hidx q hq)
  rw [iterate_exact (r := fun x => r (rs x)) (v := v) (s := s) (fun x => r (rs (x + s))) rfl ((positions c.shape).length - 1)
    (fun k h1 h2 => by
      have := h k h1 (by omega)
      show r (rs _) = _
      rw [hrs.fix _ this.2, hr.fix _ this.1]) (idx q) (by omega)]

example := C137_step_partial .checked 24 53 24 (.flt (roundBits 24)) (roundBits_rounds (by decide)) _ _ (roundBits_rounds (by decide))
  (roundBits_rounds (by decide)) exHalves exOut exOut_distinct exHalves_valid (fun q => (2 * q.headD 0 + q.tail.headD 0).toNat)
  (ex_all (by decide)) 1 (1 / 2) (fun k _ hk => by
    have hk : k < 4 := hk
    exact ⟨⟨2 + k, -1, by rw [abs_of_nonneg (by omega)]; omega, by push_cast; rw [zpow_neg_one]; ring⟩,
      ⟨2 + k, -1, by rw [abs_of_nonneg (by omega)]; omega, by push_cast; rw [zpow_neg_one]; ring⟩⟩)

/-- **C137** When this is so: multiples of a power of two that are not too large, e.g. integers up to `2^p`. -/
theorem C137_when (p : ℕ) (hp : 0 < p) (a b e : ℤ) (n : ℕ) (h : ∀ k : ℕ, k < n → |a + k * b| ≤ 2 ^ p) :
    ∀ k : ℕ, k < n → Representable p (a * (2 : ℚ) ^ e + k * (b * (2 : ℚ) ^ e)) := by
  intro k hk
  obtain ⟨m, f, hm, hf⟩ := representable_int hp (h k hk)
  refine ⟨m, f + e, hm, ?_⟩
  rw [zpow_add₀ (by norm_num), ← mul_assoc (m : ℚ), ← hf]
  push_cast
  ring

private theorem error_common (md : Mode) {p : ℕ} {t r nxt : ℚ → ℚ} (ht : Rounds p t) {u : ℚ} (hu : 0 ≤ u) (et : RelError u t)
    (d : ℕ) (s : ℚ) (hn : ∀ k x y Y, Approx u k x y Y → Approx u (k + d) (nxt x) (y + s) (Y + |s|))
    {m : Mem Num} {c : Container} (hd : Distinct c) (hv : Valid c m) (v : ℚ) :
    ∃ m', (do
      let r ← mapCtx (fun o _ (value, m) => do
        let v ← convertN (.flt t) (.flt r (.num value))
        let m ← store m o v
        pure (nxt value, m)) c [] v m
      pure r.2) = .ok m' ∧ SameOutside c m m' ∧
      ∀ q (k : ℕ), InBox c.shape q → linearIndex md c.shape q = .ok k →
        ∃ x, c.get m' q = .ok (.flt t (.num x)) ∧ |x - (v + k * s)| ≤ ((1 + u) ^ (d * k + 1) - 1) * (|v| + k * |s|) := by
  have hap : ∀ k : ℕ, Approx u (d * k) (nxt^[k] v) (v + k * s) (|v| + k * |s|) := by
    intro k
    induction k with
    | zero => simpa using Approx.refl (u := u) (le_refl |v|)
    | succ k ih =>
      rw [Function.iterate_succ_apply', Nat.mul_succ]
      push_cast
      rw [show v + (k + 1) * s = v + k * s + s by ring, show |v| + (k + 1) * |s| = |v| + k * |s| + |s| by ring]
      exact hn _ _ _ _ ih
  have hidx : ∀ q, InBox c.shape q → linearIndex md c.shape q = .ok ((linearize (sfx c.shape) q).toNat : Int) := by
    intro q hq
    rw [linearIndex_ok md hq, Int.toNat_of_nonneg (lin_bounds hq).1]
  obtain ⟨m', h1, h2, h3⟩ := (assigns_counted (p := p) (t := .flt t) ht hd hv md r nxt v _ hidx).1
    (fun q => .flt t (.num (t (nxt^[(linearize (sfx c.shape) q).toNat] v)))) (fun _ _ _ => rfl)
  refine ⟨m', h1, h2, fun q k hq hk => ⟨_, (h3 q hq).1 trivial, ?_⟩⟩
  have e : (linearize (sfx c.shape) q).toNat = k := by
    have := Except.ok.inj ((hidx q hq).symm.trans hk)
    exact_mod_cast this
  rw [e]
  exact ((hap k).rnd hu et).err

/-- **C137** (error) For floating-point elements, the number stored at linear index `k` by `iota(c, v, s)` is `v + k * s` up to the factor
`(1 + u)^(2k+1) - 1` of `|v| + k * |s|`, where `u` bounds the relative error of all roundings. -/
theorem C137_step_error (md : Mode) (p : ℕ) (t r rs : ℚ → ℚ) (ht : Rounds p t) (u : ℚ) (hu : 0 ≤ u) (et : RelError u t)
    (er : RelError u r) (ers : RelError u rs) (m : Mem Num) (c : Container) (hd : Distinct c) (hv : Valid c m) (v s : ℚ) :
    ∃ m', iotaStepN (.flt t) r rs m c v s = .ok m' ∧ SameOutside c m m' ∧
      ∀ q (k : ℕ), InBox c.shape q → linearIndex md c.shape q = .ok k →
        ∃ x, c.get m' q = .ok (.flt t (.num x)) ∧ |x - (v + k * s)| ≤ ((1 + u) ^ (2 * k + 1) - 1) * (|v| + k * |s|) :=
  error_common md ht hu et 2 s (fun k _ _ _ h => step_two hu er ers k _ _ _ _ _ _ h
    ((Approx.refl (u := u) (le_refl |s|)).mono hu (Nat.zero_le _))) hd hv v

/-- **C137** (error) For `iota(c, v)`, which rounds only once per element: up to the factor `(1 + u)^(k+1) - 1` of `|v| + k`. -/
theorem C137_error (md : Mode) (p : ℕ) (t r : ℚ → ℚ) (ht : Rounds p t) (u : ℚ) (hu : 0 ≤ u) (et : RelError u t) (er : RelError u r)
    (m : Mem Num) (c : Container) (hd : Distinct c) (hv : Valid c m) (v : ℚ) :
    ∃ m', iotaN (.flt t) r m c v = .ok m' ∧ SameOutside c m m' ∧
      ∀ q (k : ℕ), InBox c.shape q → linearIndex md c.shape q = .ok k →
        ∃ x, c.get m' q = .ok (.flt t (.num x)) ∧ |x - (v + k)| ≤ ((1 + u) ^ (k + 1) - 1) * (|v| + k) := by
  obtain ⟨m', h1, h2, h3⟩ := error_common md (r := r) (nxt := fun x => r (x + 1)) ht hu et 1 1 (fun _ _ _ _ h =>
    (h.add ((Approx.refl (u := u) (le_refl |(1 : ℚ)|)).mono hu (Nat.zero_le _))).rnd hu er) hd hv v
  refine ⟨m', h1, h2, fun q k hq hk => ?_⟩
  simpa using h3 q k hq hk

example := C137_error .checked 24 _ _ (roundBits_rounds (by decide)) ((1 / 2) ^ 24) (by positivity) (roundBits_error 24) (roundBits_error 24)
  exHalves exOut exOut_distinct exHalves_valid (1 / 3)

private theorem exact_common (md : Mode) {p : ℕ} {r nxt : ℚ → ℚ} (hr : Rounds p r) {m : Mem Num} {c : Container} (hd : Distinct c)
    (hv : Valid c m) (v s : ℚ) (hn : ∀ x, Representable p (x + s) → nxt x = x + s) :
    (∃ m', (do
      let r ← mapCtx (fun o _ (value, m) => do
        let v ← convertN (.flt r) (.flt r (.num value))
        let m ← store m o v
        pure (nxt value, m)) c [] v m
      pure r.2) = .ok m' ∧
      ∀ q (k : ℕ), InBox c.shape q → linearIndex md c.shape q = .ok k → c.get m' q = .ok (.flt r (.num (v + k * s)))) ↔
    ∀ k : ℕ, k < (positions c.shape).length → Representable p (v + k * s) := by
  have hidx : ∀ q, InBox c.shape q → linearIndex md c.shape q = .ok ((linearize (sfx c.shape) q).toNat : Int) := by
    intro q hq
    rw [linearIndex_ok md hq, Int.toNat_of_nonneg (lin_bounds hq).1]
  obtain ⟨m1, h1, -, h3⟩ := (assigns_counted (p := p) (t := .flt r) hr hd hv md r nxt v _ hidx).1
    (fun q => .flt r (.num (r (nxt^[(linearize (sfx c.shape) q).toNat] v)))) (fun _ _ _ => rfl)
  rw [h1]
  constructor
  · rintro ⟨m', h, hall⟩ k hk
    cases h
    have hq : InBox c.shape (positions c.shape)[k] := mem_positions.1 (List.getElem_mem hk)
    obtain ⟨b1, b2⟩ := List.getElem?_eq_some_iff.1 (getElem?_rank hq)
    have e := ((positions_nodup c.shape).getElem_inj_iff (hi := b1) (hj := hk)).1 b2
    have h4 := hall _ k hq (by rw [hidx _ hq, e])
    rw [(h3 _ hq).1 trivial] at h4
    injection h4 with h4
    injection h4 with _ h4
    injection h4 with h4
    rw [← h4]
    exact hr.mem _
  · intro h
    refine ⟨m1, rfl, fun q k hq hk => ?_⟩
    have hlt := idx_lt hq hk
    have e : (linearize (sfx c.shape) q).toNat = k := by
      have := Except.ok.inj ((hidx q hq).symm.trans hk)
      exact_mod_cast this
    have hit : ∀ j ≤ k, nxt^[j] v = v + j * s := by
      intro j
      induction j with
      | zero => intro _; simp
      | succ j ih =>
        intro hj
        have hrep := h (j + 1) (by omega)
        push_cast at hrep ⊢
        rw [show v + (j + 1) * s = v + j * s + s by ring] at hrep ⊢
        rw [Function.iterate_succ_apply', ih (by omega), hn _ hrep]
    rw [(h3 q hq).1 trivial, e, hit k le_rfl, hr.fix _ (h k hlt)]

/-- **C137** (exact, partial) Elements of the type of `v`: `iota(c, v)` stores all `v + k`, and `iota(c, v, s)` all `v + k * s` (added in
this type or a larger one), if and only if these numbers have `p` significant bits. -/
theorem C137_exact_partial (md : Mode) (p ps : ℕ) (hps : p ≤ ps) (r rs : ℚ → ℚ) (hr : Rounds p r) (hrs : Rounds ps rs) (m : Mem Num)
    (c : Container) (hd : Distinct c) (hv : Valid c m) (v s : ℚ) :
    ((∃ m', iotaN (.flt r) r m c v = .ok m' ∧
      ∀ q (k : ℕ), InBox c.shape q → linearIndex md c.shape q = .ok k → c.get m' q = .ok (.flt r (.num (v + k)))) ↔
      ∀ k : ℕ, k < (positions c.shape).length → Representable p (v + k)) ∧
    ((∃ m', iotaStepN (.flt r) r rs m c v s = .ok m' ∧
      ∀ q (k : ℕ), InBox c.shape q → linearIndex md c.shape q = .ok k → c.get m' q = .ok (.flt r (.num (v + k * s)))) ↔
      ∀ k : ℕ, k < (positions c.shape).length → Representable p (v + k * s)) := by
  constructor
  · have := exact_common md (nxt := fun x => r (x + 1)) hr hd hv v 1 (fun x hx => hr.fix _ hx)
    simp only [mul_one] at this
    exact this
  · refine exact_common md (nxt := fun x => r (rs (x + s))) hr hd hv v s (fun x hx => ?_)
    obtain ⟨a, e, ha, hx'⟩ := hx
    have hx2 : Representable ps (x + s) := ⟨a, e, lt_of_lt_of_le ha (pow_le_pow_right₀ (by norm_num) hps), hx'⟩
    rw [hrs.fix _ hx2, hr.fix _ ⟨a, e, ha, hx'⟩]

example := C137_exact_partial .checked 24 53 (by decide) _ _ (roundBits_rounds (by decide)) (roundBits_rounds (by decide)) exHalves exOut
  exOut_distinct exHalves_valid 16777214 (1 / 2)

/-- **C137** (stuck) If `2^p + 1` is rounded to `2^p`, as IEEE 754 does by default, all elements from linear index `2^p` on are `2^p`. -/
theorem C137_stuck (md : Mode) (p : ℕ) (hp : 0 < p) (r : ℚ → ℚ) (hr : Rounds p r) (he : r (2 ^ p + 1) = 2 ^ p) (m : Mem Num)
    (c : Container) (hd : Distinct c) (hv : Valid c m) :
    ∃ m', iotaN (.flt r) r m c 0 = .ok m' ∧ ∀ q (k : ℕ), InBox c.shape q → linearIndex md c.shape q = .ok k →
      c.get m' q = .ok (.flt r (.num (min (k : ℚ) (2 ^ p)))) := by
  have hit : ∀ k : ℕ, (fun x => r (x + 1))^[k] 0 = min (k : ℚ) (2 ^ p) := by
    intro k
    induction k with
    | zero => simp
    | succ k ih =>
      rw [Function.iterate_succ_apply', ih]
      rcases lt_or_ge k (2 ^ p) with hk | hk
      · have h1 : (k : ℚ) + 1 ≤ 2 ^ p := by exact_mod_cast hk
        rw [min_eq_left (by linarith), Nat.cast_succ, min_eq_left h1]
        have := hr.fix _ (representable_int hp (n := (k : ℤ) + 1) (by rw [abs_of_nonneg (by omega)]; exact_mod_cast hk))
        push_cast at this
        exact this
      · have h1 : (2 : ℚ) ^ p ≤ k := by exact_mod_cast hk
        rw [min_eq_right h1, he, min_eq_right (by push_cast; linarith)]
  have hidx : ∀ q, InBox c.shape q → linearIndex md c.shape q = .ok ((linearize (sfx c.shape) q).toNat : Int) := by
    intro q hq
    rw [linearIndex_ok md hq, Int.toNat_of_nonneg (lin_bounds hq).1]
  obtain ⟨m', h1, -, h3⟩ := (assigns_counted (p := p) (t := .flt r) hr hd hv md r (fun x => r (x + 1)) 0 _ hidx).1
    (fun q => .flt r (.num (r ((fun x => r (x + 1))^[(linearize (sfx c.shape) q).toNat] 0)))) (fun _ _ _ => rfl)
  refine ⟨m', h1, fun q k hq hk => ?_⟩
  have e : (linearize (sfx c.shape) q).toNat = k := by
    have := Except.ok.inj ((hidx q hq).symm.trans hk)
    exact_mod_cast this
  rw [(h3 q hq).1 trivial, e, hit]
  congr 3
  apply hr.fix
  rcases le_total (k : ℚ) (2 ^ p) with hk | hk
  · rw [min_eq_left hk]
    have := representable_int hp (n := (k : ℤ)) (by rw [abs_of_nonneg (by omega)]; exact_mod_cast hk)
    exact_mod_cast this
  · rw [min_eq_right hk]
    have := representable_int hp (n := (2 : ℤ) ^ p) (by rw [abs_of_nonneg (by positivity)])
    exact_mod_cast this

/-- **C137** (negation) Whatever the rounding: no floating-point elements hold all numbers up to `2^p + 1`. -/
theorem C137_gap_false (md : Mode) (p : ℕ) (hp : 0 < p) (r : ℚ → ℚ) (hr : Rounds p r) (m : Mem Num) (c : Container) (hd : Distinct c)
    (hv : Valid c m) (hlen : 2 ^ p + 1 < (positions c.shape).length) :
    ∃ m' q, iotaN (.flt r) r m c 0 = .ok m' ∧ InBox c.shape q ∧ linearIndex md c.shape q = .ok (2 ^ p + 1) ∧
      ∃ x, c.get m' q = .ok (.flt r (.num x)) ∧ x ≠ 2 ^ p + 1 := by
  have hidx : ∀ q, InBox c.shape q → linearIndex md c.shape q = .ok ((linearize (sfx c.shape) q).toNat : Int) := by
    intro q hq
    rw [linearIndex_ok md hq, Int.toNat_of_nonneg (lin_bounds hq).1]
  obtain ⟨m', h1, -, h3⟩ := (assigns_counted (p := p) (t := .flt r) hr hd hv md r (fun x => r (x + 1)) 0 _ hidx).1
    (fun q => .flt r (.num (r ((fun x => r (x + 1))^[(linearize (sfx c.shape) q).toNat] 0)))) (fun _ _ _ => rfl)
  have hq : InBox c.shape (positions c.shape)[2 ^ p + 1] := mem_positions.1 (List.getElem_mem hlen)
  refine ⟨m', _, h1, hq, ?_, _, (h3 _ hq).1 trivial, fun e => not_representable hp (e ▸ hr.mem _)⟩
  have h2 := getElem?_rank hq
  obtain ⟨b1, b2⟩ := List.getElem?_eq_some_iff.1 h2
  have := ((positions_nodup c.shape).getElem_inj_iff (hi := b1) (hj := hlen)).1 b2
  rw [hidx _ hq, this]
  push_cast
  rfl

/-- **C137**, full statement. -/
def C137_statement : Prop :=
  ∀ (md : Mode) (p : ℕ) (r : ℚ → ℚ) (m : Mem Num) (c : Container), 0 < p → Rounds p r → Distinct c → Valid c m →
    ∃ m', iotaN (.flt r) r m c 0 = .ok m' ∧ ∀ q (k : ℕ), InBox c.shape q → linearIndex md c.shape q = .ok k →
      c.get m' q = .ok (.flt r (.num k))

/-- **C137** (negation) A `float` table of 16777218 elements. -/
theorem C137_statement_false : ¬ C137_statement := by
  intro H
  have hd : Distinct (Container.ofShape ⟨0, 0⟩ [16777218]) := default_distinct (ofShape_default (show ([16777218] : Shape) ≠ [] by decide))
  have hv : Valid (Container.ofShape ⟨0, 0⟩ [16777218]) (fun _ => some (Num.int ⟨.i32, 0⟩)) := fun q _ => ⟨_, rfl⟩
  have hr : Rounds 24 (roundBits 24) := roundBits_rounds (by decide)
  have hlen : 2 ^ 24 + 1 < (positions (Container.ofShape ⟨0, 0⟩ [16777218]).shape).length := by
    show 2 ^ 24 + 1 < (positions [16777218]).length
    have hq : InBox [16777218] [16777217] := by decide
    have h := idx_lt (md := .unchecked) (k := 16777217) hq (by rw [linearIndex_ok _ hq]; decide)
    simpa using h
  obtain ⟨m1, q, h1, hq, hi, x, hx, hne⟩ := C137_gap_false .unchecked 24 (by decide) _ hr _ _ hd hv hlen
  obtain ⟨m2, h2, h3⟩ := H .unchecked 24 _ _ _ (by decide) hr hd hv
  rw [h1] at h2
  cases h2
  have := h3 q (2 ^ 24 + 1) hq (by rw [hi]; rfl)
  rw [hx] at this
  injection this with this
  injection this with _ this
  injection this with this
  exact hne (by rw [this]; norm_num)

/-! Examples: a `float` table of four elements from `1/2`, and numbers of two significant bits (ties go up: 5 becomes 6). -/

private def cells : Mem Num := fun _ => some (.int ⟨.i32, 0⟩)

/-- Which elements are the number `n` after the run. -/
private def areNum (run : Res (Mem Num)) (c : Container) (n : Int) : Res (List Bool) := do
  let m ← run
  let l ← (positions c.shape).mapM fun q => c.get m q
  pure (l.map fun (e : Num) => eqN e (.int ⟨.i32, n⟩))

example : areNum (iotaN (.flt (roundBits 2)) (roundBits 2) cells (.ofShape ⟨0, 0⟩ [6]) 0) (.ofShape ⟨0, 0⟩ [6]) 4 =
      .ok [false, false, false, false, true, false] ∧
    areNum (iotaN (.flt (roundBits 2)) (roundBits 2) cells (.ofShape ⟨0, 0⟩ [6]) 0) (.ofShape ⟨0, 0⟩ [6]) 6 =
      .ok [false, false, false, false, false, true] ∧
    areNum (iotaStepN (.int .i32) (roundBits 24) (roundBits 53) cells (.ofShape ⟨0, 0⟩ [2, 2]) (-1) (1/2)) (.ofShape ⟨0, 0⟩ [2, 2]) 0 =
      .ok [false, true, true, true] := by
  refine ⟨by decide +kernel, by decide +kernel, by decide +kernel⟩

example : ∃ m', iotaN (.flt (roundBits 24)) (roundBits 24) cells (.ofShape ⟨0, 0⟩ [2, 2]) (1/2) = .ok m' ∧
    (Container.ofShape ⟨0, 0⟩ [2, 2]).get m' [1, 0] = .ok (.flt (roundBits 24) (.num (5/2))) := by
  have hr : Rounds 24 (roundBits 24) := roundBits_rounds (by decide)
  have hidx : ∀ q, InBox [2, 2] q → linearIndex .checked [2, 2] q = .ok ((linearize (sfx [2, 2]) q).toNat : Int) := by
    intro q hq
    rw [linearIndex_ok _ hq, Int.toNat_of_nonneg (lin_bounds hq).1]
  have hw := C137_when 24 (by decide) 1 2 (-1) 4 (fun k hk => by
    rw [abs_of_nonneg (by positivity)]; norm_num; omega)
  have hw' : ∀ k : ℕ, k < 4 → Representable 24 (1 / 2 + (k : ℚ)) := by
    intro k hk
    have := hw k hk
    norm_num at this
    convert this using 1
  obtain ⟨m', h1, -, h3⟩ := (C137_iota_partial .checked 24 24 (.flt (roundBits 24)) hr _ hr cells (.ofShape ⟨0, 0⟩ [2, 2])
    (default_distinct (ofShape_default (show ([2, 2] : Shape) ≠ [] by decide))) (fun _ _ => ⟨_, rfl⟩) _ hidx (1/2)
    (fun k _ hk => hw' k hk)).1
    (fun q => .flt (roundBits 24) (.num (roundBits 24 (1 / 2 + ((linearize (sfx [2, 2]) q).toNat : ℚ))))) (fun _ _ _ => rfl)
  refine ⟨m', h1, ?_⟩
  rw [(h3 [1, 0] (by decide)).1 trivial, hr.fix]
  · rw [show (linearize (sfx [2, 2]) [1, 0]).toNat = 2 by decide]; norm_num
  · exact hw' _ (by decide)

/-- Adding `0.1f` 99 times. -/
example : ∃ m' x, iotaStepN (.flt (roundBits 24)) (roundBits 24) (roundBits 24) cells (.ofShape ⟨0, 0⟩ [100]) 0 (roundBits 24 (1/10)) =
      .ok m' ∧ (Container.ofShape ⟨0, 0⟩ [100]).get m' [99] = .ok (.flt (roundBits 24) (.num x)) ∧
      |x - 99 * roundBits 24 (1/10)| ≤ ((1 + (1/2) ^ 24) ^ 199 - 1) * (99 * |roundBits 24 (1/10)|) := by
  have h : RelError ((1/2) ^ 24) (roundBits 24) := roundBits_error 24
  obtain ⟨m', h1, -, h3⟩ := C137_step_error .checked 24 _ _ _ (roundBits_rounds (by decide)) _ (by norm_num) h h h cells (.ofShape ⟨0, 0⟩ [100])
    (default_distinct (ofShape_default (show ([100] : Shape) ≠ [] by decide))) (fun _ _ => ⟨_, rfl⟩) 0 (roundBits 24 (1/10))
  obtain ⟨x, h4, h5⟩ := h3 [99] 99 (by decide) (by decide)
  refine ⟨m', x, h1, h4, ?_⟩
  simp only [zero_add, abs_zero] at h5
  exact h5

/-- Rounding to two significant bits, ties go down: from 4 on, nothing changes. -/
example : ∃ r m', Rounds 2 r ∧ iotaN (.flt r) r cells (.ofShape ⟨0, 0⟩ [7]) 0 = .ok m' ∧
    (Container.ofShape ⟨0, 0⟩ [7]).get m' [3] = .ok (.flt r (.num 3)) ∧ (Container.ofShape ⟨0, 0⟩ [7]).get m' [6] = .ok (.flt r (.num 4)) := by
  have h0 : Rounds 2 (roundBits 2) := roundBits_rounds (by decide)
  have hneg : ∀ x, Representable 2 x → Representable 2 (-x) := by
    rintro x ⟨m, e, hm, rfl⟩
    exact ⟨-m, e, by rwa [abs_neg], by push_cast; ring⟩
  have hr : Rounds 2 (fun x => -roundBits 2 (-x)) :=
    ⟨fun x => hneg _ (h0.mem _), fun x hx => by rw [h0.fix _ (hneg x hx), neg_neg],
      fun x y h => neg_le_neg (h0.mono (neg_le_neg h))⟩
  obtain ⟨m', h1, h2⟩ := C137_stuck .checked 2 (by decide) _ hr (by decide +kernel) cells (.ofShape ⟨0, 0⟩ [7])
    (default_distinct (ofShape_default (show ([7] : Shape) ≠ [] by decide))) (fun _ _ => ⟨_, rfl⟩)
  refine ⟨_, m', hr, h1, ?_, ?_⟩
  · rw [h2 [3] 3 (by decide) (by decide)]; norm_num
  · rw [h2 [6] 6 (by decide) (by decide)]; norm_num

end Kwk
