import Verif.Lemmas.TypedSearch
import Verif.Lemmas.RoundBits
import Verif.Lemmas.Rank
import Verif.Spec.Mirror
import Verif.Spec.Numbers

/-! # Helper lemmas about comparing and converting numbers -/

namespace Kwk
open Spec

variable {p p' : ℕ} {t t' : NumType} {v : Num}

theorem sameNumber_num {r r' : ℚ → ℚ} {x y : ℚ} : SameNumber (.flt r (.num x)) (.flt r' (.num y)) ↔ x = y := by
  simp [SameNumber, number, eq_comm]

theorem sameNumber_int_num {c : Coord} {r : ℚ → ℚ} {y : ℚ} : SameNumber (.int c) (.flt r (.num y)) ↔ (c.value : ℚ) = y := by
  simp [SameNumber, number, eq_comm]

theorem sameNumber_num_int {c : Coord} {r : ℚ → ℚ} {x : ℚ} : SameNumber (.flt r (.num x)) (.int c) ↔ x = c.value := by
  simp [SameNumber, number, eq_comm]

theorem sameNumber_int {c d : Coord} : SameNumber (.int c) (.int d) ↔ c.value = d.value := by
  simp [SameNumber, number, eq_comm]

theorem sameNumber_symm {a b : Num} (h : SameNumber a b) : SameNumber b a := by
  obtain ⟨x, h1, h2⟩ := h; exact ⟨x, h2, h1⟩

theorem sameNumber_comm {a b : Num} : SameNumber a b ↔ SameNumber b a := ⟨sameNumber_symm, sameNumber_symm⟩

theorem eqF_iff (r r' : ℚ → ℚ) (x y : FVal) : eqF x y = true ↔ SameNumber (.flt r x) (.flt r' y) := by
  cases x <;> cases y <;> simp [eqF, SameNumber, number, eq_comm]

theorem ltF_iff (r r' : ℚ → ℚ) (x y : FVal) : ltF x y = true ↔ Below (.flt r x) (.flt r' y) := by
  have h : ∀ q : ℚ, ((q : WithTop ℚ) : WithBot (WithTop ℚ)) < ((⊤ : WithTop ℚ) : WithBot (WithTop ℚ)) :=
    fun q => WithBot.coe_lt_coe.2 (WithTop.coe_lt_top q)
  cases x <;> cases y <;> simp [ltF, Below, number, WithBot.coe_lt_coe, WithTop.coe_lt_coe]
  exact h _

/-- Equality of numbers is equality of values for all elements exactly when `EqualsNumber` says so. -/
theorem eqN_exact (ht : IsType p t) (ht' : IsType p' t') (hv : OfType p' t' v) :
    (∀ e, OfType p t e → (eqN e v = true ↔ SameNumber e v)) ↔ EqualsNumber t v := by
  cases v with
  | int c =>
    cases t' with
    | flt r => exact hv.elim
    | int u =>
      obtain ⟨hu, hf⟩ := hv
      subst hu
      cases t with
      | int t =>
        have hc : IsCommonType t c.type (t.common c.type) := t.common_isCommon c.type
        have key := eqT_exact (v := c) ht ht' hf hc
        constructor
        · intro h
          refine ⟨_, hc, key.1 fun e he => ?_⟩
          exact (h (.int ⟨t, e⟩) ⟨rfl, he⟩).trans sameNumber_int
        · rintro ⟨c', hc', hq⟩ e he
          have := isCommon_eq hc'
          subst this
          cases e with
          | flt r x => exact he.elim
          | int d =>
            obtain ⟨h1, h2⟩ := he
            cases d with
            | mk dt dv =>
              simp only at h1 h2
              subst h1
              exact (key.2 hq dv h2).trans (sameNumber_int (c := ⟨dt, dv⟩) (d := c)).symm
      | flt r =>
        constructor
        · intro h
          exact sameNumber_num_int.1 ((h (.flt r (.num (r c.value))) ⟨rfl, ht.mem _⟩).1 (by simp [eqN, eqF]))
        · intro hq e he
          cases e with
          | int d => exact he.elim
          | flt r' x =>
            have hr : r' = r := by cases x <;> first | exact he.1 | exact he
            subst hr
            have hq : r' c.value = c.value := hq
            rw [eqN, hq, eqF_iff r' r']
            simp only [SameNumber, number]
  | flt r y =>
    cases t' with
    | int u => exact hv.elim
    | flt r2 =>
      have hr : r = r2 := by cases y <;> first | exact hv.1 | exact hv
      subst hr
      cases t with
      | int t =>
        cases y with
        | num q =>
          have hrq : r q = q := Rounds.fix ht' q hv.2
          constructor
          · intro h e he heq
            exact sameNumber_int_num.1 ((h (.int ⟨t, e⟩) ⟨rfl, he⟩).1 (by simp [eqN, eqF, heq]))
          · intro h e he
            cases e with
            | flt r x => exact he.elim
            | int d =>
              obtain ⟨h1, h2⟩ := he
              cases d with
              | mk dt dv =>
                simp only at h1 h2
                subst h1
                rw [sameNumber_int_num]
                simp only [eqN, eqF, decide_eq_true_eq]
                exact ⟨fun g => h dv h2 g, fun g => by rw [g, hrq]⟩
        | _ =>
          refine iff_of_true (fun e he => ?_) trivial
          cases e with
          | flt r x => exact he.elim
          | int d => simp [eqN, eqF, SameNumber, number]
      | flt r3 =>
        refine iff_of_true (fun e he => ?_) (by cases y <;> trivial)
        cases e with
        | int d => exact he.elim
        | flt r4 x => exact eqF_iff r4 r x y

theorem below_num {r r' : ℚ → ℚ} {x y : ℚ} : Below (.flt r (.num x)) (.flt r' (.num y)) ↔ x < y := by
  simp [Below, number, WithBot.coe_lt_coe, WithTop.coe_lt_coe]

theorem below_int_num {c : Coord} {r : ℚ → ℚ} {y : ℚ} : Below (.int c) (.flt r (.num y)) ↔ (c.value : ℚ) < y := by
  simp [Below, number, WithBot.coe_lt_coe, WithTop.coe_lt_coe]

theorem below_num_int {c : Coord} {r : ℚ → ℚ} {x : ℚ} : Below (.flt r (.num x)) (.int c) ↔ x < c.value := by
  simp [Below, number, WithBot.coe_lt_coe, WithTop.coe_lt_coe]

theorem below_int {c d : Coord} : Below (.int c) (.int d) ↔ c.value < d.value := by
  simp [Below, number, WithBot.coe_lt_coe, WithTop.coe_lt_coe]

/-- A rounded number compares with a representable one as the number itself, unless it is rounded to it. -/
theorem rounds_lt {r : ℚ → ℚ} (hr : Rounds p r) {x q : ℚ} (hq : Representable p q) (h : r x = q → x = q) :
    (r x < q ↔ x < q) ∧ (q < r x ↔ q < x) := by
  have hf := hr.fix q hq
  constructor
  · constructor
    · intro hlt
      by_contra hc
      have := hr.mono (not_lt.1 hc)
      rw [hf] at this
      exact absurd hlt (not_lt.2 this)
    · intro hlt
      have := hr.mono hlt.le
      rw [hf] at this
      exact lt_of_le_of_ne this fun e => hlt.ne (h e)
  · constructor
    · intro hlt
      by_contra hc
      have := hr.mono (not_lt.1 hc)
      rw [hf] at this
      exact absurd hlt (not_lt.2 this)
    · intro hlt
      have := hr.mono hlt.le
      rw [hf] at this
      exact lt_of_le_of_ne this fun e => hlt.ne (h e.symm).symm

/-- Numbers are ordered by value for all elements exactly when `OrdersNumber` says so. -/
theorem ltN_exact (ht : IsType p t) (ht' : IsType p' t') (hv : OfType p' t' v) :
    (∀ e, OfType p t e → ((ltN e v = true ↔ Below e v) ∧ (ltN v e = true ↔ Below v e))) ↔ OrdersNumber t v := by
  cases v with
  | int c =>
    cases t' with
    | flt r => exact hv.elim
    | int u =>
      obtain ⟨hu, hf⟩ := hv
      subst hu
      cases t with
      | int t =>
        have hc : IsCommonType t c.type (t.common c.type) := t.common_isCommon c.type
        have key := ltT_exact (v := c) ht ht' hf hc
        constructor
        · intro h
          refine ⟨_, hc, key.1 fun e he => ?_⟩
          have := h (.int ⟨t, e⟩) ⟨rfl, he⟩
          exact ⟨this.1.trans below_int, this.2.trans below_int⟩
        · rintro ⟨c', hc', hq⟩ e he
          have := isCommon_eq hc'
          subst this
          cases e with
          | flt r x => exact he.elim
          | int d =>
            obtain ⟨h1, h2⟩ := he
            cases d with
            | mk dt dv =>
              simp only at h1 h2
              subst h1
              have := key.2 hq dv h2
              exact ⟨this.1.trans (below_int (c := ⟨dt, dv⟩) (d := c)).symm,
                this.2.trans (below_int (c := c) (d := ⟨dt, dv⟩)).symm⟩
      | flt r =>
        constructor
        · intro h
          have h1 := h (.flt r (.num (r c.value))) ⟨rfl, ht.mem _⟩
          rw [below_num_int] at h1
          have e1 : ¬ r c.value < c.value := fun g => by simpa [ltN, ltF] using h1.1.2 g
          have e2 : ¬ (c.value : ℚ) < r c.value := fun g => by
            have := h1.2.2 (below_int_num.2 g)
            simp [ltN, ltF] at this
          exact le_antisymm (not_lt.1 e2) (not_lt.1 e1)
        · intro hq e he
          cases e with
          | int d => exact he.elim
          | flt r' x =>
            have hr : r' = r := by cases x <;> first | exact he.1 | exact he
            subst hr
            have hq : r' c.value = c.value := hq
            rw [ltN, ltN, hq, ltF_iff r' r', ltF_iff r' r']
            simp only [Below, number, and_self]
  | flt r y =>
    cases t' with
    | int u => exact hv.elim
    | flt r2 =>
      have hr : r = r2 := by cases y <;> first | exact hv.1 | exact hv
      subst hr
      cases t with
      | int t =>
        cases y with
        | num q =>
          constructor
          · intro h e he heq
            have h1 := h (.int ⟨t, e⟩) ⟨rfl, he⟩
            rw [below_int_num] at h1
            have e1 : ¬ (e : ℚ) < q := fun g => by simpa [ltN, ltF, heq] using h1.1.2 g
            have e2 : ¬ q < (e : ℚ) := fun g => by
              have := h1.2.2 (below_num_int.2 g)
              simp [ltN, ltF, heq] at this
            exact le_antisymm (not_lt.1 e2) (not_lt.1 e1)
          · intro h e he
            cases e with
            | flt r x => exact he.elim
            | int d =>
              obtain ⟨h1, h2⟩ := he
              cases d with
              | mk dt dv =>
                simp only at h1 h2
                subst h1
                rw [below_int_num, below_num_int]
                simp only [ltN, ltF, decide_eq_true_eq]
                exact rounds_lt ht' hv.2 (h dv h2)
        | _ =>
          refine iff_of_true (fun e he => ?_) trivial
          cases e with
          | flt r x => exact he.elim
          | int d =>
            have h : ((((d.value : ℚ) : WithTop ℚ) : WithBot (WithTop ℚ)) < ((⊤ : WithTop ℚ) : WithBot (WithTop ℚ))) :=
              WithBot.coe_lt_coe.2 (WithTop.coe_lt_top _)
            simp [ltN, ltF, Below, number] <;> exact h
      | flt r3 =>
        refine iff_of_true (fun e he => ?_) (by cases y <;> trivial)
        cases e with
        | int d => exact he.elim
        | flt r4 x => exact ⟨ltF_iff r4 r x y, ltF_iff r r4 y x⟩

theorem representable_int (hp : 0 < p) {n : ℤ} (h : |n| ≤ 2 ^ p) : Representable p n := by
  rcases h.lt_or_eq with h | h
  · exact ⟨n, 0, h, by simp⟩
  · refine ⟨n.sign, p, ?_, ?_⟩
    · refine lt_of_le_of_lt (b := 1) ?_ (one_lt_pow₀ (by norm_num) hp.ne')
      rcases Int.sign_trichotomy n with h | h | h <;> rw [h] <;> norm_num
    · have := Int.sign_mul_abs n
      rw [h] at this
      rw [zpow_natCast]
      exact_mod_cast this.symm

theorem not_representable (hp : 0 < p) : ¬ Representable p ((2 : ℚ) ^ p + 1) := by
  rintro ⟨m, e, hm, he⟩
  rcases lt_or_ge 0 e with h | h
  · obtain ⟨k, rfl⟩ := Int.eq_ofNat_of_zero_le h.le
    have h2 : (2 ^ p + 1 : ℤ) = m * 2 ^ k := by
      rw [zpow_natCast] at he
      exact_mod_cast he
    obtain ⟨a, rfl⟩ : ∃ a, p = a + 1 := ⟨p - 1, by omega⟩
    obtain ⟨b, rfl⟩ : ∃ b, k = b + 1 := ⟨k - 1, by simp at h; omega⟩
    rw [pow_succ, pow_succ, ← mul_assoc] at h2
    omega
  · obtain ⟨k, hk⟩ := Int.eq_ofNat_of_zero_le (neg_nonneg.2 h)
    have h2 : (2 ^ p + 1 : ℤ) * 2 ^ k = m := by
      have : ((2 : ℚ) ^ p + 1) * 2 ^ (-e) = m := by
        rw [he, mul_assoc, ← zpow_add₀ (by norm_num)]; simp
      rw [hk, zpow_natCast] at this
      exact_mod_cast this
    have h3 : (1 : ℤ) ≤ 2 ^ k := one_le_pow₀ (by norm_num)
    have h4 : (0 : ℤ) < 2 ^ p := by positivity
    rw [← h2, abs_of_pos (by positivity)] at hm
    nlinarith

/-- A number below `2^p` is the rounding of no integer but itself. -/
theorem rounds_int (hp : 0 < p) {r : ℚ → ℚ} (hr : Rounds p r) {q : ℚ} (hq : |q| < 2 ^ p) (e : ℤ) (h : r e = q) : (e : ℚ) = q := by
  by_cases he : |e| ≤ 2 ^ p
  · rw [← h, hr.fix e (representable_int hp he)]
  · exfalso
    rw [not_le] at he
    rcases abs_cases e with ⟨h1, h2⟩ | ⟨h1, h2⟩
    · have h3 : ((2 ^ p : ℤ) : ℚ) ≤ e := by exact_mod_cast (h1 ▸ he).le
      have := hr.mono h3
      rw [hr.fix _ (representable_int hp (by rw [abs_of_pos (by positivity)])), h] at this
      push_cast at this
      exact absurd (lt_of_le_of_lt (le_abs_self q) hq) (not_lt.2 this)
    · have h4 : e ≤ -(2 ^ p) := by rw [h1] at he; linarith
      have h3 : (e : ℚ) ≤ ((-(2 ^ p) : ℤ) : ℚ) := by exact_mod_cast h4
      have := hr.mono h3
      rw [hr.fix ((-(2 ^ p) : ℤ) : ℚ) (representable_int hp (by rw [abs_neg, abs_of_pos (by positivity)])), h] at this
      push_cast at this
      have := lt_of_le_of_lt (neg_le_abs q) hq
      linarith

theorem roundBits_rounds (hp : 0 < p) : Rounds p (roundBits p) :=
  ⟨roundBits_representable hp, fun _ h => roundBits_fix h, fun _ _ h => roundBits_mono hp h⟩

theorem isFirst_congr {s : List Int} {P Q : List Int → Prop} {r : Option (List Int)} (h : ∀ q, InBox s q → (P q ↔ Q q))
    (hr : IsFirst s P r) : IsFirst s Q r := by
  refine ⟨?_, fun q => ?_⟩
  · rw [hr.1]
    exact ⟨fun g q hq e => g q hq ((h q hq).2 e), fun g q hq e => g q hq ((h q hq).1 e)⟩
  · rw [hr.2 q]
    exact ⟨fun ⟨g1, g2, g3⟩ => ⟨g1, (h q g1).1 g2, fun w hw hlt e => g3 w hw hlt ((h w hw).2 e)⟩,
      fun ⟨g1, g2, g3⟩ => ⟨g1, (h q g1).2 g2, fun w hw hlt e => g3 w hw hlt ((h w hw).1 e)⟩⟩

theorem isLast_congr {s : List Int} {P Q : List Int → Prop} {r : Option (List Int)} (h : ∀ q, InBox s q → (P q ↔ Q q))
    (hr : IsLast s P r) : IsLast s Q r := by
  refine ⟨?_, fun q => ?_⟩
  · rw [hr.1]
    exact ⟨fun g q hq e => g q hq ((h q hq).2 e), fun g q hq e => g q hq ((h q hq).1 e)⟩
  · rw [hr.2 q]
    exact ⟨fun ⟨g1, g2, g3⟩ => ⟨g1, (h q g1).1 g2, fun w hw hlt e => g3 w hw hlt ((h w hw).2 e)⟩,
      fun ⟨g1, g2, g3⟩ => ⟨g1, (h q g1).2 g2, fun w hw hlt e => g3 w hw hlt ((h w hw).1 e)⟩⟩

theorem eqF_comm (x y : FVal) : eqF x y = eqF y x := by
  cases x <;> cases y <;> simp [eqF, eq_comm]

theorem eqN_comm (a b : Num) : eqN a b = eqN b a := by
  cases a with
  | int a =>
    cases b with
    | int b =>
      unfold eqN eqT
      simp only [IntType.common_comm a.type b.type]
      exact decide_eq_decide.2 eq_comm
    | flt r y => exact eqF_comm _ _
  | flt r x =>
    cases b with
    | int b => exact eqF_comm _ _
    | flt r y => exact eqF_comm _ _

theorem eqF_nan (x : FVal) : eqF .nan x = false := by cases x <;> rfl

theorem eqN_nan_left {a b : Num} (h : IsNaN a) : eqN a b = false := by
  cases a with
  | int a => simp [IsNaN, number] at h
  | flt r x =>
    cases x with
    | nan =>
      cases b with
      | int b => rfl
      | flt r y => exact eqF_nan y
    | _ => simp [IsNaN, number] at h

theorem eqN_nan_right {a b : Num} (h : IsNaN b) : eqN a b = false := by rw [eqN_comm, eqN_nan_left h]

theorem inBox_one {q : List Int} (h : InBox [1] q) : q = [0] := by
  cases q with
  | nil => simp [InBox] at h
  | cons i q =>
    cases q with
    | nil =>
      simp [InBox] at h
      rw [show i = 0 by omega]
    | cons j q => simp [InBox] at h

theorem positions_single : positions [1] = [[0]] := by decide +kernel

theorem below_not_nan_left {a b : Num} (h : Below a b) : ¬ IsNaN a := by
  obtain ⟨x, y, h1, _⟩ := h
  simp [IsNaN, h1]

theorem below_not_nan_right {a b : Num} (h : Below a b) : ¬ IsNaN b := by
  obtain ⟨x, y, _, h1, _⟩ := h
  simp [IsNaN, h1]

theorem not_nan {a : Num} (h : ¬ IsNaN a) : ∃ x, number a = some x := Option.ne_none_iff_exists'.1 h

theorem not_below_iff {a b : Num} {x y : WithBot (WithTop ℚ)} (ha : number a = some x) (hb : number b = some y) :
    Below a b ↔ x < y := by
  constructor
  · rintro ⟨x', y', h1, h2, h3⟩
    rw [ha] at h1; rw [hb] at h2
    cases h1; cases h2; exact h3
  · exact fun h => ⟨x, y, ha, hb, h⟩

theorem not_below_trans {a b c : Num} (ha : ¬ IsNaN a) (h : ¬ Below b a) (hb : Below b c) : Below a c := by
  obtain ⟨x, hx⟩ := not_nan ha
  obtain ⟨y, z, hy, hz, hlt⟩ := hb
  rw [not_below_iff hy hx, not_lt] at h
  exact ⟨x, z, hx, hz, lt_of_le_of_lt h hlt⟩

theorem below_not_below_trans {a b c : Num} (h : Below a b) (hc : ¬ IsNaN c) (hb : ¬ Below c b) : Below a c := by
  obtain ⟨z, hz⟩ := not_nan hc
  obtain ⟨x, y, hx, hy, hlt⟩ := h
  rw [not_below_iff hz hy, not_lt] at hb
  exact ⟨x, z, hx, hz, lt_of_lt_of_le hlt hb⟩

theorem not_below_same {a b : Num} (h : Below a b) (e : SameNumber a b) : False := by
  obtain ⟨x, hx, hx'⟩ := e
  rw [not_below_iff hx hx'] at h
  exact lt_irrefl _ h

theorem not_below_self {a : Num} (h : Below a a) : False := by
  obtain ⟨x, hx⟩ := not_nan (below_not_nan_left h)
  rw [not_below_iff hx hx] at h
  exact lt_irrefl _ h

theorem same_of_not_below {a b : Num} (ha : ¬ IsNaN a) (hb : ¬ IsNaN b) (h : ¬ Below a b) (h' : ¬ Below b a) : SameNumber a b := by
  obtain ⟨x, hx⟩ := not_nan ha
  obtain ⟨y, hy⟩ := not_nan hb
  rw [not_below_iff hx hy, not_lt] at h
  rw [not_below_iff hy hx, not_lt] at h'
  exact ⟨x, hx, by rw [hy, le_antisymm h h']⟩

theorem same_below {a b c : Num} (h : SameNumber a b) (hb : Below b c) : Below a c := by
  obtain ⟨x, hx, hx'⟩ := h
  obtain ⟨y, z, hy, hz, hlt⟩ := hb
  rw [hx'] at hy
  cases hy
  exact ⟨x, z, hx, hz, hlt⟩

theorem ltF_nan (x : FVal) : ltF .nan x = false := by cases x <;> rfl

theorem ltF_nan' (x : FVal) : ltF x .nan = false := by cases x <;> rfl

theorem ltN_nan_left {a b : Num} (h : IsNaN a) : ltN a b = false := by
  cases a with
  | int a => simp [IsNaN, number] at h
  | flt r x =>
    cases x with
    | nan =>
      cases b with
      | int b => rfl
      | flt r y => exact ltF_nan y
    | _ => simp [IsNaN, number] at h

theorem ltN_nan_right {a b : Num} (h : IsNaN b) : ltN a b = false := by
  cases b with
  | int a => simp [IsNaN, number] at h
  | flt r x =>
    cases x with
    | nan =>
      cases a with
      | int b => rfl
      | flt r y => exact ltF_nan' y
    | _ => simp [IsNaN, number] at h

end Kwk
