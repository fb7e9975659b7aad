import Verif.Lemmas.Typed
import Verif.Lemmas.Common

/-!
# Dot products and additions of C++ integers, with their failures
-/

namespace Kwk
open Spec

theorem dotStep_signed {t1 t2 : IntType} {acc e1 e2 : Int} (hs : (t1.common t2).signed = true) (h1 : t1.Fits e1)
    (h2 : t2.Fits e2) (ha : (t1.common t2).Fits acc) :
    dotStep t1 t2 acc e1 e2 =
      if (t1.common t2).Fits (e1 * e2) ∧ (t1.common t2).Fits (acc + e1 * e2) then .ok (acc + e1 * e2) else .error .overflow := by
  have hb : 32 ≤ (t1.common t2).bits := by have := (IntType.common_isCommon t1 t2).1; omega
  unfold dotStep dotStepTo constMul constOp
  simp only [IntType.wrap_fits (IntType.common_fits h1 hs), IntType.wrap_fits (IntType.common_fits_right h2 hs), IntType.op,
    if_pos hs, dotType_eq]
  by_cases hf : (t1.common t2).Fits (e1 * e2)
  · rw [if_pos hf]
    simp only [pure, Except.pure, bind, Except.bind, hf, true_and]
    exact addTo_signed hb hs ha hf
  · rw [if_neg hf]
    simp only [hf, false_and, if_false]
    rfl

/-- A loop that stops at the first term or sum that does not fit. -/
theorem foldlM_dot_overflow {P : Type} {t : IntType} (val : P → Int) (step : Int → P → Res Int) (l : List P) (init : Int)
    (hi : t.Fits init)
    (hstep : ∀ p ∈ l, ∀ a, t.Fits a →
      step a p = if t.Fits (val p) ∧ t.Fits (a + val p) then .ok (a + val p) else .error .overflow)
    (h : ¬ ((∀ p ∈ l, t.Fits (val p)) ∧ ∀ k ≤ l.length, t.Fits (init + ((l.map val).take k).sum))) :
    l.foldlM step init = .error .overflow := by
  induction l generalizing init with
  | nil => exact absurd (by simpa using hi) h
  | cons p l ih =>
    rw [List.foldlM_cons, hstep p (by simp) init hi]
    by_cases hs : t.Fits (val p) ∧ t.Fits (init + val p)
    · rw [if_pos hs]
      refine ih _ hs.2 (fun q hq => hstep q (by simp [hq])) fun hn => h ⟨?_, ?_⟩
      · intro q hq
        rcases List.mem_cons.1 hq with rfl | hq
        · exact hs.1
        · exact hn.1 q hq
      · intro k hk
        cases k with
        | zero => simpa using hi
        | succ k =>
          have := hn.2 k (by simpa using hk)
          simpa [add_assoc] using this
    · rw [if_neg hs]; rfl

theorem dotStep_wraps {t1 t2 : IntType} {acc e1 e2 : Int} (hs : (t1.common t2).signed = false)
    (ha : (t1.common t2).Fits acc) :
    dotStep t1 t2 acc e1 e2 = .ok ((t1.common t2).wrap (acc + e1 * e2)) := by
  have hb : 32 ≤ (t1.common t2).bits := by have := (IntType.common_isCommon t1 t2).1; omega
  unfold dotStep dotStepTo constMul constOp
  have hn : ¬ (t1.common t2).signed = true := by simp [hs]
  simp only [IntType.op, if_neg hn, dotType_eq, pure, Except.pure, bind, Except.bind]
  have hc : (t1.common t2).common (t1.common t2) = t1.common t2 := by
    generalize t1.common t2 = c at hb
    have hp : c.promote = c := by unfold IntType.promote; rw [if_neg (by omega)]
    unfold IntType.common
    rw [hp, if_neg (by omega), if_neg (by omega), Bool.and_self]
  rw [addTo_wraps ha ((t1.common t2).wrap_mem (by omega) _) (.inl (by rw [hc]; exact hs))]
  congr 1
  apply IntType.wrap_congr
  rw [IntType.wrap_mul_wrap, Int.add_emod, IntType.wrap_mod, ← Int.add_emod]

/-- Adding to a variable in whose type the sum is computed. -/
theorem addTo_checked {t u : IntType} (hc : IsCommonType t u t) (hs : t.signed = true) {a v : Int} (ha : t.Fits a)
    (hv : u.Fits v) : addTo t a ⟨u, v⟩ = if t.Fits (a + v) then .ok (a + v) else .error .overflow := by
  have e := isCommon_eq hc
  by_cases hf : t.Fits (a + v)
  · rw [addTo_exact ha hv hf, if_pos hf]
  · rw [if_neg hf]
    unfold addTo constAdd constOp
    simp only [← e]
    rw [IntType.wrap_fits ha, IntType.wrap_fits (by rw [e] at hs ⊢; exact IntType.common_fits_right hv hs)]
    unfold IntType.op
    rw [if_pos hs, if_neg hf]
    rfl

/-- Adding to a variable of any type: computed in the common type, then converted. -/
theorem addTo_all {t u c : IntType} (hc : IsCommonType t u c) {a v : Int} (ha : t.Fits a) (hv : u.Fits v) :
    addTo t a ⟨u, v⟩ = if c.signed = true → c.Fits (a + v) then .ok (t.wrap (a + v)) else .error .overflow := by
  have e := isCommon_eq hc
  subst e
  by_cases hs : (t.common u).signed = true
  · unfold addTo constAdd constOp
    simp only
    rw [IntType.wrap_fits (IntType.common_fits (u := u) ha hs), IntType.wrap_fits (IntType.common_fits_right (t := t) hv hs)]
    unfold IntType.op
    by_cases hf : (t.common u).Fits (a + v)
    · rw [if_pos hs, if_pos hf, if_pos fun _ => hf]; rfl
    · rw [if_pos hs, if_neg hf, if_neg fun h => hf (h hs)]; rfl
  · rw [if_pos fun h => absurd h hs]
    exact addTo_wraps ha hv (.inl (by simpa using hs))

private theorem wrap_sum {t : IntType} (init v x : Int) : t.wrap (t.wrap (init + v) + x) = t.wrap (init + (v + x)) := by
  apply IntType.wrap_congr
  rw [Int.add_emod, IntType.wrap_mod, ← Int.add_emod, add_assoc]

/-- A loop that adds modulo the size of the type and may stop. -/
theorem foldlM_sum_all {P : Type} {t : IntType} (hb : 0 < t.bits) (val : P → Int) (Q : Int → P → Prop)
    [∀ a p, Decidable (Q a p)] (step : Int → P → Res Int) (l : List P) (init : Int) (hi : t.Fits init)
    (hstep : ∀ p ∈ l, ∀ a, t.Fits a → step a p = if Q a p then .ok (t.wrap (a + val p)) else .error .overflow) :
    let good := ∀ (k : Nat) p, l[k]? = some p → Q (t.wrap (init + ((l.map val).take k).sum)) p
    (good → l.foldlM step init = .ok (t.wrap (init + (l.map val).sum))) ∧
    (¬ good → l.foldlM step init = .error .overflow) := by
  induction l generalizing init with
  | nil => exact ⟨fun _ => by simp [IntType.wrap_fits hi]; rfl, fun h => absurd (by simp) h⟩
  | cons p l ih =>
    intro good
    obtain ⟨i1, i2⟩ := ih (t.wrap (init + val p)) (t.wrap_mem hb _) (fun q hq => hstep q (by simp [hq]))
    rw [List.foldlM_cons, hstep p (by simp) init hi]
    have hg : good ↔ Q init p ∧ ∀ (k : Nat) q, l[k]? = some q →
        Q (t.wrap (t.wrap (init + val p) + ((l.map val).take k).sum)) q := by
      constructor
      · intro h
        refine ⟨by simpa [IntType.wrap_fits hi] using h 0 p rfl, fun k q hk => ?_⟩
        have := h (k + 1) q (by simpa using hk)
        rw [wrap_sum]
        rwa [List.map_cons, take_succ_sum] at this
      · rintro ⟨h1, h2⟩ k q hk
        cases k with
        | zero =>
          have : p = q := by simpa using hk
          subst this
          simpa [IntType.wrap_fits hi] using h1
        | succ k =>
          have := h2 k q (by simpa using hk)
          rw [wrap_sum] at this
          rwa [List.map_cons, take_succ_sum]
    rw [hg]
    by_cases hq : Q init p
    · rw [if_pos hq]
      refine ⟨fun h => ?_, fun h => i2 fun h' => h ⟨hq, h'⟩⟩
      refine (i1 h.2).trans ?_
      rw [wrap_sum]
      simp
    · rw [if_neg hq]
      exact ⟨fun h => absurd h.1 hq, fun _ => rfl⟩

/-- Drawing running sums modulo the size of the type, when the addition may fail. -/
theorem drawAll_sum_all {P : Type} {t : IntType} (hb : 0 < t.bits) (val : P → Int) (out : Int → Int → Int) (Q : Int → P → Prop)
    [∀ a p, Decidable (Q a p)] (step : Int → P → Res Int) (l : List P) (init : Int) (hi : t.Fits init)
    (hstep : ∀ p ∈ l, ∀ a, t.Fits a → step a p = if Q a p then .ok (t.wrap (a + val p)) else .error .overflow) :
    let good := ∀ (k : Nat) p, l[k]? = some p → Q (t.wrap (init + ((l.map val).take k).sum)) p
    (good → ∃ vs, drawAll (fun s p => do let next ← step s p; pure (out s next, next)) init l =
        (.ok (vs, t.wrap (init + (l.map val).sum)) : Res _) ∧ vs.length = l.length ∧
      ∀ (k : Nat), k < l.length →
        vs[k]? = some (out (t.wrap (init + ((l.map val).take k).sum)) (t.wrap (init + ((l.map val).take (k + 1)).sum)))) ∧
    (¬ good → drawAll (fun s p => do let next ← step s p; pure (out s next, next)) init l = (.error .overflow : Res _)) := by
  induction l generalizing init with
  | nil => exact ⟨fun _ => ⟨[], by simp [drawAll, IntType.wrap_fits hi]; rfl, rfl, by simp⟩, fun h => absurd (by simp) h⟩
  | cons p l ih =>
    intro good
    obtain ⟨i1, i2⟩ := ih (t.wrap (init + val p)) (t.wrap_mem hb _) (fun q hq => hstep q (by simp [hq]))
    have hg : good ↔ Q init p ∧ ∀ (k : Nat) q, l[k]? = some q →
        Q (t.wrap (t.wrap (init + val p) + ((l.map val).take k).sum)) q := by
      constructor
      · intro h
        refine ⟨by simpa [IntType.wrap_fits hi] using h 0 p rfl, fun k q hk => ?_⟩
        have := h (k + 1) q (by simpa using hk)
        rw [wrap_sum]
        rwa [List.map_cons, take_succ_sum] at this
      · rintro ⟨h1, h2⟩ k q hk
        cases k with
        | zero =>
          have : p = q := by simpa using hk
          subst this
          simpa [IntType.wrap_fits hi] using h1
        | succ k =>
          have := h2 k q (by simpa using hk)
          rw [wrap_sum] at this
          rwa [List.map_cons, take_succ_sum]
    rw [hg, drawAll, hstep p (by simp) init hi]
    by_cases hq : Q init p
    · rw [if_pos hq]
      constructor
      · intro h
        obtain ⟨vs, hv, hlen, hk⟩ := i1 h.2
        refine ⟨out init (t.wrap (init + val p)) :: vs, ?_, by simp [hlen], ?_⟩
        · simp only [bind, Except.bind, pure, Except.pure] at hv ⊢
          rw [hv]
          simp [wrap_sum]
        · intro k hkl
          cases k with
          | zero => simp [IntType.wrap_fits hi]
          | succ k =>
            rw [List.getElem?_cons_succ, hk k (by simpa using hkl), List.map_cons, take_succ_sum, take_succ_sum, wrap_sum,
              wrap_sum]
      · intro h
        have := i2 fun h' => h ⟨hq, h'⟩
        simp only [bind, Except.bind, pure, Except.pure] at this ⊢
        rw [this]
    · rw [if_neg hq]
      exact ⟨fun h => absurd h.1 hq, fun _ => rfl⟩

/-- One step of a dot product, for all types: the product is computed in the common type of the elements. -/
theorem dotStepTo_all {t t1 t2 c c12 : IntType} (h12 : IsCommonType t1 t2 c12) (hc : IsCommonType t c12 c) {a e1 e2 q : Int}
    (ha : t.Fits a) (h1 : t1.Fits e1) (h2 : t2.Fits e2) (hq : c12.Fits q) (hm : q % 2 ^ c12.bits = e1 * e2 % 2 ^ c12.bits) :
    dotStepTo t t1 t2 a e1 e2 =
      if (c12.signed = true → c12.Fits (e1 * e2)) ∧ (c.signed = true → c.Fits (a + q)) then .ok (t.wrap (a + q))
      else .error .overflow := by
  have e := isCommon_eq h12
  subst e
  have hb : 0 < (t1.common t2).bits := by have := h12.1; omega
  have hw : (t1.common t2).wrap (e1 * e2) = q := by
    rw [← IntType.wrap_fits hq]
    exact IntType.wrap_congr hm.symm
  unfold dotStepTo constMul constOp
  simp only
  by_cases hs : (t1.common t2).signed = true
  · rw [IntType.wrap_fits (IntType.common_fits (u := t2) h1 hs), IntType.wrap_fits (IntType.common_fits_right (t := t1) h2 hs)]
    unfold IntType.op
    by_cases hf : (t1.common t2).Fits (e1 * e2)
    · rw [if_pos hs, if_pos hf]
      have : e1 * e2 = q := by rw [← hw, IntType.wrap_fits hf]
      simp only [this, hq, implies_true, true_and]
      exact addTo_all hc ha hq
    · rw [if_pos hs, if_neg hf, if_neg fun h => hf (h.1 hs)]; rfl
  · unfold IntType.op
    rw [if_neg hs, IntType.wrap_mul_wrap, hw]
    simp only [hs, Bool.false_eq_true, false_implies, true_and]
    exact addTo_all hc ha hq

end Kwk
