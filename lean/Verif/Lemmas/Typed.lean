import Verif.Model.Typed
import Verif.Lemmas.Mixed
import Verif.Lemmas.Effects
import Mathlib.Data.Int.ModEq

/-! # Lemmas: sums of machine integers -/

namespace Kwk
open Spec

namespace IntType

theorem promote_fits {t : IntType} {v : Int} (h : t.Fits v) : t.promote.Fits v := by
  unfold promote
  split
  · rename_i hb
    have hp : (2 : Int) ^ t.bits ≤ 2 ^ 31 := pow_le_pow_right₀ (by decide) (by omega)
    obtain ⟨h1, h2⟩ := h
    unfold lo at h1
    unfold hi at h2
    have hl : i32.lo = -2147483648 := by decide
    have hh : i32.hi = 2147483648 := by decide
    constructor
    · rw [hl]; split at h1 <;> omega
    · rw [hh]; split at h2 <;> omega
  · exact h

/-- A wider signed type represents all values of a narrower one. -/
theorem fits_wider {t u : IntType} {v : Int} (h : t.Fits v) (hb : t.bits < u.bits) (hu : u.signed = true) :
    u.Fits v := by
  have hp : (2 : Int) ^ (t.bits + 1) ≤ 2 ^ u.bits := pow_le_pow_right₀ (by decide) (by omega)
  rw [pow_succ] at hp
  have h0 : (0 : Int) < 2 ^ t.bits := by positivity
  obtain ⟨h1, h2⟩ := h
  unfold lo at h1
  unfold hi at h2
  unfold Fits lo hi
  rw [if_pos hu, if_pos hu]
  constructor
  · split at h1 <;> omega
  · split at h2 <;> omega

theorem common_comm (t u : IntType) : t.common u = u.common t := by
  unfold common
  by_cases h1 : t.promote.bits < u.promote.bits
  · rw [if_pos h1, if_neg (by omega), if_pos h1]
  · by_cases h2 : u.promote.bits < t.promote.bits
    · rw [if_neg h1, if_pos h2, if_pos h2]
    · have : t.promote.bits = u.promote.bits := by omega
      rw [if_neg h1, if_neg h2, if_neg h2, if_neg h1, this, Bool.and_comm]

/-- If the common type is signed, it represents every value of its first operand. -/
theorem common_fits {t u : IntType} {v : Int} (h : t.Fits v) (hs : (t.common u).signed = true) :
    (t.common u).Fits v := by
  have hp := promote_fits h
  unfold common at hs ⊢
  split
  · rename_i hb
    rw [if_pos hb] at hs
    exact fits_wider hp hb hs
  · rename_i hb
    rw [if_neg hb] at hs
    split
    · exact hp
    · rename_i hb2
      rw [if_neg hb2] at hs
      simp only [Bool.and_eq_true] at hs
      have : (⟨t.promote.bits, t.promote.signed && u.promote.signed⟩ : IntType) = t.promote := by
        rw [hs.2, Bool.and_true]
      rw [this]
      exact hp

theorem common_fits_right {t u : IntType} {v : Int} (h : u.Fits v) (hs : (t.common u).signed = true) :
    (t.common u).Fits v := by
  rw [common_comm] at hs ⊢
  exact common_fits h hs

theorem promote_bits_le (t : IntType) : t.bits ≤ t.promote.bits := by
  unfold promote; split
  · have : i32.bits = 32 := rfl
    omega
  · omega

theorem common_bits_le (t u : IntType) : t.bits ≤ (t.common u).bits := by
  have := t.promote_bits_le
  unfold common
  split
  · omega
  · split
    · omega
    · simpa using this

theorem wrap_congr {t : IntType} {v w : Int} (h : v % 2 ^ t.bits = w % 2 ^ t.bits) : t.wrap v = t.wrap w := by
  unfold wrap; rw [h]

theorem wrap_mod (t : IntType) (v : Int) : t.wrap v % 2 ^ t.bits = v % 2 ^ t.bits := by
  unfold wrap
  simp only
  split
  · rw [Int.sub_emod, Int.emod_self, sub_zero, Int.emod_emod_of_dvd _ dvd_rfl, Int.emod_emod_of_dvd _ dvd_rfl]
  · exact Int.emod_emod_of_dvd _ dvd_rfl

/-- Computing modulo a larger power of two first does not matter. -/
theorem wrap_wrap {t u : IntType} (h : t.bits ≤ u.bits) (v : Int) : t.wrap (u.wrap v) = t.wrap v := by
  apply wrap_congr
  have hd : (2 : Int) ^ t.bits ∣ 2 ^ u.bits := pow_dvd_pow 2 h
  have := u.wrap_mod v
  rw [← Int.emod_emod_of_dvd (u.wrap v) hd, this, Int.emod_emod_of_dvd _ hd]

theorem wrap_add_wrap (t : IntType) (a b : Int) : t.wrap (t.wrap a + t.wrap b) = t.wrap (a + b) := by
  apply wrap_congr
  rw [Int.add_emod, wrap_mod, wrap_mod, ← Int.add_emod]

theorem wrap_mul_wrap (t : IntType) (a b : Int) : t.wrap (t.wrap a * t.wrap b) = t.wrap (a * b) := by
  apply wrap_congr
  rw [Int.mul_emod, wrap_mod, wrap_mod, ← Int.mul_emod]

end IntType

/-- Adding to a variable is exact when the sum fits its type, whatever the types are. -/
theorem addTo_exact {t : IntType} {a : Int} {e : Coord} (ha : t.Fits a) (he : e.type.Fits e.value)
    (hs : t.Fits (a + e.value)) : addTo t a e = .ok (a + e.value) := by
  unfold addTo constAdd constOp
  simp only
  by_cases hsg : (t.common e.type).signed = true
  · rw [IntType.wrap_fits (IntType.common_fits ha hsg), IntType.wrap_fits (IntType.common_fits_right he hsg),
      IntType.op_fits (IntType.common_fits hs hsg)]
    simp only [bind, Except.bind, pure, Except.pure]
    rw [IntType.wrap_fits hs]
  · unfold IntType.op
    rw [if_neg hsg, IntType.wrap_add_wrap]
    simp only [bind, Except.bind, pure, Except.pure]
    rw [IntType.wrap_wrap (IntType.common_bits_le _ _), IntType.wrap_fits hs]

theorem IntType.narrow_bounds {t : IntType} {v : Int} (hb : t.bits ≤ 16) (h : t.Fits v) : -65536 ≤ v ∧ v < 65536 := by
  have hp : (2 : Int) ^ t.bits ≤ 2 ^ 16 := pow_le_pow_right₀ (by decide) hb
  obtain ⟨h1, h2⟩ := h
  unfold IntType.lo at h1
  unfold IntType.hi at h2
  constructor
  · split at h1 <;> omega
  · split at h2 <;> omega

theorem IntType.common_narrow {t u : IntType} (ht : t.bits ≤ 16) (hu : u.bits ≤ 16) : t.common u = .i32 := by
  have h1 : t.promote = .i32 := by unfold IntType.promote; rw [if_pos (by omega)]
  have h2 : u.promote = .i32 := by unfold IntType.promote; rw [if_pos (by omega)]
  unfold IntType.common
  rw [h1, h2]
  rfl

/-- Without signed arithmetic of rank `int` or more, adding never fails and is exact modulo the size of the type. -/
theorem addTo_wraps {t : IntType} {a : Int} {e : Coord} (ha : t.Fits a) (he : e.type.Fits e.value)
    (h : (t.common e.type).signed = false ∨ (t.bits ≤ 16 ∧ e.type.bits ≤ 16)) :
    addTo t a e = .ok (t.wrap (a + e.value)) := by
  unfold addTo constAdd constOp
  simp only
  by_cases hsg : (t.common e.type).signed = true
  · obtain ⟨h1, h2⟩ := h.resolve_left (by simp [hsg])
    have hfa := IntType.common_fits (u := e.type) ha hsg
    have hfe := IntType.common_fits_right (t := t) he hsg
    rw [IntType.wrap_fits hfa, IntType.wrap_fits hfe, IntType.common_narrow h1 h2]
    have b1 := IntType.narrow_bounds h1 ha
    have b2 := IntType.narrow_bounds h2 he
    have hl : IntType.i32.lo = -2147483648 := by decide
    have hh : IntType.i32.hi = 2147483648 := by decide
    rw [IntType.op_fits ⟨by omega, by omega⟩]
    rfl
  · unfold IntType.op
    rw [if_neg hsg, IntType.wrap_add_wrap]
    simp only [bind, Except.bind, pure, Except.pure]
    rw [IntType.wrap_wrap (IntType.common_bits_le _ _)]

/-- Adding two numbers of a signed type of rank `int` or more fails exactly when the sum does not fit. -/
theorem addTo_signed {t : IntType} (hb : 32 ≤ t.bits) (hs : t.signed = true) {a v : Int} (ha : t.Fits a)
    (hv : t.Fits v) : addTo t a ⟨t, v⟩ = if t.Fits (a + v) then .ok (a + v) else .error .overflow := by
  have hp : t.promote = t := by unfold IntType.promote; rw [if_neg (by omega)]
  have hc : t.common t = t := by
    unfold IntType.common
    rw [hp, if_neg (by omega), if_neg (by omega), Bool.and_self]
  by_cases hf : t.Fits (a + v)
  · rw [addTo_exact ha hv hf, if_pos hf]
  · rw [if_neg hf]
    unfold addTo constAdd constOp
    simp only [hc]
    rw [IntType.wrap_fits ha, IntType.wrap_fits hv]
    unfold IntType.op
    rw [if_pos hs, if_neg hf]
    rfl

/-- Sum of the first values. -/
theorem take_succ_sum (l : List Int) (x : Int) (k : Nat) : ((x :: l).take (k + 1)).sum = x + (l.take k).sum := by simp

variable {P : Type}

/-- A loop that adds exactly while the partial sums fit. -/
theorem foldlM_sum {t : IntType} (val : P → Int) (step : Int → P → Res Int) (l : List P) (init : Int)
    (hstep : ∀ p ∈ l, ∀ a, t.Fits a → t.Fits (a + val p) → step a p = .ok (a + val p))
    (hf : ∀ k ≤ l.length, t.Fits (init + ((l.map val).take k).sum)) :
    l.foldlM step init = .ok (init + (l.map val).sum) := by
  induction l generalizing init with
  | nil => simp; rfl
  | cons p l ih =>
    have h0 := hf 0 (by simp)
    have h1 := hf 1 (by simp)
    simp only [List.take_zero, List.sum_nil, add_zero] at h0
    simp only [List.map_cons, List.take_succ_cons, List.take_zero, List.sum_cons, List.sum_nil, add_zero] at h1
    rw [List.foldlM_cons, hstep p (by simp) init h0 h1]
    simp only [bind, Except.bind]
    have := ih (init + val p) (fun q hq => hstep q (by simp [hq])) (by
      intro k hk
      have := hf (k + 1) (by simpa using hk)
      rw [List.map_cons, take_succ_sum] at this
      rwa [add_assoc])
    rw [this]
    simp [add_assoc]

/-- A loop that adds modulo the size of the type. -/
theorem foldlM_sum_wraps {t : IntType} (hb : 0 < t.bits) (val : P → Int) (step : Int → P → Res Int) (l : List P)
    (init : Int) (hi : t.Fits init)
    (hstep : ∀ p ∈ l, ∀ a, t.Fits a → step a p = .ok (t.wrap (a + val p))) :
    l.foldlM step init = .ok (t.wrap (init + (l.map val).sum)) := by
  induction l generalizing init with
  | nil => simp [IntType.wrap_fits hi]; rfl
  | cons p l ih =>
    rw [List.foldlM_cons, hstep p (by simp) init hi]
    simp only [bind, Except.bind]
    have := ih (t.wrap (init + val p)) (t.wrap_mem hb _) (fun q hq => hstep q (by simp [hq]))
    rw [this]
    congr 1
    apply IntType.wrap_congr
    rw [Int.add_emod, IntType.wrap_mod, ← Int.add_emod, List.map_cons, List.sum_cons, add_assoc]

/-- A loop that stops at the first sum that does not fit. -/
theorem foldlM_sum_checked {t : IntType} (val : P → Int) (step : Int → P → Res Int) (l : List P) (init : Int)
    (hi : t.Fits init)
    (hstep : ∀ p ∈ l, ∀ a, t.Fits a → step a p = if t.Fits (a + val p) then .ok (a + val p) else .error .overflow) :
    (∀ k ≤ l.length, t.Fits (init + ((l.map val).take k).sum)) ∧ l.foldlM step init = .ok (init + (l.map val).sum) ∨
    (¬ ∀ k ≤ l.length, t.Fits (init + ((l.map val).take k).sum)) ∧ l.foldlM step init = .error .overflow := by
  by_cases hall : ∀ k ≤ l.length, t.Fits (init + ((l.map val).take k).sum)
  · left
    exact ⟨hall, foldlM_sum val step l init (fun p hp a ha hs => by rw [hstep p hp a ha, if_pos hs]) hall⟩
  · right
    refine ⟨hall, ?_⟩
    induction l generalizing init with
    | nil => exact absurd (by simpa using hi) hall
    | cons p l ih =>
      rw [List.foldlM_cons, hstep p (by simp) init hi]
      by_cases hs : t.Fits (init + val p)
      · rw [if_pos hs]
        simp only [bind, Except.bind]
        have := ih (init + val p) hs (fun q hq => hstep q (by simp [hq])) (by
          intro h
          apply hall
          intro k hk
          cases k with
          | zero => simpa using hi
          | succ k =>
            rw [List.map_cons, take_succ_sum, ← add_assoc]
            exact h k (by simpa using hk))
        rw [this]
      · rw [if_neg hs]; rfl

/-- A product is exact when it fits in the common type. -/
theorem constMul_exact {a b : Coord} (ha : a.type.Fits a.value) (hb : b.type.Fits b.value)
    (h : (a.type.common b.type).Fits (a.value * b.value)) :
    constMul a b = .ok ⟨a.type.common b.type, a.value * b.value⟩ := by
  unfold constMul constOp
  simp only
  by_cases hsg : (a.type.common b.type).signed = true
  · rw [IntType.wrap_fits (IntType.common_fits ha hsg), IntType.wrap_fits (IntType.common_fits_right hb hsg),
      IntType.op_fits h]
    rfl
  · unfold IntType.op
    rw [if_neg hsg, IntType.wrap_mul_wrap, IntType.wrap_fits h]
    rfl

theorem dotStep_exact {t1 t2 : IntType} {acc e1 e2 : Int} (h1 : t1.Fits e1) (h2 : t2.Fits e2)
    (hp : (t1.common t2).Fits (e1 * e2)) (ha : (dotType t1 t2).Fits acc) (hs : (dotType t1 t2).Fits (acc + e1 * e2)) :
    dotStep t1 t2 acc e1 e2 = .ok (acc + e1 * e2) := by
  unfold dotStep dotStepTo
  rw [constMul_exact h1 h2 hp]
  exact addTo_exact ha hp hs

theorem foldlM_congr {σ : Type} {f g : σ → P → Res σ} (l : List P) (h : ∀ p ∈ l, ∀ a, f a p = g a p) (s : σ) :
    l.foldlM f s = l.foldlM g s := by
  induction l generalizing s with
  | nil => rfl
  | cons p l ih =>
    rw [List.foldlM_cons, List.foldlM_cons, h p (by simp)]
    congr 1; funext s'
    exact ih (fun q hq => h q (by simp [hq])) s'

/-- `reduceAddT` on readable elements. -/
theorem reduceAddT_eq {m : Mem Int} {c : Container} {val : List Int → Int} (h : Elems c m val) (t u : IntType)
    (init : Int) :
    reduceAddT t u m c init = (positions c.shape).foldlM (fun a p => addTo t a ⟨u, val p⟩) init := by
  rw [reduceAddT, reduceM_eq]
  apply foldlM_congr
  intro p hp a
  rw [h p (mem_positions.1 hp)]; rfl

/-- A loop that only reads. -/
theorem foldlM_pair {σ α : Type} (l : List P) (g : σ → P → Res σ) (step : σ × Mem α → P → Res (σ × Mem α))
    (m : Mem α) (s : σ) (h : ∀ p ∈ l, ∀ s, step (s, m) p = (do let r ← g s p; pure (r, m))) :
    l.foldlM step (s, m) = (do let r ← l.foldlM g s; pure (r, m)) := by
  induction l generalizing s with
  | nil => rfl
  | cons p l ih =>
    rw [List.foldlM_cons, List.foldlM_cons, h p (by simp)]
    simp only [bind_assoc, pure_bind]
    congr 1; funext s'
    exact ih s' fun q hq => h q (by simp [hq])

theorem transformReduceInitT_eq {m : Mem Int} {c1 c2 : Container} {v1 v2 : List Int → Int} (h1 : Elems c1 m v1)
    (h2 : ∀ p, InBox c1.shape p → c2.get m p = .ok (v2 p)) (t t1 t2 : IntType) (init : Int) :
    transformReduceInitT t t1 t2 m c1 c2 init =
      (positions c1.shape).foldlM (fun a p => dotStepTo t t1 t2 a (v1 p) (v2 p)) init := by
  rw [transformReduceInitT, mapCtx, loopState_eq,
    foldlM_pair _ (fun a p => dotStepTo t t1 t2 a (v1 p) (v2 p))]
  · simp
  · intro p hp s
    have e1 := h1 p (mem_positions.1 hp)
    have e2 := h2 p (mem_positions.1 hp)
    unfold Container.get at e1 e2
    simp only [List.map_cons, List.map_nil, List.headD_cons]
    rw [e1, e2]
    rfl

theorem transformReduceT_eq {m : Mem Int} {c1 c2 : Container} {v1 v2 : List Int → Int} (h1 : Elems c1 m v1)
    (h2 : ∀ p, InBox c1.shape p → c2.get m p = .ok (v2 p)) (t1 t2 : IntType) :
    transformReduceT t1 t2 m c1 c2 =
      (positions c1.shape).foldlM (fun a p => dotStep t1 t2 a (v1 p) (v2 p)) 0 :=
  transformReduceInitT_eq h1 h2 _ t1 t2 0

/-- Drawing running sums: each value is made from the sum before its element. -/
theorem drawAll_sum {t : IntType} (val : P → Int) (out : Int → Int → Int) (step : Int → P → Res Int) (l : List P)
    (init : Int) (hstep : ∀ p ∈ l, ∀ a, t.Fits a → t.Fits (a + val p) → step a p = .ok (a + val p))
    (hf : ∀ k ≤ l.length, t.Fits (init + ((l.map val).take k).sum)) :
    ∃ vs, drawAll (fun s p => do let next ← step s p; pure (out s next, next)) init l =
        (.ok (vs, init + (l.map val).sum) : Res _) ∧ vs.length = l.length ∧
      ∀ (k : Nat), k < l.length →
        vs[k]? = some (out (init + ((l.map val).take k).sum) (init + ((l.map val).take (k + 1)).sum)) := by
  induction l generalizing init with
  | nil => exact ⟨[], by simp [drawAll]; rfl, rfl, by simp⟩
  | cons p l ih =>
    have h0 := hf 0 (by simp)
    have h1 := hf 1 (by simp)
    simp only [List.take_zero, List.sum_nil, add_zero] at h0
    simp only [List.map_cons, List.take_succ_cons, List.take_zero, List.sum_cons, List.sum_nil, add_zero] at h1
    obtain ⟨vs, hv, hlen, hk⟩ := ih (init + val p) (fun q hq => hstep q (by simp [hq])) (by
      intro k hk
      have := hf (k + 1) (by simpa using hk)
      rw [List.map_cons, take_succ_sum] at this
      rwa [add_assoc])
    refine ⟨out init (init + val p) :: vs, ?_, by simp [hlen], ?_⟩
    · rw [drawAll, hstep p (by simp) init h0 h1]
      simp only [bind, Except.bind, pure, Except.pure] at hv ⊢
      rw [hv]
      simp [add_assoc]
    · intro k hkl
      cases k with
      | zero => simp
      | succ k =>
        rw [List.getElem?_cons_succ, hk k (by simpa using hkl), List.map_cons, take_succ_sum, take_succ_sum,
          add_assoc, add_assoc]

/-- Drawing running sums stops at the first sum that does not fit. -/
theorem drawAll_sum_overflow {t : IntType} (val : P → Int) (out : Int → Int → Int) (step : Int → P → Res Int)
    (l : List P) (init : Int) (hi : t.Fits init)
    (hstep : ∀ p ∈ l, ∀ a, t.Fits a → step a p = if t.Fits (a + val p) then .ok (a + val p) else .error .overflow)
    (hf : ¬ ∀ k ≤ l.length, t.Fits (init + ((l.map val).take k).sum)) :
    drawAll (fun s p => do let next ← step s p; pure (out s next, next)) init l = (.error .overflow : Res _) := by
  induction l generalizing init with
  | nil => exact absurd (by simpa using hi) hf
  | cons p l ih =>
    rw [drawAll, hstep p (by simp) init hi]
    by_cases hs : t.Fits (init + val p)
    · rw [if_pos hs]
      have := ih (init + val p) hs (fun q hq => hstep q (by simp [hq])) (by
        intro h
        apply hf
        intro k hk
        cases k with
        | zero => simpa using hi
        | succ k =>
          rw [List.map_cons, take_succ_sum, ← add_assoc]
          exact h k (by simpa using hk))
      simp only [bind, Except.bind, pure, Except.pure] at this ⊢
      rw [this]
    · rw [if_neg hs]; rfl

/-- Drawing running sums modulo the size of the type. -/
theorem drawAll_sum_wraps {t : IntType} (hb : 0 < t.bits) (val : P → Int) (out : Int → Int → Int)
    (step : Int → P → Res Int) (l : List P) (init : Int) (hi : t.Fits init)
    (hstep : ∀ p ∈ l, ∀ a, t.Fits a → step a p = .ok (t.wrap (a + val p))) :
    ∃ vs, drawAll (fun s p => do let next ← step s p; pure (out s next, next)) init l =
        (.ok (vs, t.wrap (init + (l.map val).sum)) : Res _) ∧ vs.length = l.length ∧
      ∀ (k : Nat), k < l.length →
        vs[k]? = some (out (t.wrap (init + ((l.map val).take k).sum)) (t.wrap (init + ((l.map val).take (k + 1)).sum))) := by
  induction l generalizing init with
  | nil => exact ⟨[], by simp [drawAll, IntType.wrap_fits hi]; rfl, rfl, by simp⟩
  | cons p l ih =>
    have hw : ∀ x, t.wrap (t.wrap (init + val p) + x) = t.wrap (init + (val p + x)) := fun x => by
      apply IntType.wrap_congr
      rw [Int.add_emod, IntType.wrap_mod, ← Int.add_emod, add_assoc]
    obtain ⟨vs, hv, hlen, hk⟩ := ih (t.wrap (init + val p)) (t.wrap_mem hb _) (fun q hq => hstep q (by simp [hq]))
    refine ⟨out init (t.wrap (init + val p)) :: vs, ?_, by simp [hlen], ?_⟩
    · rw [drawAll, hstep p (by simp) init hi]
      simp only [bind, Except.bind, pure, Except.pure] at hv ⊢
      rw [hv]
      simp [hw]
    · intro k hkl
      cases k with
      | zero => simp [IntType.wrap_fits hi]
      | succ k =>
        rw [List.getElem?_cons_succ, hk k (by simpa using hkl), List.map_cons, take_succ_sum, take_succ_sum, hw, hw]

/-- A loop over the positions of `out` that draws a value and writes it into `out`. -/
theorem run_draw {α φ : Type} {m : Mem α} {out : Container} (hd : Distinct out) (hv : Valid out m)
    (g : φ → List Int → Res (α × φ)) (step : List Int → φ × Mem α → Res (φ × Mem α)) (s s' : φ) (vs : List α)
    (hstep : ∀ p, InBox out.shape p → ∀ s m1, SameOutside out m m1 → (m1 (out.addr p)).isSome →
      step p (s, m1) = (do let r ← g s p; let m2 ← store m1 (out.addr p) r.1; pure (r.2, m2)))
    (hr : drawAll g s (positions out.shape) = .ok (vs, s')) :
    ∃ m', loopState step out.shape (s, m) = .ok (s', m') ∧
      (∀ (k : Nat) p, (positions out.shape)[k]? = some p → m' (out.addr p) = vs[k]?) ∧ SameOutside out m m' := by
  have hdom : ∀ p ∈ positions out.shape, (m (out.addr p)).isSome := fun p hp => by
    obtain ⟨v, h⟩ := hv p (mem_positions.1 hp)
    rw [get_ok_iff.1 h]; rfl
  have := foldlM_draw out.addr g (fun sm p => step p sm) (positions out.shape) m
    (fun p hp s m1 h h2 => hstep p (mem_positions.1 hp) s m1
      (fun a ha => h a fun q hq => ha q (mem_positions.1 hq)) (by rw [h2]; exact hdom p hp)) hdom
    (positions out.shape) (fun _ h => h) (positions_addr_pairwise hd) s m (fun _ _ => rfl) (fun _ => rfl)
  rw [hr] at this
  obtain ⟨m', h1, _, h3, h4⟩ := this
  exact ⟨m', by rw [loopState_eq]; exact h1, h3, fun a ha => h4 a fun p hp => ha p (mem_positions.1 hp)⟩

/-- The same loop when the draw fails. -/
theorem run_draw_error {α φ : Type} {m : Mem α} {out : Container} (hd : Distinct out) (hv : Valid out m)
    (g : φ → List Int → Res (α × φ)) (step : List Int → φ × Mem α → Res (φ × Mem α)) (s : φ) (e : Fault)
    (hstep : ∀ p, InBox out.shape p → ∀ s m1, SameOutside out m m1 → (m1 (out.addr p)).isSome →
      step p (s, m1) = (do let r ← g s p; let m2 ← store m1 (out.addr p) r.1; pure (r.2, m2)))
    (hr : drawAll g s (positions out.shape) = .error e) :
    loopState step out.shape (s, m) = .error e := by
  have hdom : ∀ p ∈ positions out.shape, (m (out.addr p)).isSome := fun p hp => by
    obtain ⟨v, h⟩ := hv p (mem_positions.1 hp)
    rw [get_ok_iff.1 h]; rfl
  have := foldlM_draw out.addr g (fun sm p => step p sm) (positions out.shape) m
    (fun p hp s m1 h h2 => hstep p (mem_positions.1 hp) s m1
      (fun a ha => h a fun q hq => ha q (mem_positions.1 hq)) (by rw [h2]; exact hdom p hp)) hdom
    (positions out.shape) (fun _ h => h) (positions_addr_pairwise hd) s m (fun _ _ => rfl) (fun _ => rfl)
  rw [hr] at this
  rw [loopState_eq]; exact this

theorem IntType.incr_exact {t : IntType} {v : Int} (h : t.Fits (v + 1)) : t.incr v = .ok (v + 1) := by
  unfold IntType.incr
  split
  · rw [IntType.wrap_fits h]; rfl
  · exact IntType.op_fits h

theorem IntType.incr_signed {t : IntType} (hb : 32 ≤ t.bits) (hs : t.signed = true) (v : Int) :
    t.incr v = if t.Fits (v + 1) then .ok (v + 1) else .error .overflow := by
  unfold IntType.incr IntType.op
  rw [if_neg (by omega), if_pos hs]
  rfl

theorem iota_sum (l : List P) (step : Int) (k : Nat) (hk : k ≤ l.length) :
    ((l.map fun _ => step).take k).sum = k * step := by
  rw [List.map_const', List.take_replicate, min_eq_left hk, List.sum_replicate]
  simp

theorem IntType.incr_wraps {t : IntType} (h : t.signed = false ∨ t.bits < 32) (v : Int) :
    t.incr v = .ok (t.wrap (v + 1)) := by
  unfold IntType.incr
  split
  · rfl
  · rename_i hb
    unfold IntType.op
    rw [h.resolve_right hb]; rfl

end Kwk
