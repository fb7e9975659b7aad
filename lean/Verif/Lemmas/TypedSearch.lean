import Verif.Model.TypedSearch
import Verif.Lemmas.Typed
import Verif.Lemmas.Common

/-! # Lemmas: comparisons of integers of different types -/

namespace Kwk
open Spec

theorem wrap_unsigned {c : IntType} (hs : c.signed = false) (v : Int) : c.wrap v = v % 2 ^ c.bits := by
  simp [IntType.wrap, hs]

theorem emod_of_nonneg {v W : Int} (h0 : 0 ≤ v) (h : v < W) : v % W = v := Int.emod_eq_of_lt h0 h

theorem emod_of_neg {v W : Int} (h0 : v < 0) (h : -W ≤ v) : v % W = v + W := by
  rw [← Int.add_emod_right]
  exact Int.emod_eq_of_lt (by omega) (by omega)

/-- Bounds of the numbers of a type that is at most as wide as the type `c`. -/
theorem fits_bounds {t c : IntType} {v : Int} (ht : 0 < t.bits) (hb : t.bits ≤ c.bits) (h : t.Fits v) :
    -(2 ^ c.bits : Int) ≤ 2 * v ∧ v < 2 ^ c.bits ∧ (t.signed = false → 0 ≤ v) ∧
    (t.signed = true → -(2 ^ t.bits / 2) ≤ v ∧ v < 2 ^ t.bits / 2) := by
  have hp : (2 : Int) ^ t.bits ≤ 2 ^ c.bits := pow_le_pow_right₀ (by decide) hb
  have h0 : (0 : Int) < 2 ^ t.bits := by positivity
  have h2 : (2 : Int) ∣ 2 ^ t.bits := dvd_pow_self 2 (by omega)
  obtain ⟨h1, h3⟩ := h
  unfold IntType.lo at h1
  unfold IntType.hi at h3
  cases hs : t.signed <;> simp only [hs, if_true, Bool.false_eq_true, if_false] at h1 h3 <;> simp <;> omega

theorem eqT_exact {t c : IntType} (ht : 0 < t.bits) {v : Coord} (hu : 0 < v.type.bits) (hv : v.type.Fits v.value)
    (hc : IsCommonType t v.type c) :
    (∀ e, t.Fits e → (eqT ⟨t, e⟩ v = true ↔ e = v.value)) ↔ EqualsByValue t c v.value := by
  have e := isCommon_eq hc
  have htb : t.bits ≤ c.bits := by have := hc.1; omega
  have hub : v.type.bits ≤ c.bits := by have := hc.1; omega
  have hq : ∀ x, eqT ⟨t, x⟩ v = true ↔ c.wrap x = c.wrap v.value := by
    intro x; unfold eqT; rw [← e, decide_eq_true_eq]
  simp only [hq]
  obtain ⟨v1, v2, v3, v4⟩ := fits_bounds hu hub hv
  have hW : (0 : Int) < 2 ^ c.bits := by positivity
  have hT : (0 : Int) < 2 ^ t.bits := by positivity
  have hT2 : (2 : Int) ∣ 2 ^ t.bits := dvd_pow_self 2 (by omega)
  have hTW : (2 : Int) ^ t.bits ≤ 2 ^ c.bits := pow_le_pow_right₀ (by decide) htb
  by_cases hs : c.signed = true
  · have hs' := hs
    rw [e] at hs'
    refine ⟨fun _ => .inl hs, fun _ x hx => ?_⟩
    rw [IntType.wrap_fits (by rw [e]; exact IntType.common_fits hx hs'),
      IntType.wrap_fits (by rw [e]; exact IntType.common_fits_right hv hs')]
  · have hs : c.signed = false := by simpa using hs
    simp only [wrap_unsigned hs]
    have hor := hc.2.1 hs
    constructor
    · intro h
      have h0 : 0 ≤ v.value := by
        by_contra hn
        have hus : v.type.signed = true := by
          by_contra hh; exact hn (v3 (by simpa using hh))
        have htt : t.bits = c.bits ∧ t.signed = false := by
          rcases hor with h | h
          · exact h
          · rw [hus] at h; simp at h
        have hf : t.Fits (v.value + 2 ^ c.bits) := by
          unfold IntType.Fits IntType.lo IntType.hi
          rw [htt.2, htt.1]; simp only [Bool.false_eq_true, if_false]; omega
        have := (h _ hf).1 (Int.add_emod_right _ _)
        omega
      refine .inr ⟨h0, fun hts => ?_⟩
      by_contra hn
      have hf : t.Fits (v.value - 2 ^ c.bits) := by
        unfold IntType.Fits IntType.lo IntType.hi
        rw [hts]; simp only [if_true]; omega
      have := (h _ hf).1 (Int.sub_emod_right _ _)
      omega
    · rintro (h | ⟨h0, h1⟩) x hx
      · rw [hs] at h; cases h
      · obtain ⟨x1, x2, x3, x4⟩ := fits_bounds ht htb hx
        rw [emod_of_nonneg h0 v2]
        by_cases hx0 : 0 ≤ x
        · rw [emod_of_nonneg hx0 x2]
        · have hts : t.signed = true := by
            by_contra hh; exact hx0 (x3 (by simpa using hh))
          rw [emod_of_neg (by omega) (by omega)]
          have := h1 hts
          have := x4 hts
          omega

theorem ltT_exact {t c : IntType} (ht : 0 < t.bits) {v : Coord} (hu : 0 < v.type.bits) (hv : v.type.Fits v.value)
    (hc : IsCommonType t v.type c) :
    (∀ e, t.Fits e → ((ltT ⟨t, e⟩ v = true ↔ e < v.value) ∧ (ltT v ⟨t, e⟩ = true ↔ v.value < e))) ↔
      OrdersByValue t c v.value := by
  have e := isCommon_eq hc
  have htb : t.bits ≤ c.bits := by have := hc.1; omega
  have hub : v.type.bits ≤ c.bits := by have := hc.1; omega
  have hq : ∀ x, (ltT ⟨t, x⟩ v = true ↔ c.wrap x < c.wrap v.value) ∧
      (ltT v ⟨t, x⟩ = true ↔ c.wrap v.value < c.wrap x) := by
    intro x; unfold ltT; simp only [IntType.common_comm v.type t]; rw [← e, decide_eq_true_eq, decide_eq_true_eq]
    exact ⟨Iff.rfl, Iff.rfl⟩
  simp only [hq]
  obtain ⟨v1, v2, v3, v4⟩ := fits_bounds hu hub hv
  have hW : (0 : Int) < 2 ^ c.bits := by positivity
  have hT : (0 : Int) < 2 ^ t.bits := by positivity
  have hT2 : (2 : Int) ∣ 2 ^ t.bits := dvd_pow_self 2 (by omega)
  have hTW : (2 : Int) ^ t.bits ≤ 2 ^ c.bits := pow_le_pow_right₀ (by decide) htb
  by_cases hs : c.signed = true
  · have hs' := hs
    rw [e] at hs'
    refine ⟨fun _ => .inl hs, fun _ x hx => ?_⟩
    rw [IntType.wrap_fits (by rw [e]; exact IntType.common_fits hx hs'),
      IntType.wrap_fits (by rw [e]; exact IntType.common_fits_right hv hs')]
    exact ⟨Iff.rfl, Iff.rfl⟩
  · have hs : c.signed = false := by simpa using hs
    simp only [wrap_unsigned hs]
    constructor
    · intro h
      have hts : t.signed = false := by
        by_contra hh
        have hts : t.signed = true := by simpa using hh
        have hf : t.Fits (-1) := by
          unfold IntType.Fits IntType.lo IntType.hi; rw [hts]; simp only [if_true]; omega
        have h1 := h (-1) hf
        rw [emod_of_neg (by omega) (by omega)] at h1
        by_cases hv0 : 0 ≤ v.value
        · rw [emod_of_nonneg hv0 v2] at h1
          have := h1.1.2 (by omega)
          omega
        · rcases hc.2.1 hs with h | h
          · rw [hts] at h; simp at h
          · exact hv0 (v3 h.2)
      refine .inr ⟨hts, ?_⟩
      by_contra hn
      have hf : t.Fits 0 := by
        unfold IntType.Fits IntType.lo IntType.hi; rw [hts]; simp only [Bool.false_eq_true, if_false]; omega
      have h1 := (h 0 hf).2.2 (by omega)
      rw [emod_of_neg (by omega) (by omega), emod_of_nonneg le_rfl hW] at h1
      omega
    · rintro (h | ⟨h0, h1⟩) x hx
      · rw [hs] at h; cases h
      · obtain ⟨x1, x2, x3, x4⟩ := fits_bounds ht htb hx
        rw [emod_of_nonneg h1 v2, emod_of_nonneg (x3 h0) x2]
        exact ⟨Iff.rfl, Iff.rfl⟩

end Kwk
