import Verif.Model.Fixed
import Verif.Model.Typed
import Verif.Spec.Machine
import Verif.Lemmas.Prefilled
import Mathlib.Tactic.SplitIfs

/-! # Lemmas: the type of an arithmetic result -/

namespace Kwk
open Spec

theorem IntType.common_isCommon (t u : IntType) : IsCommonType t u (t.common u) := by
  obtain ⟨tb, ts⟩ := t
  obtain ⟨ub, us⟩ := u
  unfold IsCommonType common promote IntType.i32
  cases ts <;> cases us <;> dsimp only <;> split_ifs <;> simp at * <;> omega

theorem isCommon_unique {t u c d : IntType} (hc : IsCommonType t u c) (hd : IsCommonType t u d) : c = d := by
  obtain ⟨cb, cs⟩ := c
  obtain ⟨db, ds⟩ := d
  obtain ⟨h1, h2⟩ := hc
  obtain ⟨h3, h4⟩ := hd
  simp only at h1 h2 h3 h4
  subst h1 h3
  have : (cs = false) ↔ (ds = false) := h2.trans h4.symm
  cases cs <;> cases ds <;> simp at this ⊢

theorem isCommon_eq {t u c : IntType} (hc : IsCommonType t u c) : c = t.common u :=
  isCommon_unique hc (IntType.common_isCommon t u)

/-- The sum of an element and a product has the type of the product. -/
theorem dotType_eq (t u : IntType) : dotType t u = t.common u := by
  refine isCommon_unique (t := t) (u := u) ?_ (IntType.common_isCommon t u)
  have h1 := IntType.common_isCommon t u
  have h2 := IntType.common_isCommon t (t.common u)
  unfold dotType IsCommonType at *
  generalize t.common (t.common u) = d at *
  generalize t.common u = c at *
  obtain ⟨tb, ts⟩ := t
  obtain ⟨ub, us⟩ := u
  obtain ⟨cb, cs⟩ := c
  obtain ⟨db, ds⟩ := d
  cases ts <;> cases us <;> cases cs <;> cases ds <;> simp at * <;> omega

/-- The operations give the exact value exactly if it fits. -/
theorem IntType.op_exact_iff {t : IntType} (hb : 0 < t.bits) {v : Int} : t.op v = .ok v ↔ t.Fits v := by
  unfold IntType.op
  by_cases hs : t.signed = true
  · rw [if_pos hs]
    by_cases hf : t.Fits v
    · simp [hf]; rfl
    · simp [hf]
  · rw [if_neg hs]
    constructor
    · intro h
      have : t.wrap v = v := Except.ok.inj h
      rw [← this]; exact IntType.wrap_mem t hb v
    · intro h; rw [IntType.wrap_fits h]; rfl

end Kwk
