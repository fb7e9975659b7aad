import Verif.Lemmas.AuxAxes
import Verif.Spec.NamedAxes

/-! # Values of shapes with named axes -/

namespace Kwk

open Spec

theorem values_forall₂ {s : Prefilled} (hnd : (s.desc.map (·.id)).Nodup) (R : Axis → Int → Prop) :
    List.Forall₂ R s.desc s.values ↔ ∀ a ∈ s.desc, R a (s.at a.id) := by
  rw [List.forall₂_iff_get]
  have hl : s.values.length = s.desc.length := by simp [Prefilled.values]
  have hat : ∀ i (h : i < s.desc.length), s.at (s.desc[i]).id = s.get i := fun i h => by
    rw [Prefilled.at, findAxis_eq hnd (List.getElem?_eq_getElem h)]
  constructor
  · rintro ⟨_, h⟩ a ha
    obtain ⟨i, hi, rfl⟩ := List.getElem_of_mem ha
    have := h i hi (by omega)
    rw [hat i hi]
    simpa [Prefilled.values] using this
  · intro h
    refine ⟨hl.symm, fun i h1 h2 => ?_⟩
    have := h _ (List.getElem_mem h1)
    rw [hat i h1] at this
    simpa [Prefilled.values] using this

end Kwk
