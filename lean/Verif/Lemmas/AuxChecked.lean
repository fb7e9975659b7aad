import Verif.Lemmas.Compress

/-!
# Lemmas for `Props/Checked.lean`
-/

namespace Kwk
open Spec

/-- Two positions of the same order are compared by `contains` from above only. -/
theorem contains_iff_lt {s p : List Int} (hl : s.length = p.length) :
    contains s p = true ↔ List.Forall₂ (fun d i => i < d) s p := by
  unfold contains
  induction s generalizing p with
  | nil => cases p with
    | nil => simp
    | cons => simp at hl
  | cons d s ih => cases p with
    | nil => simp at hl
    | cons i p =>
      rw [List.zipWith_cons_cons, List.foldr_cons, List.forall₂_cons, ← ih (by simpa using hl),
        Bool.and_eq_true, decide_eq_true_eq]

end Kwk
