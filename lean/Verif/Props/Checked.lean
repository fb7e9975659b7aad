import Verif.Lemmas.AuxChecked
import Verif.Lemmas.Compress

/-!
# Properties C69 and C71: assertions of checked builds, equality of positions
-/

namespace Kwk
open Spec

/-! ## C69

Full property: in checked builds (`KIWAKU_ASSERT` enabled) `linear_index` and `coordinates` stop with an
assertion exactly when the position or the index is outside the shape, and never do anything undefined.
It is false for negative arguments (`C69_negative_accepted`). -/

/-- **C69** (partial, exact condition) A checked `linear_index` asserts exactly when some coordinate is at or above its
extent, and otherwise gives a number.  Missing: negative coordinates are not noticed (false). -/
theorem C69_linear_index_asserts_partial {s p : List Int} (hl : s.length = p.length) :
    (linearIndex .checked s p = .error .assertion ↔ ¬ List.Forall₂ (fun d i => i < d) s p) ∧
    (List.Forall₂ (fun d i => i < d) s p → ∃ k, linearIndex .checked s p = .ok k) := by
  rw [← contains_iff_lt hl]
  unfold linearIndex
  cases h : contains s p
  · exact ⟨by simp [kwkAssert, bind, Except.bind, throw, throwThe, MonadExceptOf.throw], by simp⟩
  · refine ⟨?_, fun _ => ⟨_, rfl⟩⟩
    simp [kwkAssert, bind, Except.bind, pure, Except.pure]

example : linearIndex .checked [2, 3] [1, 3] = .error .assertion :=
  (C69_linear_index_asserts_partial (s := [2, 3]) (p := [1, 3]) rfl).1.2 (by decide)

/-- **C69** (partial) For positions without negative coordinates, a checked `linear_index` asserts exactly when the
position is outside the shape. -/
theorem C69_linear_index_partial {s p : List Int} (hl : s.length = p.length) (h0 : NonNeg p) :
    linearIndex .checked s p = .error .assertion ↔ ¬ InBox s p := by
  rw [(C69_linear_index_asserts_partial hl).1]
  refine not_congr ⟨fun h => ?_, fun h => ?_⟩
  · clear hl
    induction h with
    | nil => exact .nil
    | @cons d i s p h _ ih =>
      exact .cons ⟨h0 i (by simp), h⟩ (ih fun x hx => h0 x (by simp [hx]))
  · induction h with
    | nil => exact .nil
    | @cons d i s p h _ ih =>
      exact .cons h.2 (ih (by simpa using hl) fun x hx => h0 x (by simp [hx]))

example : linearIndex .checked [2, 3] [2, 0] = .error .assertion :=
  (C69_linear_index_partial (s := [2, 3]) (p := [2, 0]) rfl (by decide)).2 (by decide)

/-- **C69** (partial) A checked `coordinates` of a non-negative index asserts exactly when the index is not below the
number of elements; otherwise it gives a position.  In particular it never divides by zero. -/
theorem C69_coordinates_partial {s : List Int} (hne : s ≠ []) (hs : NonNeg s) {k : Int} (h0 : 0 ≤ k) :
    (coordinates .checked k s = .error .assertion ↔ s.prod ≤ k) ∧
    (k < s.prod → ∃ p, coordinates .checked k s = .ok p ∧ InBox s p) := by
  have hok : k < s.prod → ∃ p, coordinates .checked k s = .ok p ∧ InBox s p := fun hk => by
    obtain ⟨p, hp, rfl⟩ := lin_surj hs h0 hk
    exact ⟨p, coordinates_lin _ hne hp, hp⟩
  refine ⟨⟨fun h => ?_, fun h => ?_⟩, hok⟩
  · by_contra hlt
    obtain ⟨p, hp, _⟩ := hok (by omega)
    rw [hp] at h
    exact absurd h (by simp)
  · unfold coordinates
    rw [numel_eq_prod hne, decide_eq_false (by omega)]
    rfl

example : coordinates .checked 6 [2, 3] = .error .assertion :=
  (C69_coordinates_partial (s := [2, 3]) (by decide) (by decide) (k := 6) (by decide)).1.2 (by decide)

/-- **C69** (negation) Negative arguments pass the assertions: a negative index before the first element, coordinates
that are not a position, and even a division by zero. -/
theorem C69_negative_accepted :
    linearIndex .checked [3, 4] [0, -1] = .ok (-1) ∧
    coordinates .checked (-1) [3, 4] = .ok [0, -1] ∧
    coordinates .checked (-1) [3, 0, 4] = .error .divByZero := by decide

/-- **C69** The full property. -/
def C69_statement : Prop :=
  (∀ s p : List Int, s.length = p.length → NonNeg s →
    (InBox s p → ∃ k, linearIndex .checked s p = .ok k ∧ (positions s)[k.toNat]? = some p) ∧
    (¬ InBox s p → linearIndex .checked s p = .error .assertion)) ∧
  (∀ (s : List Int) (k : Int), s ≠ [] → NonNeg s →
    (0 ≤ k ∧ k < s.prod → ∃ p, coordinates .checked k s = .ok p ∧ (positions s)[k.toNat]? = some p) ∧
    (¬ (0 ≤ k ∧ k < s.prod) → coordinates .checked k s = .error .assertion))

theorem C69_statement_false : ¬ C69_statement := by
  intro h
  exact absurd ((h.1 [3, 4] [0, -1] rfl (by decide)).2 (by decide)) (by decide)

example : linearIndex .checked [3, 4] [1, 4] = .error .assertion ∧ linearIndex .checked [3, 4] [3, 0] = .error .assertion ∧
    linearIndex .checked [3, 4] [2, 3] = .ok 11 := by decide
example : coordinates .checked 12 [3, 4] = .error .assertion ∧ coordinates .checked 11 [3, 4] = .ok [2, 3] := by decide

/-! ## C71 -/

/-- **C71** Positions of the same order compare equal exactly when all coordinates are equal. -/
theorem C71_position_eq {p q : List Int} (h : p.length = q.length) : positionEq p q = true ↔ p = q := by
  unfold positionEq
  induction p generalizing q with
  | nil => cases q with
    | nil => simp
    | cons => simp at h
  | cons a p ih => cases q with
    | nil => simp at h
    | cons b q =>
      rw [List.zip_cons_cons, List.all_cons, Bool.and_eq_true, ih (by simpa using h)]
      simp

example : positionEq [1, 2] [1, 2] = true := (C71_position_eq rfl).2 rfl

/-- **C71** (with linear indexes) Two valid positions compare equal exactly when they have the same linear index. -/
theorem C71_position_eq_linear_index (md : Mode) {s p q : List Int} (hp : InBox s p) (hq : InBox s q) :
    positionEq p q = true ↔ linearIndex md s p = linearIndex md s q := by
  rw [C71_position_eq (hp.length_eq.symm.trans hq.length_eq)]
  refine ⟨fun h => by rw [h], fun h => ?_⟩
  rw [linearIndex_ok md hp, linearIndex_ok md hq] at h
  exact lin_inj hp hq (by simpa using h)

example : positionEq [1, 2, 3] [1, 2, 3] = true ∧ positionEq [1, 2, 3] [1, 2, 4] = false ∧
    positionEq [0, 2] [1, 2] = false := by decide

end Kwk
