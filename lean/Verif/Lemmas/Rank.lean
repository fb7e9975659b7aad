import Verif.Spec.Rank
import Verif.Lemmas.Container

/-! # Lemmas: first matches and ranks -/

namespace Kwk
open Spec

variable {α β : Type}

theorem isFirst_find? (s : List Int) (P : List Int → Bool) :
    IsFirst s (fun p => P p = true) ((positions s).find? P) := by
  have := find?_positions s P
  constructor
  · rw [this.1]; simp
  · intro p; rw [this.2]; simp

theorem countIf_eq {m : Mem α} {c : Container} {val : List Int → α} (h : Elems c m val) (f : α → Bool) :
    countIf m c f = .ok ((positions c.shape).countP fun p => f (val p)) := by
  rw [countIf, reduce_eq _ _ h, foldl_count, Nat.zero_add, List.countP_map]; rfl

theorem count_elems [DecidableEq α] {m : Mem α} {c : Container} {val : List Int → α} (h : Elems c m val) (v : α) :
    count m c v = .ok ((positions c.shape).countP fun p => decide (val p = v)) := by
  have := countIf_eq h (fun e => decide (e = v))
  rw [← this]
  simp [count, countIf]

theorem allOf_eq {m : Mem α} {c : Container} {val : List Int → α} (h : Elems c m val) (f : α → Bool) :
    allOf m c f = .ok ((positions c.shape).all fun p => f (val p)) := by
  rw [allOf, reduce_eq _ _ h, foldl_and]; simp [List.all_map, Function.comp_def]

/-- In a strictly sorted list where `P` holds on a prefix, the number of elements with `P` is the
index of the first one without. -/
theorem countP_prefix {γ : Type} [LT γ] (l : List γ) (hl : l.Pairwise (· < ·)) (P : γ → Bool)
    (hP : ∀ a ∈ l, ∀ b ∈ l, a < b → P b = true → P a = true) :
    (∀ a ∈ l.drop (l.countP P), P a = false) ∧ (∀ a ∈ l.take (l.countP P), P a = true) := by
  induction l with
  | nil => simp
  | cons x t ih =>
    obtain ⟨hx, ht⟩ := List.pairwise_cons.1 hl
    have ih' := ih ht fun a ha b hb => hP a (.tail _ ha) b (.tail _ hb)
    cases hPx : P x with
    | true =>
      rw [List.countP_cons_of_pos (by simpa using hPx)]
      simp only [List.drop_succ_cons, List.take_succ_cons, List.mem_cons]
      exact ⟨ih'.1, by rintro a (rfl | ha); exacts [hPx, ih'.2 a ha]⟩
    | false =>
      have hall : ∀ a ∈ x :: t, P a = false := by
        intro a ha
        rcases List.mem_cons.1 ha with rfl | ha
        · exact hPx
        · by_contra hn
          have := hP x (.head _) a (.tail _ ha) (hx a ha) (by simpa using hn)
          rw [hPx] at this; cases this
      have h0 : (x :: t).countP P = 0 := List.countP_eq_zero.2 fun a ha => by simp [hall a ha]
      rw [h0]
      exact ⟨by simpa using hall, by simp⟩

/-- The first position where a prefix-closed `P` fails has as many positions before it as satisfy `P`. -/
theorem isFirst_rank {s : List Int} (hs : NonNeg s) {P : List Int → Bool} {r : Option (List Int)}
    (hr : IsFirst s (fun p => P p = false) r)
    (hP : ∀ p q, InBox s p → InBox s q → p < q → P q = true → P p = true) :
    Rank s r ((positions s).countP P) := by
  obtain ⟨h1, h2⟩ := countP_prefix (positions s) (positions_sorted s) P
    (fun a ha b hb => hP a b (mem_positions.1 ha) (mem_positions.1 hb))
  cases r with
  | none =>
    have hall := hr.1.1 rfl
    have : (positions s).countP P = (positions s).length :=
      List.countP_eq_length.2 fun a ha => by simpa using hall a (mem_positions.1 ha)
    show ((_ : Nat) : Int) = _
    rw [this, positions_length hs]
  | some p =>
    obtain ⟨hp, hPp, hmin⟩ := (hr.2 p).1 rfl
    show (positions s)[_]? = some p
    have hmem : p ∈ (positions s).take ((positions s).countP P) ++ (positions s).drop ((positions s).countP P) := by
      rw [List.take_append_drop]; exact mem_positions.2 hp
    rcases List.mem_append.1 hmem with h | h
    · rw [h2 p h] at hPp; cases hPp
    · rw [← List.head?_drop]
      cases hd : (positions s).drop ((positions s).countP P) with
      | nil => rw [hd] at h; cases h
      | cons q t =>
        rw [hd] at h h1
        rcases List.mem_cons.1 h with rfl | h
        · rfl
        · exfalso
          have hsub : (q :: t).Pairwise (· < ·) := hd ▸ (positions_sorted s).sublist (List.drop_sublist _ _)
          have hq : q ∈ positions s := List.mem_of_mem_drop (hd ▸ List.mem_cons_self)
          exact hmin q (mem_positions.1 hq) ((List.pairwise_cons.1 hsub).1 p h) (h1 q (.head _))

end Kwk
