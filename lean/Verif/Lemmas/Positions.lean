import Verif.Lemmas.Index
import Mathlib.Data.List.Basic
import Mathlib.Data.Set.Card

/-! # The list `positions` enumerates the box in lexicographic order -/

namespace Kwk
open Spec

theorem mem_upTo {d i : Int} : i ∈ upTo d ↔ 0 ≤ i ∧ i < d := by
  simp only [upTo, List.mem_map, List.mem_range]
  constructor
  · rintro ⟨a, ha, rfl⟩; constructor
    · simp
    · simp; omega
  · rintro ⟨h0, h1⟩; exact ⟨i.toNat, by omega, by simp; omega⟩

theorem upTo_nodup (d : Int) : (upTo d).Nodup :=
  List.Nodup.map (fun a b h => by simpa using h) List.nodup_range

theorem upTo_length (d : Int) : (upTo d).length = d.toNat := by simp [upTo]

theorem upTo_getElem? (d : Int) (k : Nat) :
    (upTo d)[k]? = if k < d.toNat then some (k : Int) else none := by
  simp [upTo]
  split <;> simp_all

theorem mem_positions {s p : List Int} : p ∈ positions s ↔ InBox s p := by
  induction s generalizing p with
  | nil => simp [positions, inBox_nil]
  | cons d ds ih =>
    simp only [positions, List.mem_flatMap, List.mem_map]
    constructor
    · rintro ⟨i, hi, q, hq, rfl⟩
      exact inBox_cons.2 ⟨mem_upTo.1 hi, ih.1 hq⟩
    · intro h
      obtain ⟨i, q, rfl, hi, hq⟩ := inBox_cons_left h
      exact ⟨i, mem_upTo.2 hi, q, ih.2 hq, rfl⟩

theorem range_mul_flatMap (D P : Nat) :
    (List.range D).flatMap (fun i => (List.range P).map (fun k => P * i + k)) = List.range (D * P) := by
  induction D with
  | zero => simp
  | succ D ih =>
    rw [List.range_succ, List.flatMap_append, ih, Nat.succ_mul, List.range_add]
    simp [Nat.mul_comm]

/-- Linear indexes along `positions` are `0, 1, 2, …`. -/
theorem positions_map_lin {s : List Int} (hs : NonNeg s) :
    (positions s).map (linearize (sfx s)) = upTo s.prod := by
  induction s with
  | nil => rfl
  | cons d ds ih =>
    have hds : NonNeg ds := fun x hx => hs x (by simp [hx])
    have hd : 0 ≤ d := hs d (by simp)
    have ih := ih hds
    obtain ⟨D, rfl⟩ := Int.eq_ofNat_of_zero_le hd
    obtain ⟨P, hP⟩ := Int.eq_ofNat_of_zero_le (prod_nonneg' hds)
    rw [hP] at ih
    simp only [positions, List.map_flatMap, List.map_map]
    have e : ∀ i : Int, (positions ds).map (linearize (sfx ((D : Int) :: ds)) ∘ fun p => i :: p)
        = (upTo (P : Int)).map (fun k => (P : Int) * i + k) := by
      intro i
      rw [← ih, List.map_map]
      apply List.map_congr_left
      intro p _
      simp [linearize_sfx_cons, hP]
    simp only [e]
    have := range_mul_flatMap D P
    have h2 := congrArg (List.map Int.ofNat) this
    rw [List.prod_cons, hP]
    simp only [upTo, List.map_flatMap, List.map_map, List.flatMap_map] at h2 ⊢
    rw [← Int.natCast_mul]
    simp only [Int.toNat_natCast]
    rw [← h2]
    simp [Function.comp_def]

theorem positions_length {s : List Int} (hs : NonNeg s) : ((positions s).length : Int) = s.prod := by
  have := congrArg List.length (positions_map_lin hs)
  rw [List.length_map, upTo_length] at this
  have h := prod_nonneg' hs
  omega

theorem positions_sorted (s : List Int) : (positions s).Pairwise (· < ·) := by
  induction s with
  | nil => simp [positions]
  | cons d ds ih =>
    rw [positions, List.pairwise_flatMap]
    constructor
    · intro i _
      rw [List.pairwise_map]
      exact ih.imp fun h => List.cons_lt_cons_iff.2 (Or.inr ⟨rfl, h⟩)
    · have : (upTo d).Pairwise (· < ·) := by
        rw [upTo, List.pairwise_map]
        exact List.pairwise_lt_range.imp fun h => by simpa using h
      refine this.imp ?_
      intro a b hab x hx y hy
      simp only [List.mem_map] at hx hy
      obtain ⟨x, _, rfl⟩ := hx
      obtain ⟨y, _, rfl⟩ := hy
      exact List.cons_lt_cons_iff.2 (Or.inl hab)

theorem positions_nodup (s : List Int) : (positions s).Nodup :=
  (positions_sorted s).imp fun h => by
    intro e; subst e; exact absurd h (List.lt_irrefl _)

theorem positions_getElem? {s p : List Int} (h : InBox s p) :
    (positions s)[(linearize (sfx s) p).toNat]? = some p := by
  have b := lin_bounds h
  have hs := h.nonNeg
  obtain ⟨k, hk, e⟩ := List.getElem_of_mem (mem_positions.2 h)
  have h1 : ((positions s).map (linearize (sfx s)))[k]? = some (linearize (sfx s) p) := by
    simp [hk, e]
  rw [positions_map_lin hs, upTo_getElem?] at h1
  split at h1
  · simp at h1; rw [← h1]; simp [hk, e]
  · simp at h1

theorem positions_eq_nil {s : List Int} (h : ∃ d ∈ s, d ≤ 0) : positions s = [] := by
  rw [List.eq_nil_iff_forall_not_mem]
  intro p hp
  obtain ⟨d, hd, h⟩ := h
  have := (mem_positions.1 hp).pos d hd
  omega

end Kwk
