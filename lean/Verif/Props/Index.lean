import Verif.Lemmas.Compress
import Mathlib.Algebra.BigOperators.Ring.List
import Mathlib.Data.List.TakeWhile

/-!
# Properties C01-C07: positions and linear indexes

The statements only use the modelled API (`linearIndex`, `coordinates`, `asStride`, `linearize`,
`numel`) and the specification `InBox`, `NonNeg`, `positions`, `bump` of `Spec/Box.lean`.
-/

namespace Kwk
open Spec

/-- The specification list `positions` is what it claims to be: it contains exactly the positions
of the box, and is strictly increasing for the lexicographic order. -/
theorem positions_spec (s : List Int) :
    (∀ p, p ∈ positions s ↔ InBox s p) ∧ (positions s).Pairwise (· < ·) :=
  ⟨fun _ => mem_positions, positions_sorted s⟩

example : positions [2, 3] = [[0,0],[0,1],[0,2],[1,0],[1,1],[1,2]] := by decide

/-- **C01** The linear index of a valid position exists (no assertion failure in any build mode)
and lies in `[0, numel)`. -/
theorem C01_linear_index_in_range (md : Mode) (s p : List Int) (hne : s ≠ []) (hp : InBox s p) :
    ∃ k, linearIndex md s p = .ok k ∧ 0 ≤ k ∧ k < numel s := by
  refine ⟨_, linearIndex_ok md hp, ?_⟩
  rw [numel_eq_prod hne]
  exact lin_bounds hp

example : InBox [3, 1, 4] [2, 0, 3] := by decide
example : linearIndex .checked [3, 1, 4] [2, 0, 3] = .ok 11 := by decide

/-- **C02** Distinct positions have distinct linear indexes. -/
theorem C02_linear_index_injective (md : Mode) (s p q : List Int) (hp : InBox s p) (hq : InBox s q)
    (h : linearIndex md s p = linearIndex md s q) : p = q := by
  rw [linearIndex_ok md hp, linearIndex_ok md hq] at h
  exact lin_inj hp hq (by simpa using h)

example : linearIndex .checked [2, 3] [0, 2] = .ok 2 ∧ linearIndex .checked [2, 3] [1, 0] = .ok 3 := by
  decide

/-- **C03** `coordinates` undoes `linear_index`, without fault. -/
theorem C03_coordinates_linear_index (md : Mode) (s p : List Int) (hne : s ≠ []) (hp : InBox s p) :
    (linearIndex md s p >>= fun k => coordinates md k s) = .ok p := by
  rw [linearIndex_ok md hp]
  exact coordinates_lin md hne hp

example : coordinates .checked 17 [2, 3, 4] = .ok [1, 1, 1] := by decide

/-- **C04** `linear_index` undoes `coordinates`, whose result is a valid position. -/
theorem C04_linear_index_coordinates (md : Mode) (s : List Int) (hne : s ≠ []) (hs : NonNeg s)
    (k : Int) (h0 : 0 ≤ k) (hk : k < numel s) :
    ∃ p, coordinates md k s = .ok p ∧ InBox s p ∧ linearIndex md s p = .ok k := by
  rw [numel_eq_prod hne] at hk
  obtain ⟨p, hp, rfl⟩ := lin_surj hs h0 hk
  exact ⟨p, coordinates_lin md hne hp, hp, linearIndex_ok md hp⟩

example : NonNeg [2, 3, 4] ∧ (17 : Int) < numel [2, 3, 4] := by decide
-- outside the range a checked build reports the error, also when an extent is zero
example : coordinates .checked 24 [2, 3, 4] = .error .assertion := by decide
example : coordinates .checked 0 [2, 0] = .error .assertion := by decide
example : coordinates .unchecked 0 [2, 0] = .error .divByZero := by decide

/-- **C05** (order) Linear indexes are ordered as the positions are, lexicographically. -/
theorem C05_linear_index_order (md : Mode) (s p q : List Int) (hp : InBox s p) (hq : InBox s q)
    (k l : Int) (hk : linearIndex md s p = .ok k) (hl : linearIndex md s q = .ok l) :
    k < l ↔ p < q := by
  rw [linearIndex_ok md hp] at hk
  rw [linearIndex_ok md hq] at hl
  cases hk; cases hl
  exact lin_lt_iff hp hq

example : (3 : Int) < 5 ↔ ([1, 0] : List Int) < [1, 2] :=
  C05_linear_index_order .checked [2, 3] [1, 0] [1, 2] (by decide) (by decide) 3 5 (by decide) (by decide)

/-- **C05** (rank) The linear index of `p` is the number of valid positions before `p`. -/
theorem C05_linear_index_rank (md : Mode) (s p : List Int) (hp : InBox s p) :
    linearIndex md s p = .ok ((Set.ncard {q | InBox s q ∧ q < p} : Nat) : Int) := by
  rw [linearIndex_ok md hp]
  congr 1
  have b := lin_bounds hp
  have hs := hp.nonNeg
  -- the positions before `p` are the first `lin p` elements of `positions s`
  set n := (linearize (sfx s) p).toNat with hn
  have hget := positions_getElem? hp
  rw [← hn] at hget
  have hlt : n < (positions s).length := (List.getElem?_eq_some_iff.1 hget).1
  have hset : {q | InBox s q ∧ q < p} = (((positions s).take n).toFinset : Set (List Int)) := by
    ext q
    simp only [Set.mem_ofPred_eq, List.coe_toFinset]
    constructor
    · rintro ⟨hq, hqp⟩
      have hl := (lin_lt_iff hq hp).2 hqp
      have bq := lin_bounds hq
      have hg := positions_getElem? hq
      rw [List.mem_take_iff_getElem]
      obtain ⟨h1, h2⟩ := List.getElem?_eq_some_iff.1 hg
      exact ⟨_, by omega, h2⟩
    · intro hq
      rw [List.mem_take_iff_getElem] at hq
      obtain ⟨i, hi, rfl⟩ := hq
      have hm : (positions s)[i] ∈ positions s := List.getElem_mem _
      refine ⟨mem_positions.1 hm, ?_⟩
      have hpw := List.pairwise_iff_getElem.1 (positions_sorted s) i n (by omega) hlt (by omega)
      rwa [(List.getElem?_eq_some_iff.1 hget).2] at hpw
  rw [hset, Set.ncard_coe_finset, List.toFinset_card_of_nodup]
  · simp; omega
  · exact (positions_nodup s).sublist (List.take_sublist _ _)

example : InBox [2, 3] [0, 2] ∧ InBox [2, 3] [1, 0] ∧ ([0, 2] : List Int) < [1, 0] := by decide

/-- **C05** (place) Written out: each coordinate counts as many positions as the later axes have together. The specification
`rowPlace`, which other properties use, is this number of positions before `p`. -/
theorem C05_row_place (md : Mode) (s p : List Int) (hp : InBox s p) :
    linearIndex md s p = .ok (rowPlace s p) ∧ rowPlace s p = ((Set.ncard {q | InBox s q ∧ q < p} : Nat) : Int) := by
  have h := C05_linear_index_rank md s p hp
  rw [linearIndex_ok md hp, ← rowPlace_eq] at h
  exact ⟨by rw [linearIndex_ok md hp, rowPlace_eq], by simpa using h⟩

example : rowPlace [2, 3, 4] [1, 2, 3] = 23 ∧ rowPlace [2, 3, 4] [1, 0, 2] = 14 := by decide

/-- **C06** (value) The stride of axis `k` is the product of the extents to its right; there is one
stride per axis. -/
theorem C06_stride_value (s : List Int) :
    asStride s = distances s ∧ (asStride s).length = s.length ∧
    ∀ k, k < s.length → (asStride s)[k]? = some (s.drop (k + 1)).prod := by
  rw [asStride_eq_sfx]
  refine ⟨(distances_eq s).symm, sfx_length s, ?_⟩
  induction s with
  | nil => simp
  | cons d ds ih =>
    intro k hk
    cases k with
    | zero => simp [sfx]
    | succ k => simp only [sfx, List.getElem?_cons_succ, List.drop_succ_cons]; exact ih k (by simpa using hk)

example : (asStride [2, 3, 4])[0]? = some 12 := (C06_stride_value [2, 3, 4]).2.2 0 (by decide)

/-- **C06** (innermost) The innermost stride is `1`. -/
theorem C06_stride_innermost (s : List Int) (h : s ≠ []) : (asStride s).getLast? = some 1 := by
  have hl := List.length_pos_iff.2 h
  rw [List.getLast?_eq_getElem?, (C06_stride_value s).2.1, (C06_stride_value s).2.2 _ (by omega)]
  rw [List.drop_of_length_le (by omega)]; rfl

example : (asStride [2, 3, 4]).getLast? = some 1 := C06_stride_innermost _ (by decide)

/-- **C06** (step) Moving by one along axis `k` moves the linear index by stride `k`. -/
theorem C06_stride_step (s p : List Int) (k : Nat) (hk : k < s.length) (hl : p.length = s.length) :
    linearize (asStride s) (bump p k) = linearize (asStride s) p + (s.drop (k + 1)).prod := by
  rw [asStride_eq_sfx]
  induction s generalizing p k with
  | nil => simp at hk
  | cons d ds ih =>
    cases p with
    | nil => simp at hl
    | cons i is =>
      cases k with
      | zero => simp only [bump, List.modify_zero_cons, linearize_sfx_cons]; simp; ring
      | succ k =>
        have := ih is k (by simpa using hk) (by simpa using hl)
        simp only [bump, List.modify_succ_cons, linearize_sfx_cons, List.drop_succ_cons] at this ⊢
        rw [this]; ring

example : linearize (asStride [2, 3, 4]) [0, 2, 1] = linearize (asStride [2, 3, 4]) [0, 1, 1] + 4 :=
  C06_stride_step [2, 3, 4] [0, 1, 1] 1 (by decide) rfl

/-- **C06** (step, between valid positions) From a valid position to the next valid one along axis `k`, `linear_index` grows by
the stride of this axis. -/
theorem C06_linear_index_step (md : Mode) (s p : List Int) (k : Nat) (hk : k < s.length) (hp : InBox s p)
    (hq : InBox s (bump p k)) :
    ∃ a b g, linearIndex md s p = .ok a ∧ linearIndex md s (bump p k) = .ok b ∧ (asStride s)[k]? = some g ∧ b = a + g := by
  have := C06_stride_step s p k hk hp.length_eq.symm
  rw [asStride_eq_sfx] at this
  exact ⟨_, _, _, linearIndex_ok md hp, linearIndex_ok md hq, (C06_stride_value s).2.2 k hk, this⟩

example : linearIndex .checked [2, 3, 4] [1, 0, 2] = .ok 14 ∧ linearIndex .checked [2, 3, 4] [1, 1, 2] = .ok 18 ∧
    bump [1, 0, 2] 1 = [1, 1, 2] := by decide
example : asStride [2, 3, 4, 5] = [60, 20, 5, 1] := by decide

/-- **C07** (product) `numel` is the product of the extents. -/
theorem C07_numel_prod (s : List Int) (h : s ≠ []) : numel s = s.prod := numel_eq_prod h

example : numel [2, 3, 4] = 24 := C07_numel_prod _ (by decide)

/-- **C07** (count) `numel` is the number of valid positions. -/
theorem C07_numel_card (s : List Int) (h : s ≠ []) (hs : NonNeg s) :
    numel s = (Set.ncard {p | InBox s p} : Nat) := by
  have hset : {p | InBox s p} = ((positions s).toFinset : Set (List Int)) := by
    ext p; simp [mem_positions]
  rw [hset, Set.ncard_coe_finset, List.toFinset_card_of_nodup (positions_nodup s),
    positions_length hs, numel_eq_prod h]

example := C07_numel_card [2, 3, 4] (by decide) (by decide)

/-- **C07** (zero) `numel` is zero exactly when some extent is zero. -/
theorem C07_numel_zero_iff (s : List Int) (h : s ≠ []) : numel s = 0 ↔ (0 : Int) ∈ s := by
  rw [numel_eq_prod h, List.prod_eq_zero_iff]

example : numel [3, 1, 4] = 12 ∧ numel [3, 0, 4] = 0 := by decide

/-- **C07** (order zero) The shape without axes is the exception: it has one position, the empty one,
but `numel` is zero. -/
theorem C07_numel_order_zero : numel [] = 0 ∧ Set.ncard {p | InBox [] p} = 1 := by
  refine ⟨rfl, ?_⟩
  rw [show {p : List Int | InBox [] p} = {[]} by ext p; simp [inBox_nil]]
  exact Set.ncard_singleton _

end Kwk
