import Verif.Lemmas.TypedViews
import Verif.Props.Mixed

/-!
# Properties C100-C101: memory blocks and reversed views, for all integer types

Extents, strides, coordinates and bounds carry their own types (`Coord`); `vals` are their values.
-/

namespace Kwk
open Spec

/-! ## C100

Full property: the block allocated by a table has room for all elements, whatever integer types its extents have.  False for
64-bit extents (`C100_block_too_small`). -/

/-- The full property: every valid position lies inside of the block, for elements of `size` bytes, if so many bytes can
exist at all. -/
def C100_statement : Prop :=
  ∀ (size : Nat) (s : List Coord), (∀ c ∈ s, c.type.Fits c.value ∧ 0 ≤ c.value) → 0 < size →
    (vals s).prod * size < 2 ^ 63 →
    ∀ p, InBox (vals s) p → ∃ n, blockBytes size s = .ok n ∧ (rowPlace (vals s) p + 1) * size ≤ n

/-- **C100** (partial) True for extents of any types if there are less than `2^31` elements; then the block has exactly
the size of the elements. -/
theorem C100_block_partial (size : Nat) {s : List Coord} (hne : s ≠ []) (hs : ∀ d ∈ vals s, 0 < d)
    (hf : (vals s).prod < 2147483648) (hsize : (vals s).prod * size < 2 ^ 63) :
    blockBytes size s = .ok ((vals s).prod * size) ∧
      ∀ p, InBox (vals s) p → (rowPlace (vals s) p + 1) * size ≤ (vals s).prod * size := by
  have hpad := padded_eq_prod hs
  have hp : 0 < (vals s).prod := by rw [← hpad]; have := paddedCount_pos (vals s); omega
  constructor
  · unfold blockBytes
    rw [(C70_mixed_numel (fun d hd => (hs d hd).le) (by rw [hpad]; exact hf)).1, if_neg hne]
    simp only [bind, Except.bind]
    rw [IntType.wrap_fits (IntType.fits_of_bits (by decide) hp.le hf)]
    apply IntType.op_fits
    refine ⟨show (0 : Int) ≤ _ by positivity, ?_⟩
    show _ < (2 : Int) ^ 64
    omega
  · intro p hp'
    rw [rowPlace_eq]
    have := (lin_bounds hp').2
    have h0 : (0 : Int) ≤ size := by positivity
    nlinarith

example := C100_block_partial 8 (s := [⟨.u8, 2⟩, ⟨.i64, 300⟩]) (by decide) (by decide) (by decide) (by decide)

/-- **C100** (exactly when) With 64-bit extents the block has the size of the elements exactly if there are less than `2^31`. -/
theorem C100_block_exact_partial (size : Nat) {s : List Coord} (hne : s ≠ []) (ht : ∀ c ∈ s, c.type = .i64)
    (hs : ∀ d ∈ vals s, 0 < d) (h0 : 0 < size) (hsize : (vals s).prod * size < 2 ^ 63) :
    blockBytes size s = .ok ((vals s).prod * size) ↔ (vals s).prod < 2 ^ 31 := by
  constructor
  · intro h
    have hp : 0 < (vals s).prod := by rw [← padded_eq_prod hs]; exact lt_of_lt_of_le zero_lt_one (paddedCount_pos _)
    have h1 : (1 : Int) ≤ size := by exact_mod_cast h0
    obtain ⟨t, e, -⟩ := numelT_fold_i64 ht hs (by nlinarith)
    unfold blockBytes numelT at h
    cases s with
    | nil => exact absurd rfl hne
    | cons d s =>
      rw [e] at h
      simp only [bind, Except.bind, pure, Except.pure] at h
      generalize (vals (d :: s)).prod = N at *
      by_contra hN
      have h := Except.ok.inj h
      have hw : ∃ j, IntType.i32.wrap N = N - 2 ^ 32 * j ∧ 1 ≤ j ∧ 2 ^ 32 * j ≤ 2 * N := by
        have : IntType.i32.wrap N = if 2147483648 ≤ N % 4294967296 then N % 4294967296 - 4294967296 else N % 4294967296 := by
          simp [IntType.wrap, IntType.i32, IntType.hi]
        rw [this]
        refine ⟨if 2147483648 ≤ N % 4294967296 then N / 4294967296 + 1 else N / 4294967296, ?_⟩
        split <;> omega
      obtain ⟨j, hj, hj1, hj2⟩ := hw
      have e1 := IntType.wrap_mod .u64 (IntType.u64.wrap (IntType.i32.wrap N) * size)
      have e2 : IntType.u64.wrap (IntType.i32.wrap N) % 2 ^ 64 = IntType.i32.wrap N % 2 ^ 64 := IntType.wrap_mod .u64 _
      have h : IntType.u64.wrap (IntType.u64.wrap (IntType.i32.wrap N) * size) = N * size := h
      rw [show (2 : Int) ^ IntType.u64.bits = 2 ^ 64 from rfl, h, Int.mul_emod (IntType.u64.wrap _), e2, ← Int.mul_emod, hj] at e1
      have hd : (2 : Int) ^ 64 ∣ 2 ^ 32 * j * size := by
        have e := Int.dvd_of_emod_eq_zero (Int.emod_eq_emod_iff_emod_sub_eq_zero.1 e1)
        rwa [show N * (size : Int) - (N - 2 ^ 32 * j) * size = 2 ^ 32 * j * size by ring] at e
      have := Int.le_of_dvd (by positivity) hd
      nlinarith
  · intro h
    exact (C100_block_partial size hne hs h hsize).1

example := C100_block_exact_partial 8 (s := [⟨.i64, 65536⟩, ⟨.i64, 65537⟩]) (by decide) (by decide) (by decide) (by decide) (by decide)

/-- **C100** is false: a table of 65536 x 65536 bytes with one 64-bit extent gets an empty block (a null pointer), although
the offset of its positions is computed in 64 bits. -/
theorem C100_block_too_small : ¬ C100_statement ∧
    blockBytes 1 [⟨.i64, 65536⟩, ⟨.i32, 65536⟩] = .ok 0 ∧
    linearIndexT .unchecked [⟨.i64, 65536⟩, ⟨.i64, 65536⟩] [⟨.i64, 65535⟩, ⟨.i64, 65535⟩] = .ok ⟨.i64, 4294967295⟩ := by
  refine ⟨fun h => ?_, by decide +kernel, by decide +kernel⟩
  obtain ⟨n, hn, hle⟩ := h 1 [⟨.i64, 65536⟩, ⟨.i32, 65536⟩] (by decide) (by decide) (by decide) [0, 0] (by decide)
  rw [show blockBytes 1 [⟨.i64, 65536⟩, ⟨.i32, 65536⟩] = .ok 0 by decide +kernel] at hn
  cases hn
  revert hle
  decide

/-- A table of 3 x 1000 x 5 doubles with mixed extents. -/
example : blockBytes 8 [⟨.u8, 3⟩, ⟨.i32, 1000⟩, ⟨.u32, 5⟩] = .ok 120000 := by decide +kernel

/-! ## C101

Full property: `reverse` of a default-layout container shows the elements of the opposite positions whatever integer types
the extents and the coordinates have, and `find_last` returns the matching position.  False for the unsigned type of the
width of `int` (`C101_unsigned_int_false`): the negated strides are not negative. -/

/-- The full property: the offset of a position of the reversed view is the one of the opposite position. -/
def C101_statement : Prop :=
  ∀ (s p : List Coord), (∀ c ∈ s ++ p, c.type.Fits c.value) → InBox (vals s) (vals p) → (vals s).prod < 2147483648 →
    ∃ st start nst, asStrideT s = .ok st ∧ reverseT s st = .ok (start, nst) ∧
      elementT start nst p = .ok (rowPlace (vals s) (mirror (vals s) (vals p)))

/-- **C101** (partial) True if no extent and no coordinate has the unsigned type of the width of `int`. -/
theorem C101_reverse_partial {s p : List Coord} (hs : ∀ c ∈ s, NotUnsignedInt c.type) (hp : ∀ c ∈ p, NotUnsignedInt c.type)
    (hb : InBox (vals s) (vals p)) (hf : (vals s).prod < 2147483648) (hne : s ≠ []) :
    ∃ st start nst, asStrideT s = .ok st ∧ reverseT s st = .ok (start, nst) ∧
      elementT start nst p = .ok (rowPlace (vals s) (mirror (vals s) (vals p))) := by
  have hpad := padded_eq_prod hb.pos
  obtain ⟨st, est, hst⟩ := rep_asStride hs hb.pos hf
  obtain ⟨nst, ent, hnt⟩ := rep_negs hst
  have hn := (C70_mixed_numel hb.nonNeg (by rw [hpad]; exact hf)).1
  rw [if_neg hne] at hn
  have hsmall : ∀ d ∈ vals s, d ≤ 2147483648 := fun d hd =>
    (lt_of_le_of_lt (le_padded hd) (by rw [hpad]; exact hf)).le
  have hbd := lin_bounds hb
  have habs : List.Forall₂ (fun i j => |j| ≤ i) (vals p) (vals p) := by
    have := inBox_coords_nonneg hb
    rw [List.forall₂_same]
    intro x hx
    rw [abs_of_nonneg (this x hx)]
  have hsum := abs_sum_box hb habs
  have hsum' : |(0 : Int)| + ((((sfx (vals s)).map fun m => -m).zipWith (· * ·) (vals p)).map (|·|)).sum < 2147483648 := by
    rw [abs_zero, zero_add, abs_zipWith_neg]
    omega
  obtain ⟨r, er, hr⟩ := rep_linearize hnt (rep_inBox hb hp hsmall) (acc := ⟨.i32, 0⟩) (a := 0)
    ⟨by decide, by unfold I32; omega, .inl rfl⟩ hsum'
  refine ⟨st, (vals s).prod - 1, nst, est, ?_, ?_⟩
  · unfold reverseT
    rw [ent, hn]
    simp only [bind, Except.bind]
    have hrep : Rep ⟨.i32, (vals s).prod⟩ (vals s).prod := .mk_exact (by decide) ⟨by omega, hf⟩
    rw [hrep.ptr, zero_add]
    rfl
  · unfold elementT linearizeT
    rw [er]
    simp only [bind, Except.bind]
    rw [hr.ptr, rowPlace_eq, linearize_mirror (sfx (vals s)) (by rw [hb.length_eq]), linearize_corner, linearize_neg]
    show Except.ok _ = _
    congr 1
    ring

example := C101_reverse_partial (s := [⟨.u8, 2⟩, ⟨.i64, 300⟩]) (p := [⟨.i32, 1⟩, ⟨.u16, 299⟩]) (by decide) (by decide) (by decide) (by decide)
  (by decide)

/-- **C101** (unsigned int) If all extents and coordinates have the unsigned type of the width of `int`, the first position of the
reversed view is right, and every other one is `2^32` elements too far. -/
theorem C101_unsigned_int_partial {s p : List Coord} (hs : ∀ c ∈ s, c.type = .u32) (hp : ∀ c ∈ p, c.type = .u32)
    (hb : InBox (vals s) (vals p)) (hf : (vals s).prod < 2147483648) (hne : s ≠ []) :
    ∃ st start nst, asStrideT s = .ok st ∧ reverseT s st = .ok (start, nst) ∧
      elementT start nst p = .ok (rowPlace (vals s) (mirror (vals s) (vals p)) +
        if rowPlace (vals s) (vals p) = 0 then 0 else 2 ^ 32) := by
  have hpad := padded_eq_prod hb.pos
  obtain ⟨st, est, hst⟩ := asStrideT_eq hb.nonNeg (by rw [hpad]; exact hf)
  rw [asStride_eq_sfx] at hst
  have hrep : List.Forall₂ (fun c v => (c.type = .i32 ∨ c.type = .u32) ∧ c.value = v ∧ Small v) st (sfx (vals s)) := by
    have h1 := asStrideT_types hs est
    have h2 := sfx_small hb.pos (by rw [hpad]; exact hf)
    rw [← hst] at h2 ⊢
    rw [vals, List.forall₂_map_right_iff, List.forall₂_same]
    exact fun c hc => ⟨h1 c hc, rfl, (h2 c.value (List.mem_map_of_mem hc)).1⟩
  obtain ⟨nst, ent, hnt⟩ := mod32_negs hrep
  have hn := (C70_mixed_numel hb.nonNeg (by rw [hpad]; exact hf)).1
  rw [if_neg hne] at hn
  have hbd := lin_bounds hb
  have hlen : nst.length = p.length := by
    have := hnt.length_eq
    have h2 := hb.length_eq
    simp only [List.length_map, sfx_length] at this h2
    omega
  have hnil : nst ≠ [] := by
    rw [← List.length_pos_iff, hlen]
    have h2 := hb.length_eq
    have := List.length_pos_iff.2 hne
    simp only [List.length_map] at h2
    omega
  obtain ⟨r, er, -, hr⟩ := mod32_linearize hnt hp hlen (acc := ⟨.i32, 0⟩) (a := 0) ⟨.inl rfl, rfl⟩
  have hr := hr hnil
  refine ⟨st, (vals s).prod - 1, nst, est, ?_, ?_⟩
  · unfold reverseT
    rw [ent, hn]
    simp only [bind, Except.bind]
    have hrep : Rep ⟨.i32, (vals s).prod⟩ (vals s).prod := .mk_exact (by decide) ⟨by omega, hf⟩
    rw [hrep.ptr, zero_add]
    rfl
  · unfold elementT linearizeT
    rw [er, hr]
    simp only [bind, Except.bind]
    rw [rowPlace_eq, rowPlace_eq, linearize_mirror (sfx (vals s)) (by rw [hb.length_eq]), linearize_corner, linearize_neg, zero_add]
    unfold ptrAdd
    generalize linearize (sfx (vals s)) (vals p) = k at *
    generalize (vals s).prod = N at *
    have e1 : IntType.u32.wrap (-k) = (-k) % 4294967296 := by simp [IntType.wrap, IntType.u32]
    have e2 : IntType.i64.wrap ((-k) % 4294967296) = (-k) % 4294967296 := by
      apply IntType.wrap_fits
      constructor
      · refine le_trans (by decide) (Int.emod_nonneg _ (by decide))
      · refine lt_trans (Int.emod_lt_of_pos _ (by decide)) (by decide)
    simp only
    rw [e1, e2]
    show Except.ok _ = _
    congr 1
    split <;> omega

example := C101_unsigned_int_partial (s := [⟨.u32, 2⟩, ⟨.u32, 300⟩]) (p := [⟨.u32, 1⟩, ⟨.u32, 299⟩]) (by decide) (by decide) (by decide)
  (by decide) (by decide)

/-- **C101** is false: in a container of 3 elements whose extent is an `unsigned int`, the second element of the reversed view,
read with a coordinate of the type of the extent as the algorithms do, is `2^32` elements too far; and with a 2 x 3 shape
of such extents, so is the second row, whatever the type of the coordinates. -/
theorem C101_unsigned_int_false : ¬ C101_statement ∧
    (do let st ← asStrideT [⟨.u32, 2⟩, ⟨.u32, 3⟩]
        let (start, nst) ← reverseT [⟨.u32, 2⟩, ⟨.u32, 3⟩] st
        elementT start nst [⟨.i32, 1⟩, ⟨.i32, 0⟩]) = .ok (2 + 2 ^ 32) := by
  refine ⟨fun h => ?_, by decide +kernel⟩
  obtain ⟨st, start, nst, h1, h2, h3⟩ := h [⟨.u32, 3⟩] [⟨.u32, 1⟩] (by decide) (by decide) (by decide)
  rw [show asStrideT [⟨.u32, 3⟩] = .ok [fixedOne] by decide] at h1
  cases h1
  rw [show reverseT [⟨.u32, 3⟩] [fixedOne] = .ok (2, [⟨.i32, -1⟩]) by decide +kernel] at h2
  cases h2
  revert h3
  decide +kernel

/-- **C101** (positions) The position computed by `find_last_if` from a position of the reversed view is the opposite one, for
extents of any type up to `2^31`. -/
theorem C101_find_last_position {s p : List Coord} (hs : ∀ c ∈ s, c.type.Fits c.value) (hb : InBox (vals s) (vals p))
    (hf : ∀ d ∈ vals s, d ≤ 2147483648) :
    storePosition p = vals p ∧ mirrorPosition s (storePosition p) = .ok (mirror (vals s) (vals p)) := by
  have h1 : storePosition p = vals p := by
    unfold storePosition
    refine List.map_congr_left fun c hc => ?_
    have h0 := inBox_small hb hf c.value (List.mem_map_of_mem hc)
    rw [IntType.wrap_fits (IntType.fits_of_bits (by decide) h0.1 h0.2),
      IntType.wrap_fits (IntType.fits_of_bits (by decide) h0.1 h0.2)]
  refine ⟨h1, ?_⟩
  rw [h1]
  clear h1
  unfold mirrorPosition
  induction s generalizing p with
  | nil => rfl
  | cons d s ih =>
    cases p with
    | nil => cases hb
    | cons c p =>
      obtain ⟨h, t⟩ := inBox_cons.1 hb
      have hax := mirror_axis (hs d (by simp)) (hf d.value (by simp)) h.1 h.2
      have ih := ih (p := p) (fun c hc => hs c (by simp [hc])) t (fun x hx => hf x (List.mem_cons_of_mem _ hx))
      simp only [vals, List.map_cons, List.zip_cons_cons, List.mapM_cons, mirror, List.zipWith_cons_cons] at ih ⊢
      simp only [bind, Except.bind] at hax ih ⊢
      rw [hax, ih]
      rfl

/-- A 2 x 3 container with `short` and 64-bit extents, reversed. -/
example : (do
    let st ← asStrideT [⟨.i16, 2⟩, ⟨.u64, 3⟩]
    let (start, nst) ← reverseT [⟨.i16, 2⟩, ⟨.u64, 3⟩] st
    elementT start nst [⟨.i16, 1⟩, ⟨.u64, 1⟩]) = .ok 1 := by decide +kernel

/-- **C101** (positions beyond) Larger coordinates do not fit a `kwk::position`. -/
theorem C101_position_truncated :
    storePosition [⟨.i64, 2147483648⟩] = [-2147483648] ∧ storePosition [⟨.u64, 4294967296⟩] = [0] := by decide +kernel

end Kwk
