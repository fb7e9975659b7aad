import Verif.Lemmas.Mixed

/-!
# Property C70: index arithmetic on extents of different integer types

Extents, coordinates and indexes carry their own types (`Coord`); `vals` are their mathematical values.
-/

namespace Kwk
open Spec

/-- **C70** (sizes) For non-negative extents of any integral types whose product, counting empty axes as one,
is below `2^31`, `numel` and the strides are the mathematical ones, whatever types the intermediate
products have; a shape of order 0 counts as empty (C07). -/
theorem C70_mixed_numel {s : List Coord} (hs : NonNeg (vals s)) (hf : paddedCount (vals s) < 2147483648) :
    numelT s = .ok ⟨.i32, if s = [] then 0 else (vals s).prod⟩ ∧ ∃ st, asStrideT s = .ok st ∧ vals st = distances (vals s) := by
  refine ⟨?_, by rw [distances_eq, ← asStride_eq_sfx]; exact asStrideT_eq hs hf⟩
  obtain ⟨t, h⟩ := numelT_fold hs hf
  have hprod := small_prod hs hf
  cases s with
  | nil => rfl
  | cons d s =>
    rw [if_neg (by simp), numelT, h]
    · simp only [bind, Except.bind]
      rw [IntType.wrap_fits (IntType.fits_of_bits (by decide) hprod.1 hprod.2)]
      rfl
    · simp

example := C70_mixed_numel (s := [⟨.u8, 2⟩, ⟨.i64, 0⟩, ⟨.u32, 300⟩]) (by decide) (by decide)

/-- **C70** (index) The linear index of a valid position is the mathematical one, whatever the types of the extents
and of the coordinates; in checked builds the type of each coordinate must be able to represent the matching extent
(otherwise `contains` may be wrong, see C09). -/
theorem C70_mixed_index (md : Mode) {s p : List Coord} (hp : InBox (vals s) (vals p))
    (hty : md = .checked → List.Forall₂ (fun d c => c.type.Fits d) (vals s) p) (hf : (vals s).prod < 2147483648) :
    ∃ t k, linearIndexT md s p = .ok ⟨t, k⟩ ∧ linearIndex md (vals s) (vals p) = .ok k := by
  have hpad := padded_eq_prod hp.pos
  rw [← hpad] at hf
  obtain ⟨r, hr, hrv⟩ := asStrideT_eq hp.nonNeg hf
  have hb := lin_bounds hp
  have hall : List.Forall₂ (fun a b : Coord =>
      0 ≤ b.value ∧ b.value < 2147483648 ∧ 0 ≤ a.value ∧ a.value < 2147483648) r p := by
    have h1 : ∀ a ∈ r, Small a.value ∧ 0 < a.value := fun c hc =>
      sfx_small hp.pos hf c.value (by rw [← asStride_eq_sfx, ← hrv]; exact List.mem_map_of_mem hc)
    have h2 : ∀ b ∈ p, Small b.value := by
      have : ∀ i ∈ vals p, Small i := by
        generalize vals p = q at hp
        have hf' := fun d hd => small_mem hp.nonNeg hf (d := d) hd
        clear * - hp hf'
        generalize vals s = s at hp hf'
        induction hp with
        | nil => simp
        | @cons d i s q h t ih =>
          intro x hx
          rcases List.mem_cons.mp hx with rfl | hx
          · exact ⟨h.1, by have := (hf' d (by simp)).2; have := h.2; omega⟩
          · exact ih (fun d hd => hf' d (by simp [hd])) x hx
      exact fun b hb => this _ (List.mem_map_of_mem hb)
    have hlen : r.length = p.length := by
      have := congrArg List.length hrv
      rw [asStride_eq_sfx, sfx_length] at this
      have h3 := hp.length_eq
      simp at this h3
      omega
    rw [List.forall₂_iff_zip]
    refine ⟨hlen, fun {a b} hab => ?_⟩
    have ha := h1 a (List.of_mem_zip hab).1
    have hb := h2 b (List.of_mem_zip hab).2
    exact ⟨hb.1, hb.2, ha.1.1, ha.1.2⟩
  obtain ⟨t, ht⟩ := linearizeT_aux (acc := ⟨.i32, 0⟩) (N := (vals s).prod) (by rw [← hpad]; exact hf) le_rfl hall
    (by rw [hrv, asStride_eq_sfx]; simp only; omega)
  refine ⟨t, rowPlace (vals s) (vals p), ?_, ?_⟩
  · unfold linearIndexT linearizeT
    rw [show s.map (·.value) = vals s from rfl,
      show kwkAssert md (containsM (vals s) p) = .ok () by
        cases md
        · rw [containsM_of_inBox hp (hty rfl)]; rfl
        · rfl, hr]
    simp only [bind, Except.bind] at ht ⊢
    rw [ht, hrv, rowPlace_eq, asStride_eq_sfx]
    simp
  · rw [linearIndex_ok md hp, rowPlace_eq]

example := C70_mixed_index .checked (s := [⟨.u8, 2⟩, ⟨.i64, 300⟩]) (p := [⟨.i64, 1⟩, ⟨.u16, 299⟩]) (by decide)
  (fun _ => .cons (by decide) (.cons (by decide) .nil)) (by decide)

/-- **C70** (2D containers) The specialised offset of run-time 2D containers is the linear index too. -/
theorem C70_mixed_index_2d (md : Mode) {d0 d1 i1 i0 : Coord} (hp : InBox [d0.value, d1.value] [i1.value, i0.value])
    (hf : d0.value * d1.value < 2147483648) :
    ∃ t k, index2T d1 i1 i0 = .ok ⟨t, k⟩ ∧ linearIndex md [d0.value, d1.value] [i1.value, i0.value] = .ok k := by
  have hb := lin_bounds hp
  have hp' := hp
  rw [inBox_cons, inBox_cons] at hp
  obtain ⟨⟨h1, h2⟩, ⟨h3, h4⟩, -⟩ := hp
  simp only [sfx, linearize_cons, linearize_nil_left, List.prod_cons, List.prod_nil, mul_one, one_mul] at hb
  have e : d1.value * i1.value + i0.value < d0.value * d1.value := by omega
  have hm : 0 ≤ i1.value * d1.value := mul_nonneg h1 (by omega)
  have hi : i1.value < 2147483648 := by nlinarith
  have hd : d1.value < 2147483648 := by nlinarith
  rw [mul_comm] at e
  obtain ⟨t, ht⟩ := constMul_small (a := i1) (b := d1) ⟨h1, hi⟩ ⟨by omega, hd⟩ ⟨hm, by omega⟩
  obtain ⟨u, hu⟩ := constAdd_small (a := i0) (b := ⟨t, i1.value * d1.value⟩) ⟨h3, by omega⟩
    ⟨hm, by simp only; omega⟩ ⟨by simp only; omega, by simp only; omega⟩
  refine ⟨u, _, ?_, linearIndex_ok md hp'⟩
  rw [index2T, ht]
  simp only [bind, Except.bind, hu, sfx, linearize_cons, linearize_nil_left, List.prod_cons, List.prod_nil, mul_one,
    one_mul]
  rw [show d1.value * i1.value + (i0.value + 0) = i0.value + i1.value * d1.value by ring]

example : index2T ⟨.u8, 200⟩ ⟨.i16, 300⟩ ⟨.u8, 199⟩ = .ok ⟨.i32, 60199⟩ := by decide +kernel

/-- **C70** (coordinates) For an index below the number of elements, of any integral type, `coordinates` succeeds,
its result has the type of the index, is a valid position, and its linear index is the given one. -/
theorem C70_mixed_coordinates (md : Mode) {idx : Coord} {s : List Coord} (hne : s ≠ [])
    (hs : NonNeg (vals s)) (hf : (vals s).prod < 2147483648) (hfit : idx.type.Fits idx.value)
    (h0 : 0 ≤ idx.value) (hlt : idx.value < (vals s).prod) :
    ∃ cs, coordinatesT md idx s = .ok cs ∧ (∀ c ∈ cs, c.type = idx.type) ∧ InBox (vals s) (vals cs) ∧
      linearIndex md (vals s) (vals cs) = .ok idx.value := by
  have hne' : vals s ≠ [] := by simpa using hne
  obtain ⟨p, hp, hidx⟩ := lin_surj hs h0 hlt
  have hpos := hp.pos
  obtain ⟨cs, h1, h2, h3⟩ := coordinatesT_eq md hne hpos (by rw [padded_eq_prod hpos]; exact hf) h0 hlt hfit
    (p := p) (by rw [← hidx]; exact coordinates_lin md hne' hp)
  refine ⟨cs, h1, h3, by rw [h2]; exact hp, ?_⟩
  rw [h2, linearIndex_ok md hp, hidx]

/-- An 8-bit outer axis, a run-time `int` axis and an unsigned inner axis, indexed by coordinates of other types. -/
example : linearIndexT .checked [⟨.u8, 3⟩, ⟨.i32, 1000⟩, ⟨.u32, 5⟩] [⟨.i32, 2⟩, ⟨.i16, 999⟩, ⟨.u8, 4⟩] =
    .ok ⟨.u32, 14999⟩ := by decide +kernel
example : coordinatesT .checked ⟨.i16, 14999⟩ [⟨.u8, 3⟩, ⟨.i32, 1000⟩, ⟨.u32, 5⟩] =
    .ok [⟨.i16, 2⟩, ⟨.i16, 999⟩, ⟨.i16, 4⟩] := by decide +kernel
example : paddedCount (vals [⟨.u8, 3⟩, ⟨.i32, 1000⟩, ⟨.u32, 5⟩]) < 2147483648 := by decide +kernel

/-- **C70** (where it stops) The bound is needed: with one 64-bit axis the intermediate products are exact but
`numel` is cut to 32 bits; with unsigned 32-bit axes they wrap to zero without any error. -/
theorem C70_mixed_wraps :
    numelT [⟨.i64, 65536⟩, ⟨.i32, 65536⟩] = .ok ⟨.i32, 0⟩ ∧
    numelT [⟨.u32, 65536⟩, ⟨.i32, 65536⟩] = .ok ⟨.i32, 0⟩ ∧
    numelT [⟨.i32, 65536⟩, ⟨.i32, 65536⟩] = .error .overflow ∧
    asStrideT [⟨.i32, 2⟩, ⟨.u32, 65536⟩, ⟨.u32, 65536⟩] = .ok [⟨.u32, 0⟩, ⟨.u32, 65536⟩, ⟨.i32, 1⟩] := by
  decide +kernel

end Kwk
