import Verif.Lemmas.LongIndex
import Verif.Props.TypedSlices

/-!
# Property C146: views of more than `2^31` elements

`numel()` is an `int`, so that no table can own so many elements; views of memory that was allocated elsewhere can have them.
-/

namespace Kwk
open Spec

/-- Everything but the last product. -/
theorem slices_long {s : List Coord} {xs : List SlicerT} {ls : List (List Int)} {p : List Coord}
    (ht : ∀ c ∈ s, c.type = .i64) (hf : (vals s).prod < 2 ^ 63)
    (hp : PicksAll (vals s) (xs.map (·.erase)) ls) (hne : ∀ l ∈ ls, l ≠ [])
    (hx : SlicerT.LongAll (vals s) (distances (vals s)) xs) (hpl : ∀ c ∈ p, LongNumber c) (hb : InBox (pickShape ls) (vals p)) :
    ∃ xcs st start shp str os, xs.mapM SlicerT.build = .ok xcs ∧ asStrideT s = .ok st ∧
      (s.zip xcs).mapM (fun x : Coord × SlicerC => reindexT x.1 x.2) = .ok os ∧ InBox (vals s) (vals os) ∧ (∀ o ∈ os, LongNumber o) ∧
      (∀ md, kwkAssert md (containsM (vals s) os) = .ok () → sliceT md s st xcs = .ok (start, shp, str)) ∧
      (∀ md f, kwkAssert md (containsM (vals s) os) = .error f → sliceT md s st xcs = .error f) ∧ vals shp = pickShape ls ∧
      (LastInRange xs p → elementT start str p = .ok (rowPlace (vals s) (pickAt ls (vals p)))) ∧
      (¬ LastInRange xs p → elementT start str p = .error .overflow) := by
  obtain ⟨hl1, hl2⟩ := hp.length_eq
  obtain ⟨os', e1, elen, e2, e3, e4, -⟩ := picksAll_axes hp
  have hbox := e4 hne
  rw [distances_eq] at hx
  have hfit : ∀ c ∈ s, IntType.i64.Fits c.value := by
    intro c hc
    have h1 := hbox.pos c.value (List.mem_map_of_mem hc)
    have h2 := le_padded (s := vals s) (List.mem_map_of_mem (f := (·.value)) hc)
    rw [padded_eq_prod hbox.pos] at h2
    norm_num at hf
    exact i64_fits.2 ⟨by omega, by omega⟩
  obtain ⟨xcs, os, shp, a1, a2, a3, a3', a4, a5, a6⟩ := axes_long ht hfit hx (by rw [sfx_length, List.length_map]) hp hne
  obtain rfl : os' = vals os := Except.ok.inj (e1.symm.trans a3)
  obtain ⟨st, est, hst, hls, hln⟩ := strides_long ht hbox.pos hf
  have hstl : st.length = s.length := by
    have := congrArg List.length hst
    rw [sfx_length] at this
    simpa using this
  have hosl : os.length = s.length := by simpa using hbox.length_eq.symm
  have hxl : xs.length = s.length := by simpa using hl1
  have hbd := lin_bounds hbox
  have hsum : |(0 : Int)| + (((vals st).zipWith (· * ·) (vals os)).map (|·|)).sum < 9223372036854775808 := by
    have := abs_sum_box hbox (e := vals os) (by
      have hnn := inBox_coords_nonneg hbox
      clear * - hnn
      generalize vals os = l at hnn
      induction l with
      | nil => exact .nil
      | cons v l ih => exact .cons (abs_of_nonneg (hnn v (by simp))).le (ih fun i hi => hnn i (by simp [hi])))
    rw [hst, abs_zero]
    norm_num at hf
    omega
  obtain ⟨hlin, -⟩ := long_linearize (acc := ⟨.i32, 0⟩) hln a3' (by omega) long_zero (.inr rfl) (wides_of_strides hls os) hsum
  obtain ⟨k, ek, vk, lk⟩ := hlin (lastOk_of_strides hls a3')
  rw [zero_add] at vk
  rw [← hst] at hx
  obtain ⟨str, estr, vstr, lstr, lenstr, wstr, hlast⟩ := restrides_long (s := s) hls hln hx (by omega) a6 (by omega)
  refine ⟨xcs, st, linearize (sfx (vals s)) (vals os), shp, str, os, a1, est, a2, hbox, a3', ?_, ?_, a5, ?_⟩
  · intro md hmd
    have : linearIndexT md s os = .ok k := by
      unfold linearIndexT linearizeT
      rw [show s.map (·.value) = vals s from rfl, hmd, est]
      exact ek
    unfold sliceT
    simp only [a2, this, a4, estr, bind, Except.bind]
    unfold ptrAdd
    rw [vk, hst, IntType.wrap_fits (t := .i64), zero_add]
    · rfl
    · norm_num at hf
      exact i64_fits.2 ⟨by omega, by omega⟩
  · intro md f hmd
    have : linearIndexT md s os = .error f := by
      unfold linearIndexT
      rw [show s.map (·.value) = vals s from rfl, hmd]
      rfl
    unfold sliceT
    simp only [a2, this, bind, Except.bind]
  · have hpl' : p.length = s.length := by
      have h1 := hb.length_eq
      rw [pickShape] at h1
      simp only [List.length_map] at h1 hl2
      omega
    obtain ⟨e, q, h1, h2, h3⟩ := picksAll_abs hp hb
    have hsum := abs_sum_box h1 h2
    have hbd' := lin_bounds h1
    have hs3 := h3 (sfx (vals s)) (by rw [sfx_length])
    rw [← hst, ← vstr] at hs3
    have hsum' : |(0 : Int)| + (((vals str).zipWith (· * ·) (vals p)).map (|·|)).sum < 9223372036854775808 := by
      rw [abs_zero, hs3, hst]
      norm_num at hf
      omega
    obtain ⟨g1, g2⟩ := long_linearize (acc := ⟨.i32, 0⟩) lstr hpl (by omega) long_zero (.inr rfl) (wstr p) hsum'
    rw [hlast p hpl (by omega)] at g1 g2
    refine ⟨fun h => ?_, fun h => ?_⟩
    · obtain ⟨r, er, vr, lr⟩ := g1 h
      unfold elementT linearizeT
      rw [er]
      simp only [bind, Except.bind]
      unfold ptrAdd
      rw [IntType.wrap_fits (long_i64 lr), vr, zero_add, vstr, hst, ((e3 _ hb).2 (sfx (vals s)) (by rw [sfx_length])), rowPlace_eq]
      rfl
    · unfold elementT linearizeT
      rw [g2 h]
      rfl

/-- The full property: for 64-bit extents, in both build modes, whatever the types of the coordinates. -/
def C146_statement : Prop :=
  (∀ (md : Mode) (s p : List Coord), (∀ c ∈ s, 64 ≤ c.type.bits) → (vals s).prod < 2 ^ 63 → InBox (vals s) (vals p) →
    (∀ c ∈ p, c.type.Fits c.value) → ∃ t, linearIndexT md s p = .ok ⟨t, rowPlace (vals s) (vals p)⟩) ∧
  (∀ (s : List Coord) (xs : List SlicerT) (ls : List (List Int)) (p : List Coord), (∀ c ∈ s, c.type = .i64) →
    (vals s).prod < 2 ^ 63 → PicksAll (vals s) (xs.map (·.erase)) ls → (∀ l ∈ ls, l ≠ []) →
    SlicerT.LongAll (vals s) (distances (vals s)) xs → (∀ c ∈ p, LongNumber c) → InBox (pickShape ls) (vals p) →
    ShowsPicked s xs ls p) ∧
  (∀ (s p : List Coord), s ≠ [] → (∀ c ∈ s, c.type = .i64) → (vals s).prod < 2 ^ 63 → InBox (vals s) (vals p) →
    (∀ c ∈ p, LongNumber c) → ∃ st start nst, asStrideT s = .ok st ∧ reverseT s st = .ok (start, nst) ∧
      elementT start nst p = .ok (rowPlace (vals s) (mirror (vals s) (vals p))))

/-- **C146** (positions) In a view whose extents have 64-bit types, with less than `2^63` elements, the linear index of a valid
position is the mathematical one, and the element is there, whatever the types of the coordinates; in checked builds the type of each
coordinate must be able to represent the extent. -/
theorem C146_index_partial (md : Mode) {s p : List Coord} (ht : ∀ c ∈ s, 64 ≤ c.type.bits) (hf : (vals s).prod < 2 ^ 63)
    (hp : InBox (vals s) (vals p)) (hfit : ∀ c ∈ p, c.type.Fits c.value)
    (hty : md = .checked → List.Forall₂ (fun d c => c.type.Fits d) (vals s) p) :
    (∃ t, linearIndexT md s p = .ok ⟨t, rowPlace (vals s) (vals p)⟩) ∧
    ∃ st, asStrideT s = .ok st ∧ elementT 0 st p = .ok (rowPlace (vals s) (vals p)) := by
  obtain ⟨st, est, hst, hw, hn⟩ := strides_wide ht hp.pos hf
  have hlen : st.length = p.length := by
    have h1 := congrArg List.length hst
    rw [sfx_length] at h1
    have h2 := hp.length_eq
    simp only [List.length_map] at h1 h2
    omega
  have hnn := inBox_coords_nonneg hp
  have hbd := lin_bounds hp
  have hnat : ∀ c ∈ p, Natural c := fun c hc => ⟨hnn c.value (List.mem_map_of_mem hc), hfit c hc⟩
  obtain ⟨t, et⟩ := linearize_wide (acc := ⟨.i32, 0⟩) hw hn hnat hlen ⟨by decide, by decide⟩ (.inr rfl) (by rw [hst]; simp only; omega)
  simp only [zero_add] at et
  rw [hst, ← rowPlace_eq] at et
  have hb' : rowPlace (vals s) (vals p) = linearize (sfx (vals s)) (vals p) := rowPlace_eq _ _
  refine ⟨⟨t, ?_⟩, st, est, ?_⟩
  · unfold linearIndexT linearizeT
    rw [show s.map (·.value) = vals s from rfl,
      show kwkAssert md (containsM (vals s) p) = .ok () by
        cases md
        · rw [containsM_of_inBox hp (hty rfl)]; rfl
        · rfl, est]
    exact et
  · unfold elementT linearizeT
    rw [et]
    simp only [bind, Except.bind]
    unfold ptrAdd
    rw [IntType.wrap_fits (t := .i64), zero_add]
    · rfl
    · norm_num at hf
      simp only
      exact i64_fits.2 ⟨by omega, by omega⟩

/-- Five billion rows of three, indexed by an `unsigned int` and a byte. -/
example : linearIndexT .unchecked [⟨.i64, 5000000000⟩, ⟨.u64, 3⟩] [⟨.u32, 4000000000⟩, ⟨.u8, 2⟩] = .ok ⟨.u64, 12000000002⟩ := by
  decide +kernel
example : (∀ c ∈ [(⟨.i64, 5000000000⟩ : Coord), ⟨.u64, 3⟩], 64 ≤ c.type.bits) ∧
    (vals [⟨.i64, 5000000000⟩, ⟨.u64, 3⟩]).prod < 2 ^ 63 := by decide +kernel

/-- **C146** (slices) The slice of a view with 64-bit extents shows the selected element exactly if, along the last axis, the step
times the coordinate is a number of the type that C++ multiplies them in. -/
theorem C146_slices_exact_partial {s : List Coord} {xs : List SlicerT} {ls : List (List Int)} {p : List Coord}
    (ht : ∀ c ∈ s, c.type = .i64) (hf : (vals s).prod < 2 ^ 63)
    (hp : PicksAll (vals s) (xs.map (·.erase)) ls) (hne : ∀ l ∈ ls, l ≠ [])
    (hx : SlicerT.LongAll (vals s) (distances (vals s)) xs) (hpl : ∀ c ∈ p, LongNumber c) (hb : InBox (pickShape ls) (vals p)) :
    ShowsPicked s xs ls p ↔ LastInRange xs p := by
  obtain ⟨xcs, st, start, shp, str, os, h1, h2, -, -, -, h3, -, h4, h5, h6⟩ := slices_long ht hf hp hne hx hpl hb
  have h3 := h3 .unchecked rfl
  constructor
  · rintro ⟨xcs', st', start', shp', str', g1, g2, g3, g4, g5⟩
    obtain rfl := Except.ok.inj (h1.symm.trans g1)
    obtain rfl := Except.ok.inj (h2.symm.trans g2)
    have e := Except.ok.inj (h3.symm.trans g3)
    simp only [Prod.mk.injEq] at e
    obtain ⟨rfl, rfl, rfl⟩ := e
    by_contra hn
    rw [h6 hn] at g5
    cases g5
  · intro h
    exact ⟨xcs, st, start, shp, str, h1, h2, h3, h4, h5 h⟩

/-- The axis is long, the slice is short, and it goes down. -/
example : ∃ l, PicksAll [4000000000, 3] [.interval (some (.int 3999999990)) (some (-1000000000)) none none, .joker] [l, [0, 1, 2]] ∧
    l.length = 4 := by
  refine ⟨_, .cons (Picks.down (d := 4000000000) (s := -1000000000) (b := 3999999990) (.some (.int _)) (by decide) (by decide) (by decide))
    (.cons (Picks.joker (d := 3) (by decide)) .nil), ?_⟩
  rw [selectDown_eq (by decide) (by decide), List.length_map, upTo_length]
  decide
example : SlicerT.LongAll [4000000000, 3] [3, 1]
    [.interval (some (.int ⟨.i64, 3999999990⟩)) (some ⟨.i32, -1000000000⟩) none none, .joker] ∧
    LastInRange [.interval (some (.int ⟨.i64, 3999999990⟩)) (some ⟨.i32, -1000000000⟩) none none, .joker] [⟨.i32, 3⟩, ⟨.i32, 2⟩] := by
  refine ⟨⟨⟨by decide, by decide, by decide, ?_, by simp, by simp, ?_⟩, ⟨by decide, by decide, by decide, trivial⟩, trivial⟩, ?_⟩
  · rintro y ⟨⟩; exact (by decide : LongNumber ⟨.i64, 3999999990⟩)
  · rintro i ⟨⟩ _; decide
  · simp only [LastInRange]; decide
example : (do
    let x ← (SlicerT.interval (some (.int ⟨.i64, 3999999990⟩)) (some ⟨.i32, -1000000000⟩) none none).build
    let st ← asStrideT [⟨.i64, 4000000000⟩, ⟨.i64, 3⟩]
    let (start, shp, str) ← sliceT .unchecked [⟨.i64, 4000000000⟩, ⟨.i64, 3⟩] st [x, .joker]
    let e ← elementT start str [⟨.i32, 3⟩, ⟨.i32, 2⟩]
    pure (vals shp, e)) = .ok ([4, 3], 999999990 * 3 + 2) := by decide +kernel

/-- **C146** (checked slices) In checked builds the slice is made exactly if every first index is below the extent converted to the
type of the index; otherwise the assertion in `linear_index` fails, although the slice is valid. -/
theorem C146_checked_exact_partial {s : List Coord} {xs : List SlicerT} {ls : List (List Int)} {p : List Coord}
    (ht : ∀ c ∈ s, c.type = .i64) (hf : (vals s).prod < 2 ^ 63)
    (hp : PicksAll (vals s) (xs.map (·.erase)) ls) (hne : ∀ l ∈ ls, l ≠ [])
    (hx : SlicerT.LongAll (vals s) (distances (vals s)) xs) (hpl : ∀ c ∈ p, LongNumber c) (hb : InBox (pickShape ls) (vals p)) :
    ∃ xcs st os, xs.mapM SlicerT.build = .ok xcs ∧ asStrideT s = .ok st ∧ (s.zip xcs).mapM (fun x => reindexT x.1 x.2) = .ok os ∧
      sliceT .checked s st xcs = if List.Forall₂ (fun (d : Coord) o => o.value < o.type.wrap d.value) s os
        then sliceT .unchecked s st xcs else .error .assertion := by
  obtain ⟨xcs, st, start, shp, str, os, h1, h2, h3, h4, -, h5, h6, -⟩ := slices_long ht hf hp hne hx hpl hb
  refine ⟨xcs, st, os, h1, h2, h3, ?_⟩
  have hc : containsM (vals s) os = true ↔ List.Forall₂ (fun (d : Coord) o => o.value < o.type.wrap d.value) s os := by
    clear * - h4
    unfold containsM
    induction s generalizing os with
    | nil =>
      cases os with
      | nil => simp
      | cons => cases h4
    | cons d s ih =>
      cases os with
      | nil => cases h4
      | cons o os =>
        have := ih os (inBox_cons.1 h4).2
        simp only [vals, List.map_cons, List.zipWith_cons_cons, List.foldr_cons, Bool.and_eq_true, decide_eq_true_eq, List.forall₂_cons] at this ⊢
        rw [this]
  split
  · rename_i h
    rw [h5 .checked (by rw [hc.2 h]; rfl), h5 .unchecked rfl]
  · rename_i h
    have : containsM (vals s) os = false := by
      rw [← Bool.not_eq_true, hc]; exact h
    exact h6 .checked _ (by rw [this]; rfl)

/-- The whole of an axis of three billion elements, from the `int` 0: refused. The same from a 64-bit 0 is accepted. -/
example : (do
    let x ← (SlicerT.interval (some (.int ⟨.i32, 0⟩)) none none none).build
    let st ← asStrideT [⟨.i64, 3000000000⟩]
    sliceT .checked [⟨.i64, 3000000000⟩] st [x]) = .error .assertion ∧
    (do
    let x ← (SlicerT.interval (some (.int ⟨.i64, 0⟩)) none none none).build
    let st ← asStrideT [⟨.i64, 3000000000⟩]
    let (start, shp, _) ← sliceT .checked [⟨.i64, 3000000000⟩] st [x]
    pure (start, vals shp)) = .ok (0, [3000000000]) := by decide +kernel

/-- The reversed view and its strides. -/
theorem reverse_long {s p : List Coord} (ht : ∀ c ∈ s, c.type = .i64) (hf : (vals s).prod < 2 ^ 63)
    (hp : InBox (vals s) (vals p)) (hpl : ∀ c ∈ p, LongNumber c) (hne : s ≠ []) :
    ∃ st nst, asStrideT s = .ok st ∧ reverseT s st = .ok (IntType.i32.wrap (vals s).prod - 1, nst) ∧
      ∀ off, elementT off nst p = .ok (off - rowPlace (vals s) (vals p)) := by
  obtain ⟨st, est, hst, hls, hln⟩ := strides_long ht hp.pos hf
  have hlen : st.length = p.length := by
    have h1 := congrArg List.length hst
    rw [sfx_length] at h1
    have h2 := hp.length_eq
    simp only [List.length_map] at h1 h2
    omega
  have hbd := lin_bounds hp
  have hnn := inBox_coords_nonneg hp
  have hpos : ∀ g ∈ sfx (vals s), 0 < g := sfx_pos hp.pos
  -- negated strides
  have hneg : ∃ nst, st.mapM constNeg = .ok nst ∧ vals nst = (vals st).map (fun m => -m) ∧ (∀ c ∈ nst, LongNumber c) ∧
      nst.map (·.type) = st.map (·.type) := by
    have hg : ∀ c ∈ st, LongNumber c ∧ 0 < c.value ∧ (c.type = .i64 ∨ c = fixedOne) := by
      intro c hc
      refine ⟨hln c hc, hpos _ (by rw [← hst]; exact List.mem_map_of_mem hc), ?_⟩
      clear * - hls hc
      induction st with
      | nil => simp at hc
      | cons d st ih =>
        cases st with
        | nil =>
          rw [List.mem_singleton.1 hc]
          exact .inr hls
        | cons e st =>
          rcases List.mem_cons.1 hc with rfl | hc
          · exact .inl hls.1
          · exact ih hls.2 hc
    clear * - hg
    induction st with
    | nil => exact ⟨[], rfl, rfl, by simp, rfl⟩
    | cons c st ih =>
      obtain ⟨nst, e, hv, hl, hty⟩ := ih fun c hc => hg c (by simp [hc])
      obtain ⟨h1, h2, h3⟩ := hg c (by simp)
      have h64 := i64_fits.1 (long_i64 h1)
      have : constNeg c = .ok ⟨c.type, -c.value⟩ ∧ LongNumber ⟨c.type, -c.value⟩ := by
        rcases h3 with h3 | rfl
        · have hfi : IntType.i64.Fits (-c.value) := i64_fits.2 ⟨by omega, by omega⟩
          refine ⟨?_, long_of_i64 (c := ⟨c.type, -c.value⟩) h3 hfi⟩
          unfold constNeg
          simp only
          rw [h3, show IntType.i64.promote = .i64 from rfl, IntType.wrap_fits (long_i64 h1), IntType.op_fits hfi]
          rfl
        · exact ⟨by decide, by decide⟩
      refine ⟨⟨c.type, -c.value⟩ :: nst, ?_, ?_, ?_, ?_⟩
      · rw [List.mapM_cons, this.1, e]; rfl
      · simp only [vals, List.map_cons] at hv ⊢
        rw [hv]
      · intro y hy
        rcases List.mem_cons.1 hy with rfl | hy
        · exact this.2
        · exact hl y hy
      · simp only [List.map_cons, hty]
  obtain ⟨nst, en, hv, hl, hty⟩ := hneg
  have hnl : nst.length = st.length := by simpa using congrArg List.length hty
  have hex : Exact s := ⟨hp.pos, hf, .inr fun c hc => by rw [ht c hc]; decide⟩
  refine ⟨st, nst, est, ?_, fun off => ?_⟩
  · unfold reverseT
    rw [en, numelT_exact hne hex]
    simp only [bind, Except.bind, pure, Except.pure, ptrAdd, zero_add]
    rw [IntType.wrap_fits (t := .i64)]
    have := IntType.wrap_mem .i32 (by decide) (vals s).prod
    rw [i32_fits] at this
    exact i64_fits.2 ⟨by omega, by omega⟩
  · have hsum : |(0 : Int)| + (((vals nst).zipWith (· * ·) (vals p)).map (|·|)).sum < 9223372036854775808 := by
      rw [hv, abs_zipWith_neg, hst, abs_zero]
      have := abs_sum_box hp (e := vals p) (by
        clear * - hnn
        generalize vals p = l at hnn
        induction l with
        | nil => exact .nil
        | cons v l ih => exact .cons (abs_of_nonneg (hnn v (by simp))).le (ih fun i hi => hnn i (by simp [hi])))
      norm_num at hf
      omega
    have hwl : Wides nst p ∧ LastOk nst p := by
      clear * - hls hty hv hpl hnn
      induction st generalizing nst p with
      | nil =>
        obtain rfl : nst = [] := by simpa using hty
        simp [Wides, LastOk]
      | cons c st ih =>
        cases nst with
        | nil => simp at hty
        | cons n nst =>
          simp only [List.map_cons, List.cons.injEq] at hty
          simp only [vals, List.map_cons, List.cons.injEq] at hv
          cases p with
          | nil => cases nst <;> simp [Wides, LastOk]
          | cons i p =>
            have hnn' : ∀ j ∈ vals p, 0 ≤ j := fun j hj => hnn j (List.mem_cons_of_mem _ hj)
            cases st with
            | nil =>
              obtain rfl : nst = [] := by simpa using hty.2
              obtain rfl : c = fixedOne := hls
              refine ⟨by simp [Wides], ?_⟩
              cases p with
              | cons => simp [LastOk]
              | nil =>
                show (n.type.common i.type).Fits (n.value * i.value)
                rw [hty.1, hv.1]
                have hi := hpl i (by simp)
                have h0 : 0 ≤ i.value := hnn i.value (by simp)
                have hf := IntType.common_fits_right (t := .i32) hi.2 (common_signed_true (by decide) hi.1).1
                show (IntType.i32.common i.type).Fits (-1 * i.value)
                rcases common_cases (t := .i32) (by decide) hi.1 with ⟨e, -⟩ | ⟨e, -⟩ <;> rw [e] at hf ⊢
                · rw [i64_fits] at hf ⊢; omega
                · rw [i32_fits] at hf ⊢; omega
            | cons d st =>
              cases nst with
              | nil => simp at hty
              | cons n' nst =>
                obtain ⟨h1, h2⟩ := ih (p := p) (fun c hc => hpl c (by simp [hc])) hls.2 hnn' (n' :: nst) hv.2 hty.2
                refine ⟨⟨.inl (by rw [hty.1]; exact hls.1), h1⟩, ?_⟩
                cases p with
                | nil => simp [LastOk]
                | cons => simpa [LastOk] using h2
    obtain ⟨g1, -⟩ := long_linearize (acc := ⟨.i32, 0⟩) hl hpl (by omega) long_zero (.inr rfl) hwl.1 hsum
    obtain ⟨r, er, vr, lr⟩ := g1 hwl.2
    unfold elementT linearizeT
    rw [er]
    simp only [bind, Except.bind, ptrAdd]
    rw [IntType.wrap_fits (long_i64 lr), vr, zero_add, hv, hst, rowPlace_eq, linearize_neg]
    rfl

/-- **C146** (reversed views) The reversed view of a view with 64-bit extents shows the opposite element exactly if there are less than
`2^31` elements, because `numel()` is an `int`. -/
theorem C146_reverse_exact_partial {s p : List Coord} (ht : ∀ c ∈ s, c.type = .i64) (hf : (vals s).prod < 2 ^ 63)
    (hp : InBox (vals s) (vals p)) (hpl : ∀ c ∈ p, LongNumber c) (hne : s ≠ []) :
    ∃ st start nst, asStrideT s = .ok st ∧ reverseT s st = .ok (start, nst) ∧
      (elementT start nst p = .ok (rowPlace (vals s) (mirror (vals s) (vals p))) ↔ (vals s).prod < 2 ^ 31) := by
  obtain ⟨st, nst, h1, h2, h3⟩ := reverse_long ht hf hp hpl hne
  refine ⟨st, _, nst, h1, h2, ?_⟩
  rw [h3, rowPlace_eq, rowPlace_eq, linearize_mirror (sfx (vals s)) (by rw [hp.length_eq]), linearize_corner]
  simp only [Except.ok.injEq]
  constructor
  · intro h
    have := IntType.wrap_mem .i32 (by decide) (vals s).prod
    rw [i32_fits] at this
    omega
  · intro h
    have h0 := prod_pos' hp.pos
    rw [IntType.wrap_fits (t := .i32) (i32_fits.2 ⟨by omega, by omega⟩)]

/-- Three billion elements: the reversed view looks for its first element 1294967297 elements before the memory. -/
example : (do
    let st ← asStrideT [⟨.i64, 3000000000⟩]
    let (start, nst) ← reverseT [⟨.i64, 3000000000⟩] st
    elementT start nst [⟨.i64, 0⟩]) = .ok (-1294967297) ∧
    rowPlace [3000000000] (mirror [3000000000] [0]) = 2999999999 := by decide +kernel
/-- Two billion elements are few enough. -/
example : (do
    let st ← asStrideT [⟨.i64, 1000000000⟩, ⟨.i64, 2⟩]
    let (start, nst) ← reverseT [⟨.i64, 1000000000⟩, ⟨.i64, 2⟩] st
    elementT start nst [⟨.i32, 1⟩, ⟨.i8, 0⟩]) = .ok 1999999997 := by decide +kernel

/-- In a checked build, element 5 of three billion is refused when it is asked for by an `int`, as is every slice that begins at an
index of that type. -/
theorem C146_checked_false : ¬ ∀ (md : Mode) (s p : List Coord), (∀ c ∈ s, 64 ≤ c.type.bits) → (vals s).prod < 2 ^ 63 →
    InBox (vals s) (vals p) → (∀ c ∈ p, c.type.Fits c.value) →
    ∃ t, linearIndexT md s p = .ok ⟨t, rowPlace (vals s) (vals p)⟩ := by
  intro h
  obtain ⟨t, e⟩ := h .checked [⟨.i64, 3000000000⟩] [⟨.i32, 5⟩] (by decide) (by decide +kernel)
    (inBox_cons.2 ⟨by decide, .nil⟩) (by decide)
  exact absurd ((by decide +kernel : linearIndexT .checked [⟨.i64, 3000000000⟩] [⟨.i32, 5⟩] = .error .assertion).symm.trans e)
    (by simp)

/-- Every second element of three billion, read at an `int` position: `2 * 1200000000` overflows. -/
theorem C146_slices_false : ¬ ∀ (s : List Coord) (xs : List SlicerT) (ls : List (List Int)) (p : List Coord),
    (∀ c ∈ s, c.type = .i64) → (vals s).prod < 2 ^ 63 → PicksAll (vals s) (xs.map (·.erase)) ls → (∀ l ∈ ls, l ≠ []) →
    SlicerT.LongAll (vals s) (distances (vals s)) xs → (∀ c ∈ p, LongNumber c) → InBox (pickShape ls) (vals p) →
    ShowsPicked s xs ls p := by
  intro h
  have hp : PicksAll [3000000000] [.interval none (some 2) none none] [selectUp 3000000000 0 3000000000 2] :=
    .cons (Picks.up .none .none rfl (by decide) (by decide) (by decide) (by decide)) .nil
  have hl : (selectUp 3000000000 0 3000000000 2).length = 1500000000 := by
    rw [selectUp_eq (by decide) (by decide) (by decide), List.length_map, upTo_length]
    decide
  have hx : SlicerT.LongAll [3000000000] (distances [3000000000]) [.interval none (some ⟨.i32, 2⟩) none none] :=
    ⟨⟨by decide, by decide, by decide, by simp, by simp, by simp, by simp⟩, trivial⟩
  have hne : ∀ l ∈ [selectUp 3000000000 0 3000000000 2], l ≠ [] := by
    intro l hm e
    rw [List.mem_singleton.1 hm] at e
    rw [e] at hl
    simp at hl
  have hb : InBox (pickShape [selectUp 3000000000 0 3000000000 2]) [1200000000] := by
    simp only [pickShape, List.map_cons, List.map_nil, hl]
    exact inBox_cons.2 ⟨by decide, .nil⟩
  have := h [⟨.i64, 3000000000⟩] [.interval none (some ⟨.i32, 2⟩) none none] _ [⟨.i32, 1200000000⟩] (by decide) (by decide +kernel)
    hp hne hx (by decide) hb
  rw [C146_slices_exact_partial (s := [⟨.i64, 3000000000⟩]) (xs := [.interval none (some ⟨.i32, 2⟩) none none])
    (p := [⟨.i32, 1200000000⟩]) (by decide) (by decide +kernel) hp hne hx (by decide) hb] at this
  exact absurd (show IntType.i32.Fits (2 * 1200000000) from this) (by decide)

/-- See the examples above. -/
theorem C146_reverse_false : ¬ ∀ (s p : List Coord), s ≠ [] → (∀ c ∈ s, c.type = .i64) → (vals s).prod < 2 ^ 63 →
    InBox (vals s) (vals p) → (∀ c ∈ p, LongNumber c) → ∃ st start nst, asStrideT s = .ok st ∧ reverseT s st = .ok (start, nst) ∧
      elementT start nst p = .ok (rowPlace (vals s) (mirror (vals s) (vals p))) := by
  intro h
  have hb : InBox (vals [⟨.i64, 3000000000⟩]) (vals [⟨.i64, 0⟩]) := inBox_cons.2 ⟨by decide, .nil⟩
  obtain ⟨st, start, nst, e1, e2, e3⟩ := h [⟨.i64, 3000000000⟩] [⟨.i64, 0⟩] (by decide) (by decide) (by decide +kernel) hb (by decide)
  obtain ⟨st', start', nst', g1, g2, g3⟩ :=
    C146_reverse_exact_partial (s := [⟨.i64, 3000000000⟩]) (p := [⟨.i64, 0⟩]) (by decide) (by decide +kernel) hb (by decide) (by decide)
  obtain rfl : st = st' := Except.ok.inj (e1.symm.trans g1)
  have := Except.ok.inj (e2.symm.trans g2)
  simp only [Prod.mk.injEq] at this
  obtain ⟨rfl, rfl⟩ := this
  exact absurd (g3.1 e3) (by decide +kernel)

/-- **C146**: the full property fails. -/
theorem C146_false : ¬ C146_statement := fun h => C146_checked_false h.1

end Kwk
