import Verif.Lemmas.TypedSlice
import Verif.Props.Mixed

/-!
# Property C102: slices, for all integer types

Extents, indexes, bounds, steps and coordinates carry their own types.  `erase` forgets the types of a slicer, so that
`PicksAll` says which positions it selects.
-/

namespace Kwk
open Spec

/-- The slice of a default-layout container of shape `s` has the extents of the selection, and its position `p` is, in the data
of the container, where the selected position is. -/
def ShowsPicked (s : List Coord) (xs : List SlicerT) (ls : List (List Int)) (p : List Coord) : Prop :=
  ∃ xcs st start shp str, xs.mapM SlicerT.build = .ok xcs ∧ asStrideT s = .ok st ∧
    sliceT .unchecked s st xcs = .ok (start, shp, str) ∧ vals shp = pickShape ls ∧
    elementT start str p = .ok (rowPlace (vals s) (pickAt ls (vals p)))

/-- The full property: for all types, if everything that is computed over the integers stays in range. -/
def C102_statement : Prop :=
  ∀ (s : List Coord) (xs : List SlicerT) (ls : List (List Int)) (p : List Coord), s ≠ [] →
    (∀ c ∈ s ++ p, c.type.Fits c.value) → (vals s).prod < 2147483648 →
    PicksAll (vals s) (xs.map (·.erase)) ls → (∀ l ∈ ls, l ≠ []) →
    SlicerT.FitsAll (fun _ => True) s (distances (vals s)) xs → InBox (pickShape ls) (vals p) → ShowsPicked s xs ls p

/-- What both cases have in common. -/
theorem slices_common {s : List Coord} {xs : List SlicerT} {ls : List (List Int)}
    (hf : (vals s).prod < 2147483648) (hp : PicksAll (vals s) (xs.map (·.erase)) ls)
    (hne : ∀ l ∈ ls, l ≠ []) (hx : SlicerT.FitsAll NotUnsignedInt s (distances (vals s)) xs) :
    ∃ xcs os st, xs.mapM SlicerT.build = .ok xcs ∧ asStrideT s = .ok st ∧ vals st = sfx (vals s) ∧
      InBox (vals s) (vals os) ∧ (s.zip xcs).mapM (fun x : Coord × SlicerC => reindexT x.1 x.2) = .ok os ∧ (∀ x ∈ xs, StepOK x.step) ∧
      (∀ i, InBox (pickShape ls) i → InBox (vals s) (pickAt ls i) ∧
        linearize (sfx (vals s)) (vals os) + linearize ((sfx (vals s)).zipWith restride (xs.map (·.erase))) i =
          linearize (sfx (vals s)) (pickAt ls i)) ∧
      List.Forall₂ (fun x xc => ∀ gc, (restrideT gc xc = .ok gc ∧ SlicerT.step x = ⟨.i32, 1⟩) ∨
        restrideT gc xc = constMul (SlicerT.step x) gc) xs xcs ∧
      ∀ str, (st.zip xcs).mapM (fun x : Coord × SlicerC => restrideT x.1 x.2) = .ok str →
        ∃ shp, sliceT .unchecked s st xcs = .ok (linearize (sfx (vals s)) (vals os), shp, str) ∧ vals shp = pickShape ls := by
  obtain ⟨hl1, hl2⟩ := hp.length_eq
  obtain ⟨os', e1, elen, e2, e3, e4, -⟩ := picksAll_axes hp
  have hbox := e4 hne
  have hpad := padded_eq_prod hbox.pos
  rw [distances_eq] at hx
  have hsf : ∀ v ∈ sfx (vals s), Small v ∧ 0 < v := sfx_small hbox.pos (by rw [hpad]; exact hf)
  obtain ⟨xcs, os, shp, a1, a2, a3, a4, a5, a6, a7⟩ := axes_typed hx (fun v hv => (hsf v hv).2) (by rw [sfx_length, List.length_map])
    (fun d hd => small_mem hbox.nonNeg (by rw [hpad]; exact hf) (List.mem_map_of_mem hd)) hp hne
  obtain rfl : os' = vals os := Except.ok.inj (e1.symm.trans a3)
  obtain ⟨st, est, hst⟩ := asStrideT_eq hbox.nonNeg (by rw [hpad]; exact hf)
  rw [asStride_eq_sfx] at hst
  refine ⟨xcs, os, st, a1, est, hst, hbox, a2, a7, ?_, a6, ?_⟩
  · intro i hi
    exact ⟨(e3 i hi).1, (e3 i hi).2 (sfx (vals s)) (by rw [sfx_length])⟩
  · intro str hstr
    refine ⟨shp, ?_, a5⟩
    obtain ⟨t, k, h1, h2⟩ := C70_mixed_index .unchecked (p := os) hbox (by simp) hf
    rw [linearIndex_ok _ hbox] at h2
    obtain rfl := Except.ok.inj h2
    have hb := lin_bounds hbox
    unfold sliceT
    simp only [a2, h1, a4, hstr, bind, Except.bind]
    unfold ptrAdd
    simp only
    rw [IntType.wrap_fits (t := .i64) (IntType.fits_of_bits (by decide) hb.1 (by omega)), zero_add]
    rfl

/-- **C102** (partial) True if no number has the unsigned type of the width of `int`. -/
theorem C102_slices_partial {s : List Coord} {xs : List SlicerT} {ls : List (List Int)} {p : List Coord}
    (hs : ∀ c ∈ s, NotUnsignedInt c.type) (hsx : ∀ x ∈ xs, NotUnsignedInt x.step.type) (hpt : ∀ c ∈ p, NotUnsignedInt c.type)
    (hf : (vals s).prod < 2147483648) (hp : PicksAll (vals s) (xs.map (·.erase)) ls) (hne : ∀ l ∈ ls, l ≠ [])
    (hx : SlicerT.FitsAll NotUnsignedInt s (distances (vals s)) xs) (hb : InBox (pickShape ls) (vals p)) : ShowsPicked s xs ls p := by
  obtain ⟨hl1, hl2⟩ := hp.length_eq
  obtain ⟨xcs, os, st, a1, est, hst, hbox, -, hok, hlin, hxc, hfin⟩ := slices_common hf hp hne hx
  have hpad := padded_eq_prod hbox.pos
  obtain ⟨st', est', hrep⟩ := rep_asStride hs hbox.pos hf
  obtain rfl : st' = st := Except.ok.inj (est'.symm.trans est)
  rw [distances_eq] at hx
  obtain ⟨str, estr, hstr⟩ := restrides_rep hrep hx (by rw [sfx_length, List.length_map]) hxc hok hsx
    (by rw [sfx_length, List.length_map]; simpa using hl1)
  obtain ⟨shp, hsl, hshp⟩ := hfin str estr
  refine ⟨xcs, st', _, shp, str, a1, est, hsl, hshp, ?_⟩
  obtain ⟨e, q, h1, h2, h3⟩ := picksAll_abs hp hb
  have hsum := abs_sum_box h1 h2
  have hbd := lin_bounds h1
  have hle : ∀ d ∈ pickShape ls, d ≤ 2147483648 := pickShape_le hp hne fun d hd =>
    (small_mem hbox.nonNeg (by rw [hpad]; exact hf) hd).2.le
  have hrp : List.Forall₂ Rep p (vals p) := rep_inBox (s := shp) (by rw [hshp]; exact hb) hpt (by rw [hshp]; exact hle)
  obtain ⟨r, er, hr⟩ := rep_linearize hstr hrp (acc := ⟨.i32, 0⟩) (a := 0) ⟨by decide, by decide, .inl rfl⟩ (by
    rw [h3 _ (by rw [sfx_length]), abs_zero, zero_add]
    omega)
  unfold elementT linearizeT
  rw [er]
  simp only [bind, Except.bind]
  rw [hr.ptr, zero_add, (hlin _ hb).2, rowPlace_eq]
  rfl

/-- **C102** (positive steps) True for all types if the steps are positive; numbers of the unsigned type of the width of `int` may only
not appear together with `end`. -/
theorem C102_positive_steps_partial {s : List Coord} {xs : List SlicerT} {ls : List (List Int)} {p : List Coord}
    (hpos : ∀ x ∈ xs, 0 < x.step.value)
    (hf : (vals s).prod < 2147483648) (hp : PicksAll (vals s) (xs.map (·.erase)) ls) (hne : ∀ l ∈ ls, l ≠ [])
    (hx : SlicerT.FitsAll NotUnsignedInt s (distances (vals s)) xs) (hb : InBox (pickShape ls) (vals p)) : ShowsPicked s xs ls p := by
  obtain ⟨hl1, hl2⟩ := hp.length_eq
  obtain ⟨xcs, os, st, a1, est, hst, hbox, -, hok, hlin, hxc, hfin⟩ := slices_common hf hp hne hx
  have hpad := padded_eq_prod hbox.pos
  have hsf : ∀ v ∈ sfx (vals s), Small v ∧ 0 < v := sfx_small hbox.pos (by rw [hpad]; exact hf)
  rw [distances_eq] at hx
  have hlen : s.length = st.length := by
    have := congrArg List.length hst
    rw [sfx_length] at this
    simpa using this.symm
  obtain ⟨str, estr, hstr, hsm⟩ := restrides_small (s := s) (fun c hc => (hsf c.value (by rw [← hst]; exact List.mem_map_of_mem hc)).1)
    (by rw [hst]; exact hx) hlen hxc hok hpos (by rw [← hlen]; simpa using hl1)
  obtain ⟨shp, hsl, hshp⟩ := hfin str estr
  refine ⟨xcs, st, _, shp, str, a1, est, hsl, hshp, ?_⟩
  have hle : ∀ d ∈ pickShape ls, d ≤ 2147483648 := pickShape_le hp hne fun d hd =>
    (small_mem hbox.nonNeg (by rw [hpad]; exact hf) hd).2.le
  have hsp := inBox_small hb hle
  obtain ⟨hin, hlin⟩ := hlin _ hb
  have hb1 := lin_bounds hbox
  have hb2 := lin_bounds hin
  have hlen2 : str.length = p.length := by
    have h1 := congrArg List.length hstr
    have h2 := hb.length_eq
    simp only [pickShape, List.length_map, List.length_zipWith] at h1 h2 hl1 hl2
    omega
  have hall : List.Forall₂ (fun a b : Coord =>
      0 ≤ b.value ∧ b.value < 2147483648 ∧ 0 ≤ a.value ∧ a.value < 2147483648) str p := by
    rw [List.forall₂_iff_zip]
    refine ⟨hlen2, fun {a b} hab => ?_⟩
    have ha := hsm a (List.of_mem_zip hab).1
    have hb := hsp b.value (List.mem_map_of_mem (List.of_mem_zip hab).2)
    exact ⟨hb.1, hb.2, ha.1, ha.2⟩
  rw [hst] at hstr
  rw [← hstr] at hlin
  obtain ⟨t, ht⟩ := linearizeT_aux (acc := ⟨.i32, 0⟩) (N := (vals s).prod) hf le_rfl hall (by simp only; omega)
  have h0 : 0 ≤ linearize (vals str) (vals p) := by
    clear * - hall
    induction hall with
    | nil => simp [linearize]
    | @cons a b g i h _ ih =>
      rw [vals, List.map_cons, vals, List.map_cons, linearize_cons]
      have := mul_nonneg h.2.2.1 h.1
      exact add_nonneg this ih
  unfold elementT linearizeT
  rw [ht]
  simp only [bind, Except.bind]
  unfold ptrAdd
  simp only
  rw [zero_add, IntType.wrap_fits (t := .i64) (IntType.fits_of_bits (by decide) h0 (by omega)), hlin, rowPlace_eq]
  rfl

example := C102_positive_steps_partial (s := [⟨.i16, 6⟩, ⟨.u32, 4⟩]) (xs := [.interval (some (.int ⟨.u8, 1⟩)) (some ⟨.i64, 2⟩) none none, .joker])
  (ls := [[1, 3, 5], [0, 1, 2, 3]]) (p := [⟨.i16, 2⟩, ⟨.i64, 3⟩]) (by decide) (by decide)
  (.cons (Picks.up (d := 6) (begin := some (.int 1)) (stop := none) (step := some 2) (b := 1) (e := 6) (s := 2) (.some (.int 1)) .none rfl
    (by decide) (by decide) (by decide) (by decide)) (.cons (Picks.joker (d := 4) (by decide)) .nil)) (by decide)
  (by
    rw [show distances (vals [⟨.i16, 6⟩, ⟨.u32, 4⟩]) = [4, 1] by decide]
    simp only [SlicerT.FitsAll, SlicerT.FitsAt, BoundT.FitsAt, Option.mem_def, Option.some.injEq, forall_eq', reduceCtorEq,
      false_implies, implies_true]
    decide) (by decide)

/-! ### Checked builds -/

theorem size_wide {e : EndC} {n o : Coord} (h : e.size n = .ok o) : 32 ≤ o.type.bits := by
  unfold EndC.size at h
  simp only [bind, Except.bind] at h
  split at h
  · cases h
  split at h
  · cases h
  unfold constDiv at h
  simp only [bind, Except.bind] at h
  split at h
  · cases h
  split at h
  · cases h
  rw [← Except.ok.inj h]
  exact IntType.common_bits _ _

/-- The first index is the number written, or it has a type at least as wide as `int`. -/
theorem first_index {d o : Coord} {x : SlicerT} {xc : SlicerC} (hb : x.build = .ok xc) (h : reindexT d xc = .ok o) :
    x.first = some o ∨ x.first = none ∧ 32 ≤ o.type.bits := by
  cases x with
  | joker =>
    cases hb
    rw [← Except.ok.inj h]
    exact .inr ⟨rfl, by decide⟩
  | index i =>
    cases hb
    rw [← Except.ok.inj h]
    exact .inl rfl
  | ext e =>
    simp only [SlicerT.build, bind, Except.bind] at hb
    split at hb
    · cases hb
    rw [← Except.ok.inj hb] at h
    exact .inr ⟨rfl, size_wide h⟩
  | interval b st e l =>
    simp only [SlicerT.build, bind, Except.bind] at hb
    split at hb
    · cases hb
    rename_i bc hbc
    split at hb
    · cases hb
    split at hb
    · cases hb
    rw [← Except.ok.inj hb] at h
    cases b with
    | none =>
      rw [← Except.ok.inj hbc] at h
      refine .inr ⟨rfl, ?_⟩
      cases st with
      | none => rw [← Except.ok.inj h]; decide
      | some c =>
        simp only [reindexT, bind, Except.bind] at h
        split at h
        · rw [← Except.ok.inj h]
          exact IntType.common_bits _ _
        · split at h
          · cases h
          · rw [← Except.ok.inj h]
            exact IntType.common_bits _ _
    | some b =>
      cases b with
      | int i =>
        rw [← Except.ok.inj hbc] at h
        rw [← Except.ok.inj h]
        exact .inl rfl
      | ext e =>
        simp only [SlicerT.buildOpt, BoundT.build, bind, Except.bind] at hbc
        split at hbc
        · cases hbc
        rename_i hbc'
        split at hbc'
        · cases hbc'
        rw [← Except.ok.inj hbc, ← Except.ok.inj hbc'] at h
        exact .inr ⟨rfl, size_wide h⟩

theorem contains_first {s : List Coord} {xs : List SlicerT} {xcs : List SlicerC} {os : List Coord} (hb : xs.mapM SlicerT.build = .ok xcs)
    (ho : (s.zip xcs).mapM (fun x : Coord × SlicerC => reindexT x.1 x.2) = .ok os) (hin : InBox (vals s) (vals os))
    (hs : ∀ d ∈ s, d.value < 2147483648) :
    containsM (vals s) os = (s.zip xs).all fun x => x.2.first.all fun i => decide (i.value < i.type.wrap x.1.value) := by
  induction s generalizing xs xcs os with
  | nil => rfl
  | cons d s ih =>
    cases xs with
    | nil =>
      rw [← Except.ok.inj hb] at ho
      rw [← Except.ok.inj ho] at hin
      cases hin
    | cons x xs =>
      rw [List.mapM_cons] at hb
      simp only [bind, Except.bind] at hb
      split at hb
      · cases hb
      rename_i xc hxc
      split at hb
      · cases hb
      rename_i xcs' hxcs
      rw [← Except.ok.inj hb, List.zip_cons_cons, List.mapM_cons] at ho
      simp only [bind, Except.bind] at ho
      split at ho
      · cases ho
      rename_i o hro
      split at ho
      · cases ho
      rename_i os' hos
      rw [← Except.ok.inj ho] at hin ⊢
      have hin : 0 ≤ o.value ∧ o.value < d.value ∧ InBox (vals s) (vals os') := by
        have := inBox_cons.1 hin
        exact ⟨this.1.1, this.1.2, this.2⟩
      have ih := ih hxcs hos hin.2.2 fun d hd => hs d (by simp [hd])
      have e : containsM (vals (d :: s)) (o :: os') = (decide (o.value < o.type.wrap d.value) && containsM (vals s) os') := rfl
      rw [e, ih, List.zip_cons_cons, List.all_cons]
      congr 1
      rcases first_index hxc hro with h | ⟨h, hw⟩
      · rw [h]; rfl
      · rw [h, IntType.wrap_fits (IntType.fits_of_bits hw (by omega) (hs d (by simp)))]
        simpa using hin.2.1

/-- **C102** (checked builds) In checked builds the slice is made exactly if every first index that is written as a number is below the
extent converted to the type of this number; otherwise the assertion in `linear_index` fails, although the slice is valid. -/
theorem C102_checked_exact_partial {s : List Coord} {xs : List SlicerT} {ls : List (List Int)}
    (hf : (vals s).prod < 2147483648) (hp : PicksAll (vals s) (xs.map (·.erase)) ls) (hne : ∀ l ∈ ls, l ≠ [])
    (hx : SlicerT.FitsAll NotUnsignedInt s (distances (vals s)) xs) :
    ∃ xcs st, xs.mapM SlicerT.build = .ok xcs ∧ asStrideT s = .ok st ∧
      sliceT .checked s st xcs = if (s.zip xs).all fun x => x.2.first.all fun i => decide (i.value < i.type.wrap x.1.value)
        then sliceT .unchecked s st xcs else .error .assertion := by
  obtain ⟨xcs, os, st, a1, est, -, hbox, ho, -⟩ := slices_common hf hp hne hx
  refine ⟨xcs, st, a1, est, ?_⟩
  have hpad := padded_eq_prod hbox.pos
  rw [← contains_first a1 ho hbox fun d hd => (small_mem hbox.nonNeg (by rw [hpad]; exact hf) (List.mem_map_of_mem hd)).2]
  unfold sliceT
  rw [ho]
  simp only [bind, Except.bind]
  unfold linearIndexT
  rw [show s.map (·.value) = vals s from rfl]
  cases containsM (vals s) os <;> rfl

example := C102_checked_exact_partial (s := [⟨.i16, 9⟩, ⟨.u32, 4⟩]) (xs := [.interval (some (.int ⟨.u8, 1⟩)) (some ⟨.i64, 3⟩) none none, .joker])
  (ls := [[1, 4, 7], [0, 1, 2, 3]]) (by decide)
  (.cons (Picks.up (d := 9) (begin := some (.int 1)) (stop := none) (step := some 3) (b := 1) (e := 9) (s := 3) (.some (.int 1))
    .none rfl (by decide) (by decide) (by decide ) (by decide )) (.cons (Picks.joker (d := 4) (by decide)) .nil)) (by decide)
  (by
    rw [show distances (vals [⟨.i16, 9⟩, ⟨.u32, 4⟩]) = [4, 1] by decide]
    simp only [SlicerT.FitsAll, SlicerT.FitsAt, BoundT.FitsAt, Option.mem_def, Option.some.injEq, forall_eq', reduceCtorEq,
      false_implies, implies_true]
    decide)

/-- First indexes whose types represent the extents are below them in this type. -/
theorem first_holds {s : List Coord} {xs : List SlicerT} {xcs : List SlicerC} {os : List Coord} (a1 : xs.mapM SlicerT.build = .ok xcs)
    (ho : (s.zip xcs).mapM (fun x : Coord × SlicerC => reindexT x.1 x.2) = .ok os) (hbox : InBox (vals s) (vals os))
    (ht : ∀ x ∈ s.zip xs, ∀ i ∈ x.2.first, i.type.Fits x.1.value) :
    ((s.zip xs).all fun x => x.2.first.all fun i => decide (i.value < i.type.wrap x.1.value)) = true := by
  induction s generalizing xs xcs os with
  | nil => rfl
  | cons d s ih =>
    cases xs with
    | nil => rfl
    | cons x xs =>
      rw [List.mapM_cons] at a1
      simp only [bind, Except.bind] at a1
      split at a1
      · cases a1
      rename_i xc hxc
      split at a1
      · cases a1
      rename_i xcs' hxcs
      rw [← Except.ok.inj a1, List.zip_cons_cons, List.mapM_cons] at ho
      simp only [bind, Except.bind] at ho
      split at ho
      · cases ho
      rename_i o hro
      split at ho
      · cases ho
      rename_i os' hos
      rw [← Except.ok.inj ho] at hbox
      have hin := inBox_cons.1 hbox
      have hin2 : o.value < d.value := hin.1.2
      rw [List.zip_cons_cons, List.all_cons, Bool.and_eq_true]
      refine ⟨?_, ih hxcs hos hin.2 fun y hy => ht y (by rw [List.zip_cons_cons]; exact List.mem_cons_of_mem _ hy)⟩
      rcases first_index hxc hro with h | ⟨h, -⟩
      · rw [h]
        have := ht (d, x) (by rw [List.zip_cons_cons]; simp) o (by rw [h]; rfl)
        simp only [Option.all_some, IntType.wrap_fits this, hin2, decide_true]
      · rw [h]; rfl

/-- **C102** (checked builds, types) In particular if these numbers have types that represent the extents of their axes. -/
theorem C102_checked_partial {s : List Coord} {xs : List SlicerT} {ls : List (List Int)}
    (hf : (vals s).prod < 2147483648) (hp : PicksAll (vals s) (xs.map (·.erase)) ls) (hne : ∀ l ∈ ls, l ≠ [])
    (hx : SlicerT.FitsAll NotUnsignedInt s (distances (vals s)) xs)
    (ht : ∀ x ∈ s.zip xs, ∀ i ∈ x.2.first, i.type.Fits x.1.value) :
    ∃ xcs st, xs.mapM SlicerT.build = .ok xcs ∧ asStrideT s = .ok st ∧ sliceT .checked s st xcs = sliceT .unchecked s st xcs := by
  obtain ⟨xcs, os, st, a1, est, -, hbox, ho, -⟩ := slices_common hf hp hne hx
  obtain ⟨xcs', st', b1, b2, b3⟩ := C102_checked_exact_partial hf hp hne hx
  obtain rfl := Except.ok.inj (a1.symm.trans b1)
  obtain rfl := Except.ok.inj (est.symm.trans b2)
  refine ⟨xcs, st, a1, est, b3.trans (if_pos (first_holds a1 ho hbox ht))⟩

/-- Of 300 elements, those from the byte 50 on: refused, since 300 converted to a byte is 44; from the byte 43 on: accepted. -/
example : (do
    let x ← (SlicerT.interval (some (.int ⟨.u8, 50⟩)) none none none).build
    let st ← asStrideT [⟨.i32, 300⟩]
    sliceT .checked [⟨.i32, 300⟩] st [x]) = .error .assertion ∧
    (do
    let x ← (SlicerT.interval (some (.int ⟨.u8, 43⟩)) none none none).build
    let st ← asStrideT [⟨.i32, 300⟩]
    let (start, shp, _) ← sliceT .checked [⟨.i32, 300⟩] st [x]
    pure (start, vals shp)) = .ok (43, [257]) := by decide +kernel
example : ∀ x ∈ ([⟨.i16, 6⟩, ⟨.i64, 4⟩] : List Coord).zip
    [SlicerT.interval (some (.ext (.sub .all ⟨.u64, 2⟩))) (some ⟨.i32, -2⟩) none none, .interval (some (.int ⟨.u8, 1⟩)) none none none],
    ∀ i ∈ x.2.first, i.type.Fits x.1.value := by
  intro x hx
  simp only [List.zip_cons_cons, List.zip_nil_right, List.mem_cons, List.not_mem_nil, or_false] at hx
  rcases hx with rfl | rfl
  · simp [SlicerT.first]
  · rintro i ⟨⟩; decide

/-- As `ShowsPicked`, for fewer slicers than axes: the leading axes are merged. -/
def ShowsPickedMerged (s : List Coord) (xs : List SlicerT) (ls : List (List Int)) (p : List Coord) : Prop :=
  ∃ xcs st start shp str, xs.mapM SlicerT.build = .ok xcs ∧ asStrideT s = .ok st ∧
    sliceMergedT .unchecked s st xcs = .ok (start, shp, str) ∧ vals shp = pickShape ls ∧
    elementT start str p = .ok (rowPlace (compress xs.length (vals s)) (pickAt ls (vals p)))

theorem shows_merged {s c : List Coord} {xs : List SlicerT} {ls : List (List Int)} {p : List Coord}
    (h0 : 0 < xs.length) (hn : xs.length ≤ s.length) (hs0 : ∀ d ∈ vals s, 0 < d) (hf : (vals s).prod < 2147483648)
    (hc : compressT xs.length s = .ok c) (h : ShowsPicked c xs ls p) : ShowsPickedMerged s xs ls p := by
  obtain ⟨c', ec, hv, -, hst⟩ := compressT_ok h0 hn hs0 hf
  obtain rfl : c' = c := Except.ok.inj (ec.symm.trans hc)
  obtain ⟨xcs, st', start, shp, str, h1, h2, h3, h4, h5⟩ := h
  obtain ⟨st, est, -⟩ := asStrideT_eq (s := s) (fun d hd => (hs0 d hd).le) (by rw [padded_eq_prod hs0]; exact hf)
  have e := hst st est
  rw [h2] at e
  have e := Except.ok.inj e
  have hlen : xcs.length = xs.length := by
    clear * - h1
    induction xs generalizing xcs with
    | nil => cases h1; rfl
    | cons x xs ih =>
      rw [List.mapM_cons] at h1
      cases e1 : x.build with
      | error => rw [e1] at h1; cases h1
      | ok xc =>
        cases e2 : xs.mapM SlicerT.build with
        | error => rw [e1, e2] at h1; cases h1
        | ok l =>
          rw [e1, e2] at h1
          cases h1
          simp [ih l e2]
  refine ⟨xcs, st, start, shp, str, h1, est, ?_, h4, by rw [← hv]; exact h5⟩
  unfold sliceMergedT
  rw [hlen, hc]
  simp only [bind, Except.bind]
  rw [← e]
  exact h3

/-- **C102** (fewer slicers) Both cases above, for at most as many slicers as axes. -/
theorem C102_merged_partial {s c : List Coord} {xs : List SlicerT} {ls : List (List Int)} {p : List Coord}
    (hc : compressT xs.length s = .ok c) (h0 : 0 < xs.length) (hn : xs.length ≤ s.length) (hs0 : ∀ d ∈ vals s, 0 < d)
    (hty : (∀ x ∈ xs, 0 < x.step.value) ∨
      (∀ c ∈ s, NotUnsignedInt c.type) ∧ (∀ x ∈ xs, NotUnsignedInt x.step.type) ∧ (∀ c ∈ p, NotUnsignedInt c.type))
    (hf : (vals s).prod < 2147483648) (hp : PicksAll (compress xs.length (vals s)) (xs.map (·.erase)) ls) (hne : ∀ l ∈ ls, l ≠ [])
    (hx : SlicerT.FitsAll NotUnsignedInt c (distances (vals c)) xs) (hb : InBox (pickShape ls) (vals p)) :
    ShowsPickedMerged s xs ls p := by
  obtain ⟨c', ec, hv, hplain, hst⟩ := compressT_ok h0 hn hs0 hf
  obtain rfl : c' = c := Except.ok.inj (ec.symm.trans hc)
  have hprod : (vals c').prod = (vals s).prod := by
    rw [hv, compress_eq h0 (by simpa using hn), List.prod_cons, ← List.prod_append, List.take_append_drop]
  refine shows_merged h0 hn hs0 hf hc ?_
  rw [← hv] at hp
  rcases hty with hpos | ⟨h1, h2, h3⟩
  · exact C102_positive_steps_partial hpos (by rw [hprod]; exact hf) hp hne hx hb
  · exact C102_slices_partial (hplain h1) h2 h3 (by rw [hprod]; exact hf) hp hne hx hb

/-- A 2 x 3 x 4 container with `unsigned int`, `short` and 64-bit extents; `c(slice(from = 1, by = 2), _)`. -/
example : ShowsPickedMerged [⟨.u32, 2⟩, ⟨.i16, 3⟩, ⟨.i64, 4⟩] [.interval (some (.int ⟨.u32, 1⟩)) (some ⟨.u32, 2⟩) none none, .joker]
    [[1, 3, 5], [0, 1, 2, 3]] [⟨.u32, 2⟩, ⟨.i64, 3⟩] := by
  refine C102_merged_partial (c := [⟨.u32, 6⟩, ⟨.i64, 4⟩]) (by decide +kernel) (by decide) (by decide) (by decide)
    (.inl (by decide)) (by decide) (.cons ?_ (.cons ?_ .nil)) (by decide) ?_ (by decide)
  · exact Picks.up (d := 6) (begin := some (.int 1)) (stop := none) (step := some 2) (b := 1) (e := 6) (s := 2)
      (.some (.int 1)) .none rfl (by decide) (by decide) (by decide) (by decide)
  · exact Picks.joker (d := 4) (by decide)
  · rw [show distances (vals [⟨.u32, 6⟩, ⟨.i64, 4⟩]) = [4, 1] by decide]
    simp only [SlicerT.FitsAll, SlicerT.FitsAt, BoundT.FitsAt, Option.mem_def, Option.some.injEq, forall_eq', reduceCtorEq,
      false_implies, implies_true]
    decide

/-- A 6 x 4 container with a `short` and a 64-bit extent; `c(slice(from = end - 2, by = -2), drop_first(1))` with a 64-bit unsigned
constant in `end - 2`.  Position (1, 2) is element (2, 3). -/
example : ShowsPicked [⟨.i16, 6⟩, ⟨.i64, 4⟩]
    [.interval (some (.ext (.sub .all ⟨.u64, 2⟩))) (some ⟨.i32, -2⟩) none none, .interval (some (.int ⟨.u8, 1⟩)) none none none]
    [[4, 2, 0], [1, 2, 3]] [⟨.i16, 1⟩, ⟨.i64, 2⟩] := by
  refine C102_slices_partial (by decide) (by decide) (by decide) (by decide) (.cons ?_ (.cons ?_ .nil)) (by decide) ?_ (by decide)
  · have := Picks.down (d := 6) (begin := some (.ext ((EndExpr.all.sub 2).build))) (s := -2) (b := 4)
      (.some (by
        have h := Denotes.ext (d := 6) ((EndExpr.all.sub 2).build) (by decide)
        have e : trunc ((((6 : Int) * ((EndExpr.all.sub 2).build).frac.num + ((EndExpr.all.sub 2).build).shift : Int) : ℚ) /
          (((EndExpr.all.sub 2).build).frac.denum : ℚ)) = 4 := by
          have := (C48_end_expressions (EndExpr.all.sub 2) 6).1 trivial
          norm_num [trunc, EndExpr.build, EndT.sub, EndT.all]
        rwa [e] at h)) (by decide) (by decide) (by decide)
    exact this
  · exact Picks.up (d := 4) (begin := some (.int 1)) (stop := none) (step := none) (b := 1) (e := 4) (s := 1)
      (.some (.int 1)) .none rfl (by decide) (by decide) (by decide) (by decide)
  · rw [show distances (vals [⟨.i16, 6⟩, ⟨.i64, 4⟩]) = [4, 1] by decide]
    simp only [SlicerT.FitsAll, SlicerT.FitsAt, BoundT.FitsAt, EndExprT.FitsAt, EndExprT.Moderate, Option.mem_def, Option.some.injEq,
      forall_eq', reduceCtorEq, false_implies, implies_true]
    decide

/-- **C102** is false with `unsigned int`: `last(3u)` on 10 elements with a 64-bit extent starts `2^32` elements too far; and so does
the second element of `every(-1)` on 4 elements with an `unsigned int` extent, read with a coordinate of that type. -/
theorem C102_unsigned_int_false : ¬ C102_statement ∧
    (do let x ← (SlicerT.interval (some (.ext (.sub .all ⟨.u32, 3⟩))) none none (some (.int ⟨.u32, 3⟩))).build
        let st ← asStrideT [⟨.i64, 10⟩]
        let (start, _, str) ← sliceT .unchecked [⟨.i64, 10⟩] st [x]
        elementT start str [⟨.i32, 0⟩]) = .ok (7 + 2 ^ 32) ∧
    (do let x ← (SlicerT.interval none (some ⟨.i32, -1⟩) none none).build
        let st ← asStrideT [⟨.u32, 4⟩]
        let (start, _, str) ← sliceT .unchecked [⟨.u32, 4⟩] st [x]
        elementT start str [⟨.u32, 1⟩]) = .ok (2 + 2 ^ 32) := by
  refine ⟨fun h => ?_, by decide +kernel, by decide +kernel⟩
  obtain ⟨xcs, st, start, shp, str, h1, h2, h3, -, h5⟩ := h [⟨.u32, 4⟩] [.interval none (some ⟨.i32, -1⟩) none none] [[3, 2, 1, 0]]
    [⟨.u32, 1⟩] (by decide) (by decide) (by decide)
    (.cons (Picks.down (d := 4) (begin := none) (s := -1) (b := 3) .none (by decide) (by decide) (by decide)) .nil) (by decide)
    (by rw [show distances (vals [⟨.u32, 4⟩]) = [1] from rfl]; simp only [SlicerT.FitsAll, SlicerT.FitsAt, Option.mem_def, reduceCtorEq, false_implies, implies_true]; decide) (by decide)
  cases h1
  rw [show asStrideT [⟨.u32, 4⟩] = .ok [fixedOne] by decide] at h2
  cases h2
  rw [List.reverse_singleton, show sliceT .unchecked [⟨.u32, 4⟩] [fixedOne] [.interval none (some ⟨.i32, -1⟩) none none] = .ok (3, [⟨.u32, 4⟩], [⟨.i32, -1⟩])
    by decide +kernel] at h3
  cases h3
  revert h5
  decide +kernel

/-! ## C103 -/

/-- **C103** `linear_index` of a range uses the first indexes of the range, one per axis, and ignores the others; with too few indexes
it reads past the end of the range. -/
theorem C103_range_index (md : Mode) (s r : List Coord) :
    (s.length ≤ r.length → linearIndexRangeT md s r = linearIndexT md s (r.take s.length)) ∧
    (r.length < s.length → linearIndexRangeT md s r = .error .outOfBounds) := by
  have key : ∀ (n k : Nat), (k + n ≤ r.length →
      (List.range' k n).mapM (derefRange r) = .ok ((r.drop k).take n)) ∧
      (r.length < k + n → k ≤ r.length → (List.range' k n).mapM (derefRange r) = .error .outOfBounds) := by
    intro n
    induction n with
    | zero => intro k; exact ⟨fun _ => by simp; rfl, fun h1 h2 => by omega⟩
    | succ n ih =>
      intro k
      rw [List.range'_succ, List.mapM_cons]
      constructor
      · intro h
        rw [(ih (k + 1)).1 (by omega), derefRange, List.getElem?_eq_getElem (by omega)]
        simp only [bind, Except.bind]
        rw [List.drop_eq_getElem_cons (by omega : k < r.length), List.take_succ_cons]
        rfl
      · intro h1 h2
        by_cases hk : k < r.length
        · rw [derefRange, List.getElem?_eq_getElem hk, (ih (k + 1)).2 (by omega) (by omega)]
          rfl
        · rw [derefRange, List.getElem?_eq_none (by omega)]
          rfl
  have h := key s.length 0
  unfold linearIndexRangeT
  rw [List.range_eq_range']
  constructor
  · intro hl
    rw [h.1 (by omega), List.drop_zero]
    rfl
  · intro hl
    rw [h.2 (by omega) (by omega)]
    rfl

example := (C103_range_index .checked [⟨.i32, 2⟩, ⟨.i64, 3⟩] [⟨.i16, 1⟩, ⟨.i16, 2⟩, ⟨.i16, 7⟩]).1 (by decide)

/-- **C103** (valid positions) For a range that starts with a valid position, the result is the row-major index of that position, whatever
follows and whatever the integer types. -/
theorem C103_range_position {s p : List Coord} (rest : List Coord) (hp : InBox (vals s) (vals p)) (hf : (vals s).prod < 2147483648)
    (k : Nat) (hk : (positions (vals s))[k]? = some (vals p)) :
    ∃ t, linearIndexRangeT .unchecked s (p ++ rest) = .ok ⟨t, k⟩ := by
  have hlen : p.length = s.length := by simpa using hp.length_eq.symm
  obtain ⟨t, i, h1, h2⟩ := C70_mixed_index .unchecked hp (by simp) hf
  rw [(C103_range_index .unchecked s (p ++ rest)).1 (by simp [hlen]), ← hlen, List.take_left', h1]
  · rw [linearIndex_ok _ hp] at h2
    have h2 := Except.ok.inj h2
    have h3 := positions_getElem? hp
    have hb := lin_bounds hp
    have hkl := (List.getElem?_eq_some_iff.1 hk).1
    have h3l := (List.getElem?_eq_some_iff.1 h3).1
    have e := (positions_nodup (vals s)).getElem_inj_iff.1 (((List.getElem?_eq_some_iff.1 hk).2).trans (List.getElem?_eq_some_iff.1 h3).2.symm)
    exact ⟨t, by rw [← h2]; congr 2; omega⟩
  · rfl

example : linearIndexRangeT .checked [⟨.i32, 2⟩, ⟨.i64, 3⟩] [⟨.i16, 1⟩, ⟨.i16, 2⟩, ⟨.i16, 7⟩] = .ok ⟨.i64, 5⟩ := by decide +kernel

end Kwk
