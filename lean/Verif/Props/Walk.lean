import Verif.Lemmas.WalkLong

/-!
# Property C147: algorithms over containers, views and slices of all integer types

`C20` and `C22` say which positions the loops visit, `C60` that counters of all types do, `C70`, `C102` and `C146` where containers,
slices and long views have the element at a position.  Here the loops and the element access come together: the counters of the
loops are the coordinates, and their types are those of the extents, which for slices the library computes.
-/

namespace Kwk
open Spec

/-- The extents of a slice. -/
theorem slice_extents {md : Mode} {s st shp str : List Coord} {xcs : List SlicerC} {start : Int}
    (h : sliceT md s st xcs = .ok (start, shp, str)) :
    (s.zip xcs).mapM (fun x : Coord × SlicerC => sliceExtentT x.1 x.2) = .ok shp := by
  unfold sliceT at h
  simp only [bind, Except.bind] at h
  split at h
  · cases h
  split at h
  · cases h
  split at h
  · cases h
  rename_i hs
  split at h
  · cases h
  cases h
  exact hs

/-- `for_each` and the searches over the slice run the function on the elements that are where the selected positions are in the data
of the container, one after the other. -/
def VisitsPicked (s : List Coord) (xs : List SlicerT) (ls : List (List Int)) : Prop :=
  ∃ xcs st start shp str, xs.mapM SlicerT.build = .ok xcs ∧ asStrideT s = .ok st ∧
    sliceT .unchecked s st xcs = .ok (start, shp, str) ∧
    ∀ (σ : Type) (fuel : Nat), 0 < fuel → (∀ l ∈ ls, l.length < fuel) →
      (∀ f : List Int → StateT σ Res Unit, walkT fuel f ⟨start, shp, str⟩ [] =
        runAll (fun p => f [rowPlace (vals s) (pickAt ls p)]) (positions (pickShape ls))) ∧
      (∀ f : List Int → StateT σ Res Bool, searchT fuel f ⟨start, shp, str⟩ =
        runUntil (fun p => f [rowPlace (vals s) (pickAt ls p)]) (positions (pickShape ls)))

/-- The full property: for containers of all types, and for slices of containers of all types. -/
def C147_statement : Prop :=
  (∀ (σ : Type) (c0 : ContainerT) (cs : List ContainerT) (fuel : Nat), (∀ c ∈ c0 :: cs, RowMajorT c ∧ vals c.shape = vals c0.shape) →
    0 < fuel → (∀ d ∈ c0.shape, d.value < fuel) → ∀ f : List Int → StateT σ Res Unit,
      walkT fuel f c0 cs = runAll (fun k => f ((c0 :: cs).map fun c => c.start + k)) (upTo (vals c0.shape).prod)) ∧
  (∀ (s : List Coord) (xs : List SlicerT) (ls : List (List Int)), s ≠ [] → (∀ c ∈ s, c.type.Fits c.value) →
    (∀ x ∈ xs, ∀ o ∈ x.numbers, o.type.Fits o.value) → (vals s).prod < 2147483648 → PicksAll (vals s) (xs.map (·.erase)) ls →
    (∀ l ∈ ls, l ≠ []) → SlicerT.FitsAll (fun _ => True) s (distances (vals s)) xs → VisitsPicked s xs ls) ∧
  (∀ (s : List Coord) (xs : List SlicerT) (ls : List (List Int)), (∀ c ∈ s, c.type = .i64) → (vals s).prod < 2 ^ 63 →
    (∀ x ∈ xs, ∀ o ∈ x.numbers, LongNumber o) → PicksAll (vals s) (xs.map (·.erase)) ls →
    (∀ l ∈ ls, l ≠ []) → SlicerT.LongAll (vals s) (distances (vals s)) xs → VisitsPicked s xs ls)

/-- Where a row-major container has the element at a position. -/
theorem rowMajor_at {c : ContainerT} (hc : RowMajorT c) {p : List Coord} (hp : InBox (vals c.shape) (vals p))
    (hf : ∀ i ∈ p, i.type.Fits i.value) : c.at p = .ok (c.start + rowPlace (vals c.shape) (vals p)) := by
  obtain ⟨hst, hs, h⟩ := hc
  have hb := lin_bounds hp
  have hb' : rowPlace (vals c.shape) (vals p) = linearize (sfx (vals c.shape)) (vals p) := rowPlace_eq _ _
  have key : ∃ t, linearizeT c.stride p = .ok ⟨t, rowPlace (vals c.shape) (vals p)⟩ := by
    rcases h with h | ⟨h1, h2⟩
    · obtain ⟨t, k, e1, e2⟩ := C70_mixed_index .unchecked hp (by simp) (by norm_num at h; exact h)
      rw [linearIndex_ok .unchecked hp] at e2
      obtain rfl := Except.ok.inj e2
      refine ⟨t, ?_⟩
      rw [hb']
      unfold linearIndexT at e1
      rw [hst] at e1
      exact e1
    · obtain ⟨⟨t, e1⟩, -⟩ := C146_index_partial .unchecked h1 h2 hp hf (by simp)
      refine ⟨t, ?_⟩
      unfold linearIndexT at e1
      rw [hst] at e1
      exact e1
  obtain ⟨t, e⟩ := key
  unfold ContainerT.at elementT
  rw [e]
  simp only [bind, Except.bind]
  unfold ptrAdd
  rw [IntType.wrap_fits (t := .i64)]
  · rfl
  · simp only
    have : (vals c.shape).prod < 2 ^ 63 := by
      rcases h with h | ⟨-, h⟩
      · exact lt_trans h (by norm_num)
      · exact h
    norm_num at this
    exact i64_fits.2 ⟨by omega, by omega⟩

/-- **C147** (containers) Over one or more row-major containers of the same extents, whatever the types of these, `for_each` runs the
function on the first elements of all, then on the second ones, and so on to the last; the searches over a container run the predicate
on its elements in this order, until it is true. -/
theorem C147_container {σ : Type} {c0 : ContainerT} {cs : List ContainerT} {fuel : Nat}
    (hc : ∀ c ∈ c0 :: cs, RowMajorT c ∧ vals c.shape = vals c0.shape) (h0 : 0 < fuel) (hfuel : ∀ d ∈ c0.shape, d.value < fuel) :
    (∀ f : List Int → StateT σ Res Unit,
      walkT fuel f c0 cs = runAll (fun k => f ((c0 :: cs).map fun c => c.start + k)) (upTo (vals c0.shape).prod)) ∧
    (∀ f : List Int → StateT σ Res Bool,
      searchT fuel f c0 = runUntil (fun k => f [c0.start + k]) (upTo (vals c0.shape).prod)) := by
  have hs := (hc c0 (by simp)).1.2.1
  have hnn : NonNeg (vals c0.shape) := by
    intro v hv
    obtain ⟨d, hd, rfl⟩ := List.mem_map.1 hv
    exact (hs d hd).1.le
  have hat : ∀ p ∈ positions (vals c0.shape), ∀ c ∈ c0 :: cs,
      c.at (typedAs c0.shape p) = .ok (c.start + linearize (sfx (vals c0.shape)) p) := by
    intro p hp c hcm
    have hp := mem_positions.1 hp
    obtain ⟨h1, h2⟩ := hc c hcm
    have hv : vals (typedAs c0.shape p) = p := typedAs_vals (by simpa using hp.length_eq.symm)
    have := rowMajor_at h1 (p := typedAs c0.shape p) (by rw [h2, hv]; exact hp)
      fun i hi => (typedAs_number (P := fun _ => True) (fun d hd => ⟨trivial, (hs d hd).2⟩) hp i hi).2
    rw [this, h2, hv, rowPlace_eq]
  have hmap : ∀ (l : List ContainerT) (p : List Int), (∀ c ∈ l, c.at (typedAs c0.shape p) = .ok (c.start + linearize (sfx (vals c0.shape)) p)) →
      l.mapM (fun c => c.at (typedAs c0.shape p)) = .ok (l.map fun c => c.start + linearize (sfx (vals c0.shape)) p) := by
    intro l p h
    induction l with
    | nil => rfl
    | cons c l ih =>
      rw [List.mapM_cons, h c (by simp), ih fun c hc => h c (by simp [hc])]
      rfl
  constructor
  · intro f
    rw [walkT_eq (fun d hd => (hs d hd).2) h0 hfuel, ← positions_map_lin hnn, runAll_map]
    exact runAll_congr fun p hp => callAt_ok (hmap _ p (hat p hp))
  · intro f
    rw [searchT_eq (fun d hd => (hs d hd).2) h0 hfuel, ← positions_map_lin hnn, runUntil_map]
    exact runUntil_congr fun p hp => callAt_ok (hmap [c0] p fun c hc => hat p hp c (by simp at hc; simp [hc]))

/-- Two containers with extents of different types. -/
example : ∀ c ∈ [(⟨0, [⟨.i8, 2⟩, ⟨.u32, 3⟩], [⟨.u32, 3⟩, fixedOne]⟩ : ContainerT), ⟨100, [⟨.i64, 2⟩, ⟨.u8, 3⟩], [⟨.i32, 3⟩, fixedOne]⟩],
    RowMajorT c ∧ vals c.shape = [2, 3] := by
  unfold RowMajorT
  decide +kernel
example : (walkT (σ := List (List Int)) 4 (fun os => modify (· ++ [os])) ⟨0, [⟨.i8, 2⟩, ⟨.u32, 3⟩], [⟨.u32, 3⟩, fixedOne]⟩
    [⟨100, [⟨.i64, 2⟩, ⟨.u8, 3⟩], [⟨.i32, 3⟩, fixedOne]⟩] []).map (·.2) =
    .ok [[0, 100], [1, 101], [2, 102], [3, 103], [4, 104], [5, 105]] := by decide +kernel
/-- Four billion rows of two elements: the first element that is not before the third is the third. -/
example : RowMajorT ⟨0, [⟨.i64, 4000000000⟩, ⟨.u64, 2⟩], [⟨.u64, 2⟩, fixedOne]⟩ := by
  unfold RowMajorT
  decide +kernel

/-- What the slice of the extents `s` is; all positions of it, given that each is right. -/
theorem visits_of {s : List Coord} {xs : List SlicerT} {ls : List (List Int)} {xcs : List SlicerC} {st shp str : List Coord} {start : Int}
    (h1 : xs.mapM SlicerT.build = .ok xcs) (h2 : asStrideT s = .ok st) (h3 : sliceT .unchecked s st xcs = .ok (start, shp, str))
    (hv : vals shp = pickShape ls) (hfit : ∀ n ∈ shp, n.type.Fits n.value)
    (h : ∀ p, InBox (pickShape ls) p → elementT start str (typedAs shp p) = .ok (rowPlace (vals s) (pickAt ls p))) :
    VisitsPicked s xs ls := by
  refine ⟨xcs, st, start, shp, str, h1, h2, h3, fun σ fuel h0 hfuel => ?_⟩
  have hfuel' : ∀ d ∈ shp, d.value < fuel := by
    intro d hd
    have : d.value ∈ pickShape ls := by rw [← hv]; exact List.mem_map_of_mem hd
    obtain ⟨l, hl, e⟩ := List.mem_map.1 this
    have := hfuel l hl
    omega
  have hm : ∀ p ∈ positions (pickShape ls), ([⟨start, shp, str⟩] : List ContainerT).mapM (fun c => c.at (typedAs shp p)) =
      .ok [rowPlace (vals s) (pickAt ls p)] := by
    intro p hp
    rw [List.mapM_cons, show (⟨start, shp, str⟩ : ContainerT).at (typedAs shp p) = elementT start str (typedAs shp p) from rfl,
      h p (mem_positions.1 hp)]
    rfl
  constructor
  · intro f
    rw [walkT_eq hfit h0 hfuel']
    simp only
    rw [hv]
    exact runAll_congr fun p hp => callAt_ok (hm p hp)
  · intro f
    rw [searchT_eq hfit h0 hfuel']
    simp only
    rw [hv]
    exact runUntil_congr fun p hp => callAt_ok (hm p hp)

/-- The slice has the elements where the selected positions are, at the positions given as counters of its extents. -/
def PickedCells (s : List Coord) (xs : List SlicerT) (ls : List (List Int)) : Prop :=
  ∃ xcs st start shp str, xs.mapM SlicerT.build = .ok xcs ∧ asStrideT s = .ok st ∧
    sliceT .unchecked s st xcs = .ok (start, shp, str) ∧ vals shp = pickShape ls ∧ (∀ n ∈ shp, n.type.Fits n.value) ∧
    ∀ p, InBox (pickShape ls) p → elementT start str (typedAs shp p) = .ok (rowPlace (vals s) (pickAt ls p))

theorem visits_cells {s : List Coord} {xs : List SlicerT} {ls : List (List Int)} (h : PickedCells s xs ls) : VisitsPicked s xs ls := by
  obtain ⟨xcs, st, start, shp, str, h1, h2, h3, h4, h5, h6⟩ := h
  exact visits_of h1 h2 h3 h4 h5 h6

/-- The same, at the positions given in all types that satisfy `P`, as the extents do. -/
def PickedAny (P : IntType → Prop) (s : List Coord) (xs : List SlicerT) (ls : List (List Int)) : Prop :=
  ∃ xcs st start shp str, xs.mapM SlicerT.build = .ok xcs ∧ asStrideT s = .ok st ∧
    sliceT .unchecked s st xcs = .ok (start, shp, str) ∧ vals shp = pickShape ls ∧ (∀ n ∈ shp, P n.type ∧ n.type.Fits n.value) ∧
    ∀ p : List Coord, (∀ c ∈ p, P c.type) → InBox (pickShape ls) (vals p) →
      elementT start str p = .ok (rowPlace (vals s) (pickAt ls (vals p)))

theorem any_cells {P : IntType → Prop} {s : List Coord} {xs : List SlicerT} {ls : List (List Int)} (h : PickedAny P s xs ls) :
    PickedCells s xs ls := by
  obtain ⟨xcs, st, start, shp, str, h1, h2, h3, h4, h5, h6⟩ := h
  refine ⟨xcs, st, start, shp, str, h1, h2, h3, h4, fun n hn => (h5 n hn).2, fun p hb => ?_⟩
  have hv : vals (typedAs shp p) = p := typedAs_vals (by
    have h := hb.length_eq
    rw [← h4] at h
    simpa using h.symm)
  rw [h6 _ (fun c hc => (typedAs_number h5 (by rw [h4]; exact hb) c hc).1) (by rw [hv]; exact hb), hv]

theorem pick_zero {ls : List (List Int)} (hne : ∀ l ∈ ls, l ≠ []) :
    InBox (pickShape ls) (vals (ls.map fun _ => (⟨.i32, 0⟩ : Coord))) := by
  induction ls with
  | nil => exact .nil
  | cons l ls ih =>
    have := List.length_pos_iff.2 (hne l (by simp))
    exact inBox_cons.2 ⟨⟨le_rfl, by simpa using this⟩, ih fun l hl => hne l (by simp [hl])⟩

/-- The cells of a slice, given that each position is shown. -/
theorem cells_shows {P : IntType → Prop} (hP : ClosedTypes P) {s : List Coord} {xs : List SlicerT} {ls : List (List Int)}
    (hs : ∀ c ∈ s, P c.type ∧ c.type.Fits c.value) (hn : ∀ x ∈ xs, ∀ o ∈ x.numbers, P o.type ∧ o.type.Fits o.value)
    (hne : ∀ l ∈ ls, l ≠ [])
    (main : ∀ p : List Coord, (∀ c ∈ p, P c.type) → InBox (pickShape ls) (vals p) → ShowsPicked s xs ls p) : PickedAny P s xs ls := by
  obtain ⟨xcs, st, start, shp, str, h1, h2, h3, h4, -⟩ := main _ (by
    intro c hc
    obtain ⟨-, -, rfl⟩ := List.mem_map.1 hc
    exact hP.i32) (pick_zero hne)
  have hnum := extents_number hP h1 hn hs (slice_extents h3)
  refine ⟨xcs, st, start, shp, str, h1, h2, h3, h4, hnum, fun p hpt hb => ?_⟩
  obtain ⟨xcs', st', start', shp', str', g1, g2, g3, -, g5⟩ := main p hpt hb
  obtain rfl := Except.ok.inj (h1.symm.trans g1)
  obtain rfl := Except.ok.inj (h2.symm.trans g2)
  have e := Except.ok.inj (h3.symm.trans g3)
  simp only [Prod.mk.injEq] at e
  obtain ⟨rfl, rfl, rfl⟩ := e
  exact g5

theorem cells_small {s : List Coord} {xs : List SlicerT} {ls : List (List Int)}
    (hs : ∀ c ∈ s, NotUnsignedInt c.type ∧ c.type.Fits c.value)
    (hn : ∀ x ∈ xs, ∀ o ∈ x.numbers, NotUnsignedInt o.type ∧ o.type.Fits o.value)
    (hf : (vals s).prod < 2147483648) (hp : PicksAll (vals s) (xs.map (·.erase)) ls) (hne : ∀ l ∈ ls, l ≠ [])
    (hx : SlicerT.FitsAll NotUnsignedInt s (distances (vals s)) xs) : PickedAny NotUnsignedInt s xs ls := by
  refine cells_shows closed_notUnsigned hs hn hne fun p hpt hb =>
    C102_slices_partial (fun c hc => (hs c hc).1) ?_ hpt hf hp hne hx hb
  intro x hx
  cases x with
  | interval b st e l =>
    cases st with
    | none => show NotUnsignedInt .i32; decide
    | some o => exact (hn _ hx o (by simp [SlicerT.numbers])).1
  | _ => show NotUnsignedInt .i32; decide

/-- **C147** (slices) Over a slice of a container of less than `2^31` elements, `for_each` and the searches run the function on the
selected elements in row-major order, if no number has the unsigned type of the width of `int`. -/
theorem C147_slice_partial {s : List Coord} {xs : List SlicerT} {ls : List (List Int)}
    (hs : ∀ c ∈ s, NotUnsignedInt c.type ∧ c.type.Fits c.value)
    (hn : ∀ x ∈ xs, ∀ o ∈ x.numbers, NotUnsignedInt o.type ∧ o.type.Fits o.value)
    (hf : (vals s).prod < 2147483648) (hp : PicksAll (vals s) (xs.map (·.erase)) ls) (hne : ∀ l ∈ ls, l ≠ [])
    (hx : SlicerT.FitsAll NotUnsignedInt s (distances (vals s)) xs) : VisitsPicked s xs ls :=
  visits_cells (any_cells (cells_small hs hn hf hp hne hx))

/-- Every second column of a table of three columns, from the last one, in bytes and 64-bit numbers. -/
example : (∀ c ∈ [(⟨.u8, 2⟩ : Coord), ⟨.i64, 3⟩], NotUnsignedInt c.type ∧ c.type.Fits c.value) ∧
    (∀ x ∈ [SlicerT.joker, .interval none (some ⟨.i16, -2⟩) none none], ∀ o ∈ x.numbers, NotUnsignedInt o.type ∧ o.type.Fits o.value) ∧
    (vals [(⟨.u8, 2⟩ : Coord), ⟨.i64, 3⟩]).prod < 2147483648 := by
  refine ⟨by decide, ?_, by decide⟩
  intro x hx o ho
  simp only [List.mem_cons, List.not_mem_nil, or_false] at hx
  rcases hx with rfl | rfl
  · simp [SlicerT.numbers] at ho
  · simp only [SlicerT.numbers, Option.map_none, Option.getD_none, Option.toList_some, List.nil_append, List.append_nil,
      List.mem_singleton] at ho
    subst ho
    decide
example : PicksAll [2, 3] [.joker, .interval none (some (-2)) none none] [[0, 1], [2, 0]] :=
  .cons (Picks.joker (d := 2) (by decide)) (.cons (Picks.down (d := 3) (s := -2) (b := 2) .none (by decide) (by decide) (by decide)) .nil)
example : SlicerT.FitsAll NotUnsignedInt [⟨.u8, 2⟩, ⟨.i64, 3⟩] [3, 1] [.joker, .interval none (some ⟨.i16, -2⟩) none none] := by
  refine ⟨⟨by decide, by decide, by decide, trivial⟩, ⟨by decide, by decide, by decide, ?_⟩, trivial⟩
  simp
example : (do
    let x ← (SlicerT.interval none (some ⟨.i16, -2⟩) none none).build
    let st ← asStrideT [⟨.u8, 2⟩, ⟨.i64, 3⟩]
    let (start, shp, str) ← sliceT .unchecked [⟨.u8, 2⟩, ⟨.i64, 3⟩] st [.joker, x]
    let (_, seen) ← walkT (σ := List (List Int)) 5 (fun os => modify (· ++ [os])) ⟨start, shp, str⟩ [] []
    pure seen) = .ok [[2], [0], [5], [3]] := by decide +kernel

theorem cells_positive {s : List Coord} {xs : List SlicerT} {ls : List (List Int)}
    (hs : ∀ c ∈ s, c.type.Fits c.value) (hn : ∀ x ∈ xs, ∀ o ∈ x.numbers, o.type.Fits o.value) (hpos : ∀ x ∈ xs, 0 < x.step.value)
    (hf : (vals s).prod < 2147483648) (hp : PicksAll (vals s) (xs.map (·.erase)) ls) (hne : ∀ l ∈ ls, l ≠ [])
    (hx : SlicerT.FitsAll NotUnsignedInt s (distances (vals s)) xs) : PickedAny (fun _ => True) s xs ls :=
  cells_shows (P := fun _ => True) closed_any (fun c hc => ⟨trivial, hs c hc⟩) (fun x hx o ho => ⟨trivial, hn x hx o ho⟩) hne
    fun _ _ hb => C102_positive_steps_partial hpos hf hp hne hx hb

/-- **C147** (slices, positive steps) The same for all types if the steps are positive; numbers of the unsigned type of the width of
`int` may only not appear together with `end`. -/
theorem C147_positive_steps_partial {s : List Coord} {xs : List SlicerT} {ls : List (List Int)}
    (hs : ∀ c ∈ s, c.type.Fits c.value) (hn : ∀ x ∈ xs, ∀ o ∈ x.numbers, o.type.Fits o.value) (hpos : ∀ x ∈ xs, 0 < x.step.value)
    (hf : (vals s).prod < 2147483648) (hp : PicksAll (vals s) (xs.map (·.erase)) ls) (hne : ∀ l ∈ ls, l ≠ [])
    (hx : SlicerT.FitsAll NotUnsignedInt s (distances (vals s)) xs) : VisitsPicked s xs ls :=
  visits_cells (any_cells (cells_positive hs hn hpos hf hp hne hx))

/-- The same table in `unsigned int`, every second column from the first. -/
example : (∀ c ∈ [(⟨.u32, 2⟩ : Coord), ⟨.u32, 3⟩], c.type.Fits c.value) ∧ (vals [(⟨.u32, 2⟩ : Coord), ⟨.u32, 3⟩]).prod < 2147483648 ∧
    ∀ x ∈ [SlicerT.joker, .interval none (some ⟨.u32, 2⟩) none none], 0 < x.step.value := by
  refine ⟨by decide, by decide, ?_⟩
  intro x hx
  simp only [List.mem_cons, List.not_mem_nil, or_false] at hx
  rcases hx with rfl | rfl
  · exact (by decide : (0 : Int) < 1)
  · exact (by decide : (0 : Int) < 2)
example : SlicerT.FitsAll NotUnsignedInt [⟨.u32, 2⟩, ⟨.u32, 3⟩] [3, 1] [.joker, .interval none (some ⟨.u32, 2⟩) none none] := by
  refine ⟨⟨by decide, by decide, by decide, trivial⟩, ⟨by decide, by decide, by decide, ?_⟩, trivial⟩
  simp
example : PicksAll [2, 3] [.joker, .interval none (some 2) none none] [[0, 1], [0, 2]] :=
  .cons (Picks.joker (d := 2) (by decide)) (.cons (Picks.up (d := 3) (b := 0) (e := 3) (s := 2) .none .none rfl (by decide) (by decide)
    (by decide) (by decide)) .nil)
example : (do
    let x ← (SlicerT.interval none (some ⟨.u32, 2⟩) none none).build
    let st ← asStrideT [⟨.u32, 2⟩, ⟨.u32, 3⟩]
    let (start, shp, str) ← sliceT .unchecked [⟨.u32, 2⟩, ⟨.u32, 3⟩] st [.joker, x]
    let (_, seen) ← walkT (σ := List (List Int)) 5 (fun os => modify (· ++ [os])) ⟨start, shp, str⟩ [] []
    pure seen) = .ok [[0], [2], [3], [5]] := by decide +kernel

/-- The numbers that the loops along the last axis ask for are in range exactly if `LastLength` says so. -/
theorem last_length {s : List Coord} {g : List Int} {xs : List SlicerT} {xcs : List SlicerC} {shp : List Coord} {ls : List (List Int)}
    (ht : ∀ c ∈ s, c.type = .i64 ∧ IntType.i64.Fits c.value) (hx : SlicerT.LongAll (vals s) g xs) (hg : g.length = s.length)
    (hp : PicksAll (vals s) (xs.map (·.erase)) ls) (hne : ∀ l ∈ ls, l ≠ []) (hb : xs.mapM SlicerT.build = .ok xcs)
    (hn : (s.zip xcs).mapM (fun x : Coord × SlicerC => sliceExtentT x.1 x.2) = .ok shp) (hv : vals shp = pickShape ls)
    (hl : ∀ n ∈ shp, LongNumber n) :
    (∀ p, InBox (pickShape ls) p → LastInRange xs (typedAs shp p)) ↔ LastLength xs ls := by
  induction s generalizing g xs xcs shp ls with
  | nil =>
    cases xs with
    | cons => cases hp
    | nil => cases hp; simp [LastInRange, LastLength]
  | cons d s ih =>
    cases xs with
    | nil => cases hp
    | cons x xs =>
    cases ls with
    | nil => cases hp
    | cons l ls =>
    cases g with
    | nil => simp at hg
    | cons g gs =>
    cases hp with
    | cons hp hps =>
    rw [List.mapM_cons] at hb
    simp only [bind, Except.bind] at hb
    split at hb
    · cases hb
    rename_i xc ex
    split at hb
    · cases hb
    rename_i xcs' exs
    cases hb
    rw [List.zip_cons_cons, List.mapM_cons] at hn
    simp only [bind, Except.bind] at hn
    split at hn
    · cases hn
    rename_i n en
    split at hn
    · cases hn
    rename_i shp' eshp
    cases hn
    simp only [vals, pickShape, List.map_cons, List.cons.injEq] at hv
    obtain ⟨hv, hvs⟩ := hv
    have hne0 := hne l (by simp)
    have hpos := List.length_pos_iff.2 hne0
    cases xs with
    | nil =>
      cases s with
      | cons => cases hps
      | nil =>
      cases hps
      obtain rfl : shp' = [] := by simpa [pickShape] using hvs
      rw [← axis_range (ht d (by simp)).1 (ht d (by simp)).2 hx.1 hp hne0 ex en hv (hl n (by simp))]
      constructor
      · intro h k h0 h1
        exact h [k] (inBox_cons.2 ⟨⟨h0, h1⟩, .nil⟩)
      · intro h p hp
        cases hp with
        | cons hp hps =>
          cases hps
          exact h _ hp.1 hp.2
    | cons x' xs =>
      cases ls with
      | nil =>
        cases s <;> cases hps
      | cons l' ls =>
      have key := ih (fun c hc => ht c (by simp [hc])) hx.2 (by simpa using hg) hps (fun l hl => hne l (by simp [hl])) exs eshp hvs
        (fun n hn => hl n (by simp [hn]))
      have e : LastLength (x :: x' :: xs) (l :: l' :: ls) ↔ LastLength (x' :: xs) (l' :: ls) := by
        cases x with
        | interval b st e len => cases st <;> cases len <;> exact Iff.rfl
        | _ => exact Iff.rfl
      rw [e, ← key]
      constructor
      · intro h p hp
        exact h (0 :: p) (inBox_cons.2 ⟨⟨le_rfl, by simpa using hpos⟩, hp⟩)
      · intro h p hp
        cases p with
        | nil => cases hp
        | cons i p => exact h p (inBox_cons.1 hp).2

/-- What a slice of a view with 64-bit extents is, and where it has its elements. -/
theorem long_facts {s : List Coord} {xs : List SlicerT} {ls : List (List Int)}
    (ht : ∀ c ∈ s, c.type = .i64) (hn : ∀ x ∈ xs, ∀ o ∈ x.numbers, LongNumber o) (hf : (vals s).prod < 2 ^ 63)
    (hp : PicksAll (vals s) (xs.map (·.erase)) ls) (hne : ∀ l ∈ ls, l ≠ [])
    (hx : SlicerT.LongAll (vals s) (distances (vals s)) xs) :
    ∃ xcs st start shp str, xs.mapM SlicerT.build = .ok xcs ∧ asStrideT s = .ok st ∧
      sliceT .unchecked s st xcs = .ok (start, shp, str) ∧ vals shp = pickShape ls ∧ (∀ n ∈ shp, LongNumber n) ∧
      ((∀ p, InBox (pickShape ls) p → LastInRange xs (typedAs shp p)) ↔ LastLength xs ls) ∧
      ∀ p, InBox (pickShape ls) p →
        (LastInRange xs (typedAs shp p) → elementT start str (typedAs shp p) = .ok (rowPlace (vals s) (pickAt ls p))) ∧
        (¬ LastInRange xs (typedAs shp p) → elementT start str (typedAs shp p) = .error .overflow) := by
  have main := fun (p : List Coord) (hpl : ∀ c ∈ p, LongNumber c) (hb : InBox (pickShape ls) (vals p)) =>
    slices_long ht hf hp hne hx hpl hb
  obtain ⟨xcs, st, start, shp, str, os, h1, h2, -, hbox, -, h3, -, h4, -, -⟩ := main _ (by
    intro c hc
    obtain ⟨-, -, rfl⟩ := List.mem_map.1 hc
    decide) (pick_zero hne)
  have h3 := h3 .unchecked rfl
  have hfit : ∀ c ∈ s, c.type = .i64 ∧ IntType.i64.Fits c.value := by
    intro c hc
    have h1 := hbox.pos c.value (List.mem_map_of_mem hc)
    have h2 := le_padded (s := vals s) (List.mem_map_of_mem (f := (·.value)) hc)
    rw [padded_eq_prod hbox.pos] at h2
    norm_num at hf
    exact ⟨ht c hc, i64_fits.2 ⟨by omega, by omega⟩⟩
  have hnum : ∀ n ∈ shp, LongNumber n := extents_number (P := ComputesSigned) closed_signed h1 hn
    (fun d hd => ⟨by rw [(hfit d hd).1]; decide, by rw [(hfit d hd).1]; exact (hfit d hd).2⟩) (slice_extents h3)
  refine ⟨xcs, st, start, shp, str, h1, h2, h3, h4, hnum,
    last_length hfit hx (by rw [distances_eq, sfx_length]; simp) hp hne h1 (slice_extents h3) h4 hnum, ?_⟩
  · intro p hb
    have hv : vals (typedAs shp p) = p := typedAs_vals (by
      have h := hb.length_eq
      rw [← h4] at h
      simpa using h.symm)
    obtain ⟨xcs', st', start', shp', str', os', g1, g2, -, -, -, g3, -, -, g5, g6⟩ := main (typedAs shp p)
      (fun c hc => typedAs_number (P := ComputesSigned) hnum (by rw [h4]; exact hb) c hc) (by rw [hv]; exact hb)
    obtain rfl := Except.ok.inj (h1.symm.trans g1)
    obtain rfl := Except.ok.inj (h2.symm.trans g2)
    have e := Except.ok.inj (h3.symm.trans (g3 .unchecked rfl))
    simp only [Prod.mk.injEq] at e
    obtain ⟨rfl, rfl, rfl⟩ := e
    rw [hv] at g5
    exact ⟨g5, g6⟩

theorem cells_long {s : List Coord} {xs : List SlicerT} {ls : List (List Int)}
    (ht : ∀ c ∈ s, c.type = .i64) (hn : ∀ x ∈ xs, ∀ o ∈ x.numbers, LongNumber o) (hf : (vals s).prod < 2 ^ 63)
    (hp : PicksAll (vals s) (xs.map (·.erase)) ls) (hne : ∀ l ∈ ls, l ≠ [])
    (hx : SlicerT.LongAll (vals s) (distances (vals s)) xs) (hl : LastLength xs ls) : PickedCells s xs ls := by
  obtain ⟨xcs, st, start, shp, str, h1, h2, h3, h4, hnum, hlast, at_p⟩ := long_facts ht hn hf hp hne hx
  exact ⟨xcs, st, start, shp, str, h1, h2, h3, h4, fun n hn => (hnum n hn).2, fun p hb => (at_p p hb).1 (hlast.2 hl p hb)⟩

/-- **C147** (slices of long views) Over a slice of a view with 64-bit extents, `for_each` and the searches run the function on the
selected elements in row-major order, exactly if the step times the last coordinate of the last axis is a number of the type in which
the library multiplies them; that can only go wrong if the slice of the last axis is given by a length. -/
theorem C147_slice_long_exact_partial {s : List Coord} {xs : List SlicerT} {ls : List (List Int)}
    (ht : ∀ c ∈ s, c.type = .i64) (hn : ∀ x ∈ xs, ∀ o ∈ x.numbers, LongNumber o) (hf : (vals s).prod < 2 ^ 63)
    (hp : PicksAll (vals s) (xs.map (·.erase)) ls) (hne : ∀ l ∈ ls, l ≠ [])
    (hx : SlicerT.LongAll (vals s) (distances (vals s)) xs) : VisitsPicked s xs ls ↔ LastLength xs ls := by
  obtain ⟨xcs, st, start, shp, str, h1, h2, h3, h4, hnum, hlast, at_p⟩ := long_facts ht hn hf hp hne hx
  rw [← hlast]
  constructor
  · rintro ⟨xcs', st', start', shp', str', g1, g2, g3, g4⟩ p hb
    obtain rfl := Except.ok.inj (h1.symm.trans g1)
    obtain rfl := Except.ok.inj (h2.symm.trans g2)
    have e := Except.ok.inj (h3.symm.trans g3)
    simp only [Prod.mk.injEq] at e
    obtain ⟨rfl, rfl, rfl⟩ := e
    by_contra hcon
    have hm : ([⟨start, shp, str⟩] : List ContainerT).mapM (fun c => c.at (typedAs shp p)) = .error .overflow := by
      rw [List.mapM_cons, show (⟨start, shp, str⟩ : ContainerT).at (typedAs shp p) = elementT start str (typedAs shp p) from rfl,
        (at_p p hb).2 hcon]
      rfl
    obtain ⟨N, hN⟩ : ∃ N : Nat, 0 < N ∧ ∀ l ∈ ls, l.length < N := by
      clear * -
      induction ls with
      | nil => exact ⟨1, by simp⟩
      | cons l ls ih =>
        obtain ⟨N, h0, h⟩ := ih
        refine ⟨N + l.length + 1, by omega, fun m hm => ?_⟩
        rcases List.mem_cons.1 hm with rfl | hm
        · omega
        · have := h m hm; omega
    have hw := ((g4 Unit N hN.1 hN.2).1 (fun _ => pure ())).symm
    rw [walkT_eq (fun d hd => (hnum d hd).2) hN.1 (fun d hd => by
      have : d.value ∈ pickShape ls := by rw [← h4]; exact List.mem_map_of_mem hd
      obtain ⟨l, hl, e⟩ := List.mem_map.1 this
      have := hN.2 l hl
      omega)] at hw
    obtain ⟨e', he⟩ := runAll_fails (c0 := ⟨start, shp, str⟩) (cs := []) (l := positions (vals shp)) (p := p)
      (mem_positions.2 (by rw [h4]; exact hb)) hm
    have := congrFun hw ()
    rw [he] at this
    have hok : ∀ l : List (List Int), runAll (m := StateT Unit Res) (fun _ => pure ()) l () = .ok ((), ()) := by
      intro l
      induction l with
      | nil => rfl
      | cons a l ih => exact ih
    rw [hok] at this
    cases this
  · intro h
    exact visits_of h1 h2 h3 h4 (fun n hn => (hnum n hn).2) fun p hb => (at_p p hb).1 (h p hb)

/-- Three billion elements in steps of `int` 2, without a length, and with a length of 64 bits or a moderate one. -/
example : ∃ l, PicksAll [3000000000] [.interval none (some 2) none none] [l] ∧ l.length = 1500000000 ∧
    LastLength [.interval none (some ⟨.i32, 2⟩) none none] [l] := by
  refine ⟨_, .cons (Picks.up (d := 3000000000) (b := 0) (e := 3000000000) (s := 2) .none .none rfl (by decide) (by decide)
    (by decide) (by decide)) .nil, ?_, trivial⟩
  rw [selectUp_eq (by decide) (by decide) (by decide), List.length_map, upTo_length]
  decide
example : LastLength [.joker, .interval none (some ⟨.i32, 2⟩) none (some (.int ⟨.i64, 5⟩))] [[0, 1], [0, 2, 4, 6, 8]] ∧
    ∀ l : List Int, l.length = 1500000000 →
      ¬ LastLength [.joker, .interval none (some ⟨.i32, 2⟩) none (some (.int ⟨.i32, 1500000000⟩))] [[0, 1], l] := by
  refine ⟨(by decide : IntType.i64.Fits (2 * (5 - 1))), fun l hl h => ?_⟩
  have h : IntType.i32.Fits (2 * ((l.length : Int) - 1)) := h
  rw [hl] at h
  revert h
  decide
example : SlicerT.LongAll [4000000000, 3] [3, 1]
    [.interval (some (.int ⟨.i64, 3999999990⟩)) (some ⟨.i32, -1000000000⟩) none none, .joker] ∧
    LastLength [.interval (some (.int ⟨.i64, 3999999990⟩)) (some ⟨.i32, -1000000000⟩) none none, .joker] [[1, 2], [3, 4]] := by
  refine ⟨⟨⟨by decide, by decide, by decide, ?_, by simp, by simp, ?_⟩, ⟨by decide, by decide, by decide, trivial⟩, trivial⟩, trivial⟩
  · rintro y ⟨⟩; exact (by decide : LongNumber ⟨.i64, 3999999990⟩)
  · rintro i ⟨⟩ _; decide
example : (do
    let x ← (SlicerT.interval (some (.int ⟨.i64, 3999999990⟩)) (some ⟨.i32, -1000000000⟩) none none).build
    let st ← asStrideT [⟨.i64, 4000000000⟩, ⟨.i64, 3⟩]
    let (start, shp, str) ← sliceT .unchecked [⟨.i64, 4000000000⟩, ⟨.i64, 3⟩] st [x, .index ⟨.i32, 1⟩]
    let (_, seen) ← walkT (σ := List (List Int)) 5 (fun os => modify (· ++ [os])) ⟨start, shp, str⟩ [] []
    pure seen) = .ok [[11999999971], [8999999971], [5999999971], [2999999971]] := by decide +kernel

/-- The reversed slice of three elements with an `unsigned int` extent: the second one is `2^32` elements too far. -/
theorem C147_unsigned_int_false : ¬ (∀ (s : List Coord) (xs : List SlicerT) (ls : List (List Int)), s ≠ [] →
    (∀ c ∈ s, c.type.Fits c.value) → (∀ x ∈ xs, ∀ o ∈ x.numbers, o.type.Fits o.value) → (vals s).prod < 2147483648 →
    PicksAll (vals s) (xs.map (·.erase)) ls → (∀ l ∈ ls, l ≠ []) → SlicerT.FitsAll (fun _ => True) s (distances (vals s)) xs →
    VisitsPicked s xs ls) ∧
    (do let x ← (SlicerT.interval none (some ⟨.i32, -1⟩) none none).build
        let st ← asStrideT [⟨.u32, 3⟩]
        let (start, shp, str) ← sliceT .unchecked [⟨.u32, 3⟩] st [x]
        let (_, seen) ← walkT (σ := List (List Int)) 5 (fun os => modify (· ++ [os])) ⟨start, shp, str⟩ [] []
        pure seen) = .ok [[2], [1 + 2 ^ 32], [2 ^ 32]] := by
  refine ⟨fun h => ?_, by decide +kernel⟩
  obtain ⟨xcs, st, start, shp, str, h1, h2, h3, h4⟩ := h [⟨.u32, 3⟩] [.interval none (some ⟨.i32, -1⟩) none none] [[2, 1, 0]]
    (by decide) (by decide) (by
      intro x hx o ho
      rw [List.mem_singleton.1 hx] at ho
      simp only [SlicerT.numbers, Option.map_none, Option.getD_none, Option.toList_some, List.nil_append, List.append_nil,
        List.mem_singleton] at ho
      subst ho
      decide) (by decide)
    (.cons (Picks.down (d := 3) (begin := none) (s := -1) (b := 2) .none (by decide) (by decide) (by decide)) .nil) (by decide)
    (by rw [show distances (vals [⟨.u32, 3⟩]) = [1] from rfl]; simp only [SlicerT.FitsAll, SlicerT.FitsAt, Option.mem_def, reduceCtorEq, false_implies, implies_true]; decide)
  cases h1
  rw [show asStrideT [⟨.u32, 3⟩] = .ok [fixedOne] by decide] at h2
  cases h2
  rw [List.reverse_singleton, show sliceT .unchecked [⟨.u32, 3⟩] [fixedOne] [.interval none (some ⟨.i32, -1⟩) none none] = .ok (2, [⟨.u32, 3⟩], [⟨.i32, -1⟩])
    by decide +kernel] at h3
  cases h3
  have := congrArg (·.map (·.2)) (congrFun ((h4 (List (List Int)) 5 (by decide) (by decide)).1 (fun os => modify (· ++ [os]))) [])
  revert this
  decide +kernel

/-- Every second one of three billion elements, given by an `int` length: `2 * 1499999999` overflows. -/
theorem C147_long_false : ¬ (∀ (s : List Coord) (xs : List SlicerT) (ls : List (List Int)), (∀ c ∈ s, c.type = .i64) →
    (vals s).prod < 2 ^ 63 → (∀ x ∈ xs, ∀ o ∈ x.numbers, LongNumber o) → PicksAll (vals s) (xs.map (·.erase)) ls →
    (∀ l ∈ ls, l ≠ []) → SlicerT.LongAll (vals s) (distances (vals s)) xs → VisitsPicked s xs ls) := by
  intro h
  let sl : SlicerT := .interval none (some ⟨.i32, 2⟩) none (some (.int ⟨.i32, 1500000000⟩))
  let l : List Int := (upTo 1500000000).map fun k => 0 + k * 2
  have hl : (l.length : Int) = 1500000000 := by
    rw [List.length_map, upTo_length]
    decide
  have hp : PicksAll (vals [⟨.i64, 3000000000⟩]) ([sl].map (·.erase)) [l] :=
    .cons (Picks.length (d := 3000000000) (b := 0) (n := 1500000000) (s := 2) rfl (by decide) .none (.int _) (by decide)
      fun k h0 h1 => ⟨by omega, by omega⟩) .nil
  have hne : ∀ m ∈ [l], m ≠ [] := by
    intro m hm e
    rw [List.mem_singleton.1 hm] at e
    rw [e] at hl
    simp at hl
  have hx : SlicerT.LongAll (vals [⟨.i64, 3000000000⟩]) (distances (vals [⟨.i64, 3000000000⟩])) [sl] := by
    refine ⟨⟨by decide, by decide, by decide, by simp, by simp, ?_, by simp⟩, trivial⟩
    rintro y ⟨⟩
    exact (by decide : LongNumber ⟨.i32, 1500000000⟩)
  have hn : ∀ x ∈ [sl], ∀ o ∈ x.numbers, LongNumber o := by
    intro x hx o ho
    rw [List.mem_singleton.1 hx] at ho
    simp only [sl, SlicerT.numbers, BoundT.numbers, Option.map_none, Option.map_some, Option.getD_some, Option.getD_none,
      Option.toList_some, List.nil_append, List.append_nil, List.cons_append, List.mem_cons, List.not_mem_nil, or_false] at ho
    rcases ho with rfl | rfl <;> decide
  have := (C147_slice_long_exact_partial (by decide) hn (by decide +kernel) hp hne hx).1
    (h _ _ _ (by decide) (by decide +kernel) hn hp hne hx)
  have this : IntType.i32.Fits (2 * ((l.length : Int) - 1)) := this
  rw [hl] at this
  revert this
  decide

/-- **C147**: the full property fails. -/
theorem C147_false : ¬ C147_statement := fun h => C147_long_false h.2.2

end Kwk
