import Verif.Lemmas.ArraySlices
import Verif.Props.TypedViews

/-!
# Property C149: algorithms on slices and reversed views, for all integer types

`C147` says in which order algorithms reach the elements of slices; here, what they compute and leave in memory, in terms of the array
that holds the elements of the container.
-/

namespace Kwk
open Spec

variable {α β : Type}

/-- The full property: for slices of containers of all types, for long ones, and for reversed views. -/
def C149_statement : Prop :=
  (∀ (md : Mode) (static : Bool) (c : DataT) (xs : List SlicerT) (ls : List (List Int)), DefaultD c →
    (∀ x ∈ xs, ∀ o ∈ x.numbers, o.type.Fits o.value) → (c.shape.map (·.value)).prod < 2 ^ 31 →
    PicksAll (c.shape.map (·.value)) (xs.map (·.erase)) ls → (∀ l ∈ ls, l ≠ []) →
    SlicerT.FitsAll (fun _ => True) c.shape (distances (vals c.shape)) xs → ActsOnPicked Int md static c xs ls) ∧
  (∀ (md : Mode) (static : Bool) (c : DataT) (xs : List SlicerT) (ls : List (List Int)), DefaultD c → (∀ d ∈ c.shape, d.type = .i64) →
    (∀ x ∈ xs, ∀ o ∈ x.numbers, LongNumber o) → PicksAll (c.shape.map (·.value)) (xs.map (·.erase)) ls → (∀ l ∈ ls, l ≠ []) →
    SlicerT.LongAll (vals c.shape) (distances (vals c.shape)) xs → ActsOnPicked Int md static c xs ls) ∧
  (∀ c : DataT, DefaultD c → (∀ d ∈ c.shape, 0 < d.value) → ReversesArray Int c)

/-! ## Slices -/

/-- **C149** (slices) The algorithms on a slice of a container of less than `2^31` elements read and write the entries of the array that
belong to the selected positions, if no number has the unsigned type of the width of `int`. -/
theorem C149_slice_partial [DecidableEq α] {c : DataT} (h : DefaultD c) {xs : List SlicerT} {ls : List (List Int)}
    (hs : ∀ d ∈ c.shape, NotUnsignedInt d.type) (hn : ∀ x ∈ xs, ∀ o ∈ x.numbers, NotUnsignedInt o.type ∧ o.type.Fits o.value)
    (hf : (c.shape.map (·.value)).prod < 2 ^ 31) (hp : PicksAll (c.shape.map (·.value)) (xs.map (·.erase)) ls) (hne : ∀ l ∈ ls, l ≠ [])
    (hx : SlicerT.FitsAll NotUnsignedInt c.shape (distances (vals c.shape)) xs) (static : Bool) {md : Mode}
    (hm : md = .checked → ∀ x ∈ c.shape.zip xs, ∀ i ∈ x.2.first, i.type.Fits x.1.value) : ActsOnPicked α md static c xs ls :=
  acts_of h (any_cells (cells_small (fun d hd => ⟨hs d hd, (h.2.2.1 d hd).2⟩) hn (by norm_num at hf; exact hf) hp hne hx)) hp hne
    (slicesIn_small (by norm_num at hf; exact hf) hp hne hx hm) static

/-- A table of bytes by 64-bit numbers. -/
def exTable : DataT := ⟨⟨0, 1⟩, [⟨.u8, 2⟩, ⟨.i64, 3⟩], [⟨.i64, 3⟩, fixedOne], false, false⟩

theorem exTableHolds : HoldsD exTable exTypedMem [5, 3, 7, 3, 9, 1] := by
  refine ⟨by unfold DefaultD exTable; decide +kernel, by decide, ?_⟩
  unfold ArrayAt
  decide

/-- Every second column, from the last one. -/
def exBack : List SlicerT := [.joker, .interval none (some ⟨.i16, -2⟩) none none]

theorem exBack_numbers : ∀ x ∈ exBack, ∀ o ∈ x.numbers, o = ⟨.i16, -2⟩ := by
  intro x hx o ho
  simp only [exBack, List.mem_cons, List.not_mem_nil, or_false] at hx
  rcases hx with rfl | rfl
  · simp [SlicerT.numbers] at ho
  · simpa [SlicerT.numbers] using ho

theorem exBack_picks : PicksAll [2, 3] (exBack.map (·.erase)) [[0, 1], [2, 0]] :=
  .cons (Picks.joker (d := 2) (by decide)) (.cons (Picks.down (d := 3) (s := -2) (b := 2) .none (by decide) (by decide) (by decide)) .nil)

theorem exBack_first {P : Coord × SlicerT → Coord → Prop} (s : List Coord) : ∀ x ∈ s.zip exBack, ∀ i ∈ x.2.first, P x i := by
  intro x hx i hi
  have := (List.of_mem_zip hx).2
  simp only [exBack, List.mem_cons, List.not_mem_nil, or_false] at this
  rcases this with e | e <;> rw [e] at hi <;> cases hi

theorem exBack_acts : ActsOnPicked Int .checked false exTable exBack [[0, 1], [2, 0]] := by
  refine C149_slice_partial exTableHolds.1 (by decide) (fun x hx o ho => ?_) (by decide) exBack_picks (by decide) ?_ false
    fun _ => exBack_first _
  · rw [exBack_numbers x hx o ho]
    decide
  · refine ⟨⟨by decide, by decide, by decide, trivial⟩, ⟨by decide, by decide, by decide, ?_⟩, trivial⟩
    simp

example : numbersOf [2, 3] [[0, 1], [2, 0]] = [2, 0, 5, 3] ∧ entriesOf [5, 3, 7, 3, 9, 1] [2, 0, 5, 3] = [7, 5, 1, 3] ∧
    putAt [2, 0, 5, 3] [10, 20, 30, 40] [5, 3, 7, 3, 9, 1] = [20, 3, 10, 40, 9, 30] := by
  decide
/-- The selected entries in order. -/
example : ∃ c', reduceD exTypedMem c' (fun a x => 10 * a + x) 0 = .ok 7513 ∧ c'.shape.map (·.value) = [2, 2] := by
  obtain ⟨xcs, c', -, -, h1, h2⟩ := exBack_acts
  exact ⟨c', (h2 _ _ exTableHolds).1 Int _ 0, h1⟩
/-- What `fill` leaves. -/
example : ∃ c' m', fillD exTypedMem c' 0 = .ok m' ∧ ArrayAt m' ⟨0, 1⟩ [0, 3, 0, 0, 9, 0] := by
  obtain ⟨xcs, c', -, -, -, h2⟩ := exBack_acts
  obtain ⟨m', h3, h4, -⟩ := (h2 _ _ exTableHolds).2.2.2.1 0
  exact ⟨c', m', h3, h4⟩

/-- What `iota` from 10 and an inclusive scan with `+` leave. -/
example : ∃ c' m1 m2, iotaD exTypedMem c' (· + 1) id (10 : Int) = .ok m1 ∧ ArrayAt m1 ⟨0, 1⟩ [11, 3, 10, 13, 9, 12] ∧
    transformInclusiveScanD exTypedMem c' c' 0 (· + ·) id = .ok m2 ∧ ArrayAt m2 ⟨0, 1⟩ [12, 3, 7, 16, 9, 13] := by
  obtain ⟨xcs, c', -, -, -, h2⟩ := exBack_acts
  obtain ⟨m1, h3, h4, -⟩ := (h2 _ _ exTableHolds).2.2.2.2.2.2.1 Int (· + 1) id 10
  obtain ⟨m2, h5, h6, -⟩ := (h2 _ _ exTableHolds).2.2.2.2.2.2.2.2.1 Int (· + ·) id 0
  exact ⟨c', m1, m2, h3, h4, h5, h6⟩

/-- **C149** (slices, positive steps) The same for all types if the steps are positive; numbers of the unsigned type of the width of
`int` may only not appear together with `end`. -/
theorem C149_positive_steps_partial [DecidableEq α] {c : DataT} (h : DefaultD c) {xs : List SlicerT} {ls : List (List Int)}
    (hn : ∀ x ∈ xs, ∀ o ∈ x.numbers, o.type.Fits o.value) (hpos : ∀ x ∈ xs, 0 < x.step.value)
    (hf : (c.shape.map (·.value)).prod < 2 ^ 31) (hp : PicksAll (c.shape.map (·.value)) (xs.map (·.erase)) ls) (hne : ∀ l ∈ ls, l ≠ [])
    (hx : SlicerT.FitsAll NotUnsignedInt c.shape (distances (vals c.shape)) xs) (static : Bool) {md : Mode}
    (hm : md = .checked → ∀ x ∈ c.shape.zip xs, ∀ i ∈ x.2.first, i.type.Fits x.1.value) : ActsOnPicked α md static c xs ls :=
  acts_of h (any_cells (cells_positive (fun d hd => (h.2.2.1 d hd).2) hn hpos (by norm_num at hf; exact hf) hp hne hx)) hp hne
    (slicesIn_small (by norm_num at hf; exact hf) hp hne hx hm) static

/-- The same table in `unsigned int`, every second column from the first, in the layout of a static table. -/
def exTableU : DataT := ⟨⟨0, 1⟩, [⟨.u32, 2⟩, ⟨.u32, 3⟩], [⟨.u32, 3⟩, fixedOne], false, true⟩

example : ActsOnPicked Int .checked true exTableU [.joker, .interval none (some ⟨.u32, 2⟩) none none] [[0, 1], [0, 2]] := by
  refine C149_positive_steps_partial (c := exTableU) (xs := [.joker, .interval none (some ⟨.u32, 2⟩) none none])
    (ls := [[0, 1], [0, 2]]) ?_ (fun x hx o ho => ?_) (fun x hx => ?_) (by decide)
    (.cons (Picks.joker (d := 2) (by decide)) (.cons (Picks.up (d := 3) (b := 0) (e := 3) (s := 2) .none .none rfl (by decide) (by decide)
      (by decide) (by decide)) .nil)) (by decide) ?_ true (md := .checked) (fun _ x hx i hi => by
        have := (List.of_mem_zip hx).2
        simp only [List.mem_cons, List.not_mem_nil, or_false] at this
        rcases this with e | e <;> rw [e] at hi <;> cases hi)
  · unfold DefaultD exTableU
    decide +kernel
  · simp only [List.mem_cons, List.not_mem_nil, or_false] at hx
    rcases hx with rfl | rfl
    · simp [SlicerT.numbers] at ho
    · obtain rfl : o = ⟨.u32, 2⟩ := by simpa [SlicerT.numbers] using ho
      decide
  · simp only [List.mem_cons, List.not_mem_nil, or_false] at hx
    rcases hx with rfl | rfl
    · exact (by decide : (0 : Int) < 1)
    · exact (by decide : (0 : Int) < 2)
  · refine ⟨⟨by decide, by decide, by decide, trivial⟩, ⟨by decide, by decide, by decide, ?_⟩, trivial⟩
    simp

/-- **C149** (long views) The same for 64-bit extents, if the step times the last coordinate of the last axis is a number of the type
in which the library multiplies them. -/
theorem C149_slice_long_partial [DecidableEq α] {c : DataT} (h : DefaultD c) {xs : List SlicerT} {ls : List (List Int)}
    (hs : ∀ d ∈ c.shape, d.type = .i64) (hn : ∀ x ∈ xs, ∀ o ∈ x.numbers, LongNumber o)
    (hp : PicksAll (c.shape.map (·.value)) (xs.map (·.erase)) ls) (hne : ∀ l ∈ ls, l ≠ [])
    (hx : SlicerT.LongAll (vals c.shape) (distances (vals c.shape)) xs) (hl : LastLength xs ls) (static : Bool)
    {md : Mode} (hm : md = .checked → (∀ d ∈ c.shape, d.value < 2 ^ 31) ∧ ∀ x ∈ c.shape.zip xs, ∀ i ∈ x.2.first, i.type.Fits x.1.value) :
    ActsOnPicked α md static c xs ls := by
  exact acts_of h (cells_long hs hn (default_bound h) hp hne hx hl) hp hne (slicesIn_long hs (default_bound h) hp hne hx fun e =>
    ⟨fun d hd => by simpa using (hm e).1 d hd, (hm e).2⟩) static

/-- The same table in 64-bit numbers. -/
def exTableL : DataT := ⟨⟨0, 1⟩, [⟨.i64, 2⟩, ⟨.i64, 3⟩], [⟨.i64, 3⟩, fixedOne], false, false⟩

example : ActsOnPicked Int .checked false exTableL exBack [[0, 1], [2, 0]] := by
  refine C149_slice_long_partial (c := exTableL) (xs := exBack) (ls := [[0, 1], [2, 0]]) ?_ (by decide) (fun x hx o ho => ?_) exBack_picks (by decide) ?_ ?_ false
    fun _ => ⟨by decide, exBack_first _⟩
  · unfold DefaultD exTableL
    decide +kernel
  · rw [exBack_numbers x hx o ho]
    decide
  · refine ⟨⟨by decide, by decide, by decide, by decide⟩, ⟨by decide, by decide, by decide, by simp, by simp, by simp, by simp⟩, trivial⟩
  · simp [exBack, LastLength]

/-- **C149** (from slices) A copy of a slice to a container with extents of all types, or of none of type `unsigned int`, leaves the
entries that belong to the selected positions, in order. -/
theorem C149_copy_of_slice_partial [DecidableEq α] {c : DataT} (h : DefaultD c) {xs : List SlicerT} {ls : List (List Int)}
    (hn : ∀ x ∈ xs, ∀ o ∈ x.numbers, o.type.Fits o.value) (hf : (c.shape.map (·.value)).prod < 2 ^ 31)
    (hp : PicksAll (c.shape.map (·.value)) (xs.map (·.erase)) ls) (hne : ∀ l ∈ ls, l ≠ [])
    (hx : SlicerT.FitsAll NotUnsignedInt c.shape (distances (vals c.shape)) xs) (static : Bool) {md : Mode}
    (hm : md = .checked → ∀ x ∈ c.shape.zip xs, ∀ i ∈ x.2.first, i.type.Fits x.1.value) :
    ((∀ x ∈ xs, 0 < x.step.value) → CopiesPicked α (fun _ => True) md static c xs ls) ∧
    ((∀ d ∈ c.shape, NotUnsignedInt d.type) → (∀ x ∈ xs, ∀ o ∈ x.numbers, NotUnsignedInt o.type) →
      CopiesPicked α NotUnsignedInt md static c xs ls) := by
  norm_num at hf
  have hm := slicesIn_small hf hp hne hx hm
  exact ⟨fun hpos => copies_of h (cells_positive (fun d hd => (h.2.2.1 d hd).2) hn hpos hf hp hne hx) hp hne hm static,
    fun hs hn' => copies_of h (cells_small (fun d hd => ⟨hs d hd, (h.2.2.1 d hd).2⟩) (fun x hx o ho => ⟨hn' x hx o ho, hn x hx o ho⟩)
      hf hp hne hx) hp hne hm static⟩

/-- To a column of the other block. -/
example : ∃ c' m', copyD exBlocks ⟨⟨1, 0⟩, [⟨.i16, 2⟩, ⟨.u64, 2⟩], [⟨.u64, 2⟩, fixedOne], false, false⟩ c' 0 = .ok m' ∧
    ArrayAt m' ⟨1, 0⟩ [7, 5, 1, 3] := by
  have h := (C149_copy_of_slice_partial (α := Int) (xs := exBack) (ls := [[0, 1], [2, 0]]) exTableHolds.1 (fun x hx o ho => by
      rw [exBack_numbers x hx o ho]
      decide) (by decide) exBack_picks (by decide) (by
      refine ⟨⟨by decide, by decide, by decide, trivial⟩, ⟨by decide, by decide, by decide, ?_⟩, trivial⟩
      simp) false (md := .checked) fun _ => exBack_first _).2 (by decide) (fun x hx o ho => by
      rw [exBack_numbers x hx o ho]
      decide)
  obtain ⟨xcs, c', -, -, h2⟩ := h
  obtain ⟨m', h3, h4, -⟩ := h2 exBlocks [5, 3, 7, 3, 9, 1] ⟨⟨1, 0⟩, [⟨.i16, 2⟩, ⟨.u64, 2⟩], [⟨.u64, 2⟩, fixedOne], false, false⟩
    [60, 50, 40, 30] 0
    ⟨exTableHolds.1, by decide, by unfold ArrayAt; decide⟩
    ⟨by unfold DefaultD; decide +kernel, by decide, by unfold ArrayAt; decide⟩ (by decide) rfl (.inl (by decide))
  exact ⟨c', m', h3, h4⟩

/-! ## Reversed views -/

/-- **C149** (reversed views) `reverse` shows the array in reverse, and `find_last_if` answers with the position of the last match, if
there are less than `2^31` elements and no extent has the unsigned type of the width of `int`. -/
theorem C149_reverse_partial [DecidableEq α] {c : DataT} (h : DefaultD c) (hs : ∀ d ∈ c.shape, NotUnsignedInt d.type ∧ 0 < d.value)
    (hf : (c.shape.map (·.value)).prod < 2 ^ 31) : ReversesArray α c := by
  have hf : (vals c.shape).prod < 2147483648 := by norm_num at hf; exact hf
  obtain ⟨r, h1, h2, h3⟩ := reverse_stands h hs hf
  refine ⟨r, h1, h2, fun m vs hv => ?_⟩
  have hd := plain_default h
  have hpos : ∃ p, InBox (vals c.shape) p := ⟨_, zero_inBox fun d hd => (hs d hd).2⟩
  have : Nonempty α := holds_nonempty hv hpos.choose_spec
  have hl := holds_lists hv
  have hr : Lists (reverse (plainOf c)) m vs.reverse := (C117_reverse hd m _).2 (by rwa [List.reverse_reverse])
  have haddr := fun p hp => ((C46_reverse_partial (α := Unit) hd.1 (C46_default_corner hd hpos)).2 p hp).1
  have hdist : Distinct (reverse (plainOf c)) := by
    intro p q hp hq e
    have hp : InBox (plainOf c).shape p := hp
    have hq : InBox (plainOf c).shape q := hq
    rw [haddr p hp, haddr q hq] at e
    have := default_distinct hd _ _ (mirror_inBox hp) (mirror_inBox hq) e
    rw [← mirror_mirror hp.length_eq, this, mirror_mirror hq.length_eq]
  have hn : (vs.length : Int) = (vals c.shape).prod := hv.2.1
  refine ⟨fun β op init => ?_, fun β incr conv v => ?_, fun f => ?_⟩
  · rw [reduceD_eq h3]
    exact (C117_reading hr (fun _ => true) (Classical.arbitrary α) op init).1
  · obtain ⟨-, -, -, -, m', d1, d2, d3⟩ := C117_writing hdist hr (Classical.arbitrary α) (Classical.arbitrary α) id (fun _ => true)
      (fun _ => Classical.arbitrary α) incr conv v
    rw [List.length_reverse] at d2
    refine ⟨m', ?_, toLists h hn (by simp) ((C117_reverse hd m' _).1 ?_) fun a ha => d3 a fun p hp => ?_⟩
    · rw [← d1]; unfold iotaD iota; rw [mapCtxD_eq h3 .nil]
    · exact d2
    · rw [haddr p hp]
      exact ha _ (mirror_inBox hp)
  · refine Eq.trans ?_ (C117_find_last hd hl f)
    have e := (C117_find hr f (Classical.arbitrary α)).1
    have e' := findIfD_eq h3 m (fun x => pure (f x))
    rw [show findIfM (m := Res) (fun is => (reverse (plainOf c)).get m is) (fun x => pure (f x)) (reverse (plainOf c)).shape = _ from e,
      h2] at e'
    unfold findLastIfD findLastIf
    rw [h1, e]
    simp only [bind, Except.bind]
    rw [e']
    cases hk : (vs.reverse.findIdx? f).bind (place (reverse (plainOf c)).shape) with
    | none => rfl
    | some p =>
      obtain ⟨k, -, hpk⟩ := Option.bind_eq_some_iff.1 hk
      have hb : InBox (vals c.shape) p := mem_positions.1 (List.mem_of_getElem? hpk)
      have hvp : vals (typedAs c.shape p) = p := typedAs_vals (by simpa using hb.length_eq.symm)
      obtain ⟨-, g⟩ := C101_find_last_position (s := c.shape) (p := typedAs c.shape p) (fun d hd => (h.2.2.1 d hd).2)
        (by rw [hvp]; exact hb) fun d hd => by
          have := le_padded hd
          rw [padded_eq_prod hb.pos] at this
          omega
      show (do let pos ← mirrorPosition c.shape (storePosition (typedAs c.shape p)); pure (some pos)) = _
      rw [g, hvp]
      rfl

example : findLastIfD exTypedMem exTable (fun x => pure (decide (x = 3))) = .ok (some [1, 0]) := by
  obtain ⟨r, -, -, h⟩ := C149_reverse_partial (α := Int) exTableHolds.1 (by decide) (by decide)
  exact (h _ _ exTableHolds).2.2 _

/-! ## What is false -/

/-- Three `unsigned int` extents. -/
def exUnsigned : DataT := ⟨⟨0, 0⟩, [⟨.u32, 3⟩], [fixedOne], false, false⟩

theorem exUnsignedHolds : HoldsD exUnsigned (oneBlock 0 [(1 : Int), 2, 3]) [1, 2, 3] := by
  refine ⟨by unfold DefaultD exUnsigned; decide +kernel, by decide, ?_⟩
  unfold ArrayAt
  decide

/-- With extents of type `unsigned int`, `find_last` and algorithms on a slice in steps of -1 leave the block. -/
theorem C149_unsigned_int_false : ¬ ReversesArray Int exUnsigned ∧
    ¬ ActsOnPicked Int .unchecked false exUnsigned [.interval none (some ⟨.i32, -1⟩) none none] [[2, 1, 0]] ∧
    findLastIfD (oneBlock 0 [(1 : Int), 2, 3]) exUnsigned (fun x => pure (decide (x = 1))) = .error .outOfBounds := by
  refine ⟨?_, ?_, by decide +kernel⟩
  · rintro ⟨r, -, -, h⟩
    have := (h _ _ exUnsignedHolds).2.2 (fun x => decide (x = 1))
    revert this
    decide +kernel
  · rintro ⟨xcs, c', h1, h2, -, h⟩
    cases h1
    rw [List.reverse_singleton, show sliceD .unchecked false exUnsigned [.interval none (some ⟨.i32, -1⟩) none none] =
      .ok ⟨⟨0, 2⟩, [⟨.u32, 3⟩], [⟨.i32, -1⟩], true, false⟩ by decide +kernel] at h2
    cases h2
    have := (h _ _ exUnsignedHolds).1 Int (fun a _ => a) 0
    revert this
    decide +kernel

theorem C149_false : ¬ C149_statement := fun h => C149_unsigned_int_false.1 (h.2.2 exUnsigned exUnsignedHolds.1 (by decide))

/-- A reversed view of three billion elements starts before the first one: their number is cut to 32 bits. -/
theorem C149_reverse_long :
    (reverseD ⟨⟨0, 0⟩, [⟨.i64, 3000000000⟩], [fixedOne], false, false⟩).map (·.base) = .ok ⟨0, -1294967297⟩ := by decide +kernel

end Kwk
