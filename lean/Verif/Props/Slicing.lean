import Verif.Lemmas.Slice
import Verif.Lemmas.Contiguous
import Verif.Props.Reading
import Verif.Lemmas.RunOf

/-!
# Properties C42-C45, C47 and C59: slicing

`Picks`, `PicksAll`, `pickAt` and `pickShape` (`Spec/Slice.lean`) say which positions a list of
slicers selects, without referring to origins, extents and strides.
-/

namespace Kwk
open Spec

variable {α : Type}

/-- Addresses of a slice, when the strides used for the origin are those of the container. -/
theorem slice_addr (md : Mode) {c : Container} (hw : c.WF) {sl : List Slicer} {ls : List (List Int)}
    (hp : PicksAll (compress sl.length c.shape) sl ls) (hmd : md = .checked → ∀ l ∈ ls, l ≠ [])
    (hn : 0 < sl.length) (hlen : sl.length ≤ c.shape.length)
    (horig : ∀ os, ((compress sl.length c.shape).zip sl).mapM (fun x : Int × Slicer => reindex x.1 x.2) = .ok os →
      linearize (sfx (compress sl.length c.shape)) os = linearize (strideCompress sl.length c.strides) os) :
    ∃ c', c.slice md sl = .ok c' ∧ c'.WF ∧ c'.shape = pickShape ls ∧
      c'.reach = (c.reach && preservesReachability sl) ∧
      c'.strides = (strideCompress sl.length c.strides).zipWith restride sl ∧
      ∀ i, InBox (pickShape ls) i →
        c'.addr i = c.base.add (linearize (strideCompress sl.length c.strides) (pickAt ls i)) := by
  obtain ⟨c', os, h1, h2, h3, h4, h5, h6, h7⟩ := slice_run md hw hp hmd hn hlen
  obtain ⟨os', e1, _, _, e3, _, _⟩ := picksAll_axes hp
  rw [h7] at e1; cases e1
  refine ⟨c', h1, h2, h3, h5, h4, ?_⟩
  intro i hi
  rw [addr_eq h2 (h3 ▸ hi), h6, h4, horig os h7, Ptr.add, Ptr.add, Ptr.add,
    ← (e3 i hi).2 _ (by
      rw [strideCompress, List.length_drop, hw.len, compress_length hn hlen]; omega)]
  congr 1
  simp only
  ring

theorem default_origin {c : Container} (h : c.Default) {n : Nat} (hn : 0 < n) (hlen : n ≤ c.shape.length) :
    strideCompress n c.strides = sfx (compress n c.shape) := by
  rw [h.dflt h.nospec, asStride_eq_sfx, sfx_compress hn hlen]

/-- **C42** (one slicer per axis) The slice has one position per selected position, and shows, in the
same cell, the selected element of the container.  In checked builds the selection must not be
empty (`C42_empty_slice_asserts`). -/
theorem C42_slice_elements (md : Mode) {c : Container} (h : c.Default) {sl : List Slicer}
    {ls : List (List Int)} (hp : PicksAll c.shape sl ls) (hmd : md = .checked → ∀ l ∈ ls, l ≠ []) :
    ∃ c', c.slice md sl = .ok c' ∧ c'.shape = pickShape ls ∧
      ∀ i, InBox c'.shape i → InBox c.shape (pickAt ls i) ∧ c'.addr i = c.addr (pickAt ls i) ∧
        ∀ m : Mem α, c'.get m i = c.get m (pickAt ls i) := by
  obtain ⟨hl1, hl2⟩ := hp.length_eq
  have hpos : 0 < c.shape.length := List.length_pos_iff.2 h.ne
  have hc : compress sl.length c.shape = c.shape := by rw [hl1, compress_self]
  have hp' : PicksAll (compress sl.length c.shape) sl ls := by rw [hc]; exact hp
  obtain ⟨c', h1, h2, h3, _, _, h5⟩ := slice_addr md h.toWF hp' hmd (by omega) (by omega)
    (fun os _ => by rw [default_origin h (by omega) (by omega)])
  obtain ⟨_, _, _, _, e3, _, _⟩ := picksAll_axes hp
  refine ⟨c', h1, h3, ?_⟩
  intro i hi
  rw [h3] at hi
  have hb := (e3 i hi).1
  have ea : c'.addr i = c.addr (pickAt ls i) := by
    rw [h5 i hi, default_origin h (by omega) (by omega), hc, addr_default h hb]
  exact ⟨hb, ea, fun m => by unfold Container.get; rw [ea]⟩

example := C42_slice_elements (α := Int) .checked (ofShape_default (b := ⟨0, 0⟩) (s := [4, 3]) (by decide))
  (sl := [.index 1, .joker]) (ls := [[1], [0, 1, 2]])
  (.cons (.index (by decide) (by decide)) (.cons (show Picks 3 _ (upTo 3) from .joker (by decide)) .nil)) fun _ => by decide

/-- **C42** (fewer slicers than axes) With `n` slicers, the container is sliced as if its leading
axes were merged into one: the slice shows the selected elements of the `n`-dimensional container
with default layout on the same memory. -/
theorem C42_slice_merged (md : Mode) {c : Container} (h : c.Default) {sl : List Slicer}
    {ls : List (List Int)} (hn : 0 < sl.length) (hlen : sl.length ≤ c.shape.length)
    (hp : PicksAll (compress sl.length c.shape) sl ls) (hmd : md = .checked → ∀ l ∈ ls, l ≠ []) :
    ∃ c', c.slice md sl = .ok c' ∧ c'.shape = pickShape ls ∧
      ∀ i, InBox c'.shape i → InBox (compress sl.length c.shape) (pickAt ls i) ∧
        c'.addr i = (Container.ofShape c.base (compress sl.length c.shape)).addr (pickAt ls i) := by
  obtain ⟨c', h1, h2, h3, _, _, h5⟩ := slice_addr md h.toWF hp hmd hn hlen
    (fun os _ => by rw [default_origin h hn hlen])
  obtain ⟨_, _, _, _, e3, _, _⟩ := picksAll_axes hp
  refine ⟨c', h1, h3, ?_⟩
  intro i hi
  rw [h3] at hi
  have hb := (e3 i hi).1
  refine ⟨hb, ?_⟩
  have hne : compress sl.length c.shape ≠ [] := by
    intro e
    have := compress_length hn hlen
    rw [e] at this; simp at this; omega
  rw [h5 i hi, default_origin h hn hlen, addr_default (ofShape_default hne) hb]
  rfl

/-- A 4x5 matrix sliced by `(slice(from=1, to=4, by=2), slice(by=-2))`. -/
example : PicksAll [4, 5] [slice (from_ := some (.int 1)) («to» := some (.int 4)) (by_ := some 2),
      slice (by_ := some (-2))] [[1, 3], [4, 2, 0]] := by
  refine .cons (l := selectUp 4 1 4 2) (.up (.some (.int 1)) (.some (.int 4)) rfl (by decide) (by decide)
    (by decide) (by decide)) (.cons (l := selectDown 5 4 (-2)) ?_ .nil)
  exact .down (b := 4) .none (by decide) (by decide) (by decide)

example : (do
    let c ← (Container.ofShape ⟨0, 0⟩ [4, 5]).slice .checked
      [slice (from_ := some (.int 1)) («to» := some (.int 4)) (by_ := some 2), slice (by_ := some (-2))]
    reduce (oneBlock 0 ((List.range 20).map fun (k : Nat) => (k : Int))) c (fun a e => a ++ [e]) [])
      = .ok [9, 7, 5, 19, 17, 15] := by decide +kernel

/-- Empty slices that start at the end of an axis are rejected by an assertion in checked builds,
although no element is accessed; so is slicing an empty container. -/
theorem C42_empty_slice_asserts :
    (Container.ofShape ⟨0, 0⟩ [3]).slice .checked [dropFirst 3] = .error .assertion ∧
    (Container.ofShape ⟨0, 0⟩ [0]).slice .checked [.joker] = .error .assertion ∧
    ((Container.ofShape ⟨0, 0⟩ [3]).slice .unchecked [dropFirst 3]).map (·.shape) = .ok [0] := by
  decide

/-- **C43** A slice of a default-layout container only addresses elements of the container, and
different positions of the slice are different elements. -/
theorem C43_slice_inside (md : Mode) {c : Container} (h : c.Default) {sl : List Slicer}
    {ls : List (List Int)} (hn : 0 < sl.length) (hlen : sl.length ≤ c.shape.length) (hs : NonNeg c.shape)
    (hp : PicksAll (compress sl.length c.shape) sl ls) (hmd : md = .checked → ∀ l ∈ ls, l ≠ []) :
    ∃ c', c.slice md sl = .ok c' ∧
      (∀ i, InBox c'.shape i → ∃ q, InBox c.shape q ∧ c'.addr i = c.addr q) ∧ Distinct c' ∧
      ∀ m : Mem α, Valid c m → Valid c' m := by
  obtain ⟨c', h1, h2, h3⟩ := C42_slice_merged md h hn hlen hp hmd
  obtain ⟨_, _, _, _, _, _, e5⟩ := picksAll_axes hp
  have hne : compress sl.length c.shape ≠ [] := by
    intro e
    have := compress_length hn hlen
    rw [e] at this; simp at this; omega
  have hq : ∀ i, InBox c'.shape i → ∃ q, InBox c.shape q ∧ c'.addr i = c.addr q := by
    intro i hi
    obtain ⟨hb, ea⟩ := h3 i hi
    rw [addr_default (ofShape_default hne) hb] at ea
    have hbd := lin_bounds hb
    rw [compress_prod hn hlen] at hbd
    obtain ⟨q, hq, e⟩ := lin_surj hs hbd.1 hbd.2
    refine ⟨q, hq, ?_⟩
    rw [ea, addr_default h hq, e]
    rfl
  refine ⟨c', h1, hq, ?_, ?_⟩
  · intro i j hi hj e
    obtain ⟨hbi, ei⟩ := h3 i hi
    obtain ⟨hbj, ej⟩ := h3 j hj
    rw [ei, ej] at e
    rw [h2] at hi hj
    exact e5 i j hi hj (default_distinct (ofShape_default hne) _ _ hbi hbj e)
  · intro m hv i hi
    obtain ⟨q, hq, e⟩ := hq i hi
    obtain ⟨v, hv⟩ := hv q hq
    exact ⟨v, by unfold Container.get at hv ⊢; rw [e]; exact hv⟩

example : (Container.ofShape ⟨0, 0⟩ [2, 3, 4]).slice .checked [.index 1, .ext (EndT.all.sub 1)] =
    .ok { base := ⟨0, 7⟩, shape := [1, 1], strides := [4, 1], specific := true, reach := true } := by
  decide

/-! ## Slicing a slice

Full property C44: if `c1 = c(sl1...)` and `c2 = c1(sl2...)` then `c2` at `i` is `c` at
`pickAt ls1 (pickAt ls2 i)`.  It is false (`C44_nested_slice_wrong`): the origin of the second slice is
computed with the default strides of the shape of `c1`, not with the strides of `c1`. -/

/-- **C44** (partial) The composition holds if the first slice is contiguous (its strides are the
default strides of its shape) or if the second slice starts at position zero on every axis.
Missing: all other cases, for which it is false in general. -/
theorem C44_nested_slice_partial (md : Mode) {c c1 : Container} (h : c.Default) {sl1 sl2 : List Slicer}
    {ls1 ls2 : List (List Int)} (hp1 : PicksAll c.shape sl1 ls1) (hp2 : PicksAll c1.shape sl2 ls2)
    (hmd1 : ∀ l ∈ ls1, l ≠ []) (hmd2 : ∀ l ∈ ls2, l ≠ [])
    (h1 : c.slice md sl1 = .ok c1)
    (hcase : c1.stride = distances c1.shape ∨ ∀ l ∈ ls2, l.head? = some 0) :
    ∃ c2, c1.slice md sl2 = .ok c2 ∧ c2.shape = pickShape ls2 ∧
      ∀ i, InBox c2.shape i → InBox c.shape (pickAt ls1 (pickAt ls2 i)) ∧
        c2.addr i = c.addr (pickAt ls1 (pickAt ls2 i)) := by
  obtain ⟨c1', e, hsh, helt⟩ := C42_slice_elements (α := Int) md h hp1 (fun _ => hmd1)
  rw [h1] at e; cases e
  obtain ⟨hla, hlb⟩ := hp1.length_eq
  obtain ⟨hl1, hl2⟩ := hp2.length_eq
  have hpos : 0 < c.shape.length := List.length_pos_iff.2 h.ne
  have hc0 : compress sl1.length c.shape = c.shape := by rw [hla, compress_self]
  have hw : c1.WF := by
    obtain ⟨c1', _, e, hw, _⟩ := slice_run md h.toWF (by rw [hc0]; exact hp1) (fun _ => hmd1)
      (by omega) (by omega)
    rw [h1] at e; cases e; exact hw
  have hpos1 : 0 < c1.shape.length := List.length_pos_iff.2 hw.ne
  have hc : compress sl2.length c1.shape = c1.shape := by rw [hl1, compress_self]
  have hp' : PicksAll (compress sl2.length c1.shape) sl2 ls2 := by rw [hc]; exact hp2
  have hst : strideCompress sl2.length c1.strides = c1.strides := by
    simp [strideCompress, hl1, hw.len]
  have horig : ∀ os, ((compress sl2.length c1.shape).zip sl2).mapM
      (fun x : Int × Slicer => reindex x.1 x.2) = .ok os →
      linearize (sfx (compress sl2.length c1.shape)) os = linearize (strideCompress sl2.length c1.strides) os := by
    intro os hos
    rw [hst, hc]
    rw [hc] at hos
    rcases hcase with hcase | hcase
    · rw [stride_eq hw, distances_eq] at hcase
      rw [hcase]
    · have : os = List.replicate c1.shape.length 0 := by
        clear * - hp2 hcase hos
        generalize c1.shape = cs at hp2 hos ⊢
        induction hp2 generalizing os with
        | nil => cases hos; rfl
        | @cons d ds s sl l ls hp _ ih =>
          obtain ⟨o, r1, _, r3, _, _⟩ := picks_axis hp
          rw [List.zip_cons_cons, List.mapM_cons] at hos
          simp only [r1, bind, Except.bind] at hos
          cases hr : List.mapM (fun x : Int × Slicer => reindex x.1 x.2) (ds.zip sl) with
          | error x => rw [hr] at hos; cases hos
          | ok os' =>
            rw [hr] at hos
            cases hos
            have hhead := hcase l (by simp)
            rw [r3] at hhead
            have ho : o = 0 := by
              cases l with
              | nil => simp [upTo] at hhead
              | cons a l =>
                have : upTo ((List.length (a :: l) : Nat) : Int) = 0 :: (List.range l.length).map (fun k => ((k + 1 : Nat) : Int)) := by
                  simp only [upTo, List.length_cons, Int.toNat_natCast, List.range_succ_eq_map, List.map_cons,
                    List.map_map]
                  rfl
                rw [this, List.map_cons, List.head?_cons] at hhead
                simpa using hhead
            rw [ih os' (fun l' hl' => hcase l' (by simp [hl'])) hr, ho, List.length_cons, List.replicate_succ]
      rw [this, linearize_zeros, linearize_zeros]
  obtain ⟨c2, g1, g2, g3, _, _, g5⟩ := slice_addr md hw hp' (fun _ => hmd2) (by omega) (by omega) horig
  obtain ⟨_, _, _, _, e3, _, _⟩ := picksAll_axes hp2
  refine ⟨c2, g1, g3, ?_⟩
  intro i hi
  rw [g3] at hi
  have hb := (e3 i hi).1
  obtain ⟨a1, a2, _⟩ := helt _ hb
  refine ⟨a1, ?_⟩
  rw [← a2, g5 i hi, hst, addr_eq hw hb]

example := C44_nested_slice_partial .checked (ofShape_default (b := ⟨0, 0⟩) (s := [4, 3]) (by decide))
  (sl1 := [.joker, .joker]) (sl2 := [.index 1, .joker]) (ls1 := [[0, 1, 2, 3], [0, 1, 2]]) (ls2 := [[1], [0, 1, 2]])
  (.cons (show Picks 4 _ (upTo 4) from .joker (by decide)) (.cons (show Picks 3 _ (upTo 3) from .joker (by decide)) .nil))
  (c1 := { base := ⟨0, 0⟩, shape := [4, 3], strides := [3, 1], specific := true, reach := true })
  (.cons (.index (by decide) (by decide)) (.cons (show Picks 3 _ (upTo 3) from .joker (by decide)) .nil)) (by decide) (by decide)
  (by decide) (.inl (by decide))

/-- The 4x4 matrix of `0 … 15`. -/
def exGrid : Container := .ofShape ⟨0, 0⟩ [4, 4]
/-- Its memory. -/
def exGridMem : Mem Int := oneBlock 0 ((List.range 16).map fun (k : Nat) => (k : Int))

/-- **C44** (exactly when) Slicing any well-formed container `c` (for instance a slice), one slicer per axis, with a
non-empty selection: the result shows the selected elements of `c` if and only if the first selected position `q` is
stored where a contiguous container would store it, `k` cells after `get_data()`, `k` being its row-major rank. -/
theorem C44_slice_exact_partial (md : Mode) {c : Container} (hw : c.WF) {sl : List Slicer} {ls : List (List Int)}
    (hp : PicksAll c.shape sl ls) (hne : ∀ l ∈ ls, l ≠ []) (k : Nat) (q : List Int)
    (hq : q = pickAt ls (ls.map fun _ => 0)) (hk : (positions c.shape)[k]? = some q) :
    ∃ c', c.slice md sl = .ok c' ∧ c'.shape = pickShape ls ∧
      ((∀ i, InBox c'.shape i → c'.addr i = c.addr (pickAt ls i)) ↔ c.addr q = c.base.add k) := by
  obtain ⟨hl1, hl2⟩ := hp.length_eq
  have hpos : 0 < c.shape.length := List.length_pos_iff.2 hw.ne
  have hc : compress sl.length c.shape = c.shape := by rw [hl1, compress_self]
  have hst : strideCompress sl.length c.strides = c.strides := by simp [strideCompress, hl1, hw.len]
  obtain ⟨c', os, h1, h2, h3, h4, h5, h6, h7⟩ := slice_run md hw (by rw [hc]; exact hp) (fun _ => hne)
    (by omega) (by omega)
  obtain ⟨os', e1, _, _, e3, _, _⟩ := picksAll_axes hp
  rw [hc] at h7
  rw [h7] at e1; cases e1
  have hz : InBox (pickShape ls) (ls.map fun _ => 0) := by
    have := zeros_inBox (s := pickShape ls) (by
      intro d hd
      obtain ⟨l, hl, rfl⟩ := List.mem_map.1 hd
      have := List.length_pos_iff.2 (hne l hl)
      omega)
    simpa [pickShape, Function.comp_def] using this
  have hqb : InBox c.shape q := by rw [hq]; exact (e3 _ hz).1
  have hlin : ∀ g : List Int, g.length = c.shape.length → linearize g os = linearize g q := by
    intro g hg
    have := (e3 _ hz).2 g hg
    rw [linearize_map_zero, add_zero] at this
    rw [this, hq]
  have hrank : linearize (sfx c.shape) q = k := (positions_rank hk).symm
  refine ⟨c', h1, h3, ?_⟩
  have haddr : ∀ i, InBox c'.shape i →
      (c'.addr i = c.addr (pickAt ls i) ↔ linearize c.strides q = k) := by
    intro i hi
    have hi' : InBox (pickShape ls) i := h3 ▸ hi
    have e := (e3 i hi').2 c.strides hw.len
    rw [addr_eq h2 hi, addr_eq hw (e3 i hi').1, h6, h4, hst, hc, ← e, hlin _ hw.len, hlin _ (sfx_length _), hrank]
    simp only [Ptr.add, Ptr.mk.injEq, true_and]
    omega
  have hqa : c.addr q = c.base.add k ↔ linearize c.strides q = k := by
    rw [addr_eq hw hqb]
    simp only [Ptr.add, Ptr.mk.injEq, true_and]
    omega
  rw [hqa]
  constructor
  · intro hh
    exact (haddr _ (h3 ▸ hz)).1 (hh _ (h3 ▸ hz))
  · intro hh i hi
    exact (haddr i hi).2 hh

example := C44_slice_exact_partial .checked (c := .ofStrides ⟨0, 0⟩ [2, 2] [3, 1]) ⟨by decide, rfl, nofun⟩
  (sl := [.index 1, .joker]) (ls := [[1], [0, 1]])
  (.cons (.index (by decide) (by decide)) (.cons (show Picks 2 _ (upTo 2) from .joker (by decide)) .nil)) (by decide) 2 [1, 0] rfl rfl

/-- **C44** (negation) Rows `1` and `2` of the first two columns of the 4x4 matrix of `0 … 15` are
`4 5 / 8 9`; slicing the columns first and then the rows shows `2 3 / 6 7`. -/
theorem C44_nested_slice_wrong :
    (do let c1 ← exGrid.slice .checked [.joker, between 0 (.int 2)]
        let c2 ← c1.slice .checked [between 1 (.int 3), .joker]
        reduce exGridMem c2 (fun a e => a ++ [e]) []) = .ok [2, 3, 6, 7] ∧
    (do let c1 ← exGrid.slice .checked [between 1 (.int 3), between 0 (.int 2)]
        reduce exGridMem c1 (fun a e => a ++ [e]) []) = .ok [4, 5, 8, 9] := by
  decide

/-- **C44** The full property. -/
def C44_statement : Prop :=
  ∀ (md : Mode) (c c1 : Container), c.Default → ∀ (sl1 sl2 : List Slicer) (ls1 ls2 : List (List Int)),
    PicksAll c.shape sl1 ls1 → PicksAll c1.shape sl2 ls2 → (∀ l ∈ ls1, l ≠ []) → (∀ l ∈ ls2, l ≠ []) →
    c.slice md sl1 = .ok c1 →
    ∃ c2, c1.slice md sl2 = .ok c2 ∧ c2.shape = pickShape ls2 ∧
      ∀ i, InBox c2.shape i → InBox c.shape (pickAt ls1 (pickAt ls2 i)) ∧
        c2.addr i = c.addr (pickAt ls1 (pickAt ls2 i))

theorem C44_statement_false : ¬ C44_statement := by
  intro h
  have hp : PicksAll [4, 4] [.joker, between 0 (.int 2)] [upTo 4, selectUp 4 0 2 1] :=
    .cons (.joker (by decide)) (.cons (.up (b := 0) (e := 2) (s := 1) (.some (.int _)) (.some (.int _)) rfl (by decide) (by decide) (by decide) (by decide)) .nil)
  have hp' : PicksAll [4, 2] [between 1 (.int 3), .joker] [selectUp 4 1 3 1, upTo 2] :=
    .cons (.up (b := 1) (e := 3) (s := 1) (.some (.int _)) (.some (.int _)) rfl (by decide) (by decide) (by decide) (by decide)) (.cons (.joker (by decide)) .nil)
  obtain ⟨c2, e2, -, h2⟩ := h .checked exGrid _ (ofShape_default (by decide)) _ _ _ _ hp hp' (by decide) (by decide) rfl
  obtain rfl := Except.ok.inj e2
  exact absurd (h2 [0, 0] (by decide)).2 (by decide)

/-- A composition covered by `C44_nested_slice_partial`: rows first, then columns. -/
example : (do let c1 ← exGrid.slice .checked [between 1 (.int 3), .joker]
              let c2 ← c1.slice .checked [.joker, slice (from_ := some (.int 1)) (by_ := some 2)]
              reduce exGridMem c2 (fun a e => a ++ [e]) []) = .ok [5, 7, 9, 11] := by decide

/-! ## Extents -/

/-- **C45** The extent of `slice(from=b, to=e, by=s)` with `0 ≤ b ≤ e ≤ d`, `s > 0` is the number of
`k ≥ 0` with `b + k*s < e`; with a negative step and no `to` it is the number of `k ≥ 0` with
`b + k*s ≥ 0`; with a length it is the length.  Bounds may be integers or `end` expressions. -/
theorem C45_extent {d : Int} {begin stop : Option Bound} {len : Bound} {b e s n : Int}
    (hb : 0 ≤ b) (hbe : b ≤ e) (hed : e ≤ d) :
    (0 < s → DenotesOr d 0 begin b → DenotesOr d d stop e →
      ∃ N, sliceExtent d (.interval begin (some s) stop none) = .ok N ∧ 0 ≤ N ∧
        ∀ k, 0 ≤ k → (b + k * s < e ↔ k < N)) ∧
    (DenotesOr d 0 begin b → DenotesOr d d stop e →
      sliceExtent d (.interval begin none stop none) = .ok (e - b)) ∧
    (s < 0 → b < d → DenotesOr d (d - 1) begin b →
      ∃ N, sliceExtent d (.interval begin (some s) none none) = .ok N ∧ 0 ≤ N ∧
        ∀ k, 0 ≤ k → (0 ≤ b + k * s ↔ k < N)) ∧
    (Denotes d len n → ∀ step, sliceExtent d (.interval begin step stop (some len)) = .ok n) := by
  refine ⟨?_, ?_, ?_, ?_⟩
  · intro hs h1 h2
    obtain ⟨_, _, h, _⟩ := picks_axis (Picks.up (step := some s) h1 h2 rfl hs hb hbe hed)
    refine ⟨_, h, by omega, ?_⟩
    intro k hk
    rw [Option.getD_some, selectUp_eq hs hb hed, List.length_map, upTo_length,
      Int.toNat_of_nonneg (steps_nonneg hs (by omega)), lt_steps hs]
    omega
  · intro h1 h2
    obtain ⟨_, _, h, _⟩ := picks_axis (Picks.up (step := none) h1 h2 rfl (by decide) hb hbe hed)
    rw [h]
    congr 1
    rw [selectUp_eq (by decide) hb hed, List.length_map, upTo_length]
    simp [steps]
    omega
  · intro hs h1 h2
    obtain ⟨_, _, h, _⟩ := picks_axis (Picks.down h2 hs (by omega) h1)
    refine ⟨_, h, by omega, ?_⟩
    intro k hk
    rw [selectDown_eq hs h1, List.length_map, upTo_length,
      Int.toNat_of_nonneg (steps_nonneg (by omega) (by omega)), lt_steps (by omega)]
    have : k * -s = -(k * s) := by ring
    omega
  · intro h step
    exact value_of_denotes h

example : sliceExtent 10 (slice (from_ := some (.int 1)) («to» := some (.ext (EndT.all.sub 2))) (by_ := some 3)) = .ok 3 := by
  decide
example : sliceExtent 10 (slice (from_ := some (.int 7)) (by_ := some (-3))) = .ok 3 := by decide

/-- Slices outside of the hypotheses of `C45_extent`: a reversed interval gets a negative extent, a
zero step is undefined behaviour, `to` is ignored with a negative step, and `slice(to, length)`
starts at the beginning of the axis although it is printed as `end - length` (`slicer.hpp:157`). -/
theorem C45_unchecked_arguments :
    sliceExtent 10 (slice (from_ := some (.int 5)) («to» := some (.int 2))) = .ok (-3) ∧
    sliceExtent 10 (slice (by_ := some 0)) = .error .divByZero ∧
    sliceExtent 10 (slice (from_ := some (.int 8)) («to» := some (.int 5)) (by_ := some (-1))) = .ok 9 ∧
    reindex 10 (slice («to» := some (.int 8)) (length := some (.int 3))) = .ok 0 := by decide

/-! ## Reported contiguity

Full property C47: a slice (with any number of slicers) that reports `preserve_reachability` is
contiguous.  False for four slicers: `C47_four_slicers_wrong`. -/

/-- **C47** (partial) With at most three slicers, a slice of a default-layout container that reports
`preserve_reachability` has its elements at consecutive addresses in row-major order.
Missing: four slicers and more, for which it is false. -/
theorem C47_reachable_contiguous_partial (md : Mode) {c c' : Container} (h : c.Default)
    {sl : List Slicer} {ls : List (List Int)} (hn : 0 < sl.length) (hlen : sl.length ≤ c.shape.length)
    (h3 : sl.length ≤ 3) (hp : PicksAll (compress sl.length c.shape) sl ls)
    (hmd : md = .checked → ∀ l ∈ ls, l ≠ []) (hc' : c.slice md sl = .ok c') (hr : c'.reach = true) :
    ∀ i, InBox c'.shape i → ∀ k, linearIndex md c'.shape i = .ok k → c'.addr i = c'.base.add k := by
  obtain ⟨c'', os, e, hw, hsh, hst, hre, hbase, _⟩ := slice_run md h.toWF hp hmd hn hlen
  rw [hc'] at e; cases e
  intro i hi k hk
  rw [linearIndex_ok md hi] at hk
  cases hk
  rw [addr_eq hw hi]
  congr 1
  rw [hst, default_origin h hn hlen]
  rw [hre, Bool.and_eq_true] at hr
  have hr := hr.2
  rw [hsh] at hi ⊢
  clear hsh hst hre hbase hw hc' hmd
  generalize compress sl.length c.shape = cs at *
  match sl, h3, hr with
  | [s], _, hr =>
    cases hp with
    | cons hp hrest =>
      cases hrest
      simp only [preservesReachability] at hr
      have : restride 1 s = 1 := by
        cases s with
        | interval _ st _ _ => cases st <;> simp_all [Slicer.unit, restride]
        | _ => rfl
      simp only [sfx, List.prod_nil, List.zipWith_cons_cons, List.zipWith_nil_right, this, pickShape, List.map_cons,
        List.map_nil]
  | [s1, s0], _, hr =>
    cases hp with
    | cons hp1 hrest =>
      rename_i d1 ds l1 ls
      cases hrest with
      | cons hp0 hrest =>
        rename_i d0 ds l0 ls
        cases hrest
        rw [pickShape, List.map_cons, List.map_cons, List.map_nil] at hi ⊢
        obtain ⟨i1, i, rfl, hi1, hi⟩ := inBox_cons_left hi
        obtain ⟨i0, i, rfl, hi0, hi⟩ := inBox_cons_left hi
        rw [inBox_nil] at hi
        subst hi
        simp only [sfx, List.prod_nil, List.prod_cons, List.zipWith_cons_cons, List.zipWith_nil_right,
          linearize_cons, linearize_nil_left, mul_one]
        have one : ∀ {d : Int} {s : Slicer} {l : List Int}, Picks d s l → s.unit = true → restride 1 s = 1 := by
          intro d s l _ hu
          cases s with
          | interval _ st _ _ => cases st <;> simp_all [Slicer.unit, restride]
          | _ => rfl
        simp only [preservesReachability] at hr
        split at hr
        · cases hp0 with
          | joker hd => simp [restride, upTo_length, hd]
        · cases hp1 with
          | index _ _ =>
            have : i1 = 0 := by simp at hi1; omega
            rw [one hp0 hr, this]; ring
        · cases hp1 with
          | ext _ _ _ =>
            have : i1 = 0 := by simp at hi1; omega
            rw [one hp0 hr, this]; ring
        · cases hp0 with
          | joker hd => simp [restride, upTo_length, hd]
        · cases hr
  | [s2, s1, s0], _, hr =>
    simp [preservesReachability] at hr
  | _ :: _ :: _ :: _ :: _, h3, _ => simp only [List.length_cons] at h3; omega

example := C47_reachable_contiguous_partial .checked (ofShape_default (b := ⟨0, 0⟩) (s := [4, 3]) (by decide))
  (c' := { base := ⟨0, 3⟩, shape := [1, 3], strides := [3, 1], specific := true, reach := true }) (sl := [.index 1, .joker]) (ls := [[1], [0, 1, 2]]) (by decide) (by decide)
  (by decide) (.cons (.index (by decide) (by decide)) (.cons (show Picks 3 _ (upTo 3) from .joker (by decide)) .nil)) (fun _ => by decide)
  (by decide) rfl

/-- No step is given. -/
def Stepless (s : Slicer) : Prop := ∀ b st e l, s = .interval b st e l → st = none

/-- A single index or `end` expression. -/
def Single (s : Slicer) : Prop := (∃ i, s = .index i) ∨ ∃ e, s = .ext e

theorem stepless_iff (s : Slicer) : s.unit = true ↔ Stepless s := by
  cases s with
  | interval b st e l =>
    cases st with
    | none =>
      refine ⟨fun _ b st e l h => ?_, fun _ => rfl⟩
      cases h
      rfl
    | some v =>
      refine ⟨fun h => absurd h (by simp [Slicer.unit]), fun h => ?_⟩
      cases h b (some v) e l rfl
  | joker => exact ⟨fun _ => (fun _ _ _ _ h => by cases h), fun _ => rfl⟩
  | index i => exact ⟨fun _ => (fun _ _ _ _ h => by cases h), fun _ => rfl⟩
  | ext e => exact ⟨fun _ => (fun _ _ _ _ h => by cases h), fun _ => rfl⟩

/-- The slicers for which a slice is reported reachable. -/
def Reported (sl : List Slicer) : Prop :=
  ∃ pre rest, sl = pre ++ rest ∧ pre.length % 3 = 0 ∧ (∀ s ∈ pre, Stepless s) ∧
    ((∃ s, rest = [s] ∧ Stepless s) ∨
      ∃ s1 s0, rest = [s1, s0] ∧ (Single s1 ∧ Stepless s0 ∨ Stepless s1 ∧ s0 = .joker))

theorem pair_iff (s1 s0 : Slicer) : preservesReachability [s1, s0] = true ↔
    (Single s1 ∧ Stepless s0 ∨ Stepless s1 ∧ s0 = .joker) := by
  rw [← stepless_iff, ← stepless_iff]
  unfold Single
  cases s1 with
  | interval b st e l => cases st <;> cases s0 <;> simp [preservesReachability, Slicer.unit]
  | joker => cases s0 <;> simp [preservesReachability, Slicer.unit]
  | index i =>
    simp only [preservesReachability, Slicer.index.injEq, exists_eq', true_or, true_and]
    exact ⟨.inl, by rintro (h | ⟨-, rfl⟩); exacts [h, rfl]⟩
  | ext i =>
    simp only [preservesReachability, Slicer.ext.injEq, exists_eq', or_true, true_and]
    exact ⟨.inl, by rintro (h | ⟨-, rfl⟩); exacts [h, rfl]⟩

theorem reach_iff : ∀ sl : List Slicer, preservesReachability sl = true ↔ Reported sl
  | [] => by
    simp only [preservesReachability, Bool.false_eq_true, false_iff]
    rintro ⟨pre, rest, h, -, -, ⟨s, rfl, -⟩ | ⟨s1, s0, rfl, -⟩⟩ <;> simp at h
  | [s] => by
    rw [show preservesReachability [s] = s.unit from rfl, stepless_iff]
    refine ⟨fun h => ⟨[], [s], rfl, rfl, by simp, .inl ⟨s, rfl, h⟩⟩, ?_⟩
    rintro ⟨pre, rest, h, -, -, ⟨s, rfl, hs⟩ | ⟨s1, s0, rfl, -⟩⟩
    · match pre, h with
      | [], h => cases h; exact hs
      | _ :: _, h => simp at h
    · have := congrArg List.length h
      simp at this
  | [s1, s0] => by
    rw [pair_iff]
    refine ⟨fun h => ⟨[], [s1, s0], rfl, rfl, by simp, .inr ⟨s1, s0, rfl, h⟩⟩, ?_⟩
    rintro ⟨pre, rest, h, h3, -, ⟨s, rfl, hs⟩ | ⟨s1', s0', rfl, hs⟩⟩
    · have := congrArg List.length h
      simp at this
      omega
    · match pre, h with
      | [], h => cases h; exact hs
      | _ :: _, h =>
        have := congrArg List.length h
        simp at this
  | s :: t :: u :: rest => by
    have ih := reach_iff rest
    have e : preservesReachability (s :: t :: u :: rest) = true ↔
        (Stepless s ∧ Stepless t ∧ Stepless u) ∧ preservesReachability rest = true := by
      rw [preservesReachability, ← stepless_iff, ← stepless_iff, ← stepless_iff]
      cases s.unit <;> cases t.unit <;> cases u.unit <;> simp
    rw [e, ih]
    constructor
    · rintro ⟨⟨hs, ht, hu⟩, pre, last, rfl, h3, hp, hl⟩
      refine ⟨s :: t :: u :: pre, last, rfl, by simp only [List.length_cons]; omega, ?_, hl⟩
      intro x hx
      simp only [List.mem_cons] at hx
      rcases hx with rfl | rfl | rfl | hx
      exacts [hs, ht, hu, hp x hx]
    · rintro ⟨pre, last, h, h3, hp, hl⟩
      have hlast : last.length = 1 ∨ last.length = 2 := by
        rcases hl with ⟨_, rfl, -⟩ | ⟨_, _, rfl, -⟩ <;> simp
      match pre, h with
      | [], h =>
        have := congrArg List.length h
        simp at this
        omega
      | [_], _ => simp at h3
      | [_, _], _ => simp at h3
      | a :: b :: d :: pre, h =>
        simp only [List.cons_append, List.cons.injEq] at h
        obtain ⟨rfl, rfl, rfl, rfl⟩ := h
        refine ⟨⟨hp s (by simp), hp t (by simp), hp u (by simp)⟩, pre, last, rfl, ?_, fun x hx => hp x (by simp [hx]), hl⟩
        simp only [List.length_cons] at h3
        omega

/-- **C47** (partial, what is reported) A slice is reported reachable exactly if its container is, and the slicers consist of a
multiple of three slicers without step, followed by one slicer without step, or by two: a single index and a slicer without
step, or a slicer without step and `_`.  Missing: for more than three slicers the report is not right. -/
theorem C47_reported_partial (md : Mode) {c c' : Container} {sl : List Slicer} (hc' : c.slice md sl = .ok c') :
    c'.reach = true ↔ c.reach = true ∧ Reported sl := by
  have hreach : c'.reach = (c.reach && preservesReachability sl) := by
    unfold Container.slice at hc'
    simp only [bind, Except.bind, pure, Except.pure] at hc'
    repeat' split at hc'
    all_goals first | (cases hc'; rfl) | cases hc'
  rw [hreach, Bool.and_eq_true, reach_iff]

example : Reported [.index 0, .joker, between 0 (.int 1), .joker] ∧ ¬ Reported [.joker, .joker, .joker] :=
  ⟨(reach_iff _).1 (by decide), fun h => absurd ((reach_iff _).2 h) (by decide)⟩

/-- **C47** (negation) With four slicers the first three are skipped: a 2x2x2x2 container sliced by
`(0, _, between(0,1), _)` is reported reachable but its elements are not consecutive.  A view with
explicit strides is reported reachable as well. -/
theorem C47_four_slicers_wrong :
    (∃ c', (Container.ofShape ⟨0, 0⟩ [2, 2, 2, 2]).slice .checked
        [.index 0, .joker, between 0 (.int 1), .joker] = .ok c' ∧ c'.reach = true ∧
        c'.shape = [1, 2, 1, 2] ∧ linearIndex .checked c'.shape [0, 1, 0, 0] = .ok 2 ∧
        c'.addr [0, 1, 0, 0] = c'.base.add 4) ∧
    (Container.ofStrides ⟨0, 0⟩ [3] [2]).reach = true := by
  refine ⟨⟨_, rfl, ?_⟩, rfl⟩
  decide

/-- **C99** A slice (with any number of slicers) of a default-layout container that selects something has its elements at
consecutive addresses in row-major order exactly if it selects one run of row-major positions. -/
theorem C99_contiguous_slices (md : Mode) {c c' : Container} (h : c.Default) {sl : List Slicer} {ls : List (List Int)}
    (hn : 0 < sl.length) (hlen : sl.length ≤ c.shape.length) (hp : PicksAll (compress sl.length c.shape) sl ls)
    (hne : ∀ l ∈ ls, l ≠ []) (hc' : c.slice md sl = .ok c') :
    (∀ i, InBox c'.shape i → ∀ k, linearIndex md c'.shape i = .ok k → c'.addr i = c'.base.add k) ↔
      RunOfPositions (compress sl.length c.shape) ls := by
  obtain ⟨c'', os, e, hw, hsh, hst, -, -, -⟩ := slice_run md h.toWF hp (fun _ => hne) hn hlen
  rw [hc'] at e; cases e
  rw [← rowMajor_iff_runOf hp hne, ← hsh, ← default_origin h hn hlen, ← hst, ← addr_rank_iff hw (by
    intro d hd
    rw [hsh] at hd
    obtain ⟨l, hl, rfl⟩ := List.mem_map.1 hd
    have := List.length_pos_of_ne_nil (hne l hl)
    omega)]
  refine forall₂_congr fun i hi => ?_
  rw [linearIndex_ok md hi]
  simp

/-- The two middle rows of a 4x3 container are contiguous, two of its columns are not. -/
example : RunOfPositions [4, 3] [[1, 2], [0, 1, 2]] ∧ ¬ RunOfPositions [4, 3] [[0, 1, 2, 3], [0, 1]] := by
  refine ⟨.inr ⟨⟨1, by decide⟩, by decide⟩, ?_⟩
  rintro (⟨h, -⟩ | ⟨-, h⟩)
  · exact absurd h (by decide)
  · exact absurd h (by decide)

private theorem jokers (n : Nat) :
    PicksAll (List.replicate n 2) (List.replicate n .joker) (List.replicate n (upTo 2)) := by
  induction n with
  | zero => exact .nil
  | succ n ih => exact .cons (.joker (by decide)) ih

private theorem reported_jokers (n : Nat) (hn : (n + 3) % 3 ≠ 0) :
    Reported (.joker :: .index 0 :: List.replicate (n + 1) .joker) := by
  have rest : ∀ (m n : Nat), n ≤ m → n % 3 ≠ 0 → preservesReachability (List.replicate n .joker) = true := by
    intro m
    induction m with
    | zero => intro n hm hn; simp [Nat.le_zero.1 hm] at hn
    | succ m ih =>
      intro n hm hn
      match n with
      | 0 => simp at hn
      | 1 => rfl
      | 2 => rfl
      | n + 3 =>
        simp only [List.replicate_succ, preservesReachability, Slicer.unit, Bool.and_self, if_true]
        exact ih n (by omega) (by omega)
  rw [← reach_iff]
  simp only [List.replicate_succ, preservesReachability, Slicer.unit, Bool.and_self, if_true]
  exact rest n n le_rfl (by omega)

/-- **C47** (exact, partial) The numbers of slicers for which the report is right for all slices of default-layout containers that
select something: up to three, and the multiples of three, for which no slice is reported. -/
theorem C47_counts_exact_partial (md : Mode) (n : Nat) (hn : 0 < n) :
    (∀ (c c' : Container) (sl : List Slicer) (ls : List (List Int)), c.Default → sl.length = n → n ≤ c.shape.length →
      PicksAll (compress n c.shape) sl ls → (∀ l ∈ ls, l ≠ []) → c.slice md sl = .ok c' → c'.reach = true →
      ∀ i, InBox c'.shape i → ∀ k, linearIndex md c'.shape i = .ok k → c'.addr i = c'.base.add k) ↔
    n ≤ 3 ∨ n % 3 = 0 := by
  constructor
  · intro h
    by_contra hc
    obtain ⟨k, rfl⟩ : ∃ k, n = k + 3 := ⟨n - 3, by omega⟩
    let c := Container.ofShape ⟨0, 0⟩ (2 :: 2 :: List.replicate (k + 1) 2)
    have hd : c.Default := ofShape_default (by simp)
    have hcs : compress (k + 3) c.shape = 2 :: 2 :: List.replicate (k + 1) 2 := by
      show compress (k + 3) (2 :: 2 :: List.replicate (k + 1) 2) = _
      unfold compress
      rw [if_pos (by simp)]
    have hp : PicksAll (2 :: 2 :: List.replicate (k + 1) 2)
        (.joker :: .index 0 :: List.replicate (k + 1) .joker)
        (upTo 2 :: [0] :: List.replicate (k + 1) (upTo 2)) :=
      .cons (.joker (by decide)) (.cons (.index (by decide) (by decide)) (jokers _))
    have hlen : (Slicer.joker :: .index 0 :: List.replicate (k + 1) .joker).length = k + 3 := by simp
    have hsh : c.shape.length = k + 3 := by
      show (2 :: 2 :: List.replicate (k + 1) (2 : Int)).length = _
      simp
    have hne : ∀ l ∈ upTo 2 :: [0] :: List.replicate (k + 1) (upTo 2), l ≠ [] := by
      intro l hl
      simp only [List.mem_cons, List.mem_replicate] at hl
      rcases hl with rfl | rfl | ⟨-, rfl⟩ <;> decide
    obtain ⟨c', os, hs, -, -, -, hr, -, -⟩ := slice_run md hd.toWF (c := c) (by rw [hlen, hcs]; exact hp) (fun _ => hne)
      (by rw [hlen]; omega) (by rw [hlen, hsh])
    have hr' : c'.reach = true := by
      rw [hr, (reach_iff _).2 (reported_jokers k (by omega))]; rfl
    have := h c c' _ _ hd hlen (by rw [hsh]) (by rw [hcs]; exact hp) hne hs hr'
    rw [C99_contiguous_slices md hd (by rw [hlen]; omega) (by rw [hlen, hsh]) (by rw [hlen, hcs]; exact hp) hne hs,
      hlen, hcs] at this
    rcases this with ⟨e, -⟩ | ⟨-, e⟩
    · exact absurd e (by decide)
    · rw [List.map_cons] at e
      have := (List.cons.inj e).1
      exact absurd this (by decide)
  · rintro h c c' sl ls hd rfl hlen hp hne hs hr
    rcases h with h3 | h3
    · exact C47_reachable_contiguous_partial md hd hn hlen h3 hp (fun _ => hne) hs hr
    · obtain ⟨pre, rest, e, h1, -, ⟨s, rfl, -⟩ | ⟨s1, s0, rfl, -⟩⟩ := ((C47_reported_partial md hs).1 hr).2 <;>
      · rw [e] at h3
        simp at h3
        omega

example := mt (C47_counts_exact_partial .checked 4 (by decide)).1 (by decide)

/-- **C47** The full property. -/
def C47_statement : Prop :=
  ∀ (md : Mode) (c c' : Container) (sl : List Slicer) (ls : List (List Int)), c.Default → 0 < sl.length →
    sl.length ≤ c.shape.length → PicksAll (compress sl.length c.shape) sl ls → (∀ l ∈ ls, l ≠ []) →
    c.slice md sl = .ok c' → c'.reach = true →
    ∀ i, InBox c'.shape i → ∀ k, linearIndex md c'.shape i = .ok k → c'.addr i = c'.base.add k

theorem C47_statement_false : ¬ C47_statement := by
  intro h
  have := (C47_counts_exact_partial .checked 4 (by decide)).1
    (fun c c' sl ls hc hl hn hp hne hs hr => h .checked c c' sl ls hc (by omega) (by omega)
      (by rw [hl]; exact hp) hne hs hr)
  omega

example : ∃ c', (Container.ofShape ⟨0, 0⟩ [4, 3]).slice .checked [between 1 (.int 3), .joker] = .ok c' ∧
    c'.shape = [2, 3] ∧ c'.addr [1, 2] = c'.base.add 5 := ⟨_, rfl, by decide⟩

/-! ## Helper slicers -/

/-- Slicing `c`, of shape `pre ++ [d] ++ post`, by `s` along the axis of extent `d` and taking the other axes whole shows, in order
and in the same cells, the elements of `c` at the indexes `l` of this axis.  In checked builds the selection must not be empty. -/
def PicksAs (c : Container) (pre post : List Int) (s : Slicer) (l : List Int) : Prop :=
  ∀ md : Mode, (md = .checked → l ≠ [] ∧ ∀ e ∈ pre ++ post, 0 < e) →
    ∃ c', c.slice md (pre.map (fun _ => .joker) ++ s :: post.map fun _ => .joker) = .ok c' ∧
      c'.shape = pre ++ (l.length : Int) :: post ∧
      ∀ (k : Nat) (x : Int) (i j : List Int), l[k]? = some x → InBox pre i → InBox post j →
        c'.addr (i ++ (k : Int) :: j) = c.addr (i ++ x :: j)

private theorem jokers_pick {s : List Int} (h : NonNeg s) : PicksAll s (s.map fun _ => .joker) (s.map upTo) := by
  induction s with
  | nil => exact .nil
  | cons d s ih => exact .cons (.joker (h d (by simp))) (ih fun e he => h e (by simp [he]))

private theorem picksAll_append {s1 s2 : List Int} {a1 a2 : List Slicer} {l1 l2 : List (List Int)} (h1 : PicksAll s1 a1 l1)
    (h2 : PicksAll s2 a2 l2) : PicksAll (s1 ++ s2) (a1 ++ a2) (l1 ++ l2) := by
  induction h1 with
  | nil => exact h2
  | cons h _ ih => exact .cons h ih

private theorem pickAt_upTo {s i : List Int} (h : InBox s i) : pickAt (s.map upTo) i = i := by
  induction h with
  | nil => rfl
  | @cons d x s i hx _ ih =>
    obtain ⟨n, hn⟩ := Int.eq_ofNat_of_zero_le hx.1
    have hget : (upTo d)[n]? = some x := by
      simp only [upTo]
      rw [List.getElem?_map, List.getElem?_range (by omega)]
      simp [hn]
    have e : pickAt (upTo d :: s.map upTo) (x :: i) = (upTo d).getD x.toNat 0 :: pickAt (s.map upTo) i := rfl
    rw [List.map_cons, e, ih, List.getD_eq_getElem?_getD, show x.toNat = n by omega, hget]; rfl

private theorem pickShape_upTo {s : List Int} (h : NonNeg s) : pickShape (s.map upTo) = s := by
  induction s with
  | nil => rfl
  | cons d s ih =>
    have hd := h d (by simp)
    have := ih fun e he => h e (by simp [he])
    simp only [pickShape, List.map_cons] at this ⊢
    rw [this]
    simp [upTo, hd]

theorem shows_of_picks {c : Container} (h : c.Default) {pre post : List Int} {d : Int} (hd : c.shape = pre ++ d :: post)
    (h1 : NonNeg pre) (h2 : NonNeg post) {s : Slicer} {l : List Int} (hp : Picks d s l) : PicksAs c pre post s l := by
  intro md hmd
  obtain ⟨c', e1, e2, e3⟩ := C42_slice_elements (α := Int) md h
    (sl := pre.map (fun _ => .joker) ++ s :: post.map fun _ => .joker) (ls := pre.map upTo ++ l :: post.map upTo)
    (by rw [hd]; exact picksAll_append (jokers_pick h1) (.cons hp (jokers_pick h2))) (by
      intro hc x hx
      obtain ⟨hl, he⟩ := hmd hc
      have hu : ∀ e : Int, 0 < e → upTo e ≠ [] := fun e he => by
        have : 0 < (upTo e).length := by simp [upTo]; omega
        exact List.length_pos_iff.1 this
      rcases List.mem_append.1 hx with hx | hx
      · obtain ⟨e, hm, rfl⟩ := List.mem_map.1 hx
        exact hu e (he e (by simp [hm]))
      · rcases List.mem_cons.1 hx with rfl | hx
        · exact hl
        · obtain ⟨e, hm, rfl⟩ := List.mem_map.1 hx
          exact hu e (he e (by simp [hm])))
  have hsh : pickShape (pre.map upTo ++ l :: post.map upTo) = pre ++ (l.length : Int) :: post := by
    have a := pickShape_upTo h1
    have b := pickShape_upTo h2
    simp only [pickShape] at a b ⊢
    rw [List.map_append, List.map_cons, a, b]
  refine ⟨c', e1, by rw [e2, hsh], ?_⟩
  intro k x i j hk hi hj
  obtain ⟨hlt, hx⟩ := List.getElem?_eq_some_iff.1 hk
  have hb : InBox (pre ++ (l.length : Int) :: post) (i ++ (k : Int) :: j) := by
    have : ∀ {s1 i1 : List Int}, InBox s1 i1 → InBox (s1 ++ (l.length : Int) :: post) (i1 ++ (k : Int) :: j) := by
      intro s1 i1 hi1
      induction hi1 with
      | nil => exact inBox_cons.2 ⟨by omega, hj⟩
      | cons hx _ ih => exact inBox_cons.2 ⟨hx, ih⟩
    exact this hi
  obtain ⟨_, ea, _⟩ := e3 _ (by rw [e2, hsh]; exact hb)
  rw [ea]
  congr 1
  have : ∀ (ls1 : List (List Int)) (i' : List Int), ls1.length = i'.length →
      pickAt (ls1 ++ l :: post.map upTo) (i' ++ (k : Int) :: j) = pickAt ls1 i' ++ x :: j := by
    intro ls1 i' hl
    have ej := pickAt_upTo hj
    simp only [pickAt] at ej ⊢
    rw [List.zipWith_append hl, List.zipWith_cons_cons, ej]
    simp [List.getD_eq_getElem?_getD, hk]
  rw [this _ _ (by rw [List.length_map]; exact hi.length_eq), pickAt_upTo hi]

/-! Full property C59 includes `at(i)`, which is false: `C59_at_selects_nothing`. -/

/-- **C59** (partial) The helper slicers `first`, `last`, `drop_first`, `drop_last`, `between` and
`every` select what their names say, along any axis of a container of any order.  Missing: `at(i)`, which selects nothing. -/
theorem C59_helpers_partial {c : Container} (h : c.Default) {pre post : List Int} {d : Int} (hd : c.shape = pre ++ d :: post)
    (h1 : NonNeg pre) (h2 : NonNeg post) (n : Int) (hn : 0 ≤ n) (hnd : n ≤ d) :
    PicksAs c pre post (first n) (upTo n) ∧
    PicksAs c pre post (last n) ((upTo n).map fun k => d - n + k) ∧
    PicksAs c pre post (dropFirst n) ((upTo (d - n)).map fun k => n + k) ∧
    PicksAs c pre post (dropLast n) (upTo (d - n)) ∧
    (∀ e, n ≤ e → e ≤ d → PicksAs c pre post (between n (.int e)) ((upTo (e - n)).map fun k => n + k)) ∧
    (0 < n → PicksAs c pre post (every n) ((upTo d).filter fun i => decide (i % n = 0))) ∧
    (0 < n → PicksAs c pre post (every (-n)) (((upTo d).filter fun i => decide ((d - 1 - i) % n = 0)).reverse)) := by
  have hext : Denotes d (.ext (EndT.all.sub n)) (d - n) := by
    have := Denotes.ext (d := d) (EndT.all.sub n) (by simp [EndT.all, EndT.sub])
    have e : trunc (((d * (EndT.all.sub n).frac.num + (EndT.all.sub n).shift : Int) : ℚ) /
        ((EndT.all.sub n).frac.denum : ℚ)) = d - n := by
      rw [← tdiv_eq_trunc _ _ (by simp [EndT.all, EndT.sub])]
      simp [EndT.all, EndT.sub]; omega
    rw [e] at this
    exact this
  have hup : ∀ b e, 0 ≤ b → b ≤ e → e ≤ d → selectUp d b e 1 = (upTo (e - b)).map fun k => b + k := by
    intro b e h0 _ hed
    rw [selectUp_eq (by decide) h0 hed]
    simp [steps]
  refine ⟨?_, ?_, ?_, ?_, ?_, ?_, ?_⟩
  · have := Picks.length (d := d) (begin := none) (len := .int n) (step := none) (b := 0) (n := n) (s := 1)
      rfl (by decide) .none (.int n) hn (by intro k h0 h1; omega)
    simpa [first] using shows_of_picks h hd h1 h2 this
  · have := Picks.length (d := d) (begin := some (.ext (EndT.all.sub n))) (len := .int n) (step := none)
      (b := d - n) (n := n) (s := 1) rfl (by decide) (.some hext) (.int n) hn (by intro k h0 h1; omega)
    simpa [last] using shows_of_picks h hd h1 h2 this
  · have := Picks.up (d := d) (begin := some (.int n)) (stop := none) (step := none) (b := n) (e := d)
      (s := 1) (.some (.int n)) .none rfl (by decide) hn hnd le_rfl
    rw [hup n d hn hnd le_rfl] at this
    exact shows_of_picks h hd h1 h2 this
  · have := Picks.up (d := d) (begin := none) (stop := some (.ext (EndT.all.sub n))) (step := none)
      (b := 0) (e := d - n) (s := 1) .none (.some hext) rfl (by decide) le_rfl (by omega) (by omega)
    rw [hup 0 (d - n) le_rfl (by omega) (by omega)] at this
    simpa [dropLast] using shows_of_picks h hd h1 h2 this
  · intro e hne hed
    have := Picks.up (d := d) (begin := some (.int n)) (stop := some (.int e)) (step := none) (b := n)
      (e := e) (s := 1) (.some (.int n)) (.some (.int e)) rfl (by decide) hn hne hed
    rw [hup n e hn hne hed] at this
    exact shows_of_picks h hd h1 h2 this
  · intro hpos
    have := Picks.up (d := d) (begin := none) (stop := none) (step := some n) (b := 0)
      (e := d) (s := n) .none .none rfl hpos le_rfl (by omega) le_rfl
    have e : selectUp d 0 d n = (upTo d).filter fun i => decide (i % n = 0) := by
      apply List.filter_congr
      intro x hx
      have := mem_upTo.1 hx
      simp [this.1, this.2]
    rw [e] at this
    exact shows_of_picks h hd h1 h2 this
  · intro hpos
    have := Picks.down (d := d) (begin := none) (s := -n) (b := d - 1) .none (by omega) (by omega) (by omega)
    have e : selectDown d (d - 1) (-n) = ((upTo d).filter fun i => decide ((d - 1 - i) % n = 0)).reverse := by
      unfold selectDown
      congr 1
      apply List.filter_congr
      intro x hx
      have := mem_upTo.1 hx
      simp only [Int.emod_neg]
      have : x ≤ d - 1 := by omega
      simp [this]
    rw [e] at this
    exact shows_of_picks h hd h1 h2 this

example := (C59_helpers_partial (ofShape_default (b := ⟨0, 0⟩) (s := [2, 5, 3]) (by decide)) (pre := [2]) (post := [3]) rfl (by decide)
  (by decide) 2 (by decide) (by decide)).2.1

/-- **C59** (negation) `at(i)` selects nothing: the extent is `0` instead of `1`.  It starts at `i`, with the stride of the axis,
so that reading past the end of the empty slice, at index `0`, gives the element `i`. -/
theorem C59_at_selects_nothing (d i : Int) : sliceExtent d (atIndex i) = .ok 0 ∧
    reindex d (atIndex i) = .ok i ∧ ∀ s, restride s (atIndex i) = s := by
  simp [sliceExtent, reindex, restride, atIndex, Bound.value, sliceEval, pure, Except.pure, bind, Except.bind]

/-- **C59** The full property. -/
def C59_statement : Prop :=
  ∀ c : Container, c.Default → ∀ (pre post : List Int) (d : Int), c.shape = pre ++ d :: post → NonNeg pre → NonNeg post →
    ∀ n : Int, 0 ≤ n → n ≤ d →
    PicksAs c pre post (first n) (upTo n) ∧
    PicksAs c pre post (last n) ((upTo n).map fun k => d - n + k) ∧
    PicksAs c pre post (dropFirst n) ((upTo (d - n)).map fun k => n + k) ∧
    PicksAs c pre post (dropLast n) (upTo (d - n)) ∧
    (∀ e, n ≤ e → e ≤ d → PicksAs c pre post (between n (.int e)) ((upTo (e - n)).map fun k => n + k)) ∧
    (0 < n → PicksAs c pre post (every n) ((upTo d).filter fun i => decide (i % n = 0))) ∧
    (n < d → PicksAs c pre post (atIndex n) [n])

theorem C59_statement_false : ¬ C59_statement := by
  intro h
  obtain ⟨c', hc, hs, -⟩ := (h (.ofShape ⟨0, 0⟩ [3]) (ofShape_default (by decide)) [] [] 3 rfl (by decide) (by decide) 1
    (by decide) (by decide)).2.2.2.2.2.2 (by decide) .checked (by decide)
  have hd : ((Container.ofShape ⟨0, 0⟩ [3]).slice .checked [atIndex 1]).map (·.shape) ≠ .ok [1] := by decide
  rw [show (Container.ofShape ⟨0, 0⟩ [3]).slice .checked [atIndex 1] = .ok c' from hc] at hd
  exact hd (congrArg Except.ok hs)

example : (do let c ← (Container.ofShape ⟨0, 0⟩ [16]).slice .checked [last 3]
              reduce exGridMem c (fun a e => a ++ [e]) []) = .ok [13, 14, 15] := by decide
example : (do let c ← (Container.ofShape ⟨0, 0⟩ [16]).slice .checked [every (-5)]
              reduce exGridMem c (fun a e => a ++ [e]) []) = .ok [15, 10, 5, 0] := by decide
example : (do let c ← (Container.ofShape ⟨0, 0⟩ [2, 4, 2]).slice .checked [.joker, last 2, .joker]
              reduce exGridMem c (fun a e => a ++ [e]) []) = .ok [4, 5, 6, 7, 12, 13, 14, 15] := by decide

end Kwk
