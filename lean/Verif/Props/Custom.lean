import Verif.Lemmas.Custom
import Verif.Props.Slicing

/-!
# Property C128: slicers of the user's own types

`Chooses` (`Spec/Custom.lean`) says which indexes a slicer selects along an axis, from what its type announces.
-/

namespace Kwk
open Spec

private theorem slice_any_run (md : Mode) {c : Container} (h : c.Default) {sl : List AnySlicer} {ls : List (List Int)}
    (hn : 0 < sl.length) (hlen : sl.length ≤ c.shape.length) (hint : ∃ s ∈ sl, ∀ i, s ≠ .library (.index i))
    (hc : ChoosesAll (compress sl.length c.shape) (distances (compress sl.length c.shape)) sl ls)
    (hv : ∀ s, .custom s ∈ sl → s.value = none) (hmd : md = .checked → ∀ l ∈ ls, l ≠ []) :
    ∃ c' os, c.sliceAny md sl = some (.ok c') ∧ c'.WF ∧ c'.shape = pickShape ls ∧
      c'.reach = (c.reach && preservesReachabilityAny sl) ∧
      c'.base = c.base.add (linearize (sfx (compress sl.length c.shape)) os) ∧
      (∀ i, InBox (pickShape ls) i → InBox (compress sl.length c.shape) (pickAt ls i) ∧
        linearize (sfx (compress sl.length c.shape)) os + linearize c'.strides i =
          linearize (sfx (compress sl.length c.shape)) (pickAt ls i)) := by
  obtain ⟨hl1, hl2, hax⟩ := hc
  have hst : strideCompress sl.length c.stride = sfx (compress sl.length c.shape) := by
    rw [stride_eq h.toWF, default_origin h hn hlen]
  rw [distances_eq] at hax
  obtain ⟨os, e1, e2, e3, e4⟩ := axes_run (shp := compress sl.length c.shape) (st := sfx (compress sl.length c.shape)) 0 sl ls
    (compress sl.length c.shape) (sfx (compress sl.length c.shape)) (by omega) (by omega) (by rw [sfx_length]; omega)
    (by intro n _; rw [Nat.zero_add])
    (by
      intro n s l e hs hl he
      rw [Nat.zero_add]
      exact chooses_axis he (fun k hk => hv k (hk ▸ List.mem_of_getElem? hs)) (hax n s l hs hl))
  have ho : originAny md c.shape sl = .ok (linearize (sfx (compress sl.length c.shape)) os) := by
    simp only [originAny, e1, bind, Except.bind]
    cases md with
    | checked => exact linearIndex_ok _ (e4 (hmd rfl))
    | unchecked => rw [linearIndex, asStride_eq_sfx]; rfl
  have hall : sl.all AnySlicer.isSlicer = true := by
    rw [List.all_eq_true]
    intro s hs
    cases s with
    | library s => rfl
    | custom s =>
      obtain ⟨n, hn'⟩ := List.mem_iff_getElem?.1 hs
      have hlt : n < ls.length := by
        have := (List.getElem?_eq_some_iff.1 hn').1
        omega
      have hch := hax n _ _ hn' (List.getElem?_eq_getElem hlt)
      have hval := hv s hs
      generalize ls[n] = l at hch
      cases hch with
      | custom hsay _ _ _ =>
        rcases hsay.start with ⟨f, h1, _⟩ | ⟨_, h2⟩
        · simp [AnySlicer.isSlicer, h1, hval]
        · rw [hval] at h2; cases h2
  have hni : sl.all AnySlicer.integral = false := by
    obtain ⟨s, hs, hne⟩ := hint
    rw [List.all_eq_false]
    refine ⟨s, hs, ?_⟩
    intro hi
    unfold AnySlicer.integral at hi
    split at hi
    · exact hne _ rfl
    · cases hi
  refine ⟨{ base := c.base.add (linearize (sfx (compress sl.length c.shape)) os), shape := pickShape ls,
            strides := strideSliceAny (strideCompress sl.length c.stride) sl, specific := true,
            reach := c.reach && preservesReachabilityAny sl }, os, ?_, ?_, rfl, rfl, rfl, ?_⟩
  · unfold Container.sliceAny
    rw [hall, hni, if_pos (by simpa using hlen)]
    simp only [ho, bind, Except.bind, shapeSliceAny, e2]; rfl
  · refine ⟨?_, ?_, by simp⟩
    · intro e
      have := congrArg List.length e
      rw [pickShape, List.length_map, hl2, compress_length hn hlen, List.length_nil] at this
      omega
    · show List.length (strideSliceAny _ sl) = (pickShape ls).length
      rw [strideSliceAny, List.length_map, List.length_zipIdx, pickShape, List.length_map]
      omega
  · intro i hi
    refine ⟨(e3 i hi).1, ?_⟩
    rw [← (e3 i hi).2]
    simp only [strideSliceAny, hst]

/-- The whole property: a container can be sliced by library slicers and by objects of types that say where their selection starts, how
many indexes it has and how far they are apart; the slice then shows the selected elements. -/
def C128_full : Prop := ∀ (md : Mode) (c : Container), c.Default → ∀ (sl : List AnySlicer) (ls : List (List Int)),
  0 < sl.length → sl.length ≤ c.shape.length → (∃ s ∈ sl, ∀ i, s ≠ .library (.index i)) →
  ChoosesAll (compress sl.length c.shape) (distances (compress sl.length c.shape)) sl ls → (md = .checked → ∀ l ∈ ls, l ≠ []) →
  ∃ c', c.sliceAny md sl = some (.ok c') ∧ c'.shape = pickShape ls ∧
    ∀ i, InBox c'.shape i → InBox (compress sl.length c.shape) (pickAt ls i) ∧
      c'.addr i = (Container.ofShape c.base (compress sl.length c.shape)).addr (pickAt ls i)

/-- **C128** (partial) The slice shows the elements at the indexes announced by the slicers, in their order; an index may be announced
several times (distance 0).  Missing: types with a conversion to `std::ptrdiff_t`, for which it is false (`C128_full_false`). -/
theorem C128_elements_partial (md : Mode) {c : Container} (h : c.Default) {sl : List AnySlicer} {ls : List (List Int)}
    (hn : 0 < sl.length) (hlen : sl.length ≤ c.shape.length) (hint : ∃ s ∈ sl, ∀ i, s ≠ .library (.index i))
    (hc : ChoosesAll (compress sl.length c.shape) (distances (compress sl.length c.shape)) sl ls)
    (hv : ∀ s, .custom s ∈ sl → s.value = none) (hmd : md = .checked → ∀ l ∈ ls, l ≠ []) :
    ∃ c', c.sliceAny md sl = some (.ok c') ∧ c'.shape = pickShape ls ∧
      ∀ i, InBox c'.shape i → InBox (compress sl.length c.shape) (pickAt ls i) ∧
        c'.addr i = (Container.ofShape c.base (compress sl.length c.shape)).addr (pickAt ls i) := by
  obtain ⟨c', os, h1, h2, h3, _, h5, h6⟩ := slice_any_run md h hn hlen hint hc hv hmd
  refine ⟨c', h1, h3, ?_⟩
  intro i hi
  obtain ⟨hb, he⟩ := h6 i (h3 ▸ hi)
  refine ⟨hb, ?_⟩
  have hne : compress sl.length c.shape ≠ [] := by
    intro e
    have := compress_length hn hlen
    rw [e] at this; simp at this; omega
  rw [addr_eq h2 hi, addr_default (ofShape_default hne) hb, h5, Ptr.add, Ptr.add, Ptr.add]
  show Ptr.mk _ (_ + _ + _) = Ptr.mk _ (_ + linearize (sfx (compress sl.length c.shape)) (pickAt ls i))
  rw [← he, ← add_assoc]
  rfl

/-- Every second index, backwards: `reindex` gives the last index, `reshape` the half of the extent rounded up, `restride` twice the stride
with a minus sign. -/
def exBackwards : CustomSlicer where
  reindex := some fun s n => s.getD n 0 - 1
  reshape := some fun s n => (s.getD n 0 + 1).tdiv 2
  restride := some fun g n => -2 * g.getD n 0
  value := none
  hasStep := some true
  interval := false

/-- Index 1, five times. -/
def exRepeat : CustomSlicer where
  reindex := some fun _ _ => 1
  reshape := some fun _ _ => 5
  restride := some fun _ _ => 0
  value := none
  hasStep := some true
  interval := false

theorem exBackwards_chooses : ChoosesAll [2, 5] (distances [2, 5]) [.library .joker, .custom exBackwards] [[0, 1], [4, 2, 0]] := by
  refine ⟨rfl, rfl, ?_⟩
  intro n s l hs hl
  match n with
  | 0 => cases hs; cases hl; exact .library (d := 2) rfl (Picks.joker (by decide))
  | 1 =>
    cases hs
    have hl : l = (upTo 3).map fun j => 4 + j * -2 := by injection hl with hl; rw [← hl]; decide
    subst hl
    refine Chooses.custom (shp := [2, 5]) (st := distances [2, 5]) (n := 1) (s := exBackwards) (b := 4) (k := 3) (d := -2) (e := 5)
      ⟨.inl ⟨_, rfl, by decide⟩, .inl ⟨_, rfl, by decide⟩, 1, by decide, .inl ⟨_, rfl, by decide⟩⟩ rfl (by decide) ?_
    intro j h0 h1
    omega
  | n + 2 => cases hs

example : ∃ c', (Container.ofShape ⟨0, 0⟩ [2, 5]).sliceAny .checked [.library .joker, .custom exBackwards] = some (.ok c') ∧
    c'.shape = [2, 3] := by
  obtain ⟨c', h1, h2, -⟩ := C128_elements_partial .checked (c := Container.ofShape ⟨0, 0⟩ [2, 5]) (ofShape_default (by decide))
    (by decide) (by decide) ⟨.library .joker, by simp, by intro i e; cases e⟩ exBackwards_chooses
    (by intro s hs; simp at hs; subst hs; rfl) (by decide)
  exact ⟨c', h1, h2⟩

/-- The columns 4, 2 and 0 of a 2x5 container; a row repeated five times. -/
example : (do
    let c ← ((Container.ofShape ⟨0, 0⟩ [2, 5]).sliceAny .checked [.library .joker, .custom exBackwards]).getD (.error .assertion)
    reduce (oneBlock 0 ((List.range 10).map fun (k : Nat) => (k : Int))) c (fun a e => a ++ [e]) []) = .ok [4, 2, 0, 9, 7, 5] ∧
  (do
    let c ← ((Container.ofShape ⟨0, 0⟩ [2, 3]).sliceAny .checked [.custom exRepeat, .library .joker]).getD (.error .assertion)
    reduce (oneBlock 0 ((List.range 6).map fun (k : Nat) => (k : Int))) c (fun a e => a ++ [e]) []) =
      .ok [3, 4, 5, 3, 4, 5, 3, 4, 5, 3, 4, 5, 3, 4, 5] := by decide +kernel

/-- An object that only converts to an index. -/
def exConvertible (i : Int) : CustomSlicer where
  reindex := none
  reshape := none
  restride := none
  value := some i
  hasStep := none
  interval := false

/-- An object of a class that converts to `std::ptrdiff_t` selects no element of a container: the call does not compile. -/
theorem C128_full_false : ¬ C128_full := by
  intro h
  obtain ⟨c', h1, -⟩ := h .checked (Container.ofShape ⟨0, 0⟩ [3]) (ofShape_default (by decide)) [.custom (exConvertible 1)] [[1]]
    (by decide) (by decide) ⟨_, List.mem_singleton.2 rfl, by intro i e; cases e⟩
    (by
      refine ⟨rfl, rfl, ?_⟩
      intro n s l hs hl
      match n with
      | 0 =>
        cases hs; cases hl
        refine Chooses.custom (b := 1) (k := 1) (d := 1) (e := 3)
          ⟨.inr ⟨rfl, rfl⟩, .inr ⟨rfl, rfl⟩, 1, by decide, .inr ⟨rfl, rfl⟩⟩ rfl (by decide) ?_
        intro j h0 h1
        omega
      | n + 1 => cases hs)
    (by intro _ l hl; simp at hl; simp [hl])
  revert h1
  simp [Container.sliceAny, AnySlicer.isSlicer, exConvertible]

/-- **C128** A container can be sliced by a list of slicers exactly if there are at most as many slicers as axes, they are not all
integers, and those of the user have a member function `reindex` and no conversion to an integer. -/
theorem C128_compiles (md : Mode) (c : Container) (sl : List AnySlicer) :
    (∃ r, c.sliceAny md sl = some r) ↔ sl.length ≤ c.shape.length ∧ (∃ s ∈ sl, ∀ i, s ≠ .library (.index i)) ∧
      ∀ s, .custom s ∈ sl → (∃ f, s.reindex = some f) ∧ s.value = none := by
  have h1 : sl.all AnySlicer.isSlicer = true ↔ ∀ s, .custom s ∈ sl → (∃ f, s.reindex = some f) ∧ s.value = none := by
    rw [List.all_eq_true]
    refine ⟨fun h s hs => ?_, fun h s hs => ?_⟩
    · have := h _ hs
      simpa [AnySlicer.isSlicer, Option.isSome_iff_exists] using this
    · cases s with
      | library s => rfl
      | custom s => simpa [AnySlicer.isSlicer, Option.isSome_iff_exists] using h s hs
  have h2 : sl.all AnySlicer.integral = false ↔ ∃ s ∈ sl, ∀ i, s ≠ .library (.index i) := by
    rw [List.all_eq_false]
    refine exists_congr fun s => and_congr_right fun _ => ?_
    cases s with
    | custom s => exact ⟨fun _ i e => (by cases e), fun _ => Bool.false_ne_true⟩
    | library s =>
      cases s with
      | index i => exact ⟨fun h => absurd rfl h, fun h => absurd rfl (h i)⟩
      | _ => exact ⟨fun _ i e => (by cases e), fun _ => Bool.false_ne_true⟩
  unfold Container.sliceAny
  split
  · rename_i h
    rw [Bool.and_eq_true, Bool.and_eq_true, Bool.not_eq_true', decide_eq_true_eq] at h
    exact ⟨fun _ => ⟨h.1.2, h2.1 h.2, h1.1 h.1.1⟩, fun _ => ⟨_, rfl⟩⟩
  · rename_i h
    refine ⟨fun hr => (by obtain ⟨r, hr⟩ := hr; cases hr), fun ⟨a, b, d⟩ => absurd ?_ h⟩
    rw [h1.2 d, h2.2 b, decide_eq_true a]
    rfl

/-- A type with the member function can be used, also with fewer slicers than axes; not a type with a conversion beside it. -/
example : ((Container.ofShape ⟨0, 0⟩ [2, 3]).sliceAny .checked [.custom exRepeat]).isSome = true ∧
    ((Container.ofShape ⟨0, 0⟩ [2, 3]).sliceAny .checked [.library .joker, .custom { exRepeat with value := some 1 }]).isSome = false := by
  decide

/-- **C128** Slicing a shape: every extent is what the slicer of the axis announces, asked with the shape whose leading axes are merged;
a type that announces nothing selects one index.  Any type can be used. -/
theorem C128_shapes {shp : Shape} {sl : List AnySlicer}
    (hp : ∀ (n : Nat) (s : Slicer), sl[n]? = some (.library s) → ∃ l, Picks ((compress sl.length shp).getD n 0) s l) :
    ∃ r, shapeSliceAny shp sl = .ok r ∧ r.length = sl.length ∧
      (∀ (n : Nat) (s : Slicer) (l : List Int), sl[n]? = some (.library s) → Picks ((compress sl.length shp).getD n 0) s l →
        r[n]? = some (l.length : Int)) ∧
      ∀ (n : Nat) (s : CustomSlicer), sl[n]? = some (.custom s) →
        (∀ f, s.reshape = some f → r[n]? = some (f (compress sl.length shp) n)) ∧ (s.reshape = none → r[n]? = some 1) := by
  have key : ∀ (sl : List AnySlicer) (sh : Shape) (m : Nat), (∀ n s, sl[n]? = some (.library s) → ∃ l, Picks (sh.getD (m + n) 0) s l) →
      ∃ r, (sl.zipIdx m).mapM (fun (x : AnySlicer × Nat) => x.1.reshape sh x.2) = .ok r ∧ r.length = sl.length ∧
        ∀ (n : Nat) (s : AnySlicer), sl[n]? = some s → ∃ v, r[n]? = some v ∧ s.reshape sh (m + n) = .ok v := by
    intro sl sh
    induction sl with
    | nil => intro m _; exact ⟨[], rfl, rfl, by intro n s h; simp at h⟩
    | cons s sl ih =>
      intro m hp
      obtain ⟨r, e1, e2, e3⟩ := ih (m + 1) (by
        intro n s' hs'
        have := hp (n + 1) s' (by simpa using hs')
        rwa [show m + (n + 1) = m + 1 + n by omega] at this)
      obtain ⟨v, hv⟩ : ∃ v, s.reshape sh m = .ok v := by
        cases s with
        | library s =>
          obtain ⟨l, hl⟩ := hp 0 s rfl
          obtain ⟨_, _, r2, _⟩ := picks_axis hl
          exact ⟨_, r2⟩
        | custom s =>
          cases hf : s.reshape with
          | none => exact ⟨1, by simp only [AnySlicer.reshape, hf]⟩
          | some f => exact ⟨f sh m, by simp only [AnySlicer.reshape, hf]⟩
      refine ⟨v :: r, ?_, by simp [e2], ?_⟩
      · rw [List.zipIdx_cons, List.mapM_cons]
        simp only [hv, e1]; rfl
      · intro n s' hs'
        cases n with
        | zero => cases hs'; exact ⟨v, rfl, hv⟩
        | succ n =>
          obtain ⟨w, hw, hr⟩ := e3 n s' (by simpa using hs')
          refine ⟨w, by simpa using hw, ?_⟩
          rwa [show m + (n + 1) = m + 1 + n by omega]
  obtain ⟨r, e1, e2, e3⟩ := key sl (compress sl.length shp) 0 (by intro n s hs; rw [Nat.zero_add]; exact hp n s hs)
  refine ⟨r, e1, e2, ?_, ?_⟩
  · intro n s l hs hl
    obtain ⟨v, hv, h⟩ := e3 n _ hs
    obtain ⟨_, _, r2, _⟩ := picks_axis hl
    rw [Nat.zero_add, AnySlicer.reshape, r2] at h
    cases h
    exact hv
  · intro n s hs
    obtain ⟨v, hv, h⟩ := e3 n _ hs
    rw [Nat.zero_add] at h
    refine ⟨fun f hf => ?_, fun hf => ?_⟩
    · simp only [AnySlicer.reshape, hf, Except.ok.injEq] at h
      rw [hv, h]
    · simp only [AnySlicer.reshape, hf, Except.ok.injEq] at h
      rw [hv, h]

/-- Three slicers on a shape of four axes: the second one is asked about axis 1 of the shape 6x4x5. -/
example : shapeSliceAny [2, 3, 4, 5] [.custom (exConvertible 1), .custom { exRepeat with reshape := some fun s n => 10 * s.getD n 0 + n },
    .library .joker] = .ok [1, 41, 5] := by decide

/-- **C128** With at most three slicers, a slice that is reported as contiguous has its elements at consecutive addresses in row-major
order, provided that types which declare `has_step = false` announce consecutive indexes. -/
theorem C128_reported (md : Mode) {c c' : Container} (h : c.Default) {sl : List AnySlicer} {ls : List (List Int)}
    (hn : 0 < sl.length) (hlen : sl.length ≤ c.shape.length) (h3 : sl.length ≤ 3)
    (hc : ChoosesAll (compress sl.length c.shape) (distances (compress sl.length c.shape)) sl ls)
    (htrue : ∀ (n : Nat) (s : CustomSlicer) (l : List Int), sl[n]? = some (.custom s) → ls[n]? = some l →
      s.hasStep = some false → Consecutive l)
    (hmd : md = .checked → ∀ l ∈ ls, l ≠ []) (hc' : c.sliceAny md sl = some (.ok c')) (hr : c'.reach = true) :
    ∀ i, InBox c'.shape i → ∀ k, linearIndex md c'.shape i = .ok k → c'.addr i = c'.base.add k := by
  obtain ⟨-, hint, hcu⟩ := (C128_compiles md c sl).1 ⟨_, hc'⟩
  obtain ⟨c'', os, h1, h2, hsh, hre, h5, h6⟩ := slice_any_run md h hn hlen hint hc (fun s hs => (hcu s hs).2) hmd
  rw [hc'] at h1; cases h1
  intro i hi k hk
  rw [linearIndex_ok md hi] at hk
  cases hk
  rw [addr_eq h2 hi]
  congr 1
  rw [hre, Bool.and_eq_true] at hr
  have hr := hr.2
  obtain ⟨hl1, hl2, hch⟩ := hc
  rw [hsh] at hi ⊢
  have hz : ∀ i, InBox (pickShape ls) i → InBox (pickShape ls) (List.replicate ls.length 0) := by
    intro i hi
    clear * - hi
    induction ls generalizing i with
    | nil => exact .nil
    | cons l ls ih =>
      rw [pickShape, List.map_cons] at hi
      obtain ⟨k, i, rfl, hk, hi⟩ := inBox_cons_left hi
      have hk : 0 ≤ k ∧ k < (l.length : Int) := hk
      exact inBox_cons.2 ⟨(⟨le_refl _, by omega⟩ : (0 : Int) ≤ 0 ∧ 0 < (l.length : Int)), ih i hi⟩
  have hz1 := (h6 _ (hz i hi)).2
  have hi1 := (h6 i hi).2
  clear hc' hmd hcu hint
  generalize compress sl.length c.shape = cs at *
  have hzero : linearize c'.strides (List.replicate ls.length 0) = 0 := by
    generalize c'.strides = st
    generalize ls.length = m
    induction st generalizing m with
    | nil => simp [linearize]
    | cons a st ih =>
      cases m with
      | zero => simp [linearize]
      | succ m => rw [List.replicate_succ, linearize_cons, ih m, mul_zero, zero_add]
  rw [hzero, add_zero] at hz1
  rw [hz1] at hi1
  have get0 : ∀ {l : List Int} {j : Int}, Consecutive l → 0 ≤ j → j < l.length → l.getD j.toNat 0 = l.getD 0 0 + j := by
    intro l j ⟨a, ha⟩ h0 hj
    have e1 := getD_upTo_map (l.length : Int) j (fun k => a + k) h0 hj
    have e0 := getD_upTo_map (l.length : Int) 0 (fun k => a + k) (by omega) (by omega)
    rw [← ha] at e1 e0
    rw [e1]
    have e0' : l.getD 0 0 = a + 0 := e0
    rw [e0']; ring
  have unitCons : ∀ {n : Nat} {s : AnySlicer} {l : List Int}, sl[n]? = some s → ls[n]? = some l → s.unit = true → Consecutive l := by
    intro n s l hs hl hu
    have hx := hch n s l hs hl
    cases hx with
    | @library s d l hd hp =>
      obtain ⟨o, _, _, r3, _, _⟩ := picks_axis hp
      have : stepOf s = 1 := by
        cases s with
        | interval _ st _ _ =>
          cases st with
          | none => rfl
          | some v => cases hu
        | _ => rfl
      refine ⟨o, ?_⟩
      rw [this] at r3
      simpa using r3
    | @custom s b k d e hsay _ _ _ => exact htrue n s _ hs hl (by simpa [AnySlicer.unit] using hu)
  have hll : ls.length = sl.length := by omega
  match sl, ls, hll, h3 with
  | [], _, _, _ => simp at hn
  | [s], [l], _, _ =>
    obtain ⟨d, rfl⟩ : ∃ d, cs = [d] := by
      cases cs with
      | nil => simp at hl1
      | cons d t => cases t with
        | nil => exact ⟨d, rfl⟩
        | cons _ _ => simp at hl1
    have hcons := unitCons (n := 0) rfl rfl hr
    rw [pickShape, List.map_cons, List.map_nil] at hi ⊢
    obtain ⟨i0, i, rfl, hi0, hi⟩ := inBox_cons_left hi
    rw [inBox_nil] at hi
    subst hi
    have g := get0 hcons hi0.1 hi0.2
    simp only [sfx, List.prod_nil, pickAt, List.zipWith_cons_cons, List.zipWith_nil_right, List.length_cons, List.length_nil,
      Nat.zero_add, List.replicate_one, linearize_cons, linearize_nil_left, one_mul, add_zero, Int.toNat_zero, g] at hi1 ⊢
    omega
  | [s1, s0], [l1, l0], _, _ =>
    obtain ⟨d1, d0, rfl⟩ : ∃ d1 d0, cs = [d1, d0] := by
      match cs, hl1 with
      | [a, b], _ => exact ⟨a, b, rfl⟩
    rw [pickShape, List.map_cons, List.map_cons, List.map_nil] at hi ⊢
    obtain ⟨i1, i, rfl, hi1', hi⟩ := inBox_cons_left hi
    obtain ⟨i0, i, rfl, hi0', hi⟩ := inBox_cons_left hi
    rw [inBox_nil] at hi
    subst hi
    simp only [sfx, List.prod_nil, List.prod_cons, pickAt, List.zipWith_cons_cons, List.zipWith_nil_right, List.length_cons,
      List.length_nil, Nat.zero_add, List.replicate_succ, List.replicate_zero, linearize_cons, linearize_nil_left, one_mul, add_zero,
      Int.toNat_zero, mul_one] at hi1 ⊢
    have whole : s0 = .library .joker → (l0.length : Int) = d0 := by
      intro e
      have hx := hch 1 _ _ rfl rfl
      rw [e] at hx
      cases hx with
      | @library s d l hd hp =>
        cases hd
        cases hp with
        | joker hd => rw [upTo_length]; omega
    have run : Consecutive l1 → s0 = .library .joker → d0 * (l1.getD i1.toNat 0) + l0.getD i0.toNat 0 =
        d0 * (l1.getD 0 0) + l0.getD 0 0 + (l0.length * i1 + i0) := by
      intro hcon e
      rw [get0 hcon hi1'.1 hi1'.2, get0 (unitCons (n := 1) rfl rfl (by rw [e]; rfl)) hi0'.1 hi0'.2, whole e]
      ring
    have single : l1.length = 1 → s0.unit = true → d0 * (l1.getD i1.toNat 0) + l0.getD i0.toNat 0 =
        d0 * (l1.getD 0 0) + l0.getD 0 0 + (l0.length * i1 + i0) := by
      intro hone hu
      have hz : i1 = 0 := by omega
      rw [hz, get0 (unitCons (n := 1) rfl rfl hu) hi0'.1 hi0'.2]
      simp only [Int.toNat_zero]
      ring
    have hx1 := hch 0 _ _ rfl rfl
    have goal : d0 * (l1.getD i1.toNat 0) + l0.getD i0.toNat 0 =
        d0 * (l1.getD 0 0) + l0.getD 0 0 + (l0.length * i1 + i0) := by
      simp only [preservesReachabilityAny] at hr
      split at hr
      · exact run (unitCons (n := 0) rfl rfl rfl) rfl
      · refine single ?_ hr
        cases hx1 with
        | library _ hp => cases hp with
          | index _ _ => rfl
      · refine single ?_ hr
        cases hx1 with
        | library _ hp => cases hp with
          | ext _ _ _ => rfl
      · exact run (unitCons (n := 0) rfl rfl rfl) rfl
      · rename_i s1
        rw [Bool.and_eq_true] at hr
        exact run (unitCons (n := 0) rfl rfl (by simpa [AnySlicer.unit] using hr.2)) rfl
      · cases hr
    rw [goal] at hi1
    have := add_left_cancel hi1
    exact this
  | [s2, s1, s0], [l2, l1, l0], _, _ =>
    simp [preservesReachabilityAny] at hr
  | _ :: _ :: _ :: _ :: _, _, _, h3 => simp only [List.length_cons] at h3; omega

/-- Rows 1 and 2 of a 4x3 container, by a type that declares that it is an interval without step. -/
example : ((Container.ofShape ⟨0, 0⟩ [4, 3]).sliceAny .checked [.custom { exRepeat with
      reshape := some fun _ _ => 2, restride := none, hasStep := some false, interval := true }, .library .joker]).map
        (fun r => r.map fun c => (c.shape, c.reach, c.base.off)) = some (.ok ([2, 3], true, 3)) := by decide

end Kwk
