import Verif.Spec.ArraySlices
import Verif.Props.Arrays
import Verif.Props.TypedViews
import Verif.Lemmas.Typed

/-! # Lemmas: slices of arrays -/

namespace Kwk
open Spec

variable {α β : Type}

theorem default_stride {c : DataT} (h : DefaultD c) : c.stride = c.strides := by
  obtain ⟨hne, hst, hs, hsz⟩ := h
  unfold DataT.stride
  split
  · rfl
  · split
    · next e1 e2 =>
      rw [e2] at hst
      exact Except.ok.inj hst
    · next d0 d1 e1 e2 =>
      rw [e2] at hst hs
      have hd := hs d1 (by simp)
      obtain ⟨g1, -⟩ := natural_op (f := (· * ·)) (a := d1) (b := fixedOne) hd ⟨by decide, by decide⟩
        (by show 0 ≤ d1.value * 1; simpa using hd.1) (by
          show (d1.type.common fixedOne.type).Fits (d1.value * 1)
          rw [mul_one]; exact (common_fits_nonneg hd.2 hd.1).1)
      have e : asStrideT [d0, d1] = .ok [⟨d1.type.common .i32, d1.value * 1⟩, fixedOne] := by
        show (do let g ← constMul d1 fixedOne; pure [g, fixedOne]) = _
        rw [show constMul d1 fixedOne = _ from g1]
        rfl
      rw [← Except.ok.inj (e.symm.trans hst)]
      unfold Coord.convert
      rw [IntType.wrap_fits (common_fits_nonneg hd.2 hd.1).1, mul_one]
    · rfl

theorem mapM_len {A B : Type} {f : A → Res B} {l : List A} {r : List B} (h : l.mapM f = .ok r) : r.length = l.length := by
  induction l generalizing r with
  | nil => rw [← Except.ok.inj h]; rfl
  | cons a l ih =>
    rw [List.mapM_cons] at h
    simp only [bind, Except.bind] at h
    split at h
    · cases h
    split at h
    · cases h
    rename_i e
    rw [← Except.ok.inj h, List.length_cons, List.length_cons, ih e]

theorem slice_lengths {md : Mode} {s st : List Coord} {xcs : List SlicerC} {start : Int} {shp str : List Coord}
    (h : sliceT md s st xcs = .ok (start, shp, str)) (hl : st.length = s.length) : str.length = shp.length := by
  unfold sliceT at h
  simp only [bind, Except.bind] at h
  split at h
  · cases h
  split at h
  · cases h
  split at h
  · cases h
  rename_i e1
  split at h
  · cases h
  rename_i e2
  have e := Except.ok.inj h
  simp only [Prod.mk.injEq] at e
  obtain ⟨-, rfl, rfl⟩ := e
  have l1 := mapM_len e1
  have l2 := mapM_len e2
  rw [l1, l2, List.length_zip, List.length_zip, hl]

/-- A view with explicit strides has its elements where `elementT` says. -/
theorem view_addr {blk : Nat} {off start o : Int} {shp str is : List Coord} {static : Bool} (hl : str.length = shp.length)
    (h : elementT start str is = .ok o) :
    (⟨⟨blk, off + start⟩, shp, str, true, static⟩ : DataT).addr is = .ok ⟨blk, off + o⟩ := by
  unfold elementT at h
  simp only [bind, Except.bind] at h
  split at h
  · cases h
  rename_i k hk
  have h := (Except.ok.inj h).symm
  have key : ∃ k', (⟨⟨blk, off + start⟩, shp, str, true, static⟩ : DataT).index is = .ok k' ∧ k'.value = k.value := by
    unfold DataT.index
    split
    · exact ⟨k, hk, rfl⟩
    · split
      · next e _ => cases e
      · next d i e1 e2 =>
        simp only at e2 hl ⊢
        subst e2
        cases str with
        | nil => simp at hl
        | cons g gs =>
          cases gs with
          | cons => simp at hl
          | nil =>
            simp only [List.headD_cons]
            have hk : (do constAdd ⟨.i32, 0⟩ (← constMul g i)) = .ok k := by
              rw [← hk]
              unfold linearizeT
              rw [List.zip_cons_cons, List.foldlM_cons]
              exact (bind_pure _).symm
            simp only [bind, Except.bind] at hk
            split at hk
            · cases hk
            rename_i v hv
            refine ⟨v, ?_, ?_⟩
            · rw [← hv]
              unfold constMul constOp
              rw [IntType.common_comm]
              simp only [mul_comm]
            · have hv' := constOp_in hv
              have h0 : ((⟨.i32, 0⟩ : Coord).type.common v.type) = v.type := by
                rw [hv'.1]
                unfold IntType.common IntType.promote IntType.i32
                simp only
                grind
              unfold constAdd constOp at hk
              simp only [bind, Except.bind, h0] at hk
              split at hk
              · cases hk
              rename_i w hw
              have e : k = ⟨v.type, w⟩ := (Except.ok.inj hk).symm
              rw [e]
              have z : v.type.Fits 0 ∧ 0 < v.type.bits := by rw [hv'.1]; exact common_fits_zero
              rw [IntType.wrap_fits z.1, IntType.wrap_fits hv'.2, zero_add, IntType.op_fits hv'.2] at hw
              exact Except.ok.inj hw
      · next e _ => cases e
      · exact ⟨k, hk, rfl⟩
  obtain ⟨k', hk', hv⟩ := key
  unfold DataT.addr
  rw [hk']
  show Except.ok _ = Except.ok _
  rw [h]
  unfold ptrAdd
  rw [hv, add_assoc]

theorem default_strides_length {c : DataT} (h : DefaultD c) : c.strides.length = c.shape.length := by
  have hst := h.2.1
  have hne := h.1
  revert hst hne
  generalize c.shape = s
  generalize c.strides = st
  match s with
  | [] => intro _ h; exact absurd rfl h
  | [_] => intro h _; rw [← Except.ok.inj h]; rfl
  | d :: e :: ds =>
    intro h _
    have key : ∀ (l : List Coord) (r : List Coord), l.foldr (fun (m : Coord) (a : Res (List Coord)) => do
        let a ← a
        let g ← constMul m (a.headD fixedOne)
        pure (g :: a)) (pure [fixedOne]) = .ok r → r.length = l.length + 1 := by
      intro l
      induction l with
      | nil => intro r h; rw [← Except.ok.inj h]; rfl
      | cons m l ih =>
        intro r h
        rw [List.foldr_cons] at h
        simp only [bind, Except.bind] at h ih
        split at h
        · cases h
        rename_i a ha
        split at h
        · cases h
        rw [← Except.ok.inj h, List.length_cons, List.length_cons, ih _ ha]
    exact key (e :: ds) st h

/-- The slice is made in this mode as it is in unchecked builds. -/
def SlicesIn (md : Mode) (s : List Coord) (xs : List SlicerT) : Prop :=
  ∀ xcs st, xs.mapM SlicerT.build = .ok xcs → asStrideT s = .ok st → sliceT md s st xcs = sliceT .unchecked s st xcs

theorem zero_inBox {s : List Coord} (h : ∀ d ∈ s, 0 < d.value) : InBox (vals s) (s.map fun _ => 0) := by
  induction s with
  | nil => exact .nil
  | cons d s ih => exact inBox_cons.2 ⟨⟨le_rfl, h d (by simp)⟩, ih fun d hd => h d (by simp [hd])⟩

theorem slicesIn_unchecked (s : List Coord) (xs : List SlicerT) : SlicesIn .unchecked s xs := fun _ _ _ _ => rfl

/-- If the numbers that are written as first indexes have types that represent the extents. -/
theorem slicesIn_small {s : List Coord} {xs : List SlicerT} {ls : List (List Int)}
    (hf : (vals s).prod < 2147483648) (hp : PicksAll (vals s) (xs.map (·.erase)) ls) (hne : ∀ l ∈ ls, l ≠ [])
    (hx : SlicerT.FitsAll NotUnsignedInt s (distances (vals s)) xs) {md : Mode}
    (hm : md = .checked → ∀ x ∈ s.zip xs, ∀ i ∈ x.2.first, i.type.Fits x.1.value) : SlicesIn md s xs := by
  intro xcs st h1 h2
  cases md with
  | unchecked => rfl
  | checked =>
    obtain ⟨xcs', st', g1, g2, g3⟩ := C102_checked_partial hf hp hne hx (hm rfl)
    obtain rfl := Except.ok.inj (g1.symm.trans h1)
    obtain rfl := Except.ok.inj (g2.symm.trans h2)
    exact g3

theorem slicesIn_long {s : List Coord} {xs : List SlicerT} {ls : List (List Int)}
    (ht : ∀ c ∈ s, c.type = .i64) (hf : (vals s).prod < 2 ^ 63)
    (hp : PicksAll (vals s) (xs.map (·.erase)) ls) (hne : ∀ l ∈ ls, l ≠ [])
    (hx : SlicerT.LongAll (vals s) (distances (vals s)) xs) {md : Mode}
    (hm : md = .checked → (∀ d ∈ s, d.value < 2147483648) ∧ ∀ x ∈ s.zip xs, ∀ i ∈ x.2.first, i.type.Fits x.1.value) :
    SlicesIn md s xs := by
  intro xcs st h1 h2
  cases md with
  | unchecked => rfl
  | checked =>
    obtain ⟨hd, hi⟩ := hm rfl
    have hz : InBox (pickShape ls) (vals ((pickShape ls).map fun _ => (⟨.i32, 0⟩ : Coord))) := by
      have e1 : vals ((pickShape ls).map fun _ => (⟨.i32, 0⟩ : Coord)) = ((pickShape ls).map fun d => (⟨.i32, d⟩ : Coord)).map fun _ => 0 := by
        simp only [vals, List.map_map]; rfl
      have e2 : pickShape ls = vals ((pickShape ls).map fun d => (⟨.i32, d⟩ : Coord)) := by
        simp only [vals, List.map_map]
        exact (List.map_id _).symm
      rw [e1]
      conv => lhs; rw [e2]
      refine zero_inBox fun d hd => ?_
      obtain ⟨d', hd', rfl⟩ := List.mem_map.1 hd
      obtain ⟨l, hl, rfl⟩ := List.mem_map.1 hd'
      have := List.length_pos_iff.2 (hne l hl)
      show (0 : Int) < (l.length : Int)
      omega
    obtain ⟨xcs', st', start, shp, str, os, g1, g2, g3, g4, -, g5, -⟩ := slices_long
      (p := (pickShape ls).map fun _ => (⟨.i32, 0⟩ : Coord)) ht hf hp hne hx
      (fun c hc => by obtain ⟨_, -, rfl⟩ := List.mem_map.1 hc; decide) hz
    obtain rfl := Except.ok.inj (g1.symm.trans h1)
    obtain rfl := Except.ok.inj (g2.symm.trans h2)
    have hc : containsM (vals s) os = true := by
      rw [contains_first g1 g3 g4 hd]
      exact first_holds g1 g3 g4 hi
    rw [g5 .checked (by rw [hc]; rfl), g5 .unchecked rfl]

/-- What is known of a slice of a container in memory. -/
theorem slice_stands {c : DataT} (h : DefaultD c) {xs : List SlicerT} {ls : List (List Int)} (hc : PickedCells c.shape xs ls)
    (hp : PicksAll (vals c.shape) (xs.map (·.erase)) ls) {md : Mode} (hm : SlicesIn md c.shape xs) (static : Bool) :
    ∃ xcs c' b, xs.mapM SlicerT.build = .ok xcs ∧ sliceD md static c xcs = .ok c' ∧
      (plainOf c).slice .unchecked (xs.map (·.erase)) = .ok b ∧ Stands c' b ∧ b.shape = pickShape ls ∧ Distinct b ∧
      ∀ i, InBox b.shape i → InBox (vals c.shape) (pickAt ls i) ∧ b.addr i = (plainOf c).addr (pickAt ls i) := by
  obtain ⟨xcs, st, start, shp, str, h1, h2, h3, h4, h5, h6⟩ := hc
  obtain ⟨b, g1, g2, g3, g4, -⟩ := slice_facts .unchecked (plain_default h) (show PicksAll (plainOf c).shape _ ls from hp) (by simp)
  obtain rfl := Except.ok.inj (h2.symm.trans h.2.1)
  refine ⟨xcs, ⟨⟨c.base.blk, c.base.off + start⟩, shp, str, true, static⟩, b, h1, ?_, g1, ⟨h5, h4.trans g2.symm, ?_⟩, g2, g3, g4⟩
  · unfold sliceD
    rw [default_stride h, hm xcs _ h1 h2, h3]
    rfl
  · intro p hb
    have hb' : InBox (pickShape ls) p := by rw [← h4]; exact hb
    obtain ⟨i1, i2⟩ := g4 p (by rw [g2]; exact hb')
    refine (view_addr (slice_lengths h3 (default_strides_length h)) (h6 p hb')).trans ?_
    rw [i2, plain_addr h i1, rowPlace_eq]

/-! ## Selected numbers -/

theorem numbers_mem {s : List Int} {ls : List (List Int)} (hin : ∀ p ∈ selection ls, InBox s p) {k : Nat} {p : List Int}
    (hk : (positions s)[k]? = some p) : k ∈ numbersOf s ls ↔ p ∈ selection ls := by
  have hn := positions_nodup s
  obtain ⟨hlt, he⟩ := List.getElem?_eq_some_iff.1 hk
  unfold numbersOf
  rw [List.mem_map]
  constructor
  · rintro ⟨q, hq, e⟩
    have hm := mem_positions.2 (hin q hq)
    have := List.getElem_idxOf (List.idxOf_lt_length_iff.2 hm)
    simp only [e] at this
    rw [← he, this]
    exact hq
  · intro hp
    refine ⟨p, hp, ?_⟩
    rw [← he]
    exact hn.idxOf_getElem k hlt

theorem entries_eq {s : List Int} {ls : List (List Int)} (hin : ∀ p ∈ selection ls, InBox s p) (val : List Int → α) :
    entriesOf ((positions s).map val) (numbersOf s ls) = (selection ls).map val := by
  unfold entriesOf numbersOf
  rw [List.filterMap_map]
  have : ∀ p ∈ selection ls, ((fun n => ((positions s).map val)[n]?) ∘ fun p => (positions s).idxOf p) p = some (val p) := by
    intro p hp
    have hm := mem_positions.2 (hin p hp)
    have hlt := List.idxOf_lt_length_iff.2 hm
    simp only [Function.comp, List.getElem?_map, List.getElem?_eq_getElem hlt, List.getElem_idxOf, Option.map_some]
  rw [List.filterMap_congr this]
  exact congrFun List.filterMap_eq_map _

theorem change_array [Nonempty α] {c : DataT} (h : DefaultD c) {ls : List (List Int)} (hin : ∀ p ∈ selection ls, InBox (vals c.shape) p)
    {m m' : Mem α} {val : List Int → α} {f : Nat → α → α}
    (h1 : ∀ (k : Nat) p, (positions (vals c.shape))[k]? = some p → p ∈ selection ls → (plainOf c).get m' p = .ok (f k (val p)))
    (h2 : ∀ p, InBox (vals c.shape) p → p ∉ selection ls → (plainOf c).get m' p = .ok (val p))
    (ho : SameOutside (plainOf c) m m') :
    ArrayAt m' c.base (changeAt (numbersOf (vals c.shape) ls) f ((positions (vals c.shape)).map val)) ∧
      SameBut c.base ((positions (vals c.shape)).map val).length m m' := by
  have hpl := positions_length (default_nonNeg h)
  have hl : (changeAt (numbersOf (vals c.shape) ls) f ((positions (vals c.shape)).map val)).length =
      (positions (vals c.shape)).length := by simp [changeAt]
  refine toLists h (by rw [List.length_map]; exact hpl) (by rw [hl, List.length_map]) (lists_of hl fun k p hk => ?_) ho
  have hk : (positions (vals c.shape))[k]? = some p := hk
  refine ⟨if k ∈ numbersOf (vals c.shape) ls then f k (val p) else val p, ?_, ?_⟩
  · unfold changeAt
    rw [List.getElem?_mapIdx, List.getElem?_map, hk]
    rfl
  · split
    · next hm => exact h1 k p hk ((numbers_mem hin hk).1 hm)
    · next hm => exact h2 p (mem_positions.1 (List.mem_of_getElem? hk)) fun hs => hm ((numbers_mem hin hk).2 hs)

theorem holds_nonempty {c : DataT} {m : Mem α} {vs : List α} (h : HoldsD c m vs) {p : List Int} (hp : InBox (vals c.shape) p) :
    Nonempty α := by
  have hl := h.2.1
  have hpl := positions_length (default_nonNeg h.1)
  have hm := List.length_pos_of_mem (mem_positions.2 hp)
  cases vs with
  | nil =>
    rw [show (c.shape.map (·.value)) = vals c.shape from rfl, ← hpl] at hl
    simp only [List.length_nil] at hl
    omega
  | cons v _ => exact ⟨v⟩

/-- Values written through a slice, in the array of the container. -/
theorem put_array [Nonempty α] {c : DataT} (h : DefaultD c) {ls : List (List Int)} {b : Container} (h5 : b.shape = pickShape ls)
    (h7 : ∀ i, InBox b.shape i → InBox (vals c.shape) (pickAt ls i) ∧ b.addr i = (plainOf c).addr (pickAt ls i))
    (hnd : (selection ls).Nodup) (hsel : ∀ p, p ∈ selection ls ↔ Selected ls p) (hin : ∀ p ∈ selection ls, InBox (vals c.shape) p)
    {m m' : Mem α} {val : List Int → α} (he : ∀ p, InBox (plainOf c).shape p → (plainOf c).get m p = .ok (val p))
    {ws : List α} (h8 : Lists b m' ws) (h9 : SameOutside b m m') :
    ArrayAt m' c.base (putAt (numbersOf (vals c.shape) ls) ws ((positions (vals c.shape)).map val)) ∧
      SameBut c.base ((positions (vals c.shape)).map val).length m m' := by
  obtain ⟨vi, f2, hws⟩ := lists_elems h8
  obtain ⟨o1, o2⟩ := seen_outside (plain_default h) h5 h7 h9
  refine change_array h hin (fun k p hk hps => ?_) (fun p hb hps => ?_) o2
  · obtain ⟨j, hj, hjp⟩ := List.getElem_of_mem hps
    have hj' : j < (positions (pickShape ls)).length := by rwa [selection_eq, List.length_map] at hj
    have hpi : p = pickAt ls (positions (pickShape ls))[j] := by
      rw [← hjp]
      simp only [selection_eq, List.getElem_map]
    have hbi : InBox b.shape (positions (pickShape ls))[j] := by rw [h5]; exact mem_positions.1 (List.getElem_mem hj')
    have hnn : (numbersOf (vals c.shape) ls).Nodup := by
      refine List.Nodup.map_on (fun q hq r hr e => ?_) hnd
      have e1 := List.getElem_idxOf (List.idxOf_lt_length_iff.2 (mem_positions.2 (hin q hq)))
      have e2 := List.getElem_idxOf (List.idxOf_lt_length_iff.2 (mem_positions.2 (hin r hr)))
      rw [← e1, ← e2]
      simp only [show (positions (vals c.shape)).idxOf q = _ from e]
    have hjn : j < (numbersOf (vals c.shape) ls).length := by
      show j < ((selection ls).map _).length
      rwa [List.length_map]
    have hnk : (numbersOf (vals c.shape) ls)[j] = k := by
      have e : (numbersOf (vals c.shape) ls)[j] = (positions (vals c.shape)).idxOf (selection ls)[j] := List.getElem_map _
      rw [e, hjp]
      obtain ⟨hlt, hke⟩ := List.getElem?_eq_some_iff.1 hk
      rw [← hke]
      exact (positions_nodup _).idxOf_getElem k hlt
    have : ws.getD ((numbersOf (vals c.shape) ls).idxOf k) (val p) = vi (positions (pickShape ls))[j] := by
      rw [← hnk, hnn.idxOf_getElem, hws, h5, List.getD_eq_getElem?_getD, List.getElem?_map, List.getElem?_eq_getElem hj']
      rfl
    rw [this]
    have := f2 _ hbi
    unfold Container.get at this ⊢
    rwa [(h7 _ hbi).2, ← hpi] at this
  · rw [o1 p hb fun g => hps ((hsel p).2 g)]
    exact he p hb

/-- The algorithms on a slice whose cells are the right ones. -/
theorem acts_of [DecidableEq α] {c : DataT} (h : DefaultD c) {xs : List SlicerT} {ls : List (List Int)} (hc : PickedCells c.shape xs ls)
    (hp : PicksAll (vals c.shape) (xs.map (·.erase)) ls) (hne : ∀ l ∈ ls, l ≠ []) {md : Mode} (hm : SlicesIn md c.shape xs)
    (static : Bool) : ActsOnPicked α md static c xs ls := by
  obtain ⟨xcs, c', b, h1, h2, h3, h4, h5, h6, h7⟩ := slice_stands h hc hp hm static
  refine ⟨xcs, c', h1, h2, h4.shape.trans h5, fun m vs hv => ?_⟩
  obtain ⟨hnd, hsel⟩ := C112_selection hp
  have hin : ∀ p ∈ selection ls, InBox (vals c.shape) p := by
    intro p hps
    obtain ⟨i, hi, rfl⟩ := selected_iff.1 ((hsel p).1 hps)
    exact (h7 i (by rw [h5]; exact hi)).1
  have : Nonempty α := holds_nonempty hv (h7 _ (by rw [h5]; exact pick_zero hne)).1
  have hd := plain_default h
  obtain ⟨val, he, hvs⟩ := lists_elems (holds_lists hv)
  have hvs : vs = (positions (vals c.shape)).map val := hvs
  have hp : PicksAll (plainOf c).shape (xs.map (·.erase)) ls := hp
  have eys : entriesOf vs (numbersOf (c.shape.map (·.value)) ls) = (selection ls).map val := by
    rw [hvs]
    exact entries_eq hin val
  have hys : Lists b m ((selection ls).map val) := by
    have := elems_lists (slice_elems he h7)
    rw [h5] at this
    rw [selection_eq, List.map_map]
    exact this
  intro ns
  have put : ∀ (m' : Mem α) (ws : List α), Lists b m' ws → SameOutside b m m' →
      ArrayAt m' c.base (putAt ns ws vs) ∧ SameBut c.base vs.length m m' := by
    intro m' ws h8 h9
    rw [hvs]
    exact put_array h h5 h7 hnd hsel hin he h8 h9
  have hnl : ns.length = ((selection ls).map val).length := by
    show ((selection ls).map _).length = _
    rw [List.length_map, List.length_map]
  rw [show entriesOf vs ns = _ from eys]
  refine ⟨fun β op init => ?_, fun f => ?_, fun f => ?_, fun v => ?_, fun P v => ?_, fun f d => ?_, fun β incr conv v => ?_, fun g => ?_, fun β f1 f2 init => ?_,
    fun out ws ho hs ha β f1 f2 init => ?_, fun inp ws d hi hs ha => ?_⟩
  · rw [reduceD_eq h4]
    exact (C117_reading hys (fun _ => true) (Classical.arbitrary α) op init).1
  · unfold countIfD
    rw [reduceD_eq h4]
    exact (C117_reading hys f (Classical.arbitrary α) (fun (a : Nat) _ => a) 0).2.2.2.2.1
  · have e := (C117_find hys f (Classical.arbitrary α)).1
    unfold findIf at e
    rw [findIfD_eq h4, e, h5]
    show Except.ok _ = Except.ok _
    congr 1
    cases hk : (((selection ls).map val).findIdx? f).bind (place (pickShape ls)) with
    | none => rfl
    | some p =>
      show some _ = some _
      congr 1
      obtain ⟨k, -, hpk⟩ := Option.bind_eq_some_iff.1 hk
      refine store_counters ?_ (by rw [h4.shape, h5]; exact mem_positions.1 (List.mem_of_getElem? hpk))
      have l1 := (hnd.subperm fun p hps => mem_positions.2 (hin p hps)).length_le
      have l2 := positions_length (default_nonNeg h)
      have l3 := positions_length (s := pickShape ls) (by
        intro d hd
        obtain ⟨l, -, rfl⟩ := List.mem_map.1 hd
        omega)
      have l4 := default_bound h
      rw [selection_eq, List.length_map] at l1
      rw [h4.shape, h5]
      omega
  · obtain ⟨b', m', f1, f2, f3, f4⟩ := C112_fill .unchecked hd hp (by simp) he v
    obtain rfl := Except.ok.inj (h3.symm.trans f1)
    refine ⟨m', ?_, ?_⟩
    · rw [← f2]; unfold fillD fill; rw [mapCtxD_eq h4 .nil]
    · rw [hvs]
      exact change_array h hin (fun k p hk hs => (f4 p (hin p hs)).1 ((hsel p).1 hs))
        (fun p hb hs => (f4 p hb).2 fun g => hs ((hsel p).2 g)) f3
  · obtain ⟨b', m', f1, f2, f3, f4⟩ := C112_replace_if .unchecked hd hp (by simp) he P v
    obtain rfl := Except.ok.inj (h3.symm.trans f1)
    refine ⟨m', ?_, ?_⟩
    · rw [← f2]; unfold replaceIfD replaceIf; rw [mapCtxD_eq h4 .nil]
    · rw [hvs]
      refine change_array h hin (fun k p hk hs => ?_) (fun p hb hs => (f4 p hb).2 fun g => hs ((hsel p).2 g.1)) f3
      cases hP : P (val p) with
      | true => exact (f4 p (hin p hs)).1 ⟨(hsel p).1 hs, hP⟩
      | false => exact (f4 p (hin p hs)).2 (by simp [hP])
  · obtain ⟨b', m', f1, f2, f3, f4⟩ := C112_transform .unchecked hd hp (by simp) he f d
    obtain rfl := Except.ok.inj (h3.symm.trans f1)
    refine ⟨m', ?_, ?_⟩
    · rw [← f2]; unfold transformD transform; rw [mapCtxD_eq h4 (.cons h4.cells .nil)]
    · rw [hvs]
      exact change_array h hin (fun k p hk hs => (f4 p (hin p hs)).1 ((hsel p).1 hs))
        (fun p hb hs => (f4 p hb).2 fun g => hs ((hsel p).2 g)) f3
  · obtain ⟨-, -, -, -, m', d1, d2, d3⟩ := C117_writing h6 hys (Classical.arbitrary α) (Classical.arbitrary α) id (fun _ => true)
      (fun _ => Classical.arbitrary α) incr conv v
    refine ⟨m', ?_, put m' _ (by rw [hnl]; exact d2) d3⟩
    rw [← d1]; unfold iotaD iota; rw [mapCtxD_eq h4 .nil]
  · obtain ⟨-, -, -, ⟨m', d1, d2, d3⟩, -⟩ := C117_writing h6 hys (Classical.arbitrary α) (Classical.arbitrary α) id (fun _ => true)
      (fun is => g (typedAs c'.shape is)) id (fun x => x) (Classical.arbitrary α)
    refine ⟨m', ?_, put m' _ ?_ d3⟩
    · rw [← d1]; unfold generateD generate; rw [mapIndexCtxD_eq h4]
    · rw [h5] at d2
      convert d2 using 2
      funext p
      unfold counters typedAs
      rw [List.map_zip_eq_zipWith]
      rfl
  · obtain ⟨⟨m', d1, d2, d3⟩, -⟩ := C117_scans rfl h6 (fun i hb => ⟨_, slice_elems he h7 i hb⟩)
      (fun p q hp hq hlt e => hlt.ne (h6 _ _ hq hp e)) hys init f1 f2
    refine ⟨m', ?_, put m' _ d2 d3⟩
    rw [← d1]
    unfold transformInclusiveScanD transformInclusiveScan
    rw [mapCtxD_eq h4 (.cons h4.cells .nil)]
  · have hso : vals out.shape = pickShape ls := hs
    have hne' : ∀ p q, InBox (vals out.shape) p → InBox (vals out.shape) q → (plainOf out).addr q ≠ b.addr p := by
      intro p q hbp hbq e
      obtain ⟨i1, i2⟩ := h7 p (by rw [h5, ← hso]; exact hbp)
      rw [i2, plain_addr h i1, plain_addr ho.1 hbq] at e
      simp only [Ptr.mk.injEq] at e
      have b1 := lin_bounds i1
      have b2 := lin_bounds hbq
      have n1 : (vs.length : Int) = (vals c.shape).prod := hv.2.1
      have n2 : (ws.length : Int) = (vals out.shape).prod := ho.2.1
      rcases ha with ha | ha | ha
      · exact ha e.1.symm
      · omega
      · omega
    have hvo : Valid (plainOf out) m := by
      obtain ⟨vo, heo, -⟩ := lists_elems (holds_lists ho)
      exact fun p hp => ⟨_, heo p hp⟩
    have hn : (ws.length : Int) = (vals out.shape).prod := ho.2.1
    have hcells : List.Forall₂ (SameCells c'.shape) [out] [plainOf out] :=
      .cons (default_cells h4.fits ho.1 (by rw [h4.shape, h5]; exact hs)) .nil
    obtain ⟨⟨m1, a1, a2, a3⟩, hex⟩ := C117_scans (show (plainOf out).shape = b.shape by rw [h5]; exact hso)
      (default_distinct (plain_default ho.1)) hvo (fun p q hp hq _ e => hne' p q hp hq e) hys init f1 f2
    obtain ⟨m2, b1, b2, b3⟩ := hex fun p hp => hne' p p hp hp
    have l1 := lists_ne ho.1 (b := plainOf out) rfl a2
    have l2 := lists_ne ho.1 (b := plainOf out) rfl b2
    refine ⟨⟨m1, ?_, toLists ho.1 hn (by omega) a2 a3⟩, ⟨m2, ?_, toLists ho.1 hn (by omega) b2 b3⟩⟩
    · rw [← a1]
      unfold transformInclusiveScanD transformInclusiveScan
      rw [mapCtxD_eq h4 hcells]
    · rw [← b1]
      unfold transformExclusiveScanD transformExclusiveScan
      rw [mapCtxD_eq h4 hcells]
  · have hs' : (plainOf inp).shape = pickShape ls := hs
    have hcl : NoClobber b (plainOf inp) := by
      intro p q hbp hbq _ e
      obtain ⟨i1, i2⟩ := h7 q hbq
      have hbp : InBox (vals inp.shape) p := by rw [show vals inp.shape = pickShape ls from hs, ← h5]; exact hbp
      rw [i2, plain_addr h i1, plain_addr hi.1 hbp] at e
      simp only [Ptr.mk.injEq] at e
      have b1 := lin_bounds i1
      have b2 := lin_bounds hbp
      have n1 : (vs.length : Int) = (vals c.shape).prod := hv.2.1
      have n2 : (ws.length : Int) = (vals inp.shape).prod := hi.2.1
      rcases ha with ha | ha | ha
      · exact ha e.1
      · omega
      · omega
    obtain ⟨m', f1, f2, f3⟩ := (C117_copy (show b.shape = (plainOf inp).shape by rw [h5]; exact hs.symm) h6 hcl (holds_lists hi) hys
      (fun _ => true) d).1
    refine ⟨m', ?_, put m' ws f2 f3⟩
    rw [← f1]
    unfold copyD copy transformD transform
    rw [mapCtxD_eq h4 (.cons (default_cells h4.fits hi.1 (by rw [h4.shape, h5]; exact hs)) .nil)]

/-- A copy of a slice whose cells are the right ones. -/
theorem copies_of {P : IntType → Prop} {c : DataT} (h : DefaultD c) {xs : List SlicerT} {ls : List (List Int)}
    (hc : PickedAny P c.shape xs ls) (hp : PicksAll (vals c.shape) (xs.map (·.erase)) ls) (hne : ∀ l ∈ ls, l ≠ []) {md : Mode}
    (hm : SlicesIn md c.shape xs) (static : Bool) : CopiesPicked α P md static c xs ls := by
  obtain ⟨xcs, c', b, h1, h2, h3, h4, h5, h6, h7⟩ := slice_stands h (any_cells hc) hp hm static
  refine ⟨xcs, c', h1, h2, fun m vs out ws d hv ho hP hs ha => ?_⟩
  obtain ⟨hnd, hsel⟩ := C112_selection hp
  have hin : ∀ p ∈ selection ls, InBox (vals c.shape) p := by
    intro p hps
    obtain ⟨i, hi, rfl⟩ := selected_iff.1 ((hsel p).1 hps)
    exact (h7 i (by rw [h5]; exact hi)).1
  have : Nonempty α := holds_nonempty hv (h7 _ (by rw [h5]; exact pick_zero hne)).1
  obtain ⟨val, he, hvs⟩ := lists_elems (holds_lists hv)
  have hvs : vs = (positions (vals c.shape)).map val := hvs
  have eys : entriesOf vs (numbersOf (c.shape.map (·.value)) ls) = (selection ls).map val := by
    rw [hvs]
    exact entries_eq hin val
  have hys : Lists b m ((selection ls).map val) := by
    have := elems_lists (slice_elems he h7)
    rw [h5] at this
    rw [selection_eq, List.map_map]
    exact this
  have hso : vals out.shape = pickShape ls := hs
  have hcl : NoClobber (plainOf out) b := by
    intro p q hbp hbq _ e
    have hbq : InBox (vals out.shape) q := hbq
    have hbp : InBox (vals out.shape) p := hbp
    obtain ⟨i1, i2⟩ := h7 p (by rw [h5, ← hso]; exact hbp)
    rw [i2, plain_addr h i1, plain_addr ho.1 hbq] at e
    simp only [Ptr.mk.injEq] at e
    have b1 := lin_bounds i1
    have b2 := lin_bounds hbq
    have n1 : (vs.length : Int) = (vals c.shape).prod := hv.2.1
    have n2 : (ws.length : Int) = (vals out.shape).prod := ho.2.1
    rcases ha with ha | ha | ha
    · exact ha e.1
    · omega
    · omega
  obtain ⟨m', f1, f2, f3⟩ := (C117_copy (show (plainOf out).shape = b.shape by rw [h5]; exact hso)
    (default_distinct (plain_default ho.1)) hcl hys (holds_lists ho) (fun _ => true) d).1
  have hcells : SameCells out.shape c' b := by
    obtain ⟨xcs', st, start, shp, str, g1, g2, g3, g4, g5, g6⟩ := hc
    obtain rfl := Except.ok.inj (g1.symm.trans h1)
    obtain rfl := Except.ok.inj (g2.symm.trans h.2.1)
    unfold sliceD at h2
    rw [default_stride h, hm _ _ g1 g2, g3] at h2
    have h2 := (Except.ok.inj h2).symm
    intro p hb
    have hv' : vals (typedAs out.shape p) = p := typedAs_vals (by simpa using hb.length_eq.symm)
    have hb' : InBox (pickShape ls) p := by rw [← hso]; exact hb
    have hnum : ∀ e ∈ out.shape, P e.type ∧ e.type.Fits e.value := fun e he => ⟨hP e he, (ho.1.2.2.1 e he).2⟩
    have e := g6 (typedAs out.shape p) (fun i hi => (typedAs_number hnum hb i hi).1) (by rw [hv']; exact hb')
    rw [hv'] at e
    obtain ⟨i1, i2⟩ := h7 p (by rw [h5]; exact hb')
    rw [h2]
    refine (view_addr (slice_lengths g3 (default_strides_length h)) e).trans ?_
    rw [i2, plain_addr h i1, rowPlace_eq]
  have hn : (ws.length : Int) = (vals out.shape).prod := ho.2.1
  refine ⟨m', ?_, ?_⟩
  · rw [← f1]
    unfold copyD copy transformD transform
    rw [mapCtxD_eq (default_stands ho.1) (.cons hcells .nil)]
  · rw [eys]
    refine toLists ho.1 hn ?_ f2 f3
    have := lists_ne ho.1 (b := plainOf out) rfl f2
    omega

/-! ## Reversed views -/

/-- What is known of a reversed view of a container in memory. -/
theorem reverse_stands {c : DataT} (h : DefaultD c) (hs : ∀ d ∈ c.shape, NotUnsignedInt d.type ∧ 0 < d.value)
    (hf : (vals c.shape).prod < 2147483648) :
    ∃ r, reverseD c = .ok r ∧ r.shape = c.shape ∧ Stands r (reverse (plainOf c)) := by
  have hfit : ∀ d ∈ c.shape, NotUnsignedInt d.type ∧ d.type.Fits d.value := fun d hd => ⟨(hs d hd).1, (h.2.2.1 d hd).2⟩
  have h0 := zero_inBox fun d hd => (hs d hd).2
  have main : ∀ p, InBox (vals c.shape) p → ∃ st start nst, asStrideT c.shape = .ok st ∧ reverseT c.shape st = .ok (start, nst) ∧
      elementT start nst (typedAs c.shape p) = .ok (rowPlace (vals c.shape) (mirror (vals c.shape) p)) := by
    intro p hb
    have hv : vals (typedAs c.shape p) = p := typedAs_vals (by simpa using hb.length_eq.symm)
    have := C101_reverse_partial (p := typedAs c.shape p) (fun d hd => (hs d hd).1)
      (fun i hi => (typedAs_number hfit hb i hi).1) (by rw [hv]; exact hb) hf h.1
    rwa [hv] at this
  obtain ⟨st, start, nst, g1, g2, -⟩ := main _ h0
  obtain rfl := Except.ok.inj (g1.symm.trans h.2.1)
  have hl : nst.length = c.shape.length := by
    unfold reverseT at g2
    simp only [bind, Except.bind] at g2
    split at g2
    · cases g2
    rename_i e
    split at g2
    · cases g2
    have e' := Except.ok.inj g2
    simp only [Prod.mk.injEq] at e'
    rw [← e'.2, mapM_len e, default_strides_length h]
  refine ⟨⟨⟨c.base.blk, c.base.off + start⟩, c.shape, nst, true, c.static⟩, ?_, rfl, fun d hd => (hfit d hd).2, rfl, fun p hb => ?_⟩
  · unfold reverseD
    rw [default_stride h, g2]
    rfl
  · obtain ⟨st', start', nst', k1, k2, k3⟩ := main p hb
    obtain rfl := Except.ok.inj (g1.symm.trans k1)
    have e := Except.ok.inj (g2.symm.trans k2)
    simp only [Prod.mk.injEq] at e
    obtain ⟨rfl, rfl⟩ := e
    have hd := plain_default h
    rw [((C46_reverse_partial (α := Unit) hd.1 (C46_default_corner hd ⟨_, h0⟩)).2 p hb).1,
      show (plainOf c).addr (mirror (plainOf c).shape p) = _ from plain_addr h (mirror_inBox hb)]
    refine (view_addr hl k3).trans ?_
    rw [rowPlace_eq]
    rfl

end Kwk
