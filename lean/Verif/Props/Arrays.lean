import Verif.Lemmas.DataWalk

/-!
# Property C148: algorithms compute the functions on lists, whatever the types of the extents

`C117` says this for the model that counts in unbounded integers.  Here extents, strides and counters have their types, all numbers are
computed in them, each accessor computes offsets in its own way, and the container is a part of memory.
-/

namespace Kwk
open Spec

variable {α β γ : Type}

theorem toLists [Nonempty α] {c : DataT} (h : DefaultD c) {n : Nat} (hn : (n : Int) = (vals c.shape).prod) {m m' : Mem α} {zs : List α}
    (hl : zs.length = n) (h1 : Lists (plainOf c) m' zs) (h2 : SameOutside (plainOf c) m m') :
    ArrayAt m' c.base zs ∧ SameBut c.base n m m' :=
  ⟨(array_lists h (by rw [hl]; exact hn)).2 h1, by rw [hn]; exact outside_but h h2⟩

/-! ## Reading -/

/-- **C148** (reading) The algorithms that read a container compute the functions on the list of its values. -/
theorem C148_reading [DecidableEq α] {c : DataT} {m : Mem α} {xs : List α} (h : HoldsD c m xs) (f : α → Bool) (v : α)
    (op : β → α → β) (init : β) :
    reduceD m c op init = .ok (xs.foldl op init) ∧ allOfD m c f = .ok (xs.all f) ∧ anyOfD m c f = .ok (xs.any f) ∧
    noneOfD m c f = .ok (!xs.any f) ∧ countIfD m c f = .ok (xs.countP f) ∧ countD m c v = .ok (xs.count v) := by
  have : Nonempty α := ⟨v⟩
  obtain ⟨h1, h2, h3, h4, h5, h6⟩ := C117_reading (holds_lists h) f v op init
  have hst := default_stands h.1
  refine ⟨(reduceD_eq hst ..).trans h1, (reduceD_eq hst ..).trans h2, (reduceD_eq hst ..).trans h3, ?_,
    (reduceD_eq hst ..).trans h5, (reduceD_eq hst ..).trans h6⟩
  unfold noneOfD anyOfD
  rw [reduceD_eq hst]
  exact h4

/-- A table of bytes by unsigned 64-bit numbers. -/
def exTyped : DataT := ⟨⟨0, 1⟩, [⟨.u8, 2⟩, ⟨.u64, 3⟩], [⟨.u64, 3⟩, fixedOne], false, false⟩

/-- Six values from the second cell of a block on. -/
def exTypedMem : Mem Int := oneBlock 0 [0, 5, 3, 7, 3, 9, 1, 0]

theorem exHolds : HoldsD exTyped exTypedMem [5, 3, 7, 3, 9, 1] := by
  refine ⟨by unfold DefaultD exTyped; decide +kernel, by decide, ?_⟩
  unfold ArrayAt
  decide

example : countD exTypedMem exTyped 3 = .ok 2 := (C148_reading exHolds (fun _ => true) 3 (fun (a : Int) _ => a) 0).2.2.2.2.2
example : reduceD exTypedMem exTyped (fun a x => 10 * a + x) 0 = .ok 537391 :=
  (C148_reading exHolds (fun _ => true) 3 _ 0).1

theorem lists_ne [Nonempty α] {c : DataT} (h : DefaultD c) {b : Container} (hb : vals c.shape = b.shape) {m : Mem α} {zs : List α}
    (hl : Lists b m zs) : (zs.length : Int) = (vals c.shape).prod := by
  rw [lists_length hl, ← hb, positions_length (default_nonNeg h)]

theorem shapeEqT_same {a b : List Coord} (h : vals a = vals b) : shapeEqT a b = .ok true := by
  have hl : a.length = b.length := by simpa using congrArg List.length h
  unfold shapeEqT compressT
  rw [hl, min_self, if_pos rfl, if_pos rfl]
  show Except.ok _ = Except.ok _
  congr 1
  have key : ∀ (a b : List Coord), vals a = vals b → (a.zip b).foldl (fun result ab => result && eqT ab.1 ab.2) true = true := by
    intro a
    induction a with
    | nil => intros; rfl
    | cons d a ih =>
      intro b h
      cases b with
      | nil => rfl
      | cons e b =>
        simp only [vals, List.map_cons, List.cons.injEq] at h
        have he : eqT d e = true := by unfold eqT; rw [h.1]; simp
        rw [List.zip_cons_cons, List.foldl_cons, he]
        exact ih b h.2
  exact key a b h

/-- **C148** (reading two) The pairwise algorithms combine values of the same number, if the extents are the same numbers, of whatever
types. -/
theorem C148_pairs [Nonempty α] {a b : DataT} {m : Mem α} {xs ys : List α} (ha : HoldsD a m xs) (hb : HoldsD b m ys)
    (hs : a.shape.map (·.value) = b.shape.map (·.value)) (md : Mode) (R : β → γ → β) (T : α → α → γ) (init : β) :
    transformReduceD m a b init R T = .ok ((List.zipWith T xs ys).foldl R init) ∧
    innerProductD md m a b init R T = .ok ((List.zipWith T xs ys).foldl R init) := by
  have h1 : transformReduceD m a b init R T = .ok ((List.zipWith T xs ys).foldl R init) := by
    rw [← (C117_reading_two (show (plainOf a).shape = (plainOf b).shape from hs) (holds_lists ha) (holds_lists hb) R T init md).1]
    unfold transformReduceD transformReduce
    rw [mapCtxD_eq (default_stands ha.1) (.cons (default_cells (default_stands ha.1).fits hb.1 hs.symm) .nil)]
  refine ⟨h1, ?_⟩
  unfold innerProductD
  cases md with
  | unchecked => exact h1
  | checked =>
    simp only
    rw [shapeEqT_same hs]
    exact h1

/-- A table of the same extents in other types, elsewhere in the block. -/
def exTyped' : DataT := ⟨⟨0, 2⟩, [⟨.i64, 2⟩, ⟨.i8, 3⟩], [⟨.i32, 3⟩, fixedOne], true, true⟩

theorem exHolds' : HoldsD exTyped' exTypedMem [3, 7, 3, 9, 1, 0] := by
  refine ⟨by unfold DefaultD exTyped'; decide +kernel, by decide, ?_⟩
  unfold ArrayAt
  decide

example : innerProductD .checked exTypedMem exTyped exTyped' 0 (· + ·) (· * ·) = .ok 93 :=
  (C148_pairs exHolds exHolds' rfl .checked (· + ·) (· * ·) 0).2

/-! ## Searching -/

theorem store_counters {s : List Coord} (hb : (vals s).prod < 2 ^ 63) {p : List Int}
    (hp : InBox (vals s) p) : storePosition (typedAs s p) = asInts p := by
  have hv : vals (typedAs s p) = p := typedAs_vals (by simpa using hp.length_eq.symm)
  have e : storePosition (typedAs s p) = (vals (typedAs s p)).map fun i => IntType.i32.wrap (IntType.u64.wrap i) := by
    unfold storePosition vals
    rw [List.map_map]
    rfl
  rw [e, hv]
  unfold asInts
  refine List.map_congr_left fun i hi => ?_
  have hlt : 0 ≤ i ∧ i < 2 ^ 63 := by
    obtain ⟨d, hd, h0, h1⟩ : ∃ d ∈ vals s, 0 ≤ i ∧ i < d := by
      clear e hv hb
      generalize vals s = l at hp
      induction hp with
      | nil => simp at hi
      | cons h _ ih =>
        rcases List.mem_cons.1 hi with rfl | hi
        · exact ⟨_, by simp, h.1, h.2⟩
        · obtain ⟨d, hd, h⟩ := ih hi
          exact ⟨d, by simp [hd], h⟩
    have h2 := le_padded hd
    rw [padded_eq_prod hp.pos] at h2
    exact ⟨h0, by omega⟩
  rw [IntType.wrap_fits (t := .u64) ⟨by show (0 : Int) ≤ i; exact hlt.1, by show i < 2 ^ 64; omega⟩]
  unfold IntType.wrap IntType.hi
  simp only [IntType.i32]
  norm_num
  split <;> omega

/-- **C148** (searching) The searches find the first value that satisfies the predicate; its position is the one of that number in
row-major order, as far as `int`s hold it: as it is if no extent is above `2^31`. -/
theorem C148_searching [DecidableEq α] {c : DataT} {m : Mem α} {xs : List α} (h : HoldsD c m xs) (f : α → Bool) (v : α) :
    findIfD m c (fun x => pure (f x)) = .ok (((xs.findIdx? f).bind (place (c.shape.map (·.value)))).map asInts) ∧
    findIfNotD m c f = .ok (((xs.findIdx? fun x => !f x).bind (place (c.shape.map (·.value)))).map asInts) ∧
    findD m c v = .ok (((xs.findIdx? fun x => decide (x = v)).bind (place (c.shape.map (·.value)))).map asInts) ∧
    (∀ (d : DataT) (ys : List α), HoldsD d m ys →
      findFirstOfD m c d = .ok (((xs.findIdx? fun x => decide (x ∈ ys)).bind (place (c.shape.map (·.value)))).map asInts)) ∧
    ((∀ d ∈ c.shape, d.value ≤ 2 ^ 31) → ∀ k p, place (c.shape.map (·.value)) k = some p → asInts p = p) := by
  have : Nonempty α := ⟨v⟩
  have hst := default_stands h.1
  have key : ∀ g : α → Bool, findIfD m c (fun x => pure (g x)) =
      .ok (((xs.findIdx? g).bind (place (c.shape.map (·.value)))).map asInts) := by
    intro g
    have e := (C117_find (holds_lists h) g v).1
    unfold findIf at e
    rw [findIfD_eq hst, e]
    show Except.ok _ = Except.ok _
    congr 1
    show Option.map _ ((xs.findIdx? g).bind (place (vals c.shape))) = _
    cases hk : (xs.findIdx? g).bind (place (vals c.shape)) with
    | none => rfl
    | some p =>
      rw [Option.map_some, Option.map_some]
      congr 1
      obtain ⟨k, -, hp⟩ := Option.bind_eq_some_iff.1 hk
      exact store_counters (default_bound h.1) (mem_positions.1 (List.mem_of_getElem? hp))
  refine ⟨key f, key _, key _, fun d ys hd => ?_, fun hd k p hp => ?_⟩
  · unfold findFirstOfD
    rw [← key]
    congr 1
    funext e
    unfold anyOfD
    rw [reduceD_eq (default_stands hd.1), show reduce m (plainOf d) _ _ = _ from
      (C117_reading (holds_lists hd) (fun x => decide (x = e)) e (fun (a : Unit) _ => a) ()).2.2.1]
    show Except.ok _ = Except.ok _
    congr 1
    rw [Bool.eq_iff_iff]
    simp
  · have hp' : InBox (vals c.shape) p := mem_positions.1 (List.mem_of_getElem? hp)
    clear hp
    unfold asInts
    have hd' : ∀ d ∈ vals c.shape, d ≤ 2147483648 := by
      intro v hv
      obtain ⟨d, hd', rfl⟩ := List.mem_map.1 hv
      exact hd d hd'
    generalize vals c.shape = s at hp' hd'
    induction hp' with
    | nil => rfl
    | cons h _ ih =>
      rw [List.map_cons, ih fun d hd => hd' d (by simp [hd])]
      have := hd' _ List.mem_cons_self
      have h1 := h.1
      have h2 := h.2
      congr 1
      omega

example : findD exTypedMem exTyped 9 = .ok (some [1, 1]) := (C148_searching exHolds (fun _ => true) 9).2.2.1
example : findFirstOfD exTypedMem exTyped' exTyped' = .ok (some [0, 0]) :=
  (C148_searching exHolds' (fun _ => true) 9).2.2.2.1 _ _ exHolds'
example : ∀ d ∈ exTyped.shape, d.value ≤ 2 ^ 31 := by decide
/-- The positions beyond `2^31`, as `kwk::position` has them. -/
example : asInts [2147483648, 5] = [-2147483648, 5] := by decide

/-! ## Writing -/

/-- **C148** (writing) The algorithms that write a container leave the results of the functions on lists in it, and nothing else
changes. -/
theorem C148_writing [Nonempty α] {c : DataT} {m : Mem α} {xs : List α} (h : HoldsD c m xs) (v : α) (P : α → Bool)
    (g : List Coord → α) (incr : β → β) (conv : β → α) (b : β) :
    (∃ m', fillD m c v = .ok m' ∧ ArrayAt m' c.base (List.replicate xs.length v) ∧ SameBut c.base xs.length m m') ∧
    (∃ m', replaceIfD m c P v = .ok m' ∧ ArrayAt m' c.base (xs.map fun x => if P x then v else x) ∧ SameBut c.base xs.length m m') ∧
    (∃ m', generateD m g c = .ok m' ∧ ArrayAt m' c.base ((positions (c.shape.map (·.value))).map fun p => g (counters c.shape p)) ∧
      SameBut c.base xs.length m m') ∧
    (∃ m', iotaD m c incr conv b = .ok m' ∧ ArrayAt m' c.base ((List.range xs.length).map fun k => conv (incr^[k] b)) ∧
      SameBut c.base xs.length m m') := by
  have hst := default_stands h.1
  have hn : (xs.length : Int) = (vals c.shape).prod := h.2.1
  have hpl := positions_length (default_nonNeg h.1)
  obtain ⟨⟨m1, a1, a2, a3⟩, -, ⟨m2, b1, b2, b3⟩, ⟨m3, c1, c2, c3⟩, ⟨m4, d1, d2, d3⟩⟩ :=
    C117_writing (default_distinct (plain_default h.1)) (holds_lists h) v v id P (fun is => g (typedAs c.shape is)) incr conv b
  refine ⟨⟨m1, ?_, toLists h.1 hn (by simp) a2 a3⟩, ⟨m2, ?_, toLists h.1 hn (by simp) b2 b3⟩, ⟨m3, ?_, ?_⟩,
    ⟨m4, ?_, toLists h.1 hn (by simp) d2 d3⟩⟩
  · rw [← a1]; unfold fillD fill; rw [mapCtxD_eq hst .nil]
  · rw [← b1]; unfold replaceIfD replaceIf; rw [mapCtxD_eq hst .nil]
  · rw [← c1]; unfold generateD generate; rw [mapIndexCtxD_eq hst]
  · have : (positions (c.shape.map (·.value))).map (fun p => g (counters c.shape p)) =
        (positions (plainOf c).shape).map fun p => g (typedAs c.shape p) := by
      refine List.map_congr_left fun p _ => ?_
      unfold counters typedAs
      rw [List.map_zip_eq_zipWith]
      rfl
    rw [this]
    exact toLists h.1 hn (by
      rw [List.length_map]
      show (positions (vals c.shape)).length = _
      omega) c2 c3
  · rw [← d1]; unfold iotaD iota; rw [mapCtxD_eq hst .nil]

example : ((fillD exTypedMem exTyped 4).toOption.map fun m => [m ⟨0, 0⟩, m ⟨0, 1⟩, m ⟨0, 6⟩, m ⟨0, 7⟩]) =
    some [some 0, some 4, some 4, some 0] := by decide +kernel
/-- `generate` gets counters of the types of the extents. -/
example : ((generateD exTypedMem (fun p => if p = [⟨.u8, 1⟩, ⟨.u64, 2⟩] then 8 else 6) exTyped).toOption.map fun m =>
    [m ⟨0, 1⟩, m ⟨0, 5⟩, m ⟨0, 6⟩]) = some [some 6, some 6, some 8] := by decide +kernel

theorem noClobber_of {a b : DataT} (ha : DefaultD a) (hb : DefaultD b) (hs : vals b.shape = vals a.shape)
    (h : b.base = a.base ∨ ApartFrom a.base b.base (vals a.shape).prod) : NoClobber (plainOf a) (plainOf b) := by
  intro p q hp hq hlt e
  have hp : InBox (vals a.shape) p := hp
  have hq : InBox (vals a.shape) q := hq
  rw [plain_addr ha hq, plain_addr hb (by rw [hs]; exact hp), hs] at e
  simp only [Ptr.mk.injEq] at e
  have h1 := lin_bounds hp
  have h2 := lin_bounds hq
  rcases h with h | h | h
  · rw [h] at e
    have := lin_inj hq hp (by omega)
    subst this
    exact lt_irrefl _ hlt
  · exact h e.1
  · omega

theorem apart_ne {a b : DataT} (ha : DefaultD a) (hb : DefaultD b) (hs : vals b.shape = vals a.shape)
    (h : ApartFrom a.base b.base (vals a.shape).prod) {p : List Int} (hp : InBox (vals a.shape) p) :
    (plainOf a).addr p ≠ (plainOf b).addr p := by
  intro e
  rw [plain_addr ha hp, plain_addr hb (by rw [hs]; exact hp), hs] at e
  simp only [Ptr.mk.injEq] at e
  have h1 := lin_bounds hp
  rcases h with h | h
  · exact h e.1
  · omega

theorem inputs_mem {A B : Type} {R : A → B → Prop} {l : List A} {l' : List B} (h : List.Forall₂ R l l') {a : A} (ha : a ∈ l) :
    ∃ b, b ∈ l' ∧ R a b := by
  induction h with
  | nil => simp at ha
  | cons h _ ih =>
    rcases List.mem_cons.1 ha with rfl | ha
    · exact ⟨_, by simp, h⟩
    · obtain ⟨b, hb, hr⟩ := ih ha
      exact ⟨b, by simp [hb], hr⟩

/-- **C148** (transform) `transform` leaves the function of the values of the same number of all inputs, which are apart from the
output, or are the output. -/
theorem C148_transform [Nonempty α] {out : DataT} {ins : List DataT} {m : Mem α} {zs : List α} {yss : List (List α)}
    (ho : HoldsD out m zs)
    (hi : List.Forall₂ (fun c ys => HoldsD c m ys ∧ c.shape.map (·.value) = out.shape.map (·.value) ∧
      (c.base = out.base ∨ ApartFrom out.base c.base zs.length)) ins yss) (f : List α → α) :
    ∃ m' rs, transformD m f out ins = .ok m' ∧ ArrayAt m' out.base rs ∧ SameBut out.base zs.length m m' ∧ rs.length = zs.length ∧
      ∀ (k : Nat) (h : k < rs.length), rs[k] = f (yss.filterMap fun ys => ys[k]?) := by
  have hn : (zs.length : Int) = (vals out.shape).prod := ho.2.1
  have hst := default_stands ho.1
  have hv : Valid (plainOf out) m := by
    obtain ⟨val, he, -⟩ := lists_elems (holds_lists ho)
    exact fun p hp => ⟨_, he p hp⟩
  have hcells : List.Forall₂ (SameCells out.shape) ins (ins.map plainOf) := by
    rw [List.forall₂_map_right_iff]
    refine List.forall₂_same.2 fun c hc => ?_
    obtain ⟨ys, -, h1, h2, -⟩ := inputs_mem hi hc
    exact default_cells hst.fits h1.1 h2
  have hclob : ∀ c ∈ ins.map plainOf, NoClobber (plainOf out) c := by
    intro c hc
    obtain ⟨c, hc', rfl⟩ := List.mem_map.1 hc
    obtain ⟨ys, -, h1, h2, h3⟩ := inputs_mem hi hc'
    rw [hn] at h3
    exact noClobber_of ho.1 h1.1 h2 h3
  have hlists : List.Forall₂ (fun c ys => c.shape = (plainOf out).shape ∧ Lists c m ys) (ins.map plainOf) yss := by
    rw [List.forall₂_map_left_iff]
    exact hi.imp fun c ys h => ⟨h.2.1, holds_lists h.1⟩
  obtain ⟨m', rs, h1, h2, h3, h4⟩ := C117_transform (default_distinct (plain_default ho.1)) hv hclob hlists f
  have hl : rs.length = zs.length := by
    have := lists_ne ho.1 (b := plainOf out) rfl h2
    omega
  obtain ⟨g1, g2⟩ := toLists ho.1 hn hl h2 h3
  refine ⟨m', rs, ?_, g1, g2, hl, fun k hk => ?_⟩
  · rw [← h1]
    unfold transformD transform
    rw [mapCtxD_eq hst hcells]
  · have := h4 k hk
    rw [List.getElem?_eq_getElem hk] at this
    exact Option.some.inj this

/-- A table of the same extents in another block. -/
def exOther : DataT := ⟨⟨1, 0⟩, [⟨.i16, 2⟩, ⟨.u32, 3⟩], [⟨.u32, 3⟩, fixedOne], false, false⟩

/-- Two blocks. -/
def exBlocks : Mem Int := fun q => if q.blk = 1 then oneBlock 1 [60, 50, 40, 30, 20, 10] q else exTypedMem q

theorem exHoldsOther : HoldsD exOther exBlocks [60, 50, 40, 30, 20, 10] ∧ HoldsD exTyped exBlocks [5, 3, 7, 3, 9, 1] := by
  refine ⟨⟨by unfold DefaultD exOther; decide +kernel, by decide, ?_⟩, by unfold DefaultD exTyped; decide +kernel, by decide, ?_⟩ <;>
  · unfold ArrayAt
    decide

theorem exApart : ApartFrom exOther.base exTyped.base 6 := .inl (by decide)

example : ∃ m' rs, transformD exBlocks (fun vs => vs.sum) exOther [exTyped, exOther] = .ok m' ∧ ArrayAt m' exOther.base rs ∧
    rs = [65, 53, 47, 33, 29, 11] := by
  obtain ⟨m', rs, h1, h2, -, h4, h5⟩ := C148_transform exHoldsOther.1
    (.cons ⟨exHoldsOther.2, rfl, .inr exApart⟩ (.cons ⟨exHoldsOther.1, rfl, .inl rfl⟩ .nil)) (fun vs => vs.sum)
  refine ⟨m', rs, h1, h2, List.ext_getElem h4 fun k hk hk' => ?_⟩
  rw [h5 k hk]
  match k, hk' with
  | 0, _ => rfl
  | 1, _ => rfl
  | 2, _ => rfl
  | 3, _ => rfl
  | 4, _ => rfl
  | 5, _ => rfl

/-- **C148** (copies) `copy` and `copy_if` copy the values, or those that satisfy the predicate. -/
theorem C148_copy [Nonempty α] {out inp : DataT} {m : Mem α} {xs ys : List α} (hi : HoldsD inp m xs) (ho : HoldsD out m ys)
    (hs : inp.shape.map (·.value) = out.shape.map (·.value)) (ha : inp.base = out.base ∨ ApartFrom out.base inp.base ys.length)
    (P : α → Bool) (dflt : α) :
    (∃ m', copyD m out inp dflt = .ok m' ∧ ArrayAt m' out.base xs ∧ SameBut out.base ys.length m m') ∧
    (∃ m', copyIfD m P out inp = .ok m' ∧ ArrayAt m' out.base (List.zipWith (fun x y => if P x then x else y) xs ys) ∧
      SameBut out.base ys.length m m') := by
  have hn : (ys.length : Int) = (vals out.shape).prod := ho.2.1
  have hnx : (xs.length : Int) = (vals inp.shape).prod := hi.2.1
  have hs' : vals inp.shape = vals out.shape := hs
  have hst := default_stands ho.1
  have hcl := noClobber_of ho.1 hi.1 hs (by rw [← hn]; exact ha)
  have hcells : List.Forall₂ (SameCells out.shape) [inp] [plainOf inp] := .cons (default_cells hst.fits hi.1 hs) .nil
  obtain ⟨⟨m1, a1, a2, a3⟩, m2, b1, b2, b3⟩ := C117_copy (show (plainOf out).shape = (plainOf inp).shape from hs'.symm)
    (default_distinct (plain_default ho.1)) hcl (holds_lists hi) (holds_lists ho) P dflt
  have hl : xs.length = ys.length := by
    rw [hs'] at hnx
    omega
  refine ⟨⟨m1, ?_, toLists ho.1 hn hl a2 a3⟩, m2, ?_, toLists ho.1 hn (by simp [hl]) b2 b3⟩
  · rw [← a1]
    unfold copyD copy transformD transform
    rw [mapCtxD_eq hst hcells]
  · rw [← b1]
    unfold copyIfD copyIf
    rw [mapCtxD_eq hst hcells]

example : ∃ m', copyIfD exBlocks (fun x => decide (4 < x)) exOther exTyped = .ok m' ∧ ArrayAt m' ⟨1, 0⟩ [5, 50, 7, 30, 9, 10] := by
  obtain ⟨m', h1, h2, -⟩ := (C148_copy exHoldsOther.2 exHoldsOther.1 rfl (.inr exApart) (fun x => decide (4 < x)) 0).2
  exact ⟨m', h1, h2⟩

/-- **C148** (scans) `transform_inclusive_scan` leaves the results of the folds over all non-empty beginnings of the values, and
`transform_exclusive_scan`, to an output apart from the input, those over all beginnings but the whole. -/
theorem C148_scans [Nonempty α] {out inp : DataT} {m : Mem α} {xs ys : List α} (hi : HoldsD inp m xs) (ho : HoldsD out m ys)
    (hs : inp.shape.map (·.value) = out.shape.map (·.value)) (ha : inp.base = out.base ∨ ApartFrom out.base inp.base ys.length)
    (init : α) (f1 : α → β → α) (f2 : α → β) :
    (∃ m', transformInclusiveScanD m inp out init f1 f2 = .ok m' ∧ ArrayAt m' out.base ((xs.map f2).scanl f1 init).tail ∧
      SameBut out.base ys.length m m') ∧
    (ApartFrom out.base inp.base ys.length → ∃ m', transformExclusiveScanD m inp out init f1 f2 = .ok m' ∧
      ArrayAt m' out.base ((xs.map f2).scanl f1 init).dropLast ∧ SameBut out.base ys.length m m') := by
  have hn : (ys.length : Int) = (vals out.shape).prod := ho.2.1
  have hnx : (xs.length : Int) = (vals inp.shape).prod := hi.2.1
  have hs' : vals inp.shape = vals out.shape := hs
  have hst := default_stands hi.1
  have hcl := noClobber_of ho.1 hi.1 hs (by rw [← hn]; exact ha)
  have hv : Valid (plainOf out) m := by
    obtain ⟨val, he, -⟩ := lists_elems (holds_lists ho)
    exact fun p hp => ⟨_, he p hp⟩
  have hcells : List.Forall₂ (SameCells inp.shape) [out] [plainOf out] := .cons (default_cells hst.fits ho.1 hs.symm) .nil
  have hl : xs.length = ys.length := by
    rw [hs'] at hnx
    omega
  obtain ⟨⟨m1, a1, a2, a3⟩, hex⟩ := C117_scans (show (plainOf out).shape = (plainOf inp).shape from hs'.symm)
    (default_distinct (plain_default ho.1)) hv hcl (holds_lists hi) init f1 f2
  refine ⟨⟨m1, ?_, toLists ho.1 hn (by simp [hl]) a2 a3⟩, fun hap => ?_⟩
  · rw [← a1]
    unfold transformInclusiveScanD transformInclusiveScan
    rw [mapCtxD_eq hst hcells]
  · obtain ⟨m2, b1, b2, b3⟩ := hex fun p hp => apart_ne ho.1 hi.1 hs (by rw [← hn]; exact hap) hp
    refine ⟨m2, ?_, toLists ho.1 hn (by simp [hl]) b2 b3⟩
    rw [← b1]
    unfold transformExclusiveScanD transformExclusiveScan
    rw [mapCtxD_eq hst hcells]

example : ∃ m', transformExclusiveScanD exBlocks exTyped exOther 100 (· + ·) (fun x => x) = .ok m' ∧
    ArrayAt m' ⟨1, 0⟩ [100, 105, 108, 115, 118, 127] := by
  obtain ⟨m', h1, h2, -⟩ := (C148_scans exHoldsOther.2 exHoldsOther.1 rfl (.inr exApart) 100 (· + ·) (fun x => x)).2 exApart
  exact ⟨m', h1, h2⟩
example : ∃ m', transformInclusiveScanD exBlocks exTyped exTyped 100 (· + ·) (fun x => x) = .ok m' ∧
    ArrayAt m' ⟨0, 1⟩ [105, 108, 115, 118, 127, 128] := by
  obtain ⟨m', h1, h2, -⟩ := (C148_scans exHoldsOther.2 exHoldsOther.2 rfl (.inl rfl) 100 (· + ·) (fun x => x)).1
  exact ⟨m', h1, h2⟩

end Kwk
