import Verif.Lemmas.TypedSearch
import Verif.Lemmas.Witnesses
import Verif.Lemmas.Effects
import Verif.Props.Reverse
import Verif.Props.Search
import Verif.Props.Writing

/-!
# Properties C106 to C109: searching, counting and writing integers of different types

`t` is the type of the elements; a value `v : Coord` has its own type.  `IsCommonType t v.type c`: `c` is the type in
which C++ compares them.  `t.Fits v`: the type `t` represents `v`.
-/

namespace Kwk
open Spec

/-! ## C109: counts -/

/-- **C109** `count_if` counts the matching positions in a `std::size_t`: exactly when fewer than `2^64` positions match,
modulo `2^64` otherwise, and without overflow. -/
theorem C109_count_if (m : Mem Int) (c : Container) (val : List Int → Int) (h : Elems c m val) (f : Int → Bool) :
    let n := Set.ncard {p | InBox c.shape p ∧ f (val p) = true}
    (countIfT m c f = .ok ((n : Int) % 2 ^ 64)) ∧ (n < 2 ^ 64 → countIfT m c f = .ok n) := by
  intro n
  have hn : ((positions c.shape).map fun p => if f (val p) then (1 : Int) else 0).sum = n := by
    have hset : {p | InBox c.shape p ∧ f (val p) = true} =
        (((positions c.shape).filter fun p => f (val p)).toFinset : Set (List Int)) := by
      ext p; simp [mem_positions]
    show _ = ((Set.ncard {p | InBox c.shape p ∧ f (val p) = true} : Nat) : Int)
    rw [hset, Set.ncard_coe_finset, List.toFinset_card_of_nodup ((positions_nodup _).filter _)]
    generalize positions c.shape = l
    induction l with
    | nil => rfl
    | cons p l ih =>
      rw [List.map_cons, List.sum_cons, ih, List.filter_cons]
      cases f (val p)
      · simp
      · simp; omega
  have hw : countIfT m c f = .ok (IntType.u64.wrap n) := by
    rw [countIfT, reduceM_eq, foldlM_congr (g := fun a p => addTo .u64 a ⟨.i32, if f (val p) then 1 else 0⟩)]
    · rw [foldlM_sum_wraps (t := .u64) (by decide) (fun p => if f (val p) then (1 : Int) else 0) _ _ 0 (by decide), zero_add, hn]
      intro p _ a ha
      refine addTo_wraps ha ?_ (.inl rfl)
      cases f (val p) <;> decide
    · intro p hp a
      rw [h p (mem_positions.1 hp)]; rfl
  have hu : IntType.u64.wrap n = (n : Int) % 2 ^ 64 := by simp [IntType.wrap, IntType.u64]
  refine ⟨by rw [hw, hu], fun hlt => ?_⟩
  rw [hw, hu, Int.emod_eq_of_lt (by omega) (by exact_mod_cast hlt)]

example : countIfT exMem exView (fun x => x % 2 == 0) = .ok 2 := by decide +kernel

/-! ## C106: searching by value

Full property: `find(c, value)` returns the first position whose element equals `value`, `count(c, value)` the number of
such positions, `find_last`, `find_first_of` and `replace` likewise, for all integer types.  False: an unsigned and a negative
number may compare equal (`C106_mixed_false`). -/

/-- **C106** (partial) For elements and values that compare by value, `find`, `count`, `find_last` (default layout) and
`replace` work on the positions whose element equals the value.  Missing: the other values (false). -/
theorem C106_find_partial (t c' : IntType) (ht : 0 < t.bits) (v : Coord) (hu : 0 < v.type.bits)
    (hv : v.type.Fits v.value) (hc : IsCommonType t v.type c') (hq : EqualsByValue t c' v.value)
    (m : Mem Int) (c : Container) (val : List Int → Int) (h : Elems c m val)
    (hf : ∀ p, InBox c.shape p → t.Fits (val p)) :
    (∃ r, findT t m c v = .ok r ∧ IsFirst c.shape (fun p => val p = v.value) r) ∧
    (c.Default → ∃ r, findLastT t m c v = .ok r ∧ IsLast c.shape (fun p => val p = v.value) r) ∧
    ((positions c.shape).length < 2 ^ 64 →
      countT t m c v = .ok (Set.ncard {p | InBox c.shape p ∧ val p = v.value} : Nat)) ∧
    (Distinct c → ∀ w : Coord, t.Fits w.value → ∃ m', replaceT t m c v w = .ok m' ∧
      Elems c m' (fun p => if val p = v.value then w.value else val p) ∧ SameOutside c m m') := by
  have key : ∀ p, InBox c.shape p → (eqT ⟨t, val p⟩ v = true ↔ val p = v.value) :=
    fun p hp => (eqT_exact ht hu hv hc).2 hq (val p) (hf p hp)
  refine ⟨?_, ?_, ?_, ?_⟩
  · refine ⟨_, findIf_eq _ h, ?_⟩
    have := isFirst_find? c.shape fun p => eqT ⟨t, val p⟩ v
    refine ⟨?_, fun p => ?_⟩
    · rw [this.1]
      exact ⟨fun g p hp e => g p hp ((key p hp).2 e), fun g p hp e => g p hp ((key p hp).1 e)⟩
    · rw [this.2 p]
      exact ⟨fun ⟨g1, g2, g3⟩ => ⟨g1, (key p g1).1 g2, fun q hq hlt e => g3 q hq hlt ((key q hq).2 e)⟩,
        fun ⟨g1, g2, g3⟩ => ⟨g1, (key p g1).2 g2, fun q hq hlt e => g3 q hq hlt ((key q hq).1 e)⟩⟩
  · intro hd
    obtain ⟨r, h1, h2⟩ := (C27_find_last_default m c hd val h (fun e => eqT ⟨t, e⟩ v) 0).1
    refine ⟨r, h1, ?_, fun p => ?_⟩
    · rw [h2.1]
      exact ⟨fun g p hp e => g p hp ((key p hp).2 e), fun g p hp e => g p hp ((key p hp).1 e)⟩
    · rw [h2.2 p]
      exact ⟨fun ⟨g1, g2, g3⟩ => ⟨g1, (key p g1).1 g2, fun q hq hlt e => g3 q hq hlt ((key q hq).2 e)⟩,
        fun ⟨g1, g2, g3⟩ => ⟨g1, (key p g1).2 g2, fun q hq hlt e => g3 q hq hlt ((key q hq).1 e)⟩⟩
  · intro hlen
    have hset : {p | InBox c.shape p ∧ eqT ⟨t, val p⟩ v = true} = {p | InBox c.shape p ∧ val p = v.value} := by
      ext p; exact and_congr_right fun hp => key p hp
    have hle : Set.ncard {p | InBox c.shape p ∧ val p = v.value} ≤ (positions c.shape).length := by
      have hset : {p | InBox c.shape p ∧ val p = v.value} =
          (((positions c.shape).filter fun p => val p = v.value).toFinset : Set (List Int)) := by
        ext p; simp [mem_positions]
      rw [hset, Set.ncard_coe_finset]
      exact (List.toFinset_card_le _).trans (List.length_filter_le _ _)
    have := (C109_count_if m c val h fun e => eqT ⟨t, e⟩ v).2
    simp only [hset] at this
    exact this (by omega)
  · intro hd w hw
    obtain ⟨m', h1, h2, h3⟩ := C38_replace_if m c hd val h (fun x => eqT ⟨t, x⟩ v) (t.wrap w.value)
    refine ⟨m', h1, fun p hp => ?_, h3⟩
    rw [h2 p hp, IntType.wrap_fits hw]
    simp only [key p hp]

example := C106_find_partial .i16 .u32 (by decide) ⟨.u32, 3⟩ (by decide) (by decide) (by decide) (by decide) exTwo exIn exInVal exIn_elems
  (ex_all (by decide))

/-- **C106** (exact, partial) `find` is right for all contents of a container that is not empty if and only if the elements
compare with the value by value. -/
theorem C106_find_exact_partial (t c' : IntType) (ht : 0 < t.bits) (v : Coord) (hu : 0 < v.type.bits)
    (hv : v.type.Fits v.value) (hc : IsCommonType t v.type c') (c : Container) (hne : ∃ p, InBox c.shape p) :
    (∀ (m : Mem Int) (val : List Int → Int), Elems c m val → (∀ p, InBox c.shape p → t.Fits (val p)) →
      ∃ r, findT t m c v = .ok r ∧ IsFirst c.shape (fun p => val p = v.value) r) ↔ EqualsByValue t c' v.value := by
  constructor
  · intro h
    refine (eqT_exact ht hu hv hc).1 fun e he => ?_
    have hel : Elems c (fun _ => some e) (fun _ => e) := fun p _ => rfl
    obtain ⟨r, h1, h2⟩ := h (fun _ => some e) (fun _ => e) hel fun _ _ => he
    have h3 := findIf_eq (fun x => eqT ⟨t, x⟩ v) hel
    have h4 : r = (positions c.shape).find? fun _ => eqT ⟨t, e⟩ v := Except.ok.inj (h1.symm.trans h3)
    obtain ⟨p, hp⟩ := hne
    have hm := mem_positions.2 hp
    constructor
    · intro hb
      by_contra hn
      have : r = none := h2.1.2 fun _ _ => hn
      rw [this, hb] at h4
      have := List.find?_eq_none.1 h4.symm p hm
      simp at this
    · intro hb
      by_contra hn
      have : r = none := by
        rw [h4, List.find?_eq_none]; intro _ _; exact hn
      exact h2.1.1 this p hp hb
  · intro hq m val h hf
    exact (C106_find_partial t c' ht v hu hv hc hq m c val h hf).1

example := C106_find_exact_partial .i16 .u32 (by decide) ⟨.u32, 3⟩ (by decide) (by decide) (by decide) exIn ⟨[1, 0], by decide⟩

/-- **C106** (partial) `find_first_of` with values of type `u` returns the first element that is one of the values, if the
elements compare with all of them by value. -/
theorem C106_find_first_of_partial (t u c' : IntType) (ht : 0 < t.bits) (hu : 0 < u.bits) (hc : IsCommonType t u c')
    (m : Mem Int) (c vs : Container) (val vval : List Int → Int) (h : Elems c m val) (hv : Elems vs m vval)
    (hf : ∀ p, InBox c.shape p → t.Fits (val p)) (hfv : ∀ q, InBox vs.shape q → u.Fits (vval q))
    (hq : ∀ q, InBox vs.shape q → EqualsByValue t c' (vval q)) :
    ∃ r, findFirstOfT t u m c vs = .ok r ∧
      IsFirst c.shape (fun p => ∃ q, InBox vs.shape q ∧ vval q = val p) r := by
  have key : ∀ p q, InBox c.shape p → InBox vs.shape q → (eqT ⟨u, vval q⟩ ⟨t, val p⟩ = true ↔ vval q = val p) := by
    intro p q hp hq'
    have h1 := (eqT_exact (v := ⟨u, vval q⟩) ht hu (hfv q hq') hc).2 (hq q hq') (val p) (hf p hp)
    have h2 : eqT ⟨u, vval q⟩ ⟨t, val p⟩ = eqT ⟨t, val p⟩ ⟨u, vval q⟩ := by
      unfold eqT
      simp only [IntType.common_comm u t]
      exact decide_eq_decide.2 eq_comm
    rw [h2, h1]; exact eq_comm
  refine ⟨(positions c.shape).find? fun p => (positions vs.shape).any fun q => eqT ⟨u, vval q⟩ ⟨t, val p⟩, ?_, ?_⟩
  · rw [findFirstOfT, findIfM_eq]
    exact firstHit_pure _ _ _ val (fun e => (positions vs.shape).any fun q => eqT ⟨u, vval q⟩ ⟨t, e⟩)
      (fun p hp => h p (mem_positions.1 hp)) (fun p _ => anyOf_eq (fun x => eqT ⟨u, x⟩ ⟨t, val p⟩) hv)
  · have := isFirst_find? c.shape fun p => (positions vs.shape).any fun q => eqT ⟨u, vval q⟩ ⟨t, val p⟩
    have hany : ∀ p, InBox c.shape p → (((positions vs.shape).any fun q => eqT ⟨u, vval q⟩ ⟨t, val p⟩) = true ↔
        ∃ q, InBox vs.shape q ∧ vval q = val p) := by
      intro p hp
      rw [List.any_eq_true]
      simp only [mem_positions]
      exact exists_congr fun q => and_congr_right fun hq' => key p q hp hq'
    refine ⟨?_, fun p => ?_⟩
    · rw [this.1]
      exact ⟨fun g p hp e => g p hp ((hany p hp).2 e), fun g p hp e => g p hp ((hany p hp).1 e)⟩
    · rw [this.2 p]
      exact ⟨fun ⟨g1, g2, g3⟩ => ⟨g1, (hany p g1).1 g2, fun q hq hlt e => g3 q hq hlt ((hany q hq).2 e)⟩,
        fun ⟨g1, g2, g3⟩ => ⟨g1, (hany p g1).2 g2, fun q hq hlt e => g3 q hq hlt ((hany q hq).1 e)⟩⟩

example := C106_find_first_of_partial .i16 .u8 .i32 (by decide) (by decide) (by decide) exTwo exIn exOut exInVal (fun _ => 0) exIn_elems
  exOut_elems (ex_all (by decide)) (ex_all (by decide)) (ex_all (by decide))

/-- **C106** (negation) In a container of `unsigned int`, `find` finds -1 where 4294967295 is stored, `count` counts it and
`replace` overwrites it. -/
theorem C106_mixed_false :
    let c := Container.ofShape ⟨0, 0⟩ [3]
    let m : Mem Int := oneBlock 0 [5, 4294967295, 7]
    findT .u32 m c ⟨.i32, -1⟩ = .ok (some [1]) ∧ countT .u32 m c ⟨.i32, -1⟩ = .ok 1 ∧
    (do let m ← replaceT .u32 m c ⟨.i32, -1⟩ ⟨.i32, 0⟩; reduce m c (fun a e => a ++ [e]) []) = .ok [5, 0, 7] := by
  decide +kernel

/-- **C106** The full property. -/
def C106_statement : Prop :=
  ∀ (t : IntType) (v : Coord) (m : Mem Int) (c : Container) (val : List Int → Int), 0 < t.bits → 0 < v.type.bits →
    v.type.Fits v.value → c.Default → Elems c m val → (∀ p, InBox c.shape p → t.Fits (val p)) →
    (positions c.shape).length < 2 ^ 64 →
    (∃ r, findT t m c v = .ok r ∧ IsFirst c.shape (fun p => val p = v.value) r) ∧
    (∃ r, findLastT t m c v = .ok r ∧ IsLast c.shape (fun p => val p = v.value) r) ∧
    countT t m c v = .ok (Set.ncard {p | InBox c.shape p ∧ val p = v.value} : Nat) ∧
    (∀ w : Coord, t.Fits w.value → ∃ m', replaceT t m c v w = .ok m' ∧
      Elems c m' (fun p => if val p = v.value then w.value else val p) ∧ SameOutside c m m') ∧
    (∀ (u : IntType) (vs : Container) (vval : List Int → Int), 0 < u.bits → Elems vs m vval →
      (∀ q, InBox vs.shape q → u.Fits (vval q)) →
      ∃ r, findFirstOfT t u m c vs = .ok r ∧ IsFirst c.shape (fun p => ∃ q, InBox vs.shape q ∧ vval q = val p) r)

theorem C106_statement_false : ¬ C106_statement := by
  intro h
  have hc : IsCommonType .u32 .i32 .u32 := by decide
  have := (C106_find_exact_partial .u32 .u32 (by decide) ⟨.i32, -1⟩ (by decide) (by decide) hc (.ofShape ⟨0, 0⟩ [1])
    ⟨[0], by decide⟩).1 (fun m val he hf =>
      (h .u32 ⟨.i32, -1⟩ m (.ofShape ⟨0, 0⟩ [1]) val (by decide) (by decide) (by decide) (ofShape_default (by decide)) he hf
        (by decide)).1)
  exact absurd this (by decide)

example : EqualsByValue .i16 .i32 (-1) ∧ findT .i16 (oneBlock 0 [5, -1, 7]) (.ofShape ⟨0, 0⟩ [3]) ⟨.i32, -1⟩ = .ok (some [1]) ∧
    EqualsByValue .i32 .u32 7 ∧ findT .i32 (oneBlock 0 [5, -1, 7]) (.ofShape ⟨0, 0⟩ [3]) ⟨.u32, 7⟩ = .ok (some [2]) ∧
    findFirstOfT .i32 .u8 (oneBlock 0 [5, -1, 7, 255, 7]) (.ofShape ⟨0, 0⟩ [3]) (.ofShape ⟨0, 3⟩ [2]) = .ok (some [2]) := by
  decide +kernel

/-! ## C107: binary searches -/

/-- **C107** (partial) In a container sorted by value, with elements and a value that compare by value, `lower_bound` returns
the first element that is not less than the value, `upper_bound` the first that is greater, and `binary_search` whether it
is there.  Missing: negative values with unsigned elements and unsigned values with negative elements (false). -/
theorem C107_bounds_partial {σ : Type} (md : Mode) (t c' : IntType) (ht : 0 < t.bits) (v : Coord) (hu : 0 < v.type.bits)
    (hv : v.type.Fits v.value) (hc : IsCommonType t v.type c') (hq : OrdersByValue t c' v.value)
    (m : Mem Int) (c : Container) (val : List Int → Int) (h : Elems c m val) (hne : c.shape ≠ []) (hs : NonNeg c.shape)
    (hf : ∀ p, InBox c.shape p → t.Fits (val p))
    (hsorted : ∀ p q, InBox c.shape p → InBox c.shape q → p < q → val p ≤ val q) (s : σ) :
    (∃ r, lowerBoundT md t m c v s = .ok (r, s) ∧ IsFirst c.shape (fun p => v.value ≤ val p) r) ∧
    (∃ r, upperBoundT md t m c v s = .ok (r, s) ∧ IsFirst c.shape (fun p => v.value < val p) r) ∧
    (∃ b, binarySearchT md t m c v s = .ok (b, s) ∧ (b = true ↔ ∃ p, InBox c.shape p ∧ val p = v.value)) := by
  have key := (ltT_exact ht hu hv hc).2 hq
  have first : ∀ (P Q : List Int → Prop) r, (∀ p, InBox c.shape p → (P p ↔ Q p)) → IsFirst c.shape P r →
      IsFirst c.shape Q r := by
    intro P Q r hPQ hr
    refine ⟨?_, fun p => ?_⟩
    · rw [hr.1]
      exact ⟨fun g p hp e => g p hp ((hPQ p hp).2 e), fun g p hp e => g p hp ((hPQ p hp).1 e)⟩
    · rw [hr.2 p]
      exact ⟨fun ⟨g1, g2, g3⟩ => ⟨g1, (hPQ p g1).1 g2, fun q hq hlt e => g3 q hq hlt ((hPQ q hq).2 e)⟩,
        fun ⟨g1, g2, g3⟩ => ⟨g1, (hPQ p g1).2 g2, fun q hq hlt e => g3 q hq hlt ((hPQ q hq).1 e)⟩⟩
  have low : ∃ r, lowerBoundT md t m c v s = .ok (r, s) ∧ IsFirst c.shape (fun p => v.value ≤ val p) r := by
    obtain ⟨r, h1, h2⟩ := C30_lower_bound md m c val h hne hs (fun e v => ltT ⟨t, e⟩ v) v (by
      intro p q hp hq hlt hq'
      rw [(key _ (hf q hq)).1] at hq'
      rw [(key _ (hf p hp)).1]
      have := hsorted p q hp hq hlt
      omega) s
    refine ⟨r, h1, first _ _ r (fun p hp => ?_) h2⟩
    rw [← not_lt, ← (key _ (hf p hp)).1, Bool.not_eq_true]
  refine ⟨low, ?_, ?_⟩
  · obtain ⟨r, h1, h2⟩ := C31_upper_bound md m c val h hne hs (fun v e => ltT v ⟨t, e⟩) v (by
      intro p q hp hq hlt hq'
      rw [(key _ (hf p hp)).2] at hq'
      rw [(key _ (hf q hq)).2]
      have := hsorted p q hp hq hlt
      omega) s
    exact ⟨r, h1, first _ _ r (fun p hp => (key _ (hf p hp)).2) h2⟩
  · obtain ⟨r, h1, h2, h3⟩ := low
    cases r with
    | none =>
      refine ⟨false, ?_, ?_⟩
      · simp only [binarySearchT, bind, StateT.bind, h1, Except.bind]; rfl
      · constructor
        · intro e; cases e
        · rintro ⟨p, hp, e⟩
          exact absurd e.ge (h2.1 rfl p hp)
    | some p0 =>
      obtain ⟨hp0, hge, hmin⟩ := (h3 p0).1 rfl
      refine ⟨!ltT v ⟨t, val p0⟩, ?_, ?_⟩
      · simp only [binarySearchT, bind, StateT.bind, h1, Except.bind, liftM, monadLift,
          MonadLift.monadLift, StateT.lift, h p0 hp0]
        rfl
      · rw [Bool.not_eq_true', ← Bool.not_eq_true, (key _ (hf p0 hp0)).2, not_lt]
        constructor
        · intro hle; exact ⟨p0, hp0, le_antisymm hle hge⟩
        · rintro ⟨p, hp, e⟩
          rcases lt_trichotomy (linearize (sfx c.shape) p) (linearize (sfx c.shape) p0) with g | g | g
          · exact absurd e.ge (hmin p hp ((lin_lt_iff hp hp0).1 g))
          · rw [← lin_inj hp hp0 g, e]
          · rw [← e]; exact hsorted p0 p hp0 hp ((lin_lt_iff hp0 hp).1 g)

example := C107_bounds_partial .checked .i8 .i64 (by decide) ⟨.i64, 3⟩ (by decide) (by decide) (by decide) (by decide) exTwo exIn exInVal
  exIn_elems (by decide) (by decide) (ex_all (by decide)) (fun p q hp hq h => (exInVal_sorted p q hp hq h).le) ()

/-- **C107** (exact, partial) Both bounds are right for all sorted contents of a container that is not empty if and only if
the elements are ordered with the value by value. -/
theorem C107_bounds_exact_partial (md : Mode) (t c' : IntType) (ht : 0 < t.bits) (v : Coord) (hu : 0 < v.type.bits)
    (hv : v.type.Fits v.value) (hc : IsCommonType t v.type c') (c : Container) (hne : ∃ p, InBox c.shape p)
    (hs : c.shape ≠ []) :
    (∀ (m : Mem Int) (val : List Int → Int), Elems c m val → (∀ p, InBox c.shape p → t.Fits (val p)) →
      (∀ p q, InBox c.shape p → InBox c.shape q → p < q → val p ≤ val q) →
      (∃ r, lowerBoundT md t m c v () = .ok (r, ()) ∧ IsFirst c.shape (fun p => v.value ≤ val p) r) ∧
      ∃ r, upperBoundT md t m c v () = .ok (r, ()) ∧ IsFirst c.shape (fun p => v.value < val p) r) ↔
    OrdersByValue t c' v.value := by
  obtain ⟨p0, hp0⟩ := hne
  have hnn : NonNeg c.shape := hp0.nonNeg
  have first : ∀ (b : Prop) r, IsFirst c.shape (fun _ => b) r → (r = none ↔ ¬ b) := by
    intro b r hr
    rw [hr.1]
    exact ⟨fun g => g p0 hp0, fun g p _ => g⟩
  constructor
  · intro h
    refine (ltT_exact ht hu hv hc).1 fun e he => ?_
    have hel : Elems c (fun _ => some e) (fun _ => e) := fun p _ => rfl
    obtain ⟨⟨r, h1, h2⟩, ⟨r', h3, h4⟩⟩ := h (fun _ => some e) (fun _ => e) hel (fun _ _ => he) fun _ _ _ _ _ => le_rfl
    obtain ⟨q, g1, g2⟩ := C30_lower_bound md _ c _ hel hs hnn (fun e v => ltT ⟨t, e⟩ v) v (fun _ _ _ _ _ h => h) ()
    obtain ⟨q', g3, g4⟩ := C31_upper_bound md _ c _ hel hs hnn (fun v e => ltT v ⟨t, e⟩) v (fun _ _ _ _ _ h => h) ()
    have e1 : r = q := by
      have := h1.symm.trans g1
      simpa using this
    have e2 : r' = q' := by
      have := h3.symm.trans g3
      simpa using this
    subst e1 e2
    have a1 := (first _ _ h2).symm.trans (first _ _ g2)
    have a2 := (first _ _ h4).symm.trans (first _ _ g4)
    constructor
    · rw [not_le, Bool.not_eq_false] at a1; exact a1.symm
    · exact (not_iff_not.1 a2).symm
  · intro hq m val h hf hsorted
    have := C107_bounds_partial md t c' ht v hu hv hc hq m c val h hs hnn hf hsorted ()
    exact ⟨this.1, this.2.1⟩

example := C107_bounds_exact_partial .checked .i8 .i64 (by decide) ⟨.i64, 3⟩ (by decide) (by decide) (by decide) exIn ⟨[1, 0], by decide⟩
  (by decide)

/-- **C107** (negation) No element of `{1, 2, 3}` of type `unsigned int` is found at or after -1; the elements of
`{-3, -2, -1}` are all found greater than `2u`. -/
theorem C107_mixed_false :
    lowerBoundT .checked .u32 (oneBlock 0 [1, 2, 3]) (.ofShape ⟨0, 0⟩ [3]) ⟨.i32, -1⟩ () = .ok (none, ()) ∧
    upperBoundT .checked .i32 (oneBlock 0 [-3, -2, -1]) (.ofShape ⟨0, 0⟩ [3]) ⟨.u32, 2⟩ () = .ok (some [0], ()) := by
  decide +kernel

/-- **C107** The full property. -/
def C107_statement : Prop :=
  ∀ (md : Mode) (t : IntType) (v : Coord) (m : Mem Int) (c : Container) (val : List Int → Int), 0 < t.bits →
    0 < v.type.bits → v.type.Fits v.value → c.shape ≠ [] → NonNeg c.shape → Elems c m val →
    (∀ p, InBox c.shape p → t.Fits (val p)) →
    (∀ p q, InBox c.shape p → InBox c.shape q → p < q → val p ≤ val q) →
    (∃ r, lowerBoundT md t m c v () = .ok (r, ()) ∧ IsFirst c.shape (fun p => v.value ≤ val p) r) ∧
    (∃ r, upperBoundT md t m c v () = .ok (r, ()) ∧ IsFirst c.shape (fun p => v.value < val p) r) ∧
    (∃ b, binarySearchT md t m c v () = .ok (b, ()) ∧ (b = true ↔ ∃ p, InBox c.shape p ∧ val p = v.value))

theorem C107_statement_false : ¬ C107_statement := by
  intro h
  have hc : IsCommonType .u32 .i32 .u32 := by decide
  have := (C107_bounds_exact_partial .checked .u32 .u32 (by decide) ⟨.i32, -1⟩ (by decide) (by decide) hc (.ofShape ⟨0, 0⟩ [1])
    ⟨[0], by decide⟩ (by decide)).1 (fun m val he hf hs => by
      obtain ⟨h1, h2, -⟩ := h .checked .u32 ⟨.i32, -1⟩ m (.ofShape ⟨0, 0⟩ [1]) val (by decide) (by decide) (by decide) (by decide)
        (by decide) he hf hs
      exact ⟨h1, h2⟩)
  exact absurd this (by decide)

example : OrdersByValue .i8 .i64 300 ∧
    lowerBoundT .checked .i8 (oneBlock 0 [-3, 5, 7]) (.ofShape ⟨0, 0⟩ [3]) ⟨.i64, 4⟩ () = .ok (some [1], ()) ∧
    binarySearchT .checked .i8 (oneBlock 0 [-3, 5, 7]) (.ofShape ⟨0, 0⟩ [3]) ⟨.i64, 4⟩ () = .ok (false, ()) := by
  decide +kernel

/-! ## C108: writing

Full property: `fill`, `generate`, `transform`, `copy` and `copy_if` store the values they are given, for all integer types.
False: values that the type of the elements cannot represent are converted silently (`C108_narrowing_false`). -/

/-- **C108** (partial) `fill`, `generate` and `transform` store the values they are given if the type `u` of the elements
represents them. -/
theorem C108_write_partial (u : IntType) (m : Mem Int) (c : Container) (hd : Distinct c) (hv : Valid c m) :
    (∀ v : Coord, u.Fits v.value → ∃ m', fillT u m c v = .ok m' ∧ Elems c m' (fun _ => v.value) ∧ SameOutside c m m') ∧
    (∀ f : List Int → Coord, (∀ p, InBox c.shape p → u.Fits (f p).value) →
      ∃ m', generateT u m f c = .ok m' ∧ Elems c m' (fun p => (f p).value) ∧ SameOutside c m m') ∧
    (∀ (f : List Int → Coord) (ins : List Container) (vals : List Int → List Int), (∀ i ∈ ins, NoClobber c i) →
      (∀ p, InBox c.shape p → ins.mapM (fun i => i.get m p) = .ok (vals p)) →
      (∀ p, InBox c.shape p → u.Fits (f (vals p)).value) →
      ∃ m', transformT u m f c ins = .ok m' ∧ Elems c m' (fun p => (f (vals p)).value) ∧ SameOutside c m m') := by
  refine ⟨fun v h => ?_, fun f h => ?_, fun f ins vals h1 h2 h => ?_⟩
  · obtain ⟨m', a, b, d⟩ := C34_fill m c hd hv (u.wrap v.value)
    exact ⟨m', a, fun p hp => by rw [b p hp, IntType.wrap_fits h], d⟩
  · obtain ⟨m', a, b, d⟩ := C34_generate m c hd hv fun p => u.wrap (f p).value
    exact ⟨m', a, fun p hp => by rw [b p hp, IntType.wrap_fits (h p hp)], d⟩
  · obtain ⟨m', a, b, d⟩ := C36_transform m (fun vs => u.wrap (f vs).value) c ins hd hv h1 vals h2
    exact ⟨m', a, fun p hp => by rw [b p hp, IntType.wrap_fits (h p hp)], d⟩

example := (C108_write_partial .u8 exTwo exOut exOut_distinct exOut_valid).2.2 (fun v => ⟨.i32, 60 * v.sum⟩) [exIn] (fun p => [exInVal p])
  (by simp only [List.mem_singleton, forall_eq]; exact ex_noClobber) (ex_all (by decide)) (ex_all (by decide))

/-- **C108** (partial) What `copy` stores: the element of the input if the type `u` of the output represents it; in all
cases a number of type `u` that is congruent to it modulo `2^bits`. -/
theorem C108_copy_partial (t u : IntType) (hb : 0 < u.bits) (m : Mem Int) (out inp : Container) (hd : Distinct out)
    (hv : Valid out m) (hc : NoClobber out inp) (val : List Int → Int)
    (h : ∀ p, InBox out.shape p → inp.get m p = .ok (val p)) :
    ∃ m', copyT t u m out inp = .ok m' ∧ SameOutside out m m' ∧ ∀ p, InBox out.shape p →
      ∃ r, out.get m' p = .ok r ∧ u.Fits r ∧ r ≡ val p [ZMOD 2 ^ u.bits] ∧ (r = val p ↔ u.Fits (val p)) := by
  obtain ⟨m', a, b, d⟩ := C36_transform m (fun vs => u.wrap ((fun vs => (⟨t, vs.headD 0⟩ : Coord)) vs).value) out [inp] hd hv
    (by intro c' hc'; simp at hc'; subst hc'; exact hc) (fun p => [val p])
    (by intro p hp; simp [h p hp, pure, Except.pure, bind, Except.bind])
  refine ⟨m', a, d, fun p hp => ⟨u.wrap (val p), b p hp, u.wrap_mem hb _, IntType.wrap_mod _ _, ?_⟩⟩
  exact ⟨fun e => e ▸ u.wrap_mem hb _, fun e => IntType.wrap_fits e⟩

example := C108_copy_partial .i32 .u8 (by decide) exTwo exOut exIn exOut_distinct exOut_valid ex_noClobber exInVal exIn_elems

/-- **C108** (exact, partial) Copies from elements of type `t` to elements of type `u` are right for all contents if and only if
`u` represents every number of type `t`. -/
theorem C108_copy_exact_partial (t u : IntType) (hb : 0 < u.bits) (out inp : Container) (hd : Distinct out)
    (hc : NoClobber out inp) (hne : ∃ p, InBox out.shape p) :
    (∀ (m : Mem Int) (val : List Int → Int), Valid out m → (∀ p, InBox out.shape p → inp.get m p = .ok (val p)) →
      (∀ p, InBox out.shape p → t.Fits (val p)) → ∃ m', copyT t u m out inp = .ok m' ∧ Elems out m' val) ↔
    ∀ v, t.Fits v → u.Fits v := by
  constructor
  · intro h v hv
    obtain ⟨p, hp⟩ := hne
    obtain ⟨m', h1, h2⟩ := h (fun _ => some v) (fun _ => v) (fun _ _ => ⟨v, rfl⟩) (fun _ _ => rfl) fun _ _ => hv
    obtain ⟨m'', g1, -, g2⟩ := C108_copy_partial t u hb (fun _ => some v) out inp hd (fun _ _ => ⟨v, rfl⟩) hc (fun _ => v)
      fun _ _ => rfl
    obtain ⟨r, a1, -, -, a2⟩ := g2 p hp
    rw [h1] at g1; cases g1
    rw [h2 p hp] at a1; cases a1
    exact a2.1 rfl
  · intro h m val hv hi hf
    obtain ⟨m', g1, -, g2⟩ := C108_copy_partial t u hb m out inp hd hv hc val hi
    refine ⟨m', g1, fun p hp => ?_⟩
    obtain ⟨r, a1, -, -, a2⟩ := g2 p hp
    rw [a1, a2.2 (h _ (hf p hp))]

example := C108_copy_exact_partial .u8 .i32 (by decide) exOut exIn exOut_distinct ex_noClobber ⟨[1, 0], by decide⟩

/-- **C108** (partial) `copy_if` stores the selected elements if the type of the output represents them, and leaves the
others. -/
theorem C108_copy_if_partial (u : IntType) (m : Mem Int) (f : Int → Bool) (out inp : Container) (hd : Distinct out)
    (hv : Valid out m) (hc : NoClobber out inp) (val : List Int → Int)
    (h : ∀ p, InBox out.shape p → inp.get m p = .ok (val p))
    (hf : ∀ p, InBox out.shape p → f (val p) = true → u.Fits (val p)) :
    ∃ m', copyIfT u m f out inp = .ok m' ∧
      (∀ p, InBox out.shape p →
        (f (val p) = true → out.get m' p = .ok (val p)) ∧
        (f (val p) = false → out.get m' p = out.get m p)) ∧ SameOutside out m m' := by
  obtain ⟨s', m', h1, h2, h3⟩ := run_write (s0 := ()) hd hv
    (fun p sm => do
      let v ← load sm.2 (inp.addr p)
      if f v then do
        let m ← store sm.2 (out.addr p) (u.wrap v)
        pure ((), m)
      else pure ((), sm.2)) (fun p _ => ((), if f (val p) then some (val p) else none)) (by
      intro p hp s m1 ha hs
      have e : load m1 (inp.addr p) = .ok (val p) := by
        apply load_ok
        rw [ha _ fun q hq hlt => hc p q hp hq hlt]
        exact get_ok_iff.1 (h p hp)
      simp only [e, bind, Except.bind]
      cases hfv : f (val p)
      · rfl
      · simp only [if_true]
        rw [IntType.wrap_fits (hf p hp hfv), store_ok (valid_isSome hv hp hs)]; rfl)
  refine ⟨m', ?_, ?_, h2⟩
  · unfold copyIfT mapCtx
    simp only [List.map_cons, List.map_nil, List.headD_cons]
    show (loopState _ _ _ >>= _) = _
    rw [h1]; rfl
  · intro p hp
    have := h3 _ p (getElem?_rank hp)
    constructor
    · intro hf; rw [get_ok_iff, this]; simp [hf]
    · intro hf
      simp only [hf, Bool.false_eq_true, if_false] at this
      unfold Container.get load; rw [this]

example := C108_copy_if_partial .u8 exTwo (· != 3) exOut exIn exOut_distinct exOut_valid ex_noClobber exInVal exIn_elems
  (ex_all (by decide))

/-- **C108** (negation) `fill` with 200 makes signed bytes -56, and copying 300 from `int` to bytes stores 44. -/
theorem C108_narrowing_false :
    (do let m ← fillT .i8 (oneBlock 0 [1, 2]) (.ofShape ⟨0, 0⟩ [2]) ⟨.i32, 200⟩
        reduce m (.ofShape ⟨0, 0⟩ [2]) (fun a e => a ++ [e]) []) = .ok [-56, -56] ∧
    (do let m ← copyT .i32 .u8 (oneBlock 0 [1, 2, 300, 4]) (.ofShape ⟨0, 0⟩ [2]) (.ofShape ⟨0, 2⟩ [2])
        reduce m (.ofShape ⟨0, 0⟩ [2]) (fun a e => a ++ [e]) []) = .ok [44, 4] := by decide +kernel

/-- **C108** The full property. -/
def C108_statement : Prop :=
  ∀ (u : IntType) (m : Mem Int) (c : Container), 0 < u.bits → Distinct c → Valid c m →
    (∀ v : Coord, ∃ m', fillT u m c v = .ok m' ∧ Elems c m' (fun _ => v.value) ∧ SameOutside c m m') ∧
    (∀ f : List Int → Coord, ∃ m', generateT u m f c = .ok m' ∧ Elems c m' (fun p => (f p).value) ∧ SameOutside c m m') ∧
    (∀ (f : List Int → Coord) (ins : List Container) (vals : List Int → List Int), (∀ i ∈ ins, NoClobber c i) →
      (∀ p, InBox c.shape p → ins.mapM (fun i => i.get m p) = .ok (vals p)) →
      ∃ m', transformT u m f c ins = .ok m' ∧ Elems c m' (fun p => (f (vals p)).value) ∧ SameOutside c m m') ∧
    (∀ (t : IntType) (inp : Container) (val : List Int → Int), NoClobber c inp →
      (∀ p, InBox c.shape p → inp.get m p = .ok (val p)) →
      (∃ m', copyT t u m c inp = .ok m' ∧ Elems c m' val ∧ SameOutside c m m') ∧
      ∀ f : Int → Bool, ∃ m', copyIfT u m f c inp = .ok m' ∧ SameOutside c m m' ∧ ∀ p, InBox c.shape p →
        (f (val p) = true → c.get m' p = .ok (val p)) ∧ (f (val p) = false → c.get m' p = c.get m p))

theorem C108_statement_false : ¬ C108_statement := by
  intro h
  have hd : Distinct (.ofShape ⟨0, 0⟩ [1]) := default_distinct (ofShape_default (by decide))
  have hv : Valid (.ofShape ⟨0, 0⟩ [1]) (oneBlock 0 [(0 : Int)]) := by
    intro p hp
    match p, hp with
    | [i], hp =>
      have : i = 0 := by have := (inBox_cons.1 hp).1; omega
      subst this; exact ⟨0, by decide⟩
  obtain ⟨m', hm, he, -⟩ := (h .i8 _ _ (by decide) hd hv).1 ⟨.i32, 200⟩
  have e : (do let m ← fillT .i8 (oneBlock 0 [0]) (.ofShape ⟨0, 0⟩ [1]) ⟨.i32, 200⟩
               (Container.ofShape ⟨0, 0⟩ [1]).get m [0]) = .ok (-56) := by decide +kernel
  rw [hm] at e
  have e : (Container.ofShape ⟨0, 0⟩ [1]).get m' [0] = .ok (-56) := e
  rw [he [0] (by decide)] at e
  exact absurd e (by decide)

example : (∀ v, IntType.u8.Fits v → IntType.i32.Fits v) ∧
    (do let m ← copyT .u8 .i32 (oneBlock 0 [1, 2, 255, 4]) (.ofShape ⟨0, 0⟩ [2]) (.ofShape ⟨0, 2⟩ [2])
        reduce m (.ofShape ⟨0, 0⟩ [2]) (fun a e => a ++ [e]) []) = .ok [255, 4] ∧
    (do let m ← copyIfT .u8 (oneBlock 0 [1, 2, 255, 4000]) (· < 300) (.ofShape ⟨0, 0⟩ [2]) (.ofShape ⟨0, 2⟩ [2])
        reduce m (.ofShape ⟨0, 0⟩ [2]) (fun a e => a ++ [e]) []) = .ok [255, 2] := by
  refine ⟨fun v h => ?_, by decide +kernel, by decide +kernel⟩
  unfold IntType.Fits IntType.lo IntType.hi IntType.u8 at h
  unfold IntType.Fits IntType.lo IntType.hi IntType.i32
  norm_num at h ⊢
  omega

end Kwk
