import Verif.Lemmas.SearchAny
import Verif.Spec.SearchAny
import Verif.Props.Search
import Verif.Props.TypedSearch

/-!
# Property C155: binary searches on contents that are not sorted

Also: for which values `binary_search` is right on sorted integers (C107).
-/

namespace Kwk
open Spec

variable {α β σ : Type}

theorem justBefore_lin {s p q : List Int} (hs : NonNeg s) (hp : InBox s p) (h : JustBefore s q p) :
    linearize (sfx s) q = linearize (sfx s) p - 1 := by
  obtain ⟨hq, hlt, hno⟩ := h
  have h1 := (lin_lt_iff hq hp).2 hlt
  have hb := lin_bounds hp
  have hb' := lin_bounds hq
  obtain ⟨r, hr, e⟩ := lin_surj hs (k := linearize (sfx s) p - 1) (by omega) (by omega)
  by_contra hne
  exact hno r hr ⟨(lin_lt_iff hq hr).1 (by omega), (lin_lt_iff hr hp).1 (by omega)⟩

theorem lastOf_lin {s q : List Int} (hs : NonNeg s) (h : LastOf s q) : linearize (sfx s) q = s.prod - 1 := by
  obtain ⟨hq, hno⟩ := h
  have hb := lin_bounds hq
  obtain ⟨r, hr, e⟩ := lin_surj hs (k := s.prod - 1) (by omega) (by omega)
  by_contra hne
  exact hno r hr ((lin_lt_iff hq hr).1 (by omega))

theorem finish_isBoundary (md : Mode) {m : Mem α} {c : Container} {val : List Int → α}
    (h : Elems c m val) (hne : c.shape ≠ []) (hs : NonNeg c.shape) (adv : α → StateT σ Res Bool) (ans : α → Bool)
    (hadv : ∀ p, InBox c.shape p → ∀ s, adv (val p) s = .ok (ans (val p), s)) (s : σ) :
    ∃ r, finish md m c adv s = .ok (r, s) ∧ Boundary c.shape (fun p => ans (val p) = true) r := by
  obtain ⟨r, h1, h2, h3⟩ := finish_boundary md h hne hs adv ans hadv s
  refine ⟨r, h1, ?_⟩
  cases r with
  | none =>
    intro q hq
    refine h3 rfl q hq.1 ?_
    rw [lastOf_lin hs hq, Container.numel, numel_eq_prod hne]
  | some p =>
    obtain ⟨g1, g2, g3⟩ := h2 p rfl
    exact ⟨g1, by simp [g2], fun q hq => g3 q hq.1 (justBefore_lin hs g1 hq)⟩

/-- **C155** On any contents `lower_bound` returns a place where the answers of the function change: the element there does not precede the
value, the one just before does.  If nothing is returned, the last element precedes the value. -/
theorem C155_lower_bound (md : Mode) (m : Mem α) (c : Container) (val : List Int → α)
    (h : Elems c m val) (hne : c.shape ≠ []) (hs : NonNeg c.shape) (func : α → β → Bool) (value : β) (s : σ) :
    ∃ r, lowerBound md m c value (fun e v => pure (func e v)) s = .ok (r, s) ∧
      Boundary c.shape (fun p => func (val p) value = true) r := by
  rw [lowerBound_eq md m c]
  exact finish_isBoundary md h hne hs _ (fun e => func e value) (fun _ _ _ => rfl) s

/-- The elements 1, 2, 3, 4, none of which is in place for this order of the function. -/
example := C155_lower_bound .checked exTwo exIn exInVal exIn_elems (by decide) (by decide) (fun a b => decide (a % 2 < b)) 1 ()

/-- Contents that are not sorted: the element 5 at position 2 follows 1. -/
example : lowerBound (σ := Unit) .checked (oneBlock 0 [7, 1, 5, 0, 9]) (.ofShape ⟨0, 0⟩ [5]) (3 : Int) (fun e v => pure (decide (e < v))) () =
    .ok (some [2], ()) := by decide

/-- **C155** On any contents `upper_bound` returns a place where the answers of the function change: the value precedes the element there,
and not the one just before.  If nothing is returned, the value does not precede the last element. -/
theorem C155_upper_bound (md : Mode) (m : Mem α) (c : Container) (val : List Int → α)
    (h : Elems c m val) (hne : c.shape ≠ []) (hs : NonNeg c.shape) (func : β → α → Bool) (value : β) (s : σ) :
    ∃ r, upperBound md m c value (fun v e => pure (func v e)) s = .ok (r, s) ∧
      Boundary c.shape (fun p => func value (val p) = false) r := by
  rw [upperBound_eq]
  obtain ⟨r, h1, h2⟩ := finish_isBoundary md h hne hs
    (fun e => do let r ← (pure (func value e) : StateT σ Res Bool); pure (!r)) (fun e => !func value e) (fun _ _ _ => rfl) s
  refine ⟨r, h1, ?_⟩
  simpa using h2

example := C155_upper_bound .checked exTwo exIn exInVal exIn_elems (by decide) (by decide) (fun a b => decide (a < b % 2)) 0 ()

/-- **C155** On any contents `binary_search` ends, and what it reports is there: if the answer is yes, some element neither precedes the
value nor is preceded by it. -/
theorem C155_binary_search (md : Mode) (m : Mem α) (c : Container) (val : List Int → α)
    (h : Elems c m val) (hne : c.shape ≠ []) (hs : NonNeg c.shape) (func : α → α → Bool) (value : α) (s : σ) :
    ∃ b, binarySearch md m c value (fun a b => pure (func a b)) s = .ok (b, s) ∧
      (b = true → ∃ p, InBox c.shape p ∧ func (val p) value = false ∧ func value (val p) = false) := by
  obtain ⟨r, h1, h2⟩ := C155_lower_bound md m c val h hne hs func value s
  cases r with
  | none =>
    refine ⟨false, ?_, by simp⟩
    simp only [binarySearch, bind, StateT.bind, h1, Except.bind]; rfl
  | some p =>
    refine ⟨!func value (val p), ?_, fun hb => ⟨p, h2.1, by simpa using h2.2.1, by simpa using hb⟩⟩
    simp only [binarySearch, bind, StateT.bind, h1, Except.bind, liftM, monadLift, MonadLift.monadLift, StateT.lift, h p h2.1]
    rfl

example := C155_binary_search .checked exTwo exIn exInVal exIn_elems (by decide) (by decide) (fun a b => decide (a % 3 < b % 3)) 2 ()

/-- Elements that are there need not be found: the contents must be sorted for that (C32). -/
example : binarySearch (σ := Unit) .checked (oneBlock 0 [7, 1, 5, 0, 9]) (.ofShape ⟨0, 0⟩ [5]) (7 : Int)
    (fun e v => pure (decide (e < v))) () = .ok (false, ()) := by decide

/-- **C155** `binary_search` for integers of any types on any contents: a number that is reported is stored, if no other number of the type of the
elements compares equal to it. -/
theorem C155_integers (md : Mode) (t c' : IntType) (ht : 0 < t.bits) (v : Coord) (hu : 0 < v.type.bits)
    (hv : v.type.Fits v.value) (hc : IsCommonType t v.type c') (hq : EqualsByValue t c' v.value)
    (m : Mem Int) (c : Container) (val : List Int → Int) (h : Elems c m val) (hne : c.shape ≠ []) (hs : NonNeg c.shape)
    (hf : ∀ p, InBox c.shape p → t.Fits (val p)) (s : σ) :
    ∃ b, binarySearchT md t m c v s = .ok (b, s) ∧ (b = true → ∃ p, InBox c.shape p ∧ val p = v.value) := by
  obtain ⟨r, h1, h2⟩ := C155_lower_bound md m c val h hne hs (fun e v => ltT ⟨t, e⟩ v) v s
  have h1 : lowerBoundT md t m c v s = .ok (r, s) := h1
  cases r with
  | none =>
    refine ⟨false, ?_, by simp⟩
    simp only [binarySearchT, bind, StateT.bind, h1, Except.bind]; rfl
  | some p =>
    refine ⟨!ltT v ⟨t, val p⟩, ?_, fun hb => ⟨p, h2.1, ?_⟩⟩
    · simp only [binarySearchT, bind, StateT.bind, h1, Except.bind, liftM, monadLift, MonadLift.monadLift, StateT.lift, h p h2.1]
      rfl
    · have := (eqT_exact ht hu hv hc).2 hq (val p) (hf p h2.1)
      rw [← this]
      have a1 : ltT ⟨t, val p⟩ v ≠ true := h2.2.1
      have a2 : ltT v ⟨t, val p⟩ ≠ true := by simpa using hb
      unfold ltT at a1 a2
      unfold eqT
      simp only [IntType.common_comm v.type t, ne_eq, decide_eq_true_eq] at a1 a2 ⊢
      omega

example := C155_integers .checked .i8 .u32 (by decide) ⟨.u32, 300⟩ (by decide) (by decide) (by decide) (by decide) exTwo exIn exInVal
  exIn_elems (by decide) (by decide) (ex_all (by decide)) ()

/-! ## C107: for which values `binary_search` is right -/

/-- `binary_search` from the result of `lower_bound`. -/
theorem binarySearchT_of {md : Mode} {t : IntType} {m : Mem Int} {c : Container} {val : List Int → Int} (h : Elems c m val) {v : Coord}
    {r : Option (List Int)} {s : σ} (h1 : lowerBoundT md t m c v s = .ok (r, s)) (hr : ∀ p, r = some p → InBox c.shape p) :
    binarySearchT md t m c v s = .ok (r.elim false fun p => !ltT v ⟨t, val p⟩, s) := by
  cases r with
  | none => simp only [binarySearchT, bind, StateT.bind, h1, Except.bind]; rfl
  | some p =>
    simp only [binarySearchT, bind, StateT.bind, h1, Except.bind, liftM, monadLift, MonadLift.monadLift, StateT.lift, h p (hr p rfl)]
    rfl

/-- **C107** (exact, partial) `binary_search` is right for all sorted contents of a container of two or more elements if and only if no
other number of the type of the elements compares equal to the value and, if it is a number of this type, these numbers are ordered with it by value. -/
theorem C107_binary_search_exact_partial (md : Mode) (t c' : IntType) (ht : 0 < t.bits) (v : Coord) (hu : 0 < v.type.bits)
    (hv : v.type.Fits v.value) (hc : IsCommonType t v.type c') (c : Container) (hs : NonNeg c.shape) (hd : Distinct c)
    (h2 : ∃ p q, InBox c.shape p ∧ InBox c.shape q ∧ p < q) :
    (∀ (m : Mem Int) (val : List Int → Int), Elems c m val → (∀ p, InBox c.shape p → t.Fits (val p)) →
      (∀ p q, InBox c.shape p → InBox c.shape q → p < q → val p ≤ val q) →
      ∃ b, binarySearchT md t m c v () = .ok (b, ()) ∧ (b = true ↔ ∃ p, InBox c.shape p ∧ val p = v.value)) ↔
    EqualsByValue t c' v.value ∧ (t.Fits v.value → OrdersByValue t c' v.value) := by
  obtain ⟨p1, q1, hp1, hq1, hlt1⟩ := h2
  have hne : c.shape ≠ [] := by
    rintro e
    rw [e, inBox_nil] at hp1 hq1
    rw [hp1, hq1] at hlt1
    exact absurd hlt1 (by decide)
  have tri : ∀ e, eqT ⟨t, e⟩ v = true ↔ ltT ⟨t, e⟩ v = false ∧ ltT v ⟨t, e⟩ = false := by
    intro e
    unfold eqT ltT
    simp only [IntType.common_comm v.type t, decide_eq_true_eq, decide_eq_false_iff_not]
    omega
  constructor
  · intro h
    have heq : EqualsByValue t c' v.value := by
      refine (eqT_exact ht hu hv hc).1 fun e he => ?_
      have hel : Elems c (fun _ => some e) (fun _ => e) := fun p _ => rfl
      obtain ⟨b, h1, h2⟩ := h (fun _ => some e) (fun _ => e) hel (fun _ _ => he) fun _ _ _ _ _ => le_rfl
      obtain ⟨r, g1, g2⟩ := C30_lower_bound md _ c _ hel hne hs (fun e v => ltT ⟨t, e⟩ v) v (fun _ _ _ _ _ h => h) ()
      have g3 := binarySearchT_of hel g1 fun p hp => ((g2.2 p).1 hp).1
      have hb : b = r.elim false fun _ => !ltT v ⟨t, e⟩ := by
        have := h1.symm.trans g3
        simpa using this
      have hb2 : b = true ↔ e = v.value := h2.trans ⟨fun ⟨_, _, h⟩ => h, fun h => ⟨p1, hp1, h⟩⟩
      rw [← hb2, tri, hb]
      cases r with
      | none =>
        have := g2.1.1 rfl p1 hp1
        simp [this]
      | some p =>
        have := ((g2.2 p).1 rfl).2.1
        simp [this]
    refine ⟨heq, fun hft => ?_⟩
    rcases heq with hsg | ⟨h0, hlim⟩
    · exact .inl hsg
    by_cases hsg : c'.signed = true
    · exact .inl hsg
    refine .inr ⟨?_, h0⟩
    by_contra hts
    have hts : t.signed = true := by simpa using hts
    have hT : (0 : Int) < 2 ^ t.bits := by positivity
    have hT2 : (2 : Int) ∣ 2 ^ t.bits := dvd_pow_self 2 (by omega)
    have hm1 : t.Fits (-1) := by
      unfold IntType.Fits IntType.lo IntType.hi
      rw [hts]; simp only [if_true]; omega
    have hcs : c'.signed = false := by simpa using hsg
    have htb : t.bits ≤ c'.bits := by have := hc.1; omega
    have hub : v.type.bits ≤ c'.bits := by have := hc.1; omega
    have hle : ltT ⟨t, -1⟩ v = false := by
      unfold ltT
      rw [← isCommon_eq hc, decide_eq_false_iff_not]
      show ¬ (c'.wrap (-1) < c'.wrap v.value)
      have hv2 := (fits_bounds hu hub hv).2.1
      rw [wrap_unsigned hcs, wrap_unsigned hcs, emod_of_nonneg h0 hv2, emod_of_neg (by omega) (by omega)]
      omega
    have hgt : ltT v ⟨t, -1⟩ = true := by
      by_contra hn
      have := (tri (-1)).2 ⟨hle, by simpa using hn⟩
      have := ((eqT_exact ht hu hv hc).2 (.inr ⟨h0, hlim⟩) (-1) hm1).1 this
      omega
    have hb1 := lin_bounds hp1
    obtain ⟨p0, hp0, hl0⟩ := lin_surj hs (k := 0) le_rfl (by omega)
    have hmin : ∀ q, InBox c.shape q → ¬ q < p0 := by
      intro q hq hlt
      have := (lin_lt_iff hq hp0).2 hlt
      have := (lin_bounds hq).1
      omega
    let val : List Int → Int := fun p => if p = p0 then -1 else v.value
    let m : Mem Int := fun a => some (if a = c.addr p0 then -1 else v.value)
    have hel : Elems c m val := by
      intro p hp
      show Except.ok (if c.addr p = c.addr p0 then (-1 : Int) else v.value) = Except.ok (if p = p0 then -1 else v.value)
      by_cases e : p = p0
      · rw [if_pos e, if_pos (by rw [e])]
      · rw [if_neg e, if_neg fun g => e (hd p p0 hp hp0 g)]
    obtain ⟨b, h1, h2⟩ := h m val hel (by
      intro p _
      simp only [val]
      split
      · exact hm1
      · exact hft) (by
      intro p q hp hq hlt
      simp only [val]
      have : q ≠ p0 := by rintro rfl; exact hmin p hp hlt
      rw [if_neg this]
      split <;> omega)
    have hall : ∀ p, ltT ⟨t, val p⟩ v = false := by
      intro p
      simp only [val]
      split
      · exact hle
      · unfold ltT
        simp
    obtain ⟨r, g1, g2⟩ := C30_lower_bound md m c val hel hne hs (fun e v => ltT ⟨t, e⟩ v) v
      (fun p q _ _ _ hq => absurd hq (by simp [hall])) ()
    have hr : r = some p0 := (g2.2 p0).2 ⟨hp0, hall p0, fun q hq hlt => absurd hlt (hmin q hq)⟩
    have g3 := binarySearchT_of hel g1 fun p hp => ((g2.2 p).1 hp).1
    have hb : b = false := by
      have := h1.symm.trans g3
      rw [hr] at this
      simpa [val, hgt] using this
    have : b = true := h2.2 ⟨q1, hq1, by
      simp only [val]
      rw [if_neg]
      rintro rfl
      exact hmin p1 hp1 hlt1⟩
    rw [hb] at this
    cases this
  · rintro ⟨hq, ho⟩ m val h hf hsorted
    by_cases hfit : t.Fits v.value
    · exact (C107_bounds_partial md t c' ht v hu hv hc (ho hfit) m c val h hne hs hf hsorted ()).2.2
    · obtain ⟨b, h1, h2⟩ := C155_integers md t c' ht v hu hv hc hq m c val h hne hs hf ()
      refine ⟨b, h1, h2, ?_⟩
      rintro ⟨p, hp, e⟩
      exact absurd (e ▸ hf p hp) hfit

example := C107_binary_search_exact_partial .checked .i8 .u32 (by decide) ⟨.u32, 300⟩ (by decide) (by decide) (by decide) exIn (by decide)
  exIn_distinct ⟨[0, 1], [1, 0], by decide, by decide, by decide⟩

/-- A number that the type of the elements does not hold is never found, although the elements are not ordered with it by value; a number of
this type can be missed: 2 among -1 and 2. -/
example : (EqualsByValue .i8 .u32 300 ∧ ¬ IntType.i8.Fits 300 ∧ ¬ OrdersByValue .i8 .u32 300) ∧
    binarySearchT (σ := Unit) .checked .i32 (oneBlock 0 [-1, 2]) (.ofShape ⟨0, 0⟩ [2]) ⟨.u32, 2⟩ () = .ok (false, ()) := by decide

/-! ## C106: for which values the other searches are right -/

/-- **C106** (exact, partial) Like `find`, each of `find_last`, `count` and `replace` is right for all contents of a container that is not
empty (of default layout; with less than `2^64` elements, each in a cell of its own) if and only if the elements compare with the value by value. -/
theorem C106_others_exact_partial (t c' : IntType) (ht : 0 < t.bits) (v : Coord) (hu : 0 < v.type.bits)
    (hv : v.type.Fits v.value) (hc : IsCommonType t v.type c') (c : Container) (hne : ∃ p, InBox c.shape p) :
    (c.Default → ((∀ (m : Mem Int) (val : List Int → Int), Elems c m val → (∀ p, InBox c.shape p → t.Fits (val p)) →
      ∃ r, findLastT t m c v = .ok r ∧ IsLast c.shape (fun p => val p = v.value) r) ↔ EqualsByValue t c' v.value)) ∧
    ((positions c.shape).length < 2 ^ 64 → ((∀ (m : Mem Int) (val : List Int → Int), Elems c m val →
      (∀ p, InBox c.shape p → t.Fits (val p)) →
      countT t m c v = .ok (Set.ncard {p | InBox c.shape p ∧ val p = v.value} : Nat)) ↔ EqualsByValue t c' v.value)) ∧
    (Distinct c → ((∀ (m : Mem Int) (val : List Int → Int), Elems c m val → (∀ p, InBox c.shape p → t.Fits (val p)) →
      ∀ w : Coord, t.Fits w.value → ∃ m', replaceT t m c v w = .ok m' ∧
        Elems c m' (fun p => if val p = v.value then w.value else val p) ∧ SameOutside c m m') ↔ EqualsByValue t c' v.value)) := by
  have all := fun hq m val h hf => C106_find_partial t c' ht v hu hv hc hq m c val h hf
  have hel : ∀ e : Int, Elems c (fun _ => some e) (fun _ : List Int => e) := fun e p _ => rfl
  obtain ⟨p0, hp0⟩ := hne
  refine ⟨fun hd => ⟨fun h => ?_, fun hq m val g hf => (all hq m val g hf).2.1 hd⟩,
    fun hn => ⟨fun h => ?_, fun hq m val g hf => (all hq m val g hf).2.2.1 hn⟩,
    fun hd => ⟨fun h => ?_, fun hq m val g hf => (all hq m val g hf).2.2.2 hd⟩⟩
  · refine (eqT_exact ht hu hv hc).1 fun e he => ?_
    obtain ⟨r, h1, h2⟩ := h (fun _ => some e) (fun _ => e) (hel e) fun _ _ => he
    obtain ⟨r', h3, h4⟩ := (C27_find_last_default (fun _ => some e) c hd (fun _ => e) (hel e) (fun x => eqT ⟨t, x⟩ v) 0).1
    have e1 : r = r' := Except.ok.inj (h1.symm.trans h3)
    subst e1
    have a1 : r = none ↔ ¬ e = v.value := h2.1.trans ⟨fun g => g p0 hp0, fun g _ _ => g⟩
    have a2 : r = none ↔ ¬ eqT ⟨t, e⟩ v = true := h4.1.trans ⟨fun g => g p0 hp0, fun g _ _ => g⟩
    exact not_iff_not.1 (a2.symm.trans a1)
  · refine (eqT_exact ht hu hv hc).1 fun e he => ?_
    have h1 := h (fun _ => some e) (fun _ => e) (hel e) fun _ _ => he
    have hN : ∀ P : Prop, [Decidable P] → Set.ncard {p | InBox c.shape p ∧ P} = if P then (positions c.shape).length else 0 := by
      intro P _
      split
      · next hP =>
        have : {p | InBox c.shape p ∧ P} = ((positions c.shape).toFinset : Set (List Int)) := by
          ext p; simp [mem_positions, hP]
        rw [this, Set.ncard_coe_finset, List.toFinset_card_of_nodup (positions_nodup _)]
      · next hP => simp [hP]
    have hpos : 0 < (positions c.shape).length := List.length_pos_of_mem (mem_positions.2 hp0)
    have h2 := (C109_count_if (fun _ => some e) c (fun _ => e) (hel e) fun x => eqT ⟨t, x⟩ v).2 (by
      simp only [hN]
      split <;> omega)
    have h3 : countT t (fun _ => some e) c v = countIfT (fun _ => some e) c fun x => eqT ⟨t, x⟩ v := rfl
    rw [h3, h2] at h1
    have h4 := Except.ok.inj h1
    simp only [hN] at h4
    by_cases a : eqT ⟨t, e⟩ v = true <;> by_cases b : e = v.value
    · exact ⟨fun _ => b, fun _ => a⟩
    · rw [if_pos a, if_neg b] at h4; omega
    · rw [if_neg a, if_pos b] at h4; omega
    · exact ⟨fun g => absurd g a, fun g => absurd g b⟩
  · refine (eqT_exact ht hu hv hc).1 fun e he => ?_
    obtain ⟨w, hw, hwe⟩ : ∃ w, t.Fits w ∧ w ≠ e := by
      have hT : (0 : Int) < 2 ^ t.bits := by positivity
      have hT2 : (2 : Int) ∣ 2 ^ t.bits := dvd_pow_self 2 (by omega)
      by_cases e0 : e = 0
      · cases hs : t.signed
        · refine ⟨1, ?_, by omega⟩
          unfold IntType.Fits IntType.lo IntType.hi
          rw [hs]; simp only [Bool.false_eq_true, if_false]; omega
        · refine ⟨-1, ?_, by omega⟩
          unfold IntType.Fits IntType.lo IntType.hi
          rw [hs]; simp only [if_true]; omega
      · refine ⟨0, ?_, by omega⟩
        unfold IntType.Fits IntType.lo IntType.hi
        cases hs : t.signed
        · simp
        · simp; omega
    obtain ⟨m', h1, h2, -⟩ := h (fun _ => some e) (fun _ => e) (hel e) (fun _ _ => he) ⟨t, w⟩ hw
    obtain ⟨m'', h3, h4, -⟩ := C38_replace_if (fun _ => some e) c hd (fun _ => e) (hel e) (fun x => eqT ⟨t, x⟩ v) (t.wrap w)
    have e1 : m' = m'' := Except.ok.inj (h1.symm.trans h3)
    subst e1
    have h5 := Except.ok.inj ((h2 p0 hp0).symm.trans (h4 p0 hp0))
    rw [IntType.wrap_fits hw] at h5
    by_cases a : eqT ⟨t, e⟩ v = true <;> by_cases b : e = v.value
    · exact ⟨fun _ => b, fun _ => a⟩
    · rw [if_neg b, if_pos a] at h5; exact absurd h5.symm hwe
    · rw [if_pos b, if_neg a] at h5; exact absurd h5 hwe
    · exact ⟨fun g => absurd g a, fun g => absurd g b⟩

example := C106_others_exact_partial .i16 .u32 (by decide) ⟨.u32, 3⟩ (by decide) (by decide) (by decide) exIn ⟨[1, 0], by decide⟩

/-- **C106** (exact, partial) `find_first_of` is right for all contents of a container that is not empty and all sets of values in another
block of memory if and only if the elements compare by value with all numbers of the type of the values. -/
theorem C106_find_first_of_exact_partial (t u c' : IntType) (ht : 0 < t.bits) (hu : 0 < u.bits) (hc : IsCommonType t u c')
    (c vs : Container) (hne : ∃ p, InBox c.shape p) (hvs : ∃ q, InBox vs.shape q)
    (hd : ∀ p q, InBox c.shape p → InBox vs.shape q → c.addr p ≠ vs.addr q) :
    (∀ (m : Mem Int) (val vval : List Int → Int), Elems c m val → Elems vs m vval → (∀ p, InBox c.shape p → t.Fits (val p)) →
      (∀ q, InBox vs.shape q → u.Fits (vval q)) →
      ∃ r, findFirstOfT t u m c vs = .ok r ∧ IsFirst c.shape (fun p => ∃ q, InBox vs.shape q ∧ vval q = val p) r) ↔
    ∀ v, u.Fits v → EqualsByValue t c' v := by
  classical
  constructor
  · intro h v hv
    refine (eqT_exact (v := ⟨u, v⟩) ht hu hv hc).1 fun e he => ?_
    obtain ⟨p0, hp0⟩ := hne
    obtain ⟨q0, hq0⟩ := hvs
    let m : Mem Int := fun a => some (if ∃ q, InBox vs.shape q ∧ a = vs.addr q then v else e)
    have hel : Elems c m fun _ => e := by
      intro p hp
      show Except.ok (if ∃ q, InBox vs.shape q ∧ c.addr p = vs.addr q then v else e) = Except.ok e
      rw [if_neg]
      rintro ⟨q, hq, g⟩
      exact hd p q hp hq g
    have hev : Elems vs m fun _ => v := by
      intro q hq
      show Except.ok (if ∃ q', InBox vs.shape q' ∧ vs.addr q = vs.addr q' then v else e) = Except.ok v
      rw [if_pos ⟨q, hq, rfl⟩]
    obtain ⟨r, h1, h2⟩ := h m (fun _ => e) (fun _ => v) hel hev (fun _ _ => he) fun _ _ => hv
    have h3 : findFirstOfT t u m c vs = .ok ((positions c.shape).find? fun p => (positions vs.shape).any fun q => eqT ⟨u, v⟩ ⟨t, e⟩) := by
      rw [findFirstOfT, findIfM_eq]
      exact firstHit_pure _ _ _ (fun _ => e) (fun e => (positions vs.shape).any fun q => eqT ⟨u, v⟩ ⟨t, e⟩)
        (fun p hp => hel p (mem_positions.1 hp)) (fun p _ => anyOf_eq (fun x => eqT ⟨u, x⟩ ⟨t, e⟩) hev)
    have h4 := Except.ok.inj (h1.symm.trans h3)
    have hcomm : eqT ⟨u, v⟩ ⟨t, e⟩ = eqT ⟨t, e⟩ ⟨u, v⟩ := by
      unfold eqT
      simp only [IntType.common_comm u t]
      exact decide_eq_decide.2 eq_comm
    have a1 : r = none ↔ ¬ e = v := h2.1.trans ⟨fun g b => g p0 hp0 ⟨q0, hq0, b.symm⟩, fun g _ _ ⟨_, _, b⟩ => g b.symm⟩
    have a2 : r = none ↔ ¬ eqT ⟨t, e⟩ ⟨u, v⟩ = true := by
      rw [h4, List.find?_eq_none, ← hcomm]
      constructor
      · intro g b
        exact g p0 (mem_positions.2 hp0) (List.any_eq_true.2 ⟨q0, mem_positions.2 hq0, b⟩)
      · intro g p _ b
        obtain ⟨q, -, b⟩ := List.any_eq_true.1 b
        exact g b
    exact not_iff_not.1 (a2.symm.trans a1)
  · intro hq m val vval h hv hf hfv
    exact C106_find_first_of_partial t u c' ht hu hc m c vs val vval h hv hf hfv fun q hq' => hq _ (hfv q hq')

example := C106_find_first_of_exact_partial .i16 .u8 .i32 (by decide) (by decide) (by decide) exIn exOut ⟨[1, 0], by decide⟩
  ⟨[0, 0], by decide⟩ (fun p q hp hq => (by decide : ∀ p ∈ positions exIn.shape, ∀ q ∈ positions exOut.shape, exIn.addr p ≠ exOut.addr q) p
    (mem_positions.2 hp) q (mem_positions.2 hq))

end Kwk
