import Verif.Lemmas.Numbers
import Verif.Lemmas.NumberWitnesses
import Verif.Lemmas.Effects
import Verif.Props.Reverse
import Verif.Props.SearchAny

/-!
# Properties C134 and C135: searching integers and floating-point numbers

`SameNumber a b`: both stand for the same number (NaN stands for none).  `Below a b`: `a` stands for a smaller number.  `t` is the
type of the elements, `v` a value of type `t'`; floating-point types have `p` and `p'` significant bits.
-/

namespace Kwk
open Spec

/-! ## C134: searching by value

Full property (`C134_statement`): `find(c, v)` returns the first position whose element is the number `v`, `count(c, v)` the number
of such positions, `find_last` and `find_first_of` likewise, for all arithmetic types.  False: integers are rounded before they are
compared with floating-point numbers (`C134_rounded_false`), and see C106. -/

private theorem findN_key {p p' : ℕ} {t t' : NumType} (ht : IsType p t) (ht' : IsType p' t') {v : Num} (hv : OfType p' t' v)
    (hq : EqualsNumber t v) {c : Container} {val : List Int → Num} (hf : ∀ q, InBox c.shape q → OfType p t (val q)) :
    ∀ q, InBox c.shape q → (eqN (val q) v = true ↔ SameNumber (val q) v) :=
  fun q hq' => (eqN_exact ht ht' hv).2 hq _ (hf q hq')

private theorem countN_eq {m : Mem Num} {c : Container} {val : List Int → Num} (h : Elems c m val) (v : Num)
    (hlen : (positions c.shape).length < 2 ^ 64) :
    countN m c v = .ok (Set.ncard {q | InBox c.shape q ∧ eqN (val q) v = true} : Nat) := by
  set n := Set.ncard {q | InBox c.shape q ∧ eqN (val q) v = true}
  have hset : {q | InBox c.shape q ∧ eqN (val q) v = true} =
      (((positions c.shape).filter fun q => eqN (val q) v).toFinset : Set (List Int)) := by
    ext q; simp [mem_positions]
  have hn1 : n = ((positions c.shape).filter fun q => eqN (val q) v).length := by
    show Set.ncard _ = _
    rw [hset, Set.ncard_coe_finset, List.toFinset_card_of_nodup ((positions_nodup _).filter _)]
  have hn : ((positions c.shape).map fun q => if eqN (val q) v then (1 : Int) else 0).sum = n := by
    rw [hn1]
    generalize positions c.shape = l
    induction l with
    | nil => rfl
    | cons q l ih =>
      rw [List.map_cons, List.sum_cons, ih, List.filter_cons]
      cases eqN (val q) v
      · simp
      · simp; omega
  have hlt : n < 2 ^ 64 := lt_of_le_of_lt (hn1 ▸ List.length_filter_le _ _) hlen
  have hw : countN m c v = .ok (IntType.u64.wrap n) := by
    rw [countN, reduceM_eq, foldlM_congr (g := fun a q => addTo .u64 a ⟨.i32, if eqN (val q) v then 1 else 0⟩)]
    · rw [foldlM_sum_wraps (t := .u64) (by decide) (fun q => if eqN (val q) v then (1 : Int) else 0) _ _ 0 (by decide), zero_add, hn]
      intro q _ a ha
      refine addTo_wraps ha ?_ (.inl rfl)
      cases eqN (val q) v <;> decide
    · intro q hq a
      rw [h q (mem_positions.1 hq)]; rfl
  have hu : IntType.u64.wrap n = (n : Int) % 2 ^ 64 := by simp [IntType.wrap, IntType.u64]
  rw [hw, hu, Int.emod_eq_of_lt (by omega) (by exact_mod_cast hlt)]

/-- **C134** (partial) For elements that compare with the value by value, `find`, `find_last` (default layout) and `count` go by the
number the elements stand for.  Missing: the other values (false). -/
theorem C134_find_partial (p p' : ℕ) (t t' : NumType) (ht : IsType p t) (ht' : IsType p' t') (v : Num) (hv : OfType p' t' v)
    (hq : EqualsNumber t v) (m : Mem Num) (c : Container) (val : List Int → Num) (h : Elems c m val)
    (hf : ∀ q, InBox c.shape q → OfType p t (val q)) :
    (∃ r, findN m c v = .ok r ∧ IsFirst c.shape (fun q => SameNumber (val q) v) r) ∧
    (c.Default → ∃ r, findLastN m c v = .ok r ∧ IsLast c.shape (fun q => SameNumber (val q) v) r) ∧
    ((positions c.shape).length < 2 ^ 64 →
      countN m c v = .ok (Set.ncard {q | InBox c.shape q ∧ SameNumber (val q) v} : Nat)) := by
  have key := findN_key ht ht' hv hq hf
  refine ⟨?_, ?_, ?_⟩
  · exact ⟨_, findIf_eq _ h, isFirst_congr key (isFirst_find? c.shape fun q => eqN (val q) v)⟩
  · intro hd
    classical
    obtain ⟨r, h1, h2⟩ := (C27_find_last_default m c hd val h (fun e => eqN e v) (.int ⟨.i32, 0⟩)).1
    exact ⟨r, h1, isLast_congr key h2⟩
  · intro hlen
    have hset : {q | InBox c.shape q ∧ SameNumber (val q) v} = {q | InBox c.shape q ∧ eqN (val q) v = true} := by
      ext q; exact and_congr_right fun hq' => (key q hq').symm
    rw [hset]
    exact countN_eq h v hlen

example := C134_find_partial 24 1 (.flt (roundBits 24)) (.int .i32) (roundBits_rounds (by decide)) (by decide : 0 < 32) (.int ⟨.i32, 1⟩)
  ⟨rfl, by decide⟩ (by decide +kernel : roundBits 24 ((1 : Int) : ℚ) = ((1 : Int) : ℚ)) exHalves exIn exHalf exHalves_elems exHalves_typed

/-- **C134** (exact, partial) `find` is right for all contents of a container that is not empty if and only if the elements
compare with the value by value. -/
theorem C134_find_exact_partial (p p' : ℕ) (t t' : NumType) (ht : IsType p t) (ht' : IsType p' t') (v : Num) (hv : OfType p' t' v)
    (c : Container) (hne : ∃ q, InBox c.shape q) :
    (∀ (m : Mem Num) (val : List Int → Num), Elems c m val → (∀ q, InBox c.shape q → OfType p t (val q)) →
      ∃ r, findN m c v = .ok r ∧ IsFirst c.shape (fun q => SameNumber (val q) v) r) ↔ EqualsNumber t v := by
  constructor
  · intro h
    refine (eqN_exact ht ht' hv).1 fun e he => ?_
    have hel : Elems c (fun _ => some e) (fun _ => e) := fun q _ => rfl
    obtain ⟨r, h1, h2⟩ := h (fun _ => some e) (fun _ => e) hel fun _ _ => he
    have h4 : r = (positions c.shape).find? fun _ => eqN e v := Except.ok.inj (h1.symm.trans (findIf_eq _ hel))
    obtain ⟨q, hq⟩ := hne
    have hm := mem_positions.2 hq
    constructor
    · intro hb
      by_contra hn
      have : r = none := h2.1.2 fun _ _ => hn
      rw [this, hb] at h4
      have := List.find?_eq_none.1 h4.symm q hm
      simp at this
    · intro hb
      by_contra hn
      have : r = none := by
        rw [h4, List.find?_eq_none]; intro _ _; exact hn
      exact h2.1.1 this q hq hb
  · intro hq m val h hf
    exact (C134_find_partial p p' t t' ht ht' v hv hq m c val h hf).1

example := C134_find_exact_partial 24 1 (.flt (roundBits 24)) (.int .i32) (roundBits_rounds (by decide)) (by decide : 0 < 32)
  (.int ⟨.i32, 16777217⟩) ⟨rfl, by decide⟩ exIn ⟨[1, 0], by decide⟩

/-- **C134** (partial) `find_first_of` returns the first element that is the same number as one of the values, if the elements compare
with all of them by value. -/
theorem C134_find_first_of_partial (p p' : ℕ) (t t' : NumType) (ht : IsType p t) (ht' : IsType p' t') (m : Mem Num)
    (c vs : Container) (val vval : List Int → Num) (h : Elems c m val) (hv : Elems vs m vval)
    (hf : ∀ q, InBox c.shape q → OfType p t (val q)) (hfv : ∀ q, InBox vs.shape q → OfType p' t' (vval q))
    (hq : ∀ q, InBox vs.shape q → EqualsNumber t (vval q)) :
    ∃ r, findFirstOfN m c vs = .ok r ∧ IsFirst c.shape (fun q => ∃ w, InBox vs.shape w ∧ SameNumber (vval w) (val q)) r := by
  refine ⟨(positions c.shape).find? fun q => (positions vs.shape).any fun w => eqN (vval w) (val q), ?_, ?_⟩
  · rw [findFirstOfN, findIfM_eq]
    exact firstHit_pure _ _ _ val (fun e => (positions vs.shape).any fun w => eqN (vval w) e)
      (fun q hq => h q (mem_positions.1 hq)) (fun q _ => anyOf_eq (fun x => eqN x (val q)) hv)
  · refine isFirst_congr (fun q hq' => ?_) (isFirst_find? c.shape fun q => (positions vs.shape).any fun w => eqN (vval w) (val q))
    rw [List.any_eq_true]
    simp only [mem_positions]
    refine exists_congr fun w => and_congr_right fun hw => ?_
    rw [eqN_comm, sameNumber_comm]
    exact (eqN_exact ht ht' (hfv w hw)).2 (hq w hw) _ (hf q hq')

example := C134_find_first_of_partial 24 24 (.flt (roundBits 24)) (.flt (roundBits 24)) (roundBits_rounds (by decide))
  (roundBits_rounds (by decide)) exHalves exIn exIn exHalf exHalf exHalves_elems exHalves_elems exHalves_typed exHalves_typed
  (fun _ _ => trivial)

/-- **C134** When the elements compare with the value by value: always for two floating-point types; for integers and a floating-point
number of magnitude less than `2^p`, or which is infinite or NaN; for floating-point elements and an integer up to `2^p`. -/
theorem C134_when (p : ℕ) (hp : 0 < p) (r : ℚ → ℚ) (hr : Rounds p r) :
    (∀ r' x, EqualsNumber (.flt r) (.flt r' x)) ∧
    (∀ t q, |q| < 2 ^ p → EqualsNumber (.int t) (.flt r (.num q))) ∧
    (∀ t, EqualsNumber (.int t) (.flt r .nan) ∧ EqualsNumber (.int t) (.flt r .pinf) ∧ EqualsNumber (.int t) (.flt r .ninf)) ∧
    (∀ c : Coord, |c.value| ≤ 2 ^ p → EqualsNumber (.flt r) (.int c)) :=
  ⟨fun _ x => by cases x <;> trivial, fun _ _ hq e _ h => rounds_int hp hr hq e h, fun _ => ⟨trivial, trivial, trivial⟩,
    fun _ h => hr.fix _ (representable_int hp h)⟩

/-- **C134** NaN is never found and never counted, whatever the elements; elements that are NaN are never found either. -/
theorem C134_nan (m : Mem Num) (c : Container) (val : List Int → Num) (h : Elems c m val) (v : Num)
    (hn : IsNaN v ∨ ∀ q, InBox c.shape q → IsNaN (val q)) :
    findN m c v = .ok none ∧ (c.Default → findLastN m c v = .ok none) ∧
    ((positions c.shape).length < 2 ^ 64 → countN m c v = .ok 0) := by
  have key : ∀ q, InBox c.shape q → eqN (val q) v = false := by
    intro q hq
    rcases hn with hn | hn
    · exact eqN_nan_right hn
    · exact eqN_nan_left (hn q hq)
  refine ⟨?_, ?_, ?_⟩
  · rw [findN, findIf_eq _ h]
    congr 1
    rw [List.find?_eq_none]
    intro q hq
    rw [key q (mem_positions.1 hq)]; decide
  · intro hd
    classical
    obtain ⟨r, h1, h2⟩ := (C27_find_last_default m c hd val h (fun e => eqN e v) (.int ⟨.i32, 0⟩)).1
    rw [findLastN, h1]
    congr 1
    rw [h2.1]
    intro q hq
    show ¬ eqN (val q) v = true
    rw [key q hq]; decide
  · intro hlen
    rw [countN_eq h v hlen]
    have : {q | InBox c.shape q ∧ eqN (val q) v = true} = ∅ := by
      ext q
      simp only [Set.mem_ofPred_eq, Set.mem_empty_iff_false, iff_false, not_and]
      intro hq; rw [key q hq]; decide
    rw [this]; simp

example := C134_nan exHalves exIn exHalf exHalves_elems (.flt (roundBits 24) .nan) (.inl rfl)

/-- **C134** (negation) For every floating-point type of `p` bits, however it rounds, and every integer type that holds `2^p + 1`, a
floating-point number is found in a container that holds only the integer `2^p + 1`, and the integer in a container that holds only
that floating-point number, although they differ. -/
theorem C134_rounded_false (p : ℕ) (hp : 0 < p) (r : ℚ → ℚ) (hr : Rounds p r) (t : IntType) (ht : t.Fits (2 ^ p + 1)) :
    let c := Container.ofShape ⟨0, 0⟩ [1]
    let i : Num := .int ⟨t, 2 ^ p + 1⟩
    ∃ x : Num, OfType p (.flt r) x ∧ OfType p (.int t) i ∧ ¬ SameNumber i x ∧
      findN (oneBlock 0 [i]) c x = .ok (some [0]) ∧ findN (oneBlock 0 [x]) c i = .ok (some [0]) := by
  intro c i
  refine ⟨.flt r (.num (r (2 ^ p + 1 : ℤ))), ⟨rfl, hr.mem _⟩, ⟨rfl, ht⟩, ?_, ?_, ?_⟩
  · rw [sameNumber_int_num]
    intro e
    refine not_representable hp ?_
    have := hr.mem (2 ^ p + 1 : ℤ)
    rw [← e] at this
    simpa using this
  · rw [findN, findIf_eq (val := fun _ => i) _ (by intro q hq; rw [inBox_one hq]; rfl)]
    simp [c, Container.ofShape, positions_single, eqN, eqF, i]
  · rw [findN, findIf_eq (val := fun _ => .flt r (.num (r (2 ^ p + 1 : ℤ)))) _ (by intro q hq; rw [inBox_one hq]; rfl)]
    simp [c, Container.ofShape, positions_single, eqN, eqF, i]

/-- **C134** The full property. -/
def C134_statement : Prop :=
  ∀ (p p' : ℕ) (t t' : NumType) (v : Num) (m : Mem Num) (c : Container) (val : List Int → Num), IsType p t → IsType p' t' →
    OfType p' t' v → c.Default → Elems c m val → (∀ q, InBox c.shape q → OfType p t (val q)) →
    (positions c.shape).length < 2 ^ 64 →
    (∃ r, findN m c v = .ok r ∧ IsFirst c.shape (fun q => SameNumber (val q) v) r) ∧
    (∃ r, findLastN m c v = .ok r ∧ IsLast c.shape (fun q => SameNumber (val q) v) r) ∧
    countN m c v = .ok (Set.ncard {q | InBox c.shape q ∧ SameNumber (val q) v} : Nat) ∧
    (∀ (vs : Container) (vval : List Int → Num), Elems vs m vval → (∀ q, InBox vs.shape q → OfType p' t' (vval q)) →
      ∃ r, findFirstOfN m c vs = .ok r ∧
        IsFirst c.shape (fun q => ∃ w, InBox vs.shape w ∧ SameNumber (vval w) (val q)) r)

theorem C134_statement_false : ¬ C134_statement := by
  intro h
  have hr : Rounds 24 (roundBits 24) := roundBits_rounds (by decide)
  obtain ⟨x, hx, hi, hne, hf, _⟩ := C134_rounded_false 24 (by decide) _ hr .i32 (by decide)
  obtain ⟨r, h1, h2⟩ := (h 24 24 (.int .i32) (.flt (roundBits 24)) x (oneBlock 0 [.int ⟨.i32, 2 ^ 24 + 1⟩]) (.ofShape ⟨0, 0⟩ [1]) (fun _ => .int ⟨.i32, 2 ^ 24 + 1⟩)
    (by decide : 0 < 32) hr hx (ofShape_default (by decide)) (by intro q hq; rw [inBox_one hq]; rfl) (fun _ _ => hi) (by decide)).1
  have : r = some [0] := Except.ok.inj (h1.symm.trans hf)
  subst this
  exact hne ((h2.2 [0]).1 rfl).2.1

/-- `float` as used in the examples. -/
private def fl (q : ℚ) : Num := .flt (roundBits 24) (.num q)

example : EqualsNumber (.int .i32) (fl 7) ∧ ¬ EqualsNumber (.int .i32) (fl 16777218) ∧
    findN (oneBlock 0 [.int ⟨.i32, 5⟩, .int ⟨.i32, 7⟩, .int ⟨.i32, 8⟩]) (.ofShape ⟨0, 0⟩ [3]) (fl 7) = .ok (some [1]) ∧
    findN (oneBlock 0 [.int ⟨.i32, 5⟩, .int ⟨.i32, 7⟩, .int ⟨.i32, 8⟩]) (.ofShape ⟨0, 0⟩ [3]) (fl (15/2)) = .ok none ∧
    findN (oneBlock 0 [.int ⟨.i32, 5⟩, .int ⟨.i32, 16777217⟩]) (.ofShape ⟨0, 0⟩ [2]) (fl 16777218) = .ok (some [1]) ∧
    countN (oneBlock 0 [fl 1, .flt (roundBits 24) .nan, fl (1/2), fl 1]) (.ofShape ⟨0, 0⟩ [2, 2]) (.int ⟨.i32, 1⟩) = .ok 2 ∧
    findLastN (oneBlock 0 [fl 1, .flt (roundBits 24) .nan, fl (1/2), fl 1]) (.ofShape ⟨0, 0⟩ [2, 2]) (.flt (roundBits 53) (.num (1/2))) =
      .ok (some [1, 0]) ∧
    findFirstOfN (oneBlock 0 [fl 1, .flt (roundBits 24) .pinf, .flt (roundBits 24) .nan, .flt (roundBits 53) .pinf])
      (.ofShape ⟨0, 0⟩ [2]) (.ofShape ⟨0, 2⟩ [2]) = .ok (some [1]) := by
  refine ⟨(C134_when 24 (by decide) _ (roundBits_rounds (by decide))).2.1 _ _ (by norm_num), ?_, by decide +kernel, by decide +kernel,
    by decide +kernel, by decide +kernel, by decide +kernel, by decide +kernel⟩
  intro h
  have := h 16777217 (by decide) (by decide +kernel)
  norm_num at this

/-! ## C135: binary searches

Full property (`C135_statement`): in a container of numbers in ascending order `lower_bound` returns the first element that is not below
the value, `upper_bound` the first that is above it, `binary_search` whether it is there.  False for NaN (`C135_nan_false`) and for
integers that are rounded (`C135_rounded_false`). -/

/-- **C135** (partial) `lower_bound` with numbers in ascending order, any NaN after them, and any value that orders by value. -/
theorem C135_lower_partial {σ : Type} (md : Mode) (p p' : ℕ) (t t' : NumType) (ht : IsType p t) (ht' : IsType p' t') (v : Num)
    (hv : OfType p' t' v) (hq : OrdersNumber t v) (m : Mem Num) (c : Container) (val : List Int → Num) (h : Elems c m val)
    (hne : c.shape ≠ []) (hs : NonNeg c.shape) (hf : ∀ q, InBox c.shape q → OfType p t (val q))
    (hsorted : ∀ q w, InBox c.shape q → InBox c.shape w → q < w → ¬ IsNaN (val w) → ¬ IsNaN (val q) ∧ ¬ Below (val w) (val q))
    (s : σ) :
    ∃ r, lowerBoundN md m c v s = .ok (r, s) ∧ IsFirst c.shape (fun q => ¬ Below (val q) v) r := by
  have key := (ltN_exact ht ht' hv).2 hq
  obtain ⟨r, h1, h2⟩ := C30_lower_bound md m c val h hne hs ltN v (by
    intro q w hq hw hlt hw'
    rw [(key _ (hf w hw)).1] at hw'
    rw [(key _ (hf q hq)).1]
    have hn := hsorted q w hq hw hlt (below_not_nan_left hw')
    exact not_below_trans hn.1 hn.2 hw') s
  exact ⟨r, h1, isFirst_congr (fun q hq => by rw [← (key _ (hf q hq)).1, Bool.not_eq_true]) h2⟩

example := C135_lower_partial .checked 24 1 (.flt (roundBits 24)) (.int .i32) (roundBits_rounds (by decide)) (by decide : 0 < 32)
  (.int ⟨.i32, 1⟩) ⟨rfl, by decide⟩ (by decide +kernel : roundBits 24 ((1 : Int) : ℚ) = ((1 : Int) : ℚ)) exHalves exIn exHalf exHalves_elems
  (by decide) (by decide) exHalves_typed (fun p q hp hq h _ => ⟨exHalves_numbers p, exHalves_sorted p q hp hq h⟩) ()

/-- **C135** (partial) `upper_bound` with numbers in ascending order and no NaN among them. -/
theorem C135_upper_partial {σ : Type} (md : Mode) (p p' : ℕ) (t t' : NumType) (ht : IsType p t) (ht' : IsType p' t') (v : Num)
    (hv : OfType p' t' v) (hq : OrdersNumber t v) (m : Mem Num) (c : Container) (val : List Int → Num) (h : Elems c m val)
    (hne : c.shape ≠ []) (hs : NonNeg c.shape) (hf : ∀ q, InBox c.shape q → OfType p t (val q))
    (hnan : ∀ q, InBox c.shape q → ¬ IsNaN (val q))
    (hsorted : ∀ q w, InBox c.shape q → InBox c.shape w → q < w → ¬ Below (val w) (val q)) (s : σ) :
    ∃ r, upperBoundN md m c v s = .ok (r, s) ∧ IsFirst c.shape (fun q => Below v (val q)) r := by
  have key := (ltN_exact ht ht' hv).2 hq
  obtain ⟨r, h1, h2⟩ := C31_upper_bound md m c val h hne hs ltN v (by
    intro q w hq hw hlt hw'
    rw [(key _ (hf q hq)).2] at hw'
    rw [(key _ (hf w hw)).2]
    exact below_not_below_trans hw' (hnan w hw) (hsorted q w hq hw hlt)) s
  exact ⟨r, h1, isFirst_congr (fun q hq => (key _ (hf q hq)).2) h2⟩

example := C135_upper_partial .checked 24 1 (.flt (roundBits 24)) (.int .i32) (roundBits_rounds (by decide)) (by decide : 0 < 32)
  (.int ⟨.i32, 1⟩) ⟨rfl, by decide⟩ (by decide +kernel : roundBits 24 ((1 : Int) : ℚ) = ((1 : Int) : ℚ)) exHalves exIn exHalf exHalves_elems
  (by decide) (by decide) exHalves_typed (fun p _ => exHalves_numbers p) exHalves_sorted ()

/-- **C135** (partial) `binary_search` with numbers in ascending order, no NaN among them, for a number. -/
theorem C135_search_partial {σ : Type} (md : Mode) (p p' : ℕ) (t t' : NumType) (ht : IsType p t) (ht' : IsType p' t') (v : Num)
    (hv : OfType p' t' v) (hq : OrdersNumber t v) (m : Mem Num) (c : Container) (val : List Int → Num) (h : Elems c m val)
    (hne : c.shape ≠ []) (hs : NonNeg c.shape) (hf : ∀ q, InBox c.shape q → OfType p t (val q))
    (hnan : ∀ q, InBox c.shape q → ¬ IsNaN (val q)) (hvn : ¬ IsNaN v)
    (hsorted : ∀ q w, InBox c.shape q → InBox c.shape w → q < w → ¬ Below (val w) (val q)) (s : σ) :
    ∃ b, binarySearchN md m c v s = .ok (b, s) ∧ (b = true ↔ ∃ q, InBox c.shape q ∧ SameNumber (val q) v) := by
  have key := (ltN_exact ht ht' hv).2 hq
  obtain ⟨r, h1, h2, h3⟩ := C135_lower_partial md p p' t t' ht ht' v hv hq m c val h hne hs hf
    (fun q w hq hw hlt _ => ⟨hnan q hq, hsorted q w hq hw hlt⟩) s
  rw [lowerBoundN] at h1
  cases r with
  | none =>
    refine ⟨false, ?_, ?_⟩
    · simp only [binarySearchN, binarySearch, bind, StateT.bind, h1, Except.bind]; rfl
    · refine iff_of_false (by simp) ?_
      rintro ⟨q, hq', e⟩
      exact h2.1 rfl q hq' fun hb => not_below_same hb e
  | some q0 =>
    obtain ⟨hq0, hge, hmin⟩ := (h3 q0).1 rfl
    refine ⟨!ltN v (val q0), ?_, ?_⟩
    · simp only [binarySearchN, binarySearch, bind, StateT.bind, h1, Except.bind, liftM, monadLift, MonadLift.monadLift,
        StateT.lift, h q0 hq0]
      rfl
    · rw [Bool.not_eq_true', ← Bool.not_eq_true, (key _ (hf q0 hq0)).2]
      constructor
      · intro hle; exact ⟨q0, hq0, same_of_not_below (hnan q0 hq0) hvn hge hle⟩
      · rintro ⟨q, hq', e⟩ hb
        rcases lt_trichotomy (linearize (sfx c.shape) q) (linearize (sfx c.shape) q0) with g | g | g
        · exact hmin q hq' ((lin_lt_iff hq' hq0).1 g) fun hb => not_below_same hb e
        · rw [lin_inj hq' hq0 g] at e
          exact not_below_same hb (sameNumber_symm e)
        · exact hsorted q0 q hq0 hq' ((lin_lt_iff hq0 hq').1 g) (same_below e hb)

example := C135_search_partial .checked 24 1 (.flt (roundBits 24)) (.int .i32) (roundBits_rounds (by decide)) (by decide : 0 < 32)
  (.int ⟨.i32, 1⟩) ⟨rfl, by decide⟩ (by decide +kernel : roundBits 24 ((1 : Int) : ℚ) = ((1 : Int) : ℚ)) exHalves exIn exHalf exHalves_elems
  (by decide) (by decide) exHalves_typed (fun p _ => exHalves_numbers p) (by simp [IsNaN, number]) exHalves_sorted ()

/-- **C135** When the elements order with the value by value: as for equality (`C134_when`). -/
theorem C135_when (p : ℕ) (hp : 0 < p) (r : ℚ → ℚ) (hr : Rounds p r) :
    (∀ r' x, OrdersNumber (.flt r) (.flt r' x)) ∧
    (∀ t q, |q| < 2 ^ p → OrdersNumber (.int t) (.flt r (.num q))) ∧
    (∀ t, OrdersNumber (.int t) (.flt r .nan) ∧ OrdersNumber (.int t) (.flt r .pinf) ∧ OrdersNumber (.int t) (.flt r .ninf)) ∧
    (∀ c : Coord, |c.value| ≤ 2 ^ p → OrdersNumber (.flt r) (.int c)) :=
  C134_when p hp r hr

example : OrdersNumber (.int .i64) (.flt (roundBits 24) (.num (15 / 2))) :=
  (C135_when 24 (by decide) _ (roundBits_rounds (by decide))).2.1 .i64 (15 / 2) (by decide +kernel)

/-- **C135** (exact, partial) Both bounds are right for all ascending contents of a container that is not empty if and only if the
elements are ordered with the value by value. -/
theorem C135_exact_partial (md : Mode) (p p' : ℕ) (t t' : NumType) (ht : IsType p t) (ht' : IsType p' t') (v : Num)
    (hv : OfType p' t' v) (c : Container) (hne : ∃ q, InBox c.shape q) (hs : c.shape ≠ []) :
    (∀ (m : Mem Num) (val : List Int → Num), Elems c m val → (∀ q, InBox c.shape q → OfType p t (val q) ∧ ¬ IsNaN (val q)) →
      (∀ q w, InBox c.shape q → InBox c.shape w → q < w → ¬ Below (val w) (val q)) →
      (∃ r, lowerBoundN md m c v () = .ok (r, ()) ∧ IsFirst c.shape (fun q => ¬ Below (val q) v) r) ∧
      ∃ r, upperBoundN md m c v () = .ok (r, ()) ∧ IsFirst c.shape (fun q => Below v (val q)) r) ↔
    OrdersNumber t v := by
  obtain ⟨p0, hp0⟩ := hne
  have hnn : NonNeg c.shape := hp0.nonNeg
  have first : ∀ (b : Prop) r, IsFirst c.shape (fun _ => b) r → (r = none ↔ ¬ b) := by
    intro b r hr
    rw [hr.1]
    exact ⟨fun g => g p0 hp0, fun g _ _ => g⟩
  constructor
  · intro h
    refine (ltN_exact ht ht' hv).1 fun e he => ?_
    by_cases hnan : IsNaN e
    · rw [ltN_nan_left hnan, ltN_nan_right hnan]
      exact ⟨iff_of_false (by simp) fun hb => below_not_nan_left hb hnan, iff_of_false (by simp) fun hb => below_not_nan_right hb hnan⟩
    have hel : Elems c (fun _ => some e) (fun _ => e) := fun q _ => rfl
    obtain ⟨⟨r, h1, h2⟩, ⟨r', h3, h4⟩⟩ := h (fun _ => some e) (fun _ => e) hel (fun _ _ => ⟨he, hnan⟩)
      fun _ _ _ _ _ => fun hb => not_below_self hb
    obtain ⟨q, g1, g2⟩ := C30_lower_bound md _ c _ hel hs hnn ltN v (fun _ _ _ _ _ h => h) ()
    obtain ⟨q', g3, g4⟩ := C31_upper_bound md _ c _ hel hs hnn ltN v (fun _ _ _ _ _ h => h) ()
    have e1 : r = q := by
      have := h1.symm.trans g1
      simpa using this
    have e2 : r' = q' := by
      have := h3.symm.trans g3
      simpa using this
    subst e1 e2
    have a1 := (first _ _ h2).symm.trans (first _ _ g2)
    have a2 := (first _ _ h4).symm.trans (first _ _ g4)
    constructor
    · rw [not_not, Bool.not_eq_false] at a1; exact a1.symm
    · exact (not_iff_not.1 a2).symm
  · intro hq m val h hf hsorted
    exact ⟨C135_lower_partial md p p' t t' ht ht' v hv hq m c val h hs hnn (fun q hq => (hf q hq).1)
        (fun q w hq hw hlt _ => ⟨(hf q hq).2, hsorted q w hq hw hlt⟩) (),
      C135_upper_partial md p p' t t' ht ht' v hv hq m c val h hs hnn (fun q hq => (hf q hq).1) (fun q hq => (hf q hq).2) hsorted ()⟩

example := C135_exact_partial .checked 24 1 (.flt (roundBits 24)) (.int .i32) (roundBits_rounds (by decide)) (by decide : 0 < 32)
  (.int ⟨.i32, 16777217⟩) ⟨rfl, by decide⟩ exIn ⟨[1, 0], by decide⟩ (by decide)

private theorem search_constant (md : Mode) {c : Container} (hne : ∃ q, InBox c.shape q) (hs : c.shape ≠ []) (e v : Num) :
    binarySearchN md (fun _ => some e) c v () = .ok (!ltN e v && !ltN v e, ()) := by
  obtain ⟨p0, hp0⟩ := hne
  have hel : Elems c (fun _ => some e) (fun _ => e) := fun q _ => rfl
  obtain ⟨r, g1, g2⟩ := C30_lower_bound md _ c _ hel hs hp0.nonNeg ltN v (fun _ _ _ _ _ h => h) ()
  cases r with
  | none =>
    have hlt : ltN e v = true := by simpa using g2.1.1 rfl p0 hp0
    simp only [binarySearchN, binarySearch, bind, StateT.bind, g1, Except.bind, hlt]
    rfl
  | some q0 =>
    obtain ⟨hq0, hge, -⟩ := (g2.2 q0).1 rfl
    simp only [binarySearchN, binarySearch, bind, StateT.bind, g1, Except.bind, liftM, monadLift, MonadLift.monadLift, StateT.lift,
      hel q0 hq0, hge]
    rfl

private theorem eqN_by_order {e v : Num} (he : ¬ IsNaN e) (hv : ¬ IsNaN v) : eqN e v = (!ltN e v && !ltN v e) := by
  have num : ∀ x y : ℚ, decide (x = y) = (!decide (x < y) && !decide (y < x)) := by
    intro x y
    rcases lt_trichotomy x y with h | h | h
    · simp [h, h.ne, h.not_gt]
    · simp [h]
    · simp [h, h.ne', h.not_gt]
  rcases e with a | ⟨r, _ | _ | _ | x⟩ <;> rcases v with b | ⟨r', _ | _ | _ | y⟩ <;> first
    | exact absurd rfl he
    | exact absurd rfl hv
    | rfl
    | exact num _ _
    | skip
  show decide (_ = _) = (!decide (_ < _) && !decide (_ < _))
  rw [IntType.common_comm b.type a.type]
  rcases lt_trichotomy ((a.type.common b.type).wrap a.value) ((a.type.common b.type).wrap b.value) with h | h | h
  · simp [h, h.ne, h.not_gt]
  · simp [h]
  · simp [h, h.ne', h.not_gt]

/-- **C135** (exact, partial) `binary_search` is right for all ascending contents of a container that is not empty only if the value is a
number and compares equal by value with all elements; if the elements or the value are floating-point numbers, exactly then. -/
theorem C135_search_exact_partial (md : Mode) (p p' : ℕ) (t t' : NumType) (ht : IsType p t) (ht' : IsType p' t') (v : Num)
    (hv : OfType p' t' v) (c : Container) (hne : ∃ q, InBox c.shape q) (hs : c.shape ≠ []) :
    let right := ∀ (m : Mem Num) (val : List Int → Num), Elems c m val → (∀ q, InBox c.shape q → OfType p t (val q) ∧ ¬ IsNaN (val q)) →
      (∀ q w, InBox c.shape q → InBox c.shape w → q < w → ¬ Below (val w) (val q)) →
      ∃ b, binarySearchN md m c v () = .ok (b, ()) ∧ (b = true ↔ ∃ q, InBox c.shape q ∧ SameNumber (val q) v)
    (right → EqualsNumber t v ∧ ¬ IsNaN v) ∧ ((∀ a b, ¬ (t = .int a ∧ t' = .int b)) → (right ↔ EqualsNumber t v ∧ ¬ IsNaN v)) := by
  intro right
  have only : right → EqualsNumber t v ∧ ¬ IsNaN v := by
    intro h
    have hc : ∀ e, OfType p t e → ¬ IsNaN e → ((!ltN e v && !ltN v e) = true ↔ SameNumber e v) := by
      intro e he hn
      obtain ⟨b, h1, h2⟩ := h (fun _ => some e) (fun _ => e) (fun _ _ => rfl) (fun _ _ => ⟨he, hn⟩) fun _ _ _ _ _ => fun hb => not_below_self hb
      rw [search_constant md hne hs] at h1
      cases h1
      rw [h2]
      obtain ⟨p0, hp0⟩ := hne
      exact ⟨fun ⟨_, _, hq⟩ => hq, fun hq => ⟨p0, hp0, hq⟩⟩
    have hvn : ¬ IsNaN v := by
      intro hn
      have bad : ∀ e, OfType p t e → ¬ IsNaN e → False := by
        intro e he hen
        obtain ⟨x, -, hx⟩ := (hc e he hen).1 (by rw [ltN_nan_left hn, ltN_nan_right hn]; rfl)
        rw [hn] at hx
        cases hx
      cases t with
      | int t => exact bad (.int ⟨t, 0⟩) ⟨rfl, by
        have : (2 : ℤ) ^ 1 ≤ 2 ^ t.bits := pow_le_pow_right₀ (by decide) ht
        cases hsg : t.signed <;> (simp only [IntType.Fits, IntType.lo, IntType.hi, hsg, if_true, if_false, Bool.false_eq_true]; omega)⟩ (by simp [IsNaN, number])
      | flt r => exact bad (.flt r .pinf) rfl (by simp [IsNaN, number])
    refine ⟨(eqN_exact ht ht' hv).1 fun e he => ?_, hvn⟩
    by_cases hn : IsNaN e
    · refine iff_of_false ?_ ?_
      · rw [eqN_nan_left hn]
        simp
      · rintro ⟨x, hx, -⟩
        rw [hn] at hx
        cases hx
    · rw [eqN_by_order hn hvn]
      exact hc e he hn
  refine ⟨only, fun hi => ⟨only, fun ⟨hq, hvn⟩ m val h hf hsorted => ?_⟩⟩
  have ho : OrdersNumber t v := by
    cases t with
    | flt r => exact hq
    | int a =>
      cases v with
      | flt r x => exact hq
      | int k =>
        cases t' with
        | flt r => exact hv.elim
        | int b => exact absurd ⟨rfl, rfl⟩ (hi a b)
  obtain ⟨p0, hp0⟩ := hne
  exact C135_search_partial md p p' t t' ht ht' v hv ho m c val h hs hp0.nonNeg (fun q hq => (hf q hq).1) (fun q hq => (hf q hq).2) hvn hsorted ()

example := C135_search_exact_partial .checked 24 1 (.flt (roundBits 24)) (.int .i32) (roundBits_rounds (by decide)) (by decide : 0 < 32)
  (.int ⟨.i32, 16777217⟩) ⟨rfl, by decide⟩ exIn ⟨[1, 0], by decide⟩ (by decide)

/-- **C135** (exact, partial) If the value is an integer, and the container has at least two elements that are stored apart,
`binary_search` is right for all ascending integers exactly if they equal the value as numbers, and order with it as numbers if an
element could hold it. -/
theorem C135_search_integers_partial (md : Mode) (p : ℕ) (t t' : IntType) (ht : 0 < t.bits) (ht' : 0 < t'.bits) (k : ℤ) (hk : t'.Fits k)
    (c : Container) (hd : Distinct c) (h2 : ∃ q w, InBox c.shape q ∧ InBox c.shape w ∧ q < w) (hs : c.shape ≠ []) :
    (∀ (m : Mem Num) (val : List Int → Num), Elems c m val → (∀ q, InBox c.shape q → OfType p (.int t) (val q)) →
      (∀ q w, InBox c.shape q → InBox c.shape w → q < w → ¬ Below (val w) (val q)) →
      ∃ b, binarySearchN md m c (.int ⟨t', k⟩) () = .ok (b, ()) ∧ (b = true ↔ ∃ q, InBox c.shape q ∧ SameNumber (val q) (.int ⟨t', k⟩))) ↔
    EqualsNumber (.int t) (.int ⟨t', k⟩) ∧ (t.Fits k → OrdersNumber (.int t) (.int ⟨t', k⟩)) := by
  obtain ⟨p0, w0, hp0, hw0, hlt0⟩ := h2
  have isn : ∀ e, OfType p (.int t) e → ¬ IsNaN e := by
    rintro (a | ⟨r, x⟩) he
    · simp [IsNaN, number]
    · exact he.elim
  constructor
  · intro h
    have heq := ((C135_search_exact_partial md p p (.int t) (.int t') ht ht' (.int ⟨t', k⟩) ⟨rfl, hk⟩ c ⟨p0, hp0⟩ hs).1
      fun m val h1 h2 h3 => h m val h1 (fun q hq => (h2 q hq).1) h3).1
    refine ⟨heq, fun hkt => ?_⟩
    by_contra hno
    obtain ⟨c', hc', hq⟩ := heq
    have hno' : ¬ OrdersByValue t c' k := fun ho => hno ⟨c', hc', ho⟩
    rcases hq with hq | ⟨hk0, hkb⟩
    · exact hno' (.inl hq)
    have hcs : c'.signed = false := by
      cases hx : c'.signed
      · rfl
      · exact absurd (.inl hx) hno'
    have hts : t.signed = true := by
      cases hx : t.signed
      · exact absurd (.inr ⟨hx, hk0⟩) hno'
      · rfl
    have hkb := hkb hts
    simp only at hk0 hkb
    have b1 : (2 : ℤ) ^ 1 ≤ 2 ^ t.bits := pow_le_pow_right₀ (by decide) ht
    have fm : t.Fits (-1) := by
      simp only [IntType.Fits, IntType.lo, IntType.hi, hts, if_true]
      omega
    have b2 : (2 : ℤ) ^ 1 ≤ 2 ^ c'.bits := pow_le_pow_right₀ (by decide) (by have := hc'.1; omega)
    have wk : c'.wrap k = k := IntType.wrap_fits (by
      simp only [IntType.Fits, IntType.lo, IntType.hi, hcs, if_false, Bool.false_eq_true]
      omega)
    have wm : c'.wrap (-1) = 2 ^ c'.bits - 1 := by
      simp only [IntType.wrap, hcs, Bool.false_eq_true, false_and, if_false]
      rw [← Int.add_emod_right, Int.emod_eq_of_lt] <;> omega
    have e1 := isCommon_eq hc'
    let lo : Num := .int ⟨t, -1⟩
    let up : Num := .int ⟨t, k⟩
    let v : Num := .int ⟨t', k⟩
    have l1 : ltN lo v = false := by
      show decide ((t.common t').wrap (-1) < (t.common t').wrap k) = false
      rw [← e1, wk, wm]
      simp only [decide_eq_false_iff_not]
      omega
    have l2 : ltN up v = false := by
      show decide ((t.common t').wrap k < (t.common t').wrap k) = false
      simp
    have l3 : ltN v lo = true := by
      show decide ((t'.common t).wrap k < (t'.common t).wrap (-1)) = true
      rw [IntType.common_comm t' t, ← e1, wk, wm]
      simp only [decide_eq_true_eq]
      omega
    classical
    let val : List Int → Num := fun x => if x ≤ p0 then lo else up
    let m : Mem Num := fun a => if ∃ x, InBox c.shape x ∧ c.addr x = a ∧ x ≤ p0 then some lo else some up
    have hel : Elems c m val := by
      intro q hq
      by_cases hl : q ≤ p0
      · simp only [Container.get, load, m, val, if_pos hl, if_pos (⟨q, hq, rfl, hl⟩ : ∃ x, InBox c.shape x ∧ c.addr x = c.addr q ∧ x ≤ p0)]
      · have : ¬ ∃ x, InBox c.shape x ∧ c.addr x = c.addr q ∧ x ≤ p0 := by
          rintro ⟨x, hx, ha, hle⟩
          rw [hd x q hx hq ha] at hle
          exact hl hle
        simp only [Container.get, load, m, val, if_neg hl, if_neg this]
    have hall : ∀ q, ltN (val q) v = false := by
      intro q
      by_cases hl : q ≤ p0
      · simp only [val, if_pos hl, l1]
      · simp only [val, if_neg hl, l2]
    obtain ⟨b, h3, h4⟩ := h m val hel
      (fun q _ => by
        by_cases hl : q ≤ p0
        · simp only [val, if_pos hl]
          exact ⟨rfl, fm⟩
        · simp only [val, if_neg hl]
          exact ⟨rfl, hkt⟩)
      (fun q w hq hw hlt => by
        rintro ⟨x, y, hx, hy, hxy⟩
        by_cases hl : w ≤ p0
        · simp only [val, if_pos hl, if_pos (hlt.le.trans hl)] at hx hy
          rw [hx] at hy
          cases hy
          exact lt_irrefl _ hxy
        · by_cases hl' : q ≤ p0
          · simp only [val, if_neg hl, if_pos hl', number, lo, up] at hx hy
            cases hx
            cases hy
            have hxy' : ((k : ℤ) : ℚ) < ((-1 : ℤ) : ℚ) := WithTop.coe_lt_coe.1 (WithBot.coe_lt_coe.1 hxy)
            have := Int.cast_lt.1 hxy'
            omega
          · simp only [val, if_neg hl, if_neg hl'] at hx hy
            rw [hx] at hy
            cases hy
            exact lt_irrefl _ hxy)
    have hb : b = true := h4.2 ⟨w0, hw0, by
      simp only [val, if_neg (not_le.2 hlt0)]
      exact ⟨_, rfl, rfl⟩⟩
    obtain ⟨r, g1, g2⟩ := C30_lower_bound md m c val hel hs hp0.nonNeg ltN v (fun _ q _ _ _ h => by rw [hall q] at h; cases h) ()
    cases r with
    | none =>
      have := g2.1.1 rfl p0 hp0
      exact this (hall p0)
    | some q0 =>
      obtain ⟨hq0, -, hmin⟩ := (g2.2 q0).1 rfl
      have hle : q0 ≤ p0 := by
        by_contra hc
        exact hmin p0 hp0 (not_le.1 hc) (hall p0)
      have hv0 : val q0 = lo := if_pos hle
      have : binarySearchN md m c v () = .ok (false, ()) := by
        simp only [binarySearchN, binarySearch, bind, StateT.bind, g1, Except.bind, liftM, monadLift, MonadLift.monadLift, StateT.lift,
          hel q0 hq0, hv0]
        show Except.ok (!ltN v lo, ()) = _
        rw [l3]
        rfl
      rw [this] at h3
      cases h3
      cases hb
  · intro ⟨hq, ho⟩ m val h hf hsorted
    by_cases hkt : t.Fits k
    swap
    · obtain ⟨b, h1, h2⟩ := C155_binary_search md m c val h hs hp0.nonNeg ltN (.int ⟨t', k⟩) ()
      refine ⟨b, h1, fun hb => ?_, ?_⟩
      · obtain ⟨q, hq', h3, h4⟩ := h2 hb
        refine ⟨q, hq', ((eqN_exact (p := p) (t := .int t) (p' := p) (t' := .int t') ht ht' (v := .int ⟨t', k⟩) ⟨rfl, hk⟩).2 hq (val q) (hf q hq')).1 ?_⟩
        rw [eqN_by_order (isn _ (hf q hq')) (by simp [IsNaN, number]), h3, h4]
        rfl
      · rintro ⟨q, hq', x, hx, hy⟩
        have hfq := hf q hq'
        cases hvq : val q with
        | flt r x =>
          rw [hvq] at hfq
          exact hfq.elim
        | int a =>
          rw [hvq] at hfq hx
          have e := hx.trans hy.symm
          have e' : ((a.value : ℤ) : ℚ) = ((k : ℤ) : ℚ) := WithTop.coe_injective (WithBot.coe_injective (Option.some.inj e))
          rw [Int.cast_inj] at e'
          exact absurd (e' ▸ hfq.2) hkt
    replace ho := ho hkt
    exact C135_search_partial md p p (.int t) (.int t') ht ht' (.int ⟨t', k⟩) ⟨rfl, hk⟩ ho m c val h hs hp0.nonNeg hf
      (fun q hq => isn _ (hf q hq)) (by simp [IsNaN, number]) hsorted ()

example := C135_search_integers_partial .checked 1 .i32 .u32 (by decide) (by decide) 1 (by decide) (.ofShape ⟨0, 0⟩ [2])
  (default_distinct (ofShape_default (by decide))) ⟨[0], [1], by decide, by decide, by decide⟩ (by decide)

/-- **C135** (negation) With NaN after the numbers `{1, 5}`, `upper_bound` does not find 5 above 2, and `binary_search` claims that 7 is
there; in `{1, 5}`, it claims that NaN is there. -/
theorem C135_nan_false :
    let nan : Num := .flt (roundBits 53) .nan
    let d (q : ℚ) : Num := .flt (roundBits 53) (.num q)
    upperBoundN .checked (oneBlock 0 [d 1, d 5, nan, nan, nan]) (.ofShape ⟨0, 0⟩ [5]) (d 2) () = .ok (none, ()) ∧
    binarySearchN .checked (oneBlock 0 [d 1, d 5, nan, nan, nan]) (.ofShape ⟨0, 0⟩ [5]) (d 7) () = .ok (true, ()) ∧
    binarySearchN .checked (oneBlock 0 [d 1, d 5]) (.ofShape ⟨0, 0⟩ [2]) nan () = .ok (true, ()) := by
  decide +kernel

/-- **C135** (negation) For integers, equality by value is not enough: no `int` but 1 equals the `unsigned` 1, yet `binary_search` does
not find it in the `int`s `{-1, 1}`. -/
theorem C135_signs_false :
    let i (k : ℤ) : Num := .int ⟨.i32, k⟩
    let v : Num := .int ⟨.u32, 1⟩
    EqualsNumber (.int .i32) v ∧ ¬ OrdersNumber (.int .i32) v ∧ SameNumber (i 1) v ∧
    binarySearchN .checked (oneBlock 0 [i (-1), i 1]) (.ofShape ⟨0, 0⟩ [2]) v () = .ok (false, ()) := by
  refine ⟨?_, ?_, ?_, by decide +kernel⟩
  · exact ⟨.u32, by decide, by decide⟩
  · rintro ⟨c, ⟨hb, hc⟩, h | h⟩
    · rw [hc.2 (.inr ⟨?_, rfl⟩)] at h
      · cases h
      · exact hb.symm
    · exact absurd h.1 (by decide)
  · exact ⟨1, rfl, rfl⟩

/-- **C135** (negation) For every floating-point type of `p` bits, however it rounds, and every integer type that holds `2^p + 1`,
`binary_search` claims that some floating-point number is in a container that holds only the integer `2^p + 1`. -/
theorem C135_rounded_false (md : Mode) (p : ℕ) (hp : 0 < p) (r : ℚ → ℚ) (hr : Rounds p r) (t : IntType) (ht : t.Fits (2 ^ p + 1)) :
    let i : Num := .int ⟨t, 2 ^ p + 1⟩
    ∃ x : Num, OfType p (.flt r) x ∧ OfType p (.int t) i ∧ ¬ SameNumber i x ∧
      binarySearchN md (oneBlock 0 [i]) (.ofShape ⟨0, 0⟩ [1]) x () = .ok (true, ()) := by
  intro i
  refine ⟨.flt r (.num (r (2 ^ p + 1 : ℤ))), ⟨rfl, hr.mem _⟩, ⟨rfl, ht⟩, ?_, ?_⟩
  · rw [sameNumber_int_num]
    intro e
    refine not_representable hp ?_
    have := hr.mem (2 ^ p + 1 : ℤ)
    rw [← e] at this
    simpa using this
  · set x : Num := .flt r (.num (r (2 ^ p + 1 : ℤ)))
    have hel : Elems (.ofShape ⟨0, 0⟩ [1]) (oneBlock 0 [i]) (fun _ => i) := by intro q hq; rw [inBox_one hq]; rfl
    have hlt : ltN i x = false := by simp [ltN, ltF, i, x]
    have hlt' : ltN x i = false := by simp [ltN, ltF, i, x]
    obtain ⟨q, g1, g2⟩ := C30_lower_bound md _ (.ofShape ⟨0, 0⟩ [1]) _ hel (by decide) (by decide) ltN x (fun _ _ _ _ _ h => h) ()
    have hq : q = some [0] := by
      rw [g2.2]
      refine ⟨by decide, hlt, fun w hw hlt => ?_⟩
      rw [inBox_one hw] at hlt
      exact absurd hlt (by decide)
    subst hq
    have hget : (Container.ofShape ⟨0, 0⟩ [1]).get (oneBlock 0 [i]) [0] = .ok i := rfl
    simp only [binarySearchN, binarySearch, bind, StateT.bind, g1, Except.bind, liftM, monadLift, MonadLift.monadLift,
      StateT.lift, hget]
    show Except.ok (!ltN x i, ()) = _
    rw [hlt']; rfl

/-- **C135** The full property. -/
def C135_statement : Prop :=
  ∀ (md : Mode) (p p' : ℕ) (t t' : NumType) (v : Num) (m : Mem Num) (c : Container) (val : List Int → Num), IsType p t → IsType p' t' →
    OfType p' t' v → c.shape ≠ [] → NonNeg c.shape → Elems c m val → (∀ q, InBox c.shape q → OfType p t (val q)) →
    (∀ q w, InBox c.shape q → InBox c.shape w → q < w → ¬ IsNaN (val w) → ¬ IsNaN (val q) ∧ ¬ Below (val w) (val q)) →
    (∃ r, lowerBoundN md m c v () = .ok (r, ()) ∧ IsFirst c.shape (fun q => ¬ Below (val q) v) r) ∧
    (∃ r, upperBoundN md m c v () = .ok (r, ()) ∧ IsFirst c.shape (fun q => Below v (val q)) r) ∧
    (∃ b, binarySearchN md m c v () = .ok (b, ()) ∧ (b = true ↔ ∃ q, InBox c.shape q ∧ SameNumber (val q) v))

theorem C135_statement_false : ¬ C135_statement := by
  intro h
  have hr : Rounds 24 (roundBits 24) := roundBits_rounds (by decide)
  obtain ⟨x, hx, _, hne, hb⟩ := C135_rounded_false .checked 24 (by decide) _ hr .i32 (by decide)
  obtain ⟨b, h1, h2⟩ := (h .checked 24 24 (.int .i32) (.flt (roundBits 24)) x (oneBlock 0 [.int ⟨.i32, 2 ^ 24 + 1⟩]) (.ofShape ⟨0, 0⟩ [1])
    (fun _ => .int ⟨.i32, 2 ^ 24 + 1⟩) (by decide : 0 < 32) hr hx (by decide) (by decide) (by intro q hq; rw [inBox_one hq]; rfl)
    (fun _ _ => ⟨rfl, (by decide : IntType.Fits .i32 (2 ^ 24 + 1))⟩)
    (fun q w hq hw hlt => by rw [inBox_one hq, inBox_one hw] at hlt; exact absurd hlt (by decide))).2.2
  have : b = true := by
    have := h1.symm.trans hb
    simpa using this
  obtain ⟨q, _, hs⟩ := h2.1 this
  exact hne hs

example :
    lowerBoundN .checked (oneBlock 0 [fl 1, fl 2, fl 2, .flt (roundBits 24) .pinf, .flt (roundBits 24) .nan])
      (.ofShape ⟨0, 0⟩ [5]) (.int ⟨.i32, 2⟩) () = .ok (some [1], ()) ∧
    upperBoundN .checked (oneBlock 0 [fl 1, fl 2, fl 2, .flt (roundBits 24) .pinf]) (.ofShape ⟨0, 0⟩ [2, 2]) (fl 2) () =
      .ok (some [1, 1], ()) ∧
    binarySearchN .checked (oneBlock 0 [.int ⟨.i32, 1⟩, .int ⟨.i32, 4⟩]) (.ofShape ⟨0, 0⟩ [2]) (fl (7/2)) () = .ok (false, ()) ∧
    binarySearchN .checked (oneBlock 0 [.int ⟨.i32, 1⟩, .int ⟨.i32, 4⟩]) (.ofShape ⟨0, 0⟩ [2]) (fl 4) () = .ok (true, ()) := by
  decide +kernel

end Kwk
