import Verif.Spec.Rank
import Verif.Lemmas.Rank
import Verif.Props.Reading
import Verif.Props.Search
import Verif.Props.Writing

/-!
# Properties C95-C98: laws between algorithms
-/

namespace Kwk
open Spec

variable {α β γ σ : Type}

/-- **C95** `find_if`, `count_if`, `any_of`, `all_of`, `none_of` and `find_if_not` agree. -/
theorem C95_agree (m : Mem α) (c : Container) (val : List Int → α) (h : Elems c m val)
    (hne : c.shape ≠ []) (hs : NonNeg c.shape) (f : α → Bool) :
    ∃ a b n k r r', allOf m c f = .ok a ∧ anyOf m c f = .ok b ∧ noneOf m c f = .ok n ∧
      countIf m c f = .ok k ∧ findIf m c f = .ok r ∧ findIfNot m c f = .ok r' ∧
      (b = true ↔ r.isSome) ∧ (b = true ↔ 0 < k) ∧ (n = true ↔ k = 0) ∧ (n = true ↔ r = none) ∧
      (a = true ↔ r' = none) ∧ (a = true ↔ (k : Int) = c.numel) := by
  obtain ⟨a, b, n, ha, hb, hn, ea, eb, en⟩ := C24_quantifiers m c val h f
  obtain ⟨⟨r, hr, er⟩, -, ⟨r', hr', er'⟩⟩ := @C26_find_first α m (Classical.decEq α) c val h f
    (val (positions c.shape).head!)
  refine ⟨a, b, n, _, r, r', ha, hb, hn, countIf_eq h f, hr, hr', ?_, ?_, ?_, ?_, ?_, ?_⟩
  · rw [Option.isSome_iff_ne_none, Ne, er.1, eb]; push Not; rfl
  · rw [eb, List.countP_pos_iff]; simp [mem_positions]
  · rw [en, List.countP_eq_zero]; simp [mem_positions]
  · rw [en, er.1]; simp
  · rw [ea, er'.1]; simp
  · rw [ea, Container.numel, numel_eq_prod hne, ← positions_length hs, Int.ofNat_inj, List.countP_eq_length]
    simp [mem_positions]

example : countIf exMem exView (· < 3) = .ok 2 ∧ findIf exMem exView (· < 3) = .ok (some [0, 0]) ∧
    findIfNot exMem exView (· < 3) = .ok (some [1, 0]) := by decide

/-- **C95** (sorted containers) On elements in non-decreasing order, with the default comparison, `find` gives what `lower_bound`
gives whenever the value occurs, `binary_search` tells whether it occurs, and the distance from `lower_bound` to
`upper_bound` is `count`. -/
theorem C95_sorted [LinearOrder α] (md : Mode) (m : Mem α) (c : Container) (val : List Int → α)
    (h : Elems c m val) (hne : c.shape ≠ []) (hs : NonNeg c.shape)
    (hsorted : ∀ p q, InBox c.shape p → InBox c.shape q → p < q → val p ≤ val q) (v : α) (s : σ) :
    ∃ lo hi b r i j k,
      lowerBound md m c v (fun a b => pure (decide (a < b))) s = .ok (lo, s) ∧
      upperBound md m c v (fun a b => pure (decide (a < b))) s = .ok (hi, s) ∧
      binarySearch md m c v (fun a b => pure (decide (a < b))) s = .ok (b, s) ∧
      find m c v = .ok r ∧ count m c v = .ok k ∧
      (b = true ↔ r.isSome) ∧ (r.isSome → r = lo) ∧ (r = none → lo = hi) ∧
      Rank c.shape lo i ∧ Rank c.shape hi j ∧ i + k = j := by
  obtain ⟨lo, hlo, elo⟩ := C30_lower_bound md m c val h hne hs (fun a b => decide (a < b)) v (by
    intro p q hp hq hlt hv
    simp only [decide_eq_true_eq] at hv ⊢
    exact lt_of_le_of_lt (hsorted p q hp hq hlt) hv) s
  obtain ⟨hi, hhi, ehi⟩ := C31_upper_bound md m c val h hne hs (fun a b => decide (a < b)) v (by
    intro p q hp hq hlt hv
    simp only [decide_eq_true_eq] at hv ⊢
    exact lt_of_lt_of_le hv (hsorted p q hp hq hlt)) s
  obtain ⟨b, hb, eb⟩ := C32_binary_search md m c val h hne hs (fun a b : α => decide (a < b))
    ⟨by simp, by simpa using fun a b c => lt_trans, by
      intro a b c h1 h2 h3 h4
      simp only [decide_eq_false_iff_not, not_lt] at *
      exact ⟨h3.trans h1, h2.trans h4⟩⟩
    (by intro p q hp hq hlt; simpa using hsorted p q hp hq hlt) v s
  obtain ⟨-, ⟨r, hr, er⟩, -⟩ := C26_find_first m c val h (fun _ => true) v
  have elo' : IsFirst c.shape (fun p => decide (val p < v) = false) lo := elo
  have ehi' : IsFirst c.shape (fun p => decide (val p ≤ v) = false) hi := by simpa using ehi
  have rlo := isFirst_rank hs elo' (by
    intro p q hp hq hlt hv
    simp only [decide_eq_true_eq] at hv ⊢
    exact lt_of_le_of_lt (hsorted p q hp hq hlt) hv)
  have rhi := isFirst_rank hs ehi' (by
    intro p q hp hq hlt hv
    simp only [decide_eq_true_eq] at hv ⊢
    exact (hsorted p q hp hq hlt).trans hv)
  refine ⟨lo, hi, b, r, _, _, _, hlo, hhi, hb, hr, count_elems h v, ?_, ?_, ?_, rlo, rhi, ?_⟩
  · rw [eb, Option.isSome_iff_ne_none, Ne, er.1]
    push Not
    constructor
    · rintro ⟨p, hp, h1, h2⟩
      simp only [decide_eq_false_iff_not, not_lt] at h1 h2
      exact ⟨p, hp, le_antisymm h2 h1⟩
    · rintro ⟨p, hp, rfl⟩; exact ⟨p, hp, by simp⟩
  · intro hsome
    obtain ⟨p, rfl⟩ := Option.isSome_iff_exists.1 hsome
    obtain ⟨hp, hv, hmin⟩ := (er.2 p).1 rfl
    refine ((elo.2 p).2 ⟨hp, by simp [hv], ?_⟩).symm
    intro q hq hlt hle
    simp only [decide_eq_false_iff_not, not_lt] at hle
    exact hmin q hq hlt (le_antisymm (hv ▸ hsorted q p hq hp hlt) hle)
  · intro hnone
    have hno := er.1.1 hnone
    cases lo with
    | none =>
      have := elo.1.1 rfl
      refine ((ehi.1).2 fun p hp => ?_).symm
      have := this p hp
      simp only [Bool.not_eq_false, decide_eq_true_eq] at this
      simpa using this.le
    | some p =>
      obtain ⟨hp, hv, hmin⟩ := (elo.2 p).1 rfl
      simp only [decide_eq_false_iff_not, not_lt] at hv
      refine ((ehi.2 p).2 ⟨hp, ?_, ?_⟩).symm
      · simpa using lt_of_le_of_ne hv (Ne.symm (hno p hp))
      · intro q hq hlt
        have := hmin q hq hlt
        simp only [Bool.not_eq_false, decide_eq_true_eq] at this
        simpa using this.le
  · generalize positions c.shape = l
    induction l with
    | nil => rfl
    | cons x t ih =>
      simp only [List.countP_cons, decide_eq_true_eq]
      rcases lt_trichotomy (val x) v with h1 | h1 | h1
      · simp [h1, h1.le, h1.ne]; omega
      · simp [h1]; omega
      · simp [h1.not_gt, h1.not_ge, h1.ne']; omega

example : (lowerBound .checked exMem exView 3 (fun a b => pure (decide (a < b))) ()).map (·.1) = .ok (some [1, 0]) ∧
    (upperBound .checked exMem exView 3 (fun a b => pure (decide (a < b))) ()).map (·.1) = .ok (some [1, 1]) ∧
    Rank exView.shape (some [1, 0]) 2 ∧ Rank exView.shape (some [1, 1]) 3 ∧ count exMem exView 3 = .ok 1 := by
  decide

/-- **C96** (fill) After `fill(c, v)`, `count(c, v)` is the number of elements, `all_of` holds exactly when the test holds for `v`
or there is no element, and `find(c, v)` gives the first position. -/
theorem C96_fill [DecidableEq α] (m : Mem α) (c : Container) (hd : Distinct c) (hv : Valid c m)
    (hne : c.shape ≠ []) (hs : NonNeg c.shape) (v : α) (f : α → Bool) :
    ∃ m' k r a, fill m c v = .ok m' ∧ count m' c v = .ok k ∧ find m' c v = .ok r ∧ allOf m' c f = .ok a ∧
      (k : Int) = c.numel ∧ Rank c.shape r 0 ∧ (a = true ↔ (f v = true ∨ c.numel = 0)) := by
  obtain ⟨m', h1, h2, -⟩ := C34_fill m c hd hv v
  have he : Elems c m' (fun _ => v) := h2
  obtain ⟨-, ⟨r, hr, er⟩, -⟩ := C26_find_first m' c _ he (fun _ => true) v
  have hr0 := isFirst_rank (P := fun _ => false) hs (r := r) (by simpa using er) (by simp)
  simp only [List.countP_false] at hr0
  refine ⟨m', _, r, _, h1, count_elems he v, hr, allOf_eq he f, ?_, hr0, ?_⟩
  · rw [Container.numel, numel_eq_prod hne, ← positions_length hs]; simp
  · rw [Container.numel, numel_eq_prod hne, ← positions_length hs]
    cases hp : positions c.shape with
    | nil => simp
    | cons x t =>
      simp only [List.all_eq_true, List.mem_cons, List.length_cons]
      constructor
      · intro h; exact .inl (h x (.inl rfl))
      · rintro (h | h)
        · intro _ _; exact h
        · omega

example : ∃ m' k r a, fill exMem exView 7 = .ok m' ∧ count m' exView 7 = .ok k ∧ find m' exView 7 = .ok r ∧
    allOf m' exView (· < 8) = .ok a ∧ (k : Int) = exView.numel ∧ Rank exView.shape r 0 ∧
    (a = true ↔ (decide ((7 : Int) < 8) = true ∨ exView.numel = 0)) :=
  C96_fill exMem exView exDistinct exValid (by decide) (by decide) 7 _

/-- **C96** (replace) After `replace(c, old, new)` the counts of `old` are added to those of `new`; other counts stay. -/
theorem C96_replace [DecidableEq α] (m : Mem α) (c : Container) (hd : Distinct c) (val : List Int → α)
    (h : Elems c m val) (old new : α) (hon : new ≠ old) :
    ∃ m' a b, replace m c old new = .ok m' ∧ count m c old = .ok a ∧ count m c new = .ok b ∧
      count m' c old = .ok 0 ∧ count m' c new = .ok (a + b) ∧
      ∀ v, v ≠ old → v ≠ new → count m' c v = count m c v := by
  obtain ⟨m', h1, h2, -, -⟩ := C38_replace m c hd val h old new
  refine ⟨m', _, _, h1, count_elems h old, count_elems h new, ?_, ?_, ?_⟩
  · rw [count_elems h2]
    congr 1
    rw [List.countP_eq_zero]
    intro p _
    by_cases hp : val p = old <;> simp [hp, hon]
  · rw [count_elems h2]
    congr 1
    generalize positions c.shape = l
    induction l with
    | nil => rfl
    | cons x t ih =>
      simp only [List.countP_cons, decide_eq_true_eq] at ih ⊢
      by_cases hx : val x = old
      · simp only [hx, if_true, if_neg hon.symm]; omega
      · simp only [hx, if_false]; omega
  · intro v hvo hvn
    rw [count_elems h2, count_elems h]
    congr 1
    apply List.countP_congr
    intro p _
    by_cases hp : val p = old
    · simp [hp, hvn.symm, hvo.symm]
    · simp [hp]

example : ∃ m', replace exMem exView 3 4 = .ok m' ∧ count m' exView 4 = .ok 2 ∧ count m' exView 3 = .ok 0 :=
  ⟨_, rfl, by decide, by decide⟩

/-- **C96** (iota) After `iota(c, v)` every value `v + k` is found, by `find` and by `lower_bound` and `binary_search`, at
position number `k`, and no other value occurs. -/
theorem C96_iota (md : Mode) (m : Mem Int) (c : Container) (hd : Distinct c) (hv : Valid c m)
    (hne : c.shape ≠ []) (hs : NonNeg c.shape) (v : Int) (s : σ) :
    ∃ m', iota m c (fun x : Int => x + 1) (fun x => x) v = .ok m' ∧
      (∀ p k, InBox c.shape p → linearIndex md c.shape p = .ok k →
        find m' c (v + k) = .ok (some p) ∧ count m' c (v + k) = .ok 1 ∧
        lowerBound md m' c (v + k) (fun a b => pure (decide (a < b))) s = .ok (some p, s) ∧
        binarySearch md m' c (v + k) (fun a b => pure (decide (a < b))) s = .ok (true, s)) ∧
      (∀ w, w < v ∨ v + c.numel ≤ w → find m' c w = .ok none ∧ count m' c w = .ok 0 ∧
        binarySearch md m' c w (fun a b => pure (decide (a < b))) s = .ok (false, s)) := by
  obtain ⟨⟨m', h1, -, h3⟩, -⟩ := C35_iota md m c hd hv v
  have he : Elems c m' (fun p => v + linearize (sfx c.shape) p) := by
    intro p hp
    rw [h3 p _ hp (linearIndex_ok md hp)]
    have := (lin_bounds hp).1
    congr 2
    simpa using this
  have hmono : ∀ p q, InBox c.shape p → InBox c.shape q → p < q → v + linearize (sfx c.shape) p < v + linearize (sfx c.shape) q := by
    intro p q hp hq hlt
    have := (lin_lt_iff hp hq).2 hlt
    omega
  refine ⟨m', h1, ?_, ?_⟩
  · intro p k hp hk
    rw [linearIndex_ok md hp] at hk
    cases hk
    obtain ⟨lo, hi, b, r, i, j, n, hlo, hhi, hb, hr, hn, e1, e2, -, -, -, -⟩ := C95_sorted md m' c _ he hne hs
      (fun p q hp hq hlt => (hmono p q hp hq hlt).le) (v + linearize (sfx c.shape) p) s
    have hrp : r = some p := by
      obtain ⟨-, ⟨r', hr', er'⟩, -⟩ := C26_find_first m' c _ he (fun _ => true) (v + linearize (sfx c.shape) p)
      rw [hr'] at hr
      cases hr
      exact (er'.2 p).2 ⟨hp, rfl, fun q hq hlt => (hmono q p hq hp hlt).ne⟩
    subst hrp
    have hlo' := e2 rfl
    subst hlo'
    refine ⟨hr, ?_, hlo, by rw [hb, e1.2 rfl]⟩
    rw [count_elems he]
    congr 1
    have : (positions c.shape).countP (fun q => decide (v + linearize (sfx c.shape) q = v + linearize (sfx c.shape) p)) =
        (positions c.shape).count p := by
      apply List.countP_congr
      intro q hq
      have hq := mem_positions.1 hq
      simp only [decide_eq_true_eq, beq_iff_eq]
      constructor
      · intro e; exact lin_inj hq hp (by omega)
      · rintro rfl; rfl
    rw [this]
    exact List.count_eq_one_of_mem (positions_nodup _) (mem_positions.2 hp)
  · intro w hw
    have hno : ∀ p, InBox c.shape p → v + linearize (sfx c.shape) p ≠ w := by
      intro p hp
      have hb := lin_bounds hp
      rw [Container.numel, numel_eq_prod hne] at hw
      omega
    obtain ⟨lo, hi, b, r, i, j, n, hlo, hhi, hb, hr, hn, e1, e2, -, -, -, -⟩ := C95_sorted md m' c _ he hne hs
      (fun p q hp hq hlt => (hmono p q hp hq hlt).le) w s
    have hrn : r = none := by
      obtain ⟨-, ⟨r', hr', er'⟩, -⟩ := C26_find_first m' c _ he (fun _ => true) w
      rw [hr'] at hr
      cases hr
      exact er'.1.2 hno
    subst hrn
    refine ⟨hr, ?_, ?_⟩
    · rw [count_elems he]
      congr 1
      rw [List.countP_eq_zero]
      intro p hp
      simpa using hno p (mem_positions.1 hp)
    · rw [hb]
      cases b with
      | false => rfl
      | true => simp at e1

example : ∃ m', iota exMem exView (fun x : Int => x + 1) (fun x => x) 5 = .ok m' ∧
    find m' exView 7 = .ok (some [1, 0]) ∧ find m' exView 9 = .ok none := ⟨_, rfl, by decide, by decide⟩

/-- **C97** (scan and reduce) Element number `k` of `inclusive_scan` is `reduce` of the first `k + 1` elements: the last one is
`reduce(c)`, and each one combines the corresponding element of `exclusive_scan` (computed into another container) with
the input element. -/
theorem C97_scans (m : Mem α) (inp out ex : Container) (ho : out.shape = inp.shape) (hx : ex.shape = inp.shape)
    (hd : Distinct out) (hv : Valid out m) (hdx : Distinct ex) (hvx : Valid ex m)
    (hc : NoClobber out inp) (hcx : NoClobber ex inp) (hcx' : ∀ p, InBox ex.shape p → ex.addr p ≠ inp.addr p)
    (val : List Int → α) (h : Elems inp m val) (init : α) (f : α → α → α) :
    ∃ mi me tot, inclusiveScan m inp out init f = .ok mi ∧ exclusiveScan m inp ex init f = .ok me ∧
      reduce m inp f init = .ok tot ∧
      (∀ p, InBox inp.shape p → ∃ a b, ex.get me p = .ok a ∧ out.get mi p = .ok b ∧ b = f a (val p)) ∧
      (∀ p, InBox inp.shape p → (∀ q, InBox inp.shape q → q ≤ p) → out.get mi p = .ok tot) ∧
      (∀ p, InBox inp.shape p → (∀ q, InBox inp.shape q → p ≤ q) → ex.get me p = .ok init) := by
  obtain ⟨mi, h1, -, h2⟩ := C39_inclusive_scan m inp out ho hd hv hc val h init f (fun e => e)
  obtain ⟨me, g1, -, g2⟩ := C39_exclusive_scan_partial m inp ex hx hdx hvx hcx hcx' val h init f (fun e => e)
  refine ⟨mi, me, _, h1, g1, reduce_eq f init h, ?_, ?_, ?_⟩
  · intro p hp
    have hk := getElem?_rank hp
    refine ⟨_, _, g2 _ p hk, h2 _ p hk, ?_⟩
    rw [List.take_add_one, hk]
    simp
  · intro p hp hmax
    obtain ⟨k, hk⟩ : ∃ k, (positions inp.shape)[k]? = some p := ⟨_, getElem?_rank hp⟩
    rw [h2 k p hk]
    have hlen : (positions inp.shape).length ≤ k + 1 := by
      by_contra hn
      push Not at hn
      obtain ⟨q, hq⟩ : ∃ q, (positions inp.shape)[k + 1]? = some q := ⟨_, List.getElem?_eq_getElem hn⟩
      obtain ⟨hk', hk⟩ := List.getElem?_eq_some_iff.1 hk
      obtain ⟨hq', hq⟩ := List.getElem?_eq_some_iff.1 hq
      have hlt := List.pairwise_iff_getElem.1 (positions_sorted inp.shape) k (k + 1) hk' hq' (by omega)
      have hmem : q ∈ positions inp.shape := hq ▸ List.getElem_mem hq'
      rw [hk, hq] at hlt
      exact absurd hlt (not_lt.2 (hmax q (mem_positions.1 hmem)))
    rw [List.take_of_length_le hlen]
  · intro p hp hmin
    obtain ⟨k, hk⟩ : ∃ k, (positions inp.shape)[k]? = some p := ⟨_, getElem?_rank hp⟩
    rw [g2 k p hk]
    have hk0 : k = 0 := by
      by_contra hn
      obtain ⟨hk', hk⟩ := List.getElem?_eq_some_iff.1 hk
      have hlt := List.pairwise_iff_getElem.1 (positions_sorted inp.shape) 0 k (by omega) hk' (by omega)
      have hmem : (positions inp.shape)[0] ∈ positions inp.shape := List.getElem_mem _
      rw [hk] at hlt
      exact absurd hlt (not_lt.2 (hmin _ (mem_positions.1 hmem)))
    subst hk0
    simp

/-- **C97** (transform then reduce) Writing `T` of the elements of two containers into a third and reducing that gives what
`transform_reduce` gives directly. -/
theorem C97_transform_reduce (m : Mem α) (c1 c2 out : Container) (h12 : c1.shape = c2.shape) (ho : out.shape = c1.shape)
    (hd : Distinct out) (hv : Valid out m) (hc1 : NoClobber out c1) (hc2 : NoClobber out c2)
    (val1 val2 : List Int → α) (h1 : Elems c1 m val1) (h2 : Elems c2 m val2) (init : β) (R : β → α → β)
    (T : α → α → α) (dflt : α) :
    ∃ m', transform m (fun vs => T (vs.headD dflt) (vs.tail.headD dflt)) out [c1, c2] = .ok m' ∧
      reduce m' out R init = transformReduce m c1 c2 init R T ∧ (reduce m' out R init).isOk = true := by
  obtain ⟨m', e1, e2, -⟩ := C36_transform m (fun vs => T (vs.headD dflt) (vs.tail.headD dflt)) out [c1, c2] hd hv
    (by intro c hc; simp at hc; rcases hc with rfl | rfl <;> assumption)
    (fun p => [val1 p, val2 p]) (by
      intro p hp
      rw [ho] at hp
      simp [h1 p hp, h2 p (h12 ▸ hp), pure, Except.pure, bind, Except.bind])
  have he : Elems out m' (fun p => T (val1 p) (val2 p)) := e2
  refine ⟨m', e1, ?_, ?_⟩
  · rw [reduce_eq R init he, (C29_pairwise_fold .checked m c1 c2 val1 val2 h12 h1 h2 init R T).1, ho]
  · rw [reduce_eq R init he]; rfl

/-- Two disjoint rows of three elements in one block, used in the examples below. -/
theorem exRows : Elems (.ofShape ⟨0, 0⟩ [3]) exMem2 (fun p => 1 + p.headD 0) ∧ Distinct (.ofShape ⟨0, 3⟩ [3]) ∧
    Valid (.ofShape ⟨0, 3⟩ [3]) exMem2 ∧ NoClobber (.ofShape ⟨0, 3⟩ [3]) (.ofShape ⟨0, 0⟩ [3]) ∧
    ∀ p, InBox [3] p → (Container.ofShape ⟨0, 3⟩ [3]).addr p ≠ (Container.ofShape ⟨0, 0⟩ [3]).addr p := by
  refine ⟨?_, default_distinct (ofShape_default (by decide)), ?_, ?_, ?_⟩
  · intro p hp
    have : ∀ p ∈ positions [3], (Container.ofShape ⟨0, 0⟩ [3]).get exMem2 p = .ok (1 + p.headD 0) := by decide
    exact this p (mem_positions.2 hp)
  · intro p hp
    have : ∀ p ∈ positions [3], (Container.ofShape ⟨0, 3⟩ [3]).get exMem2 p = .ok 0 := by decide
    exact ⟨_, this p (mem_positions.2 hp)⟩
  · intro p q hp hq _
    have : ∀ p ∈ positions [3], ∀ q ∈ positions [3],
      (Container.ofShape ⟨0, 3⟩ [3]).addr q ≠ (Container.ofShape ⟨0, 0⟩ [3]).addr p := by decide
    exact this p (mem_positions.2 hp) q (mem_positions.2 hq)
  · intro p hp
    have : ∀ p ∈ positions [3],
      (Container.ofShape ⟨0, 3⟩ [3]).addr p ≠ (Container.ofShape ⟨0, 0⟩ [3]).addr p := by decide
    exact this p (mem_positions.2 hp)

example := C97_scans exMem2 (.ofShape ⟨0, 0⟩ [3]) (.ofShape ⟨0, 3⟩ [3]) (.ofShape ⟨0, 3⟩ [3]) rfl rfl exRows.2.1
  exRows.2.2.1 exRows.2.1 exRows.2.2.1 exRows.2.2.2.1 exRows.2.2.2.1 exRows.2.2.2.2 _ exRows.1 10 (· + ·)

example := C97_transform_reduce exMem2 (.ofShape ⟨0, 0⟩ [3]) (.ofShape ⟨0, 0⟩ [3]) (.ofShape ⟨0, 3⟩ [3]) rfl rfl
  exRows.2.1 exRows.2.2.1 exRows.2.2.2.1 exRows.2.2.2.1 _ _ exRows.1 exRows.1 (0 : Int) (· + ·) (· * ·) 0

/-- **C98** (fusion) Two transforms in place, `f` then `g`, leave the memory that the single transform by `g` after `f` leaves. -/
theorem C98_transform_fusion (m : Mem α) (c : Container) (hd : Distinct c) (val : List Int → α) (h : Elems c m val)
    (f g : α → α) (dflt : α) :
    ∃ m1 m2, transform m (fun vs => f (vs.headD dflt)) c [c] = .ok m1 ∧
      transform m1 (fun vs => g (vs.headD dflt)) c [c] = .ok m2 ∧
      transform m (fun vs => g (f (vs.headD dflt))) c [c] = .ok m2 ∧
      Elems c m2 (fun p => g (f (val p))) := by
  obtain ⟨m1, a1, a2, a3⟩ := C36_transform_in_place m f c hd val h dflt
  obtain ⟨m2, b1, b2, b3⟩ := C36_transform_in_place m1 g c hd (fun p => f (val p)) a2 dflt
  obtain ⟨m3, c1, c2, c3⟩ := C36_transform_in_place m (fun x => g (f x)) c hd val h dflt
  have e : m3 = m2 := by
    funext a
    by_cases ha : ∀ p, InBox c.shape p → c.addr p ≠ a
    · rw [b3 a ha, a3 a ha, c3 a ha]
    · push Not at ha
      obtain ⟨p, hp, rfl⟩ := ha
      rw [get_ok_iff.1 (b2 p hp), get_ok_iff.1 (c2 p hp)]
  exact ⟨m1, m2, a1, b1, e ▸ c1, b2⟩

example : ∃ m1 m2, transform exMem (fun vs => vs.headD 0 + 1) exView [exView] = .ok m1 ∧
    transform m1 (fun vs => vs.headD 0 * 2) exView [exView] = .ok m2 ∧
    transform exMem (fun vs => (vs.headD 0 + 1) * 2) exView [exView] = .ok m2 ∧
    Elems exView m2 (fun p => (exVal p + 1) * 2) :=
  C98_transform_fusion exMem exView exDistinct exVal exElems (· + 1) (· * 2) 0

/-- **C98** (round trip) Copying a container to another one of the same shape and back leaves the memory as the first copy
left it; the second container then holds what the first one holds. -/
theorem C98_copy_round_trip (m : Mem α) (a b : Container) (hshape : a.shape = b.shape) (hda : Distinct a) (hdb : Distinct b)
    (hb : Valid b m) (val : List Int → α) (h : Elems a m val)
    (hdis : ∀ p q, InBox b.shape p → InBox a.shape q → b.addr p ≠ a.addr q) (dflt : α) :
    ∃ m', copy m b a dflt = .ok m' ∧ Elems b m' val ∧ Elems a m' val ∧ copy m' a b dflt = .ok m' := by
  obtain ⟨m', h1, h2, h3, h4⟩ := C37_copy m b a hdb hb
    (fun p q hp hq _ => hdis q p hq (hshape ▸ hp)) val (fun p hp => h p (hshape ▸ hp)) dflt
  have ha : Elems a m' val := fun p hp => by rw [h4 hdis p hp, h p hp]
  obtain ⟨m2, g1, g2, g3, -⟩ := C37_copy m' a b hda (fun p hp => ⟨_, ha p hp⟩)
    (fun p q hp hq _ => (hdis p q (hshape ▸ hp) hq).symm) val (fun p hp => h2 p (hshape ▸ hp)) dflt
  refine ⟨m', h1, h2, ha, ?_⟩
  have e : m2 = m' := by
    funext x
    by_cases hx : ∀ p, InBox a.shape p → a.addr p ≠ x
    · exact g3 x hx
    · push Not at hx
      obtain ⟨p, hp, rfl⟩ := hx
      rw [get_ok_iff.1 (g2 p hp), get_ok_iff.1 (ha p hp)]
  exact e ▸ g1

example := C98_copy_round_trip exMem2 (.ofShape ⟨0, 0⟩ [3]) (.ofShape ⟨0, 3⟩ [3]) rfl
  (default_distinct (ofShape_default (by decide))) exRows.2.1 exRows.2.2.1 _ exRows.1 (by
    intro p q hp hq
    have : ∀ p ∈ positions [3], ∀ q ∈ positions [3],
      (Container.ofShape ⟨0, 3⟩ [3]).addr p ≠ (Container.ofShape ⟨0, 0⟩ [3]).addr q := by decide
    exact this p (mem_positions.2 hp) q (mem_positions.2 hq)) 0

end Kwk
