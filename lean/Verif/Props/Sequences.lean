import Verif.Spec.Sequence
import Verif.Props.Reverse
import Verif.Props.Views
import Verif.Props.Writing
import Verif.Props.Search
import Verif.Props.SliceAlgos
import Verif.Props.Laws

/-!
# Property C117: algorithms are functions of the sequence of elements

`Lists c m xs`: in memory `m` the elements of `c`, in row-major order, are the list `xs`.  Each algorithm is described as an
operation on lists, for containers of any order and layout; each view as an operation on the list.
-/

namespace Kwk
open Spec

variable {α β γ σ : Type}

theorem elems_lists {c : Container} {m : Mem α} {val : List Int → α} (h : Elems c m val) :
    Lists c m ((positions c.shape).map val) := by
  unfold Lists rowMajor
  rw [List.map_map]
  exact List.map_congr_left fun p hp => h p (mem_positions.1 hp)

theorem lists_elems [Nonempty α] {c : Container} {m : Mem α} {xs : List α} (h : Lists c m xs) :
    ∃ val, Elems c m val ∧ xs = (positions c.shape).map val := by
  have hv : ∀ p, InBox c.shape p → ∃ v, c.get m p = .ok v := by
    intro p hp
    have : c.get m p ∈ rowMajor c m := List.mem_map.2 ⟨p, mem_positions.2 hp, rfl⟩
    rw [show rowMajor c m = _ from h, List.mem_map] at this
    obtain ⟨v, -, e⟩ := this
    exact ⟨v, e.symm⟩
  choose! val hval using hv
  refine ⟨val, hval, ?_⟩
  have e := elems_lists hval
  unfold Lists at h e
  rw [h] at e
  exact List.map_injective_iff.2 (fun _ _ e => Except.ok.inj e) e

theorem lists_of {c : Container} {m : Mem α} {xs : List α} (hl : xs.length = (positions c.shape).length)
    (h : ∀ (k : Nat) p, (positions c.shape)[k]? = some p → ∃ v, xs[k]? = some v ∧ c.get m p = .ok v) : Lists c m xs := by
  unfold Lists rowMajor
  apply List.ext_getElem?
  intro k
  rw [List.getElem?_map, List.getElem?_map]
  cases hk : (positions c.shape)[k]? with
  | none =>
    rw [List.getElem?_eq_none_iff] at hk
    rw [List.getElem?_eq_none (by omega)]
    rfl
  | some p =>
    obtain ⟨v, h1, h2⟩ := h k p hk
    rw [h1, Option.map_some, Option.map_some, h2]

theorem lists_length {c : Container} {m : Mem α} {xs : List α} (h : Lists c m xs) : xs.length = (positions c.shape).length := by
  have := congrArg List.length (show rowMajor c m = _ from h)
  rw [rowMajor, List.length_map, List.length_map] at this
  exact this.symm

/-- **C117** A container of which all elements can be read shows exactly one sequence, with one entry per position. -/
theorem C117_sequence [Nonempty α] (c : Container) (m : Mem α) :
    (Valid c m ↔ ∃ xs, Lists c m xs) ∧ (∀ xs ys, Lists c m xs → Lists c m ys → xs = ys) ∧
    (NonNeg c.shape → ∀ xs, Lists c m xs → (xs.length : Int) = c.shape.prod) ∧
    ∀ xs, Lists c m xs → ∀ (k : Nat) p, place c.shape k = some p → ∃ v, xs[k]? = some v ∧ c.get m p = .ok v := by
  refine ⟨⟨fun h => ?_, ?_⟩, ?_, ?_, ?_⟩
  · unfold Valid at h
    choose! val hval using h
    exact ⟨_, elems_lists hval⟩
  · rintro ⟨xs, h⟩
    obtain ⟨val, he, -⟩ := lists_elems h
    exact fun p hp => ⟨_, he p hp⟩
  · intro xs ys h1 h2
    unfold Lists at h1 h2
    rw [h1] at h2
    exact List.map_injective_iff.2 (fun _ _ e => Except.ok.inj e) h2
  · intro hn xs h
    rw [lists_length h, positions_length hn]
  · intro xs h k p hk
    obtain ⟨val, he, rfl⟩ := lists_elems h
    exact ⟨val p, by rw [List.getElem?_map, show (positions c.shape)[k]? = some p from hk]; rfl,
      he p (mem_positions.1 (List.mem_of_getElem? hk))⟩

example : ∃ xs, Lists exIn exTwo xs := (C117_sequence exIn exTwo).1.1 exIn_valid

theorem exLists : Lists exView exMem [1, 2, 3, 4] := elems_lists exElems

/-! ## Reading -/

/-- **C117** Algorithms that read one container. -/
theorem C117_reading [Nonempty α] [DecidableEq α] {c : Container} {m : Mem α} {xs : List α} (h : Lists c m xs) (f : α → Bool)
    (v : α) (op : β → α → β) (init : β) :
    reduce m c op init = .ok (xs.foldl op init) ∧
    allOf m c f = .ok (xs.all f) ∧ anyOf m c f = .ok (xs.any f) ∧ noneOf m c f = .ok (!xs.any f) ∧
    countIf m c f = .ok (xs.countP f) ∧ count m c v = .ok (xs.count v) := by
  obtain ⟨val, he, rfl⟩ := lists_elems h
  have hany : anyOf m c f = .ok (((positions c.shape).map val).any f) := by
    rw [anyOf_eq f he, List.any_map]; rfl
  refine ⟨reduce_eq _ _ he, ?_, hany, ?_, ?_, ?_⟩
  · rw [allOf_eq he, List.all_map]; rfl
  · unfold noneOf; rw [hany]; rfl
  · rw [countIf_eq he, List.countP_map]; rfl
  · rw [count_elems he, List.count_eq_countP, List.countP_map]
    congr 1

example : reduce exMem exView (fun a e => a * 10 + e) 0 = .ok 1234 :=
  (C117_reading exLists (fun _ => true) 0 _ _).1

/-- **C117** Searches answer with the position whose number is that of the first match in the sequence. -/
theorem C117_find [Nonempty α] [DecidableEq α] {c : Container} {m : Mem α} {xs : List α} (h : Lists c m xs) (f : α → Bool)
    (v : α) :
    findIf m c f = .ok ((xs.findIdx? f).bind (place c.shape)) ∧
    findIfNot m c f = .ok ((xs.findIdx? fun x => !f x).bind (place c.shape)) ∧
    find m c v = .ok ((xs.findIdx? fun x => decide (x = v)).bind (place c.shape)) := by
  obtain ⟨val, he, rfl⟩ := lists_elems h
  have key : ∀ g : α → Bool, findIf m c g = .ok ((((positions c.shape).map val).findIdx? g).bind (place c.shape)) := by
    intro g
    rw [findIf_eq g he, List.findIdx?_map, List.find?_eq_bind_findIdx?_getElem?]
    rfl
  exact ⟨key f, key _, key _⟩

example : find exMem exView 3 = .ok (some [1, 0]) := (C117_find exLists (fun _ => true) 3).2.2

/-- **C117** `find_first_of` answers with the position of the first element that is in the second sequence. -/
theorem C117_find_first_of [Nonempty α] [DecidableEq α] {c vs : Container} {m : Mem α} {xs ys : List α} (h : Lists c m xs)
    (hv : Lists vs m ys) :
    findFirstOf m c vs = .ok ((xs.findIdx? fun x => decide (x ∈ ys)).bind (place c.shape)) := by
  have e : findFirstOf m c vs = findIf m c fun x => decide (x ∈ ys) := by
    unfold findFirstOf findIf
    congr 1
    funext e
    rw [(C117_reading hv (fun x => decide (x = e)) e (fun (a : Unit) _ => a) ()).2.2.1]
    show Except.ok _ = Except.ok _
    congr 1
    rw [Bool.eq_iff_iff]
    simp
  rw [e]
  exact (C117_find h _ (Classical.arbitrary α)).1

example : findFirstOf exMem exView exView = .ok (some [0, 0]) := C117_find_first_of exLists exLists

/-- **C117** Reductions of two containers of the same shape. -/
theorem C117_reading_two [Nonempty α] {a b : Container} {m : Mem α} {xs ys : List α} (hs : a.shape = b.shape) (ha : Lists a m xs)
    (hb : Lists b m ys) (R : β → γ → β) (T : α → α → γ) (init : β) (md : Mode) :
    transformReduce m a b init R T = .ok ((List.zipWith T xs ys).foldl R init) ∧
    innerProduct md m a b init R T = .ok ((List.zipWith T xs ys).foldl R init) := by
  obtain ⟨va, hea, rfl⟩ := lists_elems ha
  obtain ⟨vb, heb, rfl⟩ := lists_elems hb
  rw [← hs, List.zipWith_map, List.zipWith_self]
  exact C29_pairwise_fold md m a b va vb hs hea heb init R T

example : innerProduct .checked exMem exView exView 0 (· + ·) (· * ·) = .ok 30 :=
  (C117_reading_two rfl exLists exLists (· + ·) (· * ·) 0 .checked).2

/-! ## Binary searches -/

private theorem pairwise_box {s : Shape} {val : List Int → α} {R : α → α → Prop} (h : ((positions s).map val).Pairwise R) :
    ∀ p q, InBox s p → InBox s q → p < q → R (val p) (val q) := by
  intro p q hp hq hlt
  obtain ⟨i, hi, rfl⟩ := List.mem_iff_getElem.1 (mem_positions.2 hp)
  obtain ⟨j, hj, rfl⟩ := List.mem_iff_getElem.1 (mem_positions.2 hq)
  have hs := List.pairwise_iff_getElem.1 (positions_sorted s)
  rw [List.pairwise_map, List.pairwise_iff_getElem] at h
  rcases lt_trichotomy i j with hij | rfl | hij
  · exact h i j hi hj hij
  · exact absurd hlt (lt_irrefl _)
  · exact absurd (lt_trans hlt (hs j i hj hi hij)) (lt_irrefl _)

private theorem rank_place {s : Shape} (hs : NonNeg s) {r : Option (List Int)} {k : Nat} (h : Rank s r k) : r = place s k := by
  cases r with
  | some p => exact (show (positions s)[k]? = some p from h).symm
  | none =>
    have h' : (k : Int) = s.prod := h
    rw [← positions_length hs] at h'
    unfold place
    rw [List.getElem?_eq_none (by omega)]

/-- **C117** On a sequence in which the elements before the bound come first, `lower_bound` and `upper_bound` answer with the
position whose number is the number of elements before the bound. -/
theorem C117_bounds [Nonempty α] (md : Mode) {c : Container} {m : Mem α} {xs : List α} (h : Lists c m xs) (hne : c.shape ≠ [])
    (hs : NonNeg c.shape) (v : β) (s : σ) :
    (∀ lt : α → β → Bool, xs.Pairwise (fun a b => lt b v = true → lt a v = true) →
      lowerBound md m c v (fun e w => pure (lt e w)) s = .ok (place c.shape (xs.countP fun e => lt e v), s)) ∧
    (∀ lt : β → α → Bool, xs.Pairwise (fun a b => lt v a = true → lt v b = true) →
      upperBound md m c v (fun w e => pure (lt w e)) s = .ok (place c.shape (xs.countP fun e => !lt v e), s)) := by
  obtain ⟨val, he, rfl⟩ := lists_elems h
  constructor
  · intro lt hp
    have hp := pairwise_box hp
    obtain ⟨r, h1, h2⟩ := C30_lower_bound md m c val he hne hs lt v hp s
    rw [h1, rank_place hs (isFirst_rank hs (P := fun p => lt (val p) v) h2 hp), List.countP_map]
    rfl
  · intro lt hp
    have hp := pairwise_box hp
    obtain ⟨r, h1, h2⟩ := C31_upper_bound md m c val he hne hs lt v hp s
    have hr : Rank c.shape r ((positions c.shape).countP fun p => !lt v (val p)) :=
      isFirst_rank hs (P := fun p => !lt v (val p)) (by simpa using h2) ?_
    · rw [h1, rank_place hs hr, List.countP_map]
      rfl
    · intro p q hp' hq' hlt
      have := hp p q hp' hq' hlt
      revert this
      cases lt v (val p) <;> cases lt v (val q) <;> simp

/-- **C117** On a sorted sequence `binary_search` tells whether an equivalent element occurs in it. -/
theorem C117_binary_search [Nonempty α] (md : Mode) {c : Container} {m : Mem α} {xs : List α} (h : Lists c m xs)
    (hne : c.shape ≠ []) (hs : NonNeg c.shape) (lt : α → α → Bool) (hlt : StrictWeak lt)
    (hsorted : xs.Pairwise fun a b => lt b a = false) (v : α) (s : σ) :
    binarySearch md m c v (fun a b => pure (lt a b)) s = .ok (xs.any fun x => !lt x v && !lt v x, s) := by
  obtain ⟨val, he, rfl⟩ := lists_elems h
  obtain ⟨b, h1, h2⟩ := C32_binary_search md m c val he hne hs lt hlt (pairwise_box hsorted) v s
  rw [h1]
  congr 2
  rw [Bool.eq_iff_iff, h2]
  simp [mem_positions]

example : (lowerBound .checked exMem exView 3 (fun a b => pure (decide (a < b))) ()) = .ok (some [1, 0], ()) :=
  (C117_bounds .checked exLists (by decide) (by decide) (3 : Int) ()).1 (fun a b => decide (a < b)) (by decide)

/-! ## Writing -/

/-- **C117** Algorithms that write one container. -/
theorem C117_writing [Nonempty α] {c : Container} {m : Mem α} {xs : List α} (hd : Distinct c) (h : Lists c m xs) (v dflt : α)
    (f : α → α) (P : α → Bool) (g : List Int → α) (incr : β → β) (conv : β → α) (b : β) :
    (∃ m', fill m c v = .ok m' ∧ Lists c m' (List.replicate xs.length v) ∧ SameOutside c m m') ∧
    (∃ m', transform m (fun vs => f (vs.headD dflt)) c [c] = .ok m' ∧ Lists c m' (xs.map f) ∧ SameOutside c m m') ∧
    (∃ m', replaceIf m c P v = .ok m' ∧ Lists c m' (xs.map fun x => if P x then v else x) ∧ SameOutside c m m') ∧
    (∃ m', generate m g c = .ok m' ∧ Lists c m' ((positions c.shape).map g) ∧ SameOutside c m m') ∧
    (∃ m', iota m c incr conv b = .ok m' ∧ Lists c m' ((List.range xs.length).map fun k => conv (incr^[k] b)) ∧
      SameOutside c m m') := by
  have hlen := lists_length h
  obtain ⟨val, he, hx⟩ := lists_elems h
  have hv : Valid c m := fun p hp => ⟨_, he p hp⟩
  refine ⟨?_, ?_, ?_, ?_, ?_⟩
  · obtain ⟨m', h1, h2, h3⟩ := C34_fill m c hd hv v
    refine ⟨m', h1, ?_, h3⟩
    rw [hlen, ← List.map_const']
    exact elems_lists h2
  · obtain ⟨m', h1, h2, h3⟩ := C36_transform_in_place m f c hd val he dflt
    refine ⟨m', h1, ?_, h3⟩
    rw [hx, List.map_map]
    exact elems_lists h2
  · obtain ⟨m', h1, h2, h3⟩ := C38_replace_if m c hd val he P v
    refine ⟨m', h1, ?_, h3⟩
    rw [hx, List.map_map]
    exact elems_lists h2
  · obtain ⟨m', h1, h2, h3⟩ := C34_generate m c hd hv g
    exact ⟨m', h1, elems_lists h2, h3⟩
  · obtain ⟨m', h1, h3, h2⟩ := C35_iota_iterate .checked m c hd hv incr conv b
    refine ⟨m', h1, lists_of (by simp [hlen]) fun k p hk => ?_, h3⟩
    have hb := mem_positions.1 (List.mem_of_getElem? hk)
    refine ⟨conv (incr^[k] b), ?_, ?_⟩
    · have : k < xs.length := by rw [hlen]; exact (List.getElem?_eq_some_iff.1 hk).1
      rw [List.getElem?_map, List.getElem?_range this]; rfl
    · have := h2 p _ hb (linearIndex_ok .checked hb)
      rwa [show (linearize (sfx c.shape) p).toNat = k from positions_rank hk ▸ rfl] at this

example : ∃ m', replaceIf exMem exView (· < 3) 0 = .ok m' ∧ Lists exView m' [0, 0, 3, 4] := by
  obtain ⟨m', h1, h2, -⟩ := (C117_writing (β := Unit) exDistinct exLists 0 0 id (· < 3) (fun _ => 0) id (fun _ => 0) ()).2.2.1
  exact ⟨m', h1, h2⟩

private theorem mapM_rows [Nonempty α] {ins : List Container} {yss : List (List α)} {s : Shape} {m : Mem α}
    (hi : List.Forall₂ (fun c ys => c.shape = s ∧ Lists c m ys) ins yss) {k : Nat} {p : List Int}
    (hk : (positions s)[k]? = some p) :
    ins.mapM (fun c => c.get m p) = .ok (yss.filterMap fun ys => ys[k]?) := by
  induction hi with
  | nil => rfl
  | @cons c ys ins yss hc _ ih =>
    obtain ⟨v, h1, h2⟩ := (C117_sequence c m).2.2.2 ys hc.2 k p (by rw [hc.1]; exact hk)
    rw [List.mapM_cons, h2, ih, List.filterMap_cons, h1]
    rfl

/-- **C117** `transform` of any number of containers: entry `k` of the result is `f` of the entries `k` of the inputs. -/
theorem C117_transform [Nonempty α] {out : Container} {ins : List Container} {m : Mem α} {yss : List (List α)} (hd : Distinct out)
    (hv : Valid out m) (hc : ∀ c ∈ ins, NoClobber out c)
    (hi : List.Forall₂ (fun c ys => c.shape = out.shape ∧ Lists c m ys) ins yss) (f : List α → α) :
    ∃ m' zs, transform m f out ins = .ok m' ∧ Lists out m' zs ∧ SameOutside out m m' ∧
      ∀ (k : Nat), k < zs.length → zs[k]? = some (f (yss.filterMap fun ys => ys[k]?)) := by
  obtain ⟨m', h1, h2, h3⟩ := C36_transform m f out ins hd hv hc
    (fun p => yss.filterMap fun ys => ys[(linearize (sfx out.shape) p).toNat]?)
    (fun p hp => mapM_rows hi (getElem?_rank hp))
  refine ⟨m', _, h1, elems_lists h2, h3, fun k hk => ?_⟩
  rw [List.length_map] at hk
  have e := List.getElem?_eq_getElem hk
  rw [List.getElem?_map, e, Option.map_some,
    show (linearize (sfx out.shape) (positions out.shape)[k]).toNat = k by rw [← positions_rank e]; rfl]

example : ∃ m' zs, transform exMem (fun vs => vs.sum) exView [exView, exView] = .ok m' ∧ Lists exView m' zs ∧
    SameOutside exView exMem m' ∧ ∀ (k : Nat), k < zs.length → zs[k]? = some ([[1, 2, 3, 4], [1, 2, 3, 4]].filterMap fun ys => ys[k]?).sum :=
  C117_transform exDistinct exValid (by intro c hc; simp at hc; subst hc; exact noClobber_self exDistinct)
    (.cons ⟨rfl, exLists⟩ (.cons ⟨rfl, exLists⟩ .nil)) _

/-- **C117** `copy` and `copy_if` between containers of the same shape. -/
theorem C117_copy [Nonempty α] {out inp : Container} {m : Mem α} {xs ys : List α} (hs : out.shape = inp.shape) (hd : Distinct out)
    (hc : NoClobber out inp) (hx : Lists inp m xs) (hy : Lists out m ys) (P : α → Bool) (dflt : α) :
    (∃ m', copy m out inp dflt = .ok m' ∧ Lists out m' xs ∧ SameOutside out m m') ∧
    (∃ m', copyIf m P out inp = .ok m' ∧ Lists out m' (List.zipWith (fun x y => if P x then x else y) xs ys) ∧
      SameOutside out m m') := by
  obtain ⟨vx, hex, rfl⟩ := lists_elems hx
  obtain ⟨vy, hey, rfl⟩ := lists_elems hy
  have hv : Valid out m := fun p hp => ⟨_, hey p hp⟩
  constructor
  · obtain ⟨m', h1, h2, h3, -⟩ := C37_copy m out inp hd hv hc vx (fun p hp => hex p (hs ▸ hp)) dflt
    refine ⟨m', h1, ?_, h3⟩
    rw [← hs]
    exact elems_lists h2
  · obtain ⟨m', h1, h2, h3⟩ := C37_copy_if m P out inp hd hv hc vx (fun p hp => hex p (hs ▸ hp))
    refine ⟨m', h1, ?_, h3⟩
    rw [← hs, List.zipWith_map, List.zipWith_self]
    refine elems_lists fun p hp => ?_
    cases hP : P (vx p) with
    | true => rw [(h2 p hp).1 hP]; rfl
    | false => rw [(h2 p hp).2 hP, hey p hp]; rfl

example : ∃ m', copyIf exMem (· < 3) exView exView = .ok m' ∧ Lists exView m' [1, 2, 3, 4] := by
  obtain ⟨m', h1, h2, -⟩ := (C117_copy rfl exDistinct (noClobber_self exDistinct) exLists exLists (· < 3) 0).2
  exact ⟨m', h1, h2⟩

/-- **C117** Scans: the running results, with or without the initial one. -/
theorem C117_scans [Nonempty α] {out inp : Container} {m : Mem α} {xs : List α} (hs : out.shape = inp.shape) (hd : Distinct out)
    (hv : Valid out m) (hc : NoClobber out inp) (hx : Lists inp m xs) (init : α) (f1 : α → β → α) (f2 : α → β) :
    (∃ m', transformInclusiveScan m inp out init f1 f2 = .ok m' ∧
      Lists out m' ((xs.map f2).scanl f1 init).tail ∧ SameOutside out m m') ∧
    ((∀ p, InBox out.shape p → out.addr p ≠ inp.addr p) →
      ∃ m', transformExclusiveScan m inp out init f1 f2 = .ok m' ∧
        Lists out m' ((xs.map f2).scanl f1 init).dropLast ∧ SameOutside out m m') := by
  obtain ⟨val, he, rfl⟩ := lists_elems hx
  have hfold : ∀ k, ((((positions inp.shape).take k).map fun p => f2 (val p)).foldl f1 init) =
      ((((positions inp.shape).map val).map f2).take k).foldl f1 init := by
    intro k
    rw [List.map_map, List.map_take]
    rfl
  constructor
  · obtain ⟨m', h1, h3, h2⟩ := C39_inclusive_scan m inp out hs hd hv hc val he init f1 f2
    refine ⟨m', h1, lists_of (by simp [hs]) fun k p hk => ?_, h3⟩
    have hlt := (List.getElem?_eq_some_iff.1 hk).1
    rw [hs] at hk hlt
    refine ⟨_, ?_, h2 k p hk⟩
    rw [List.getElem?_tail, List.getElem?_scanl, if_pos (by simp; omega), hfold]
  · intro hdis
    obtain ⟨m', h1, h3, h2⟩ := C39_exclusive_scan_partial m inp out hs hd hv hc hdis val he init f1 f2
    refine ⟨m', h1, lists_of (by simp [hs]) fun k p hk => ?_, h3⟩
    have hlt := (List.getElem?_eq_some_iff.1 hk).1
    rw [hs] at hk hlt
    refine ⟨_, ?_, h2 k p hk⟩
    rw [List.getElem?_dropLast, if_pos (by simp; omega), List.getElem?_scanl, if_pos (by simp; omega), hfold]

example : ∃ m', transformInclusiveScan exMem exView exView 10 (· + ·) id = .ok m' ∧ Lists exView m' [11, 13, 16, 20] := by
  obtain ⟨m', h1, h2, -⟩ := (C117_scans rfl exDistinct exValid (noClobber_self exDistinct) exLists 10 (· + ·) id).1
  exact ⟨m', h1, h2⟩

/-! ## Views -/

theorem place_mirror {s p : List Int} {k : Nat} (h : (positions s)[k]? = some p) :
    (positions s)[(positions s).length - 1 - k]? = some (mirror s p) := by
  have hb := mem_positions.1 (List.mem_of_getElem? h)
  have hlt := (List.getElem?_eq_some_iff.1 h).1
  have hr := positions_rank h
  have hn : NonNeg s := fun d hd => (hb.pos d hd).le
  have e := getElem?_rank (mirror_inBox hb)
  rw [linearize_mirror _ hb.length, linearize_corner, ← positions_length hn, ← hr] at e
  rwa [show (((positions s).length : Int) - 1 - (k : Int)).toNat = (positions s).length - 1 - k by omega] at e

theorem positions_mirror (s : List Int) : (positions s).map (mirror s) = (positions s).reverse := by
  apply List.ext_getElem?
  intro k
  rw [List.getElem?_map]
  cases hk : (positions s)[k]? with
  | none =>
    rw [List.getElem?_eq_none_iff] at hk
    rw [List.getElem?_eq_none (by simp; omega)]
    rfl
  | some p =>
    have hlt := (List.getElem?_eq_some_iff.1 hk).1
    rw [List.getElem?_reverse hlt, place_mirror hk]
    rfl

private theorem rowMajor_reverse {c : Container} (h : c.Default) (m : Mem α) :
    rowMajor (reverse c) m = (rowMajor c m).reverse := by
  unfold rowMajor
  rw [← List.map_reverse, ← positions_mirror, List.map_map]
  refine List.map_congr_left fun p hp => ?_
  have hb := mem_positions.1 hp
  exact ((C46_reverse_partial h.toWF (C46_default_corner h ⟨p, hb⟩)).2 p hb).2 m

/-- **C117** `reverse` shows the reversed sequence, of the same cells: what is written through it is seen in the container in
reverse order. -/
theorem C117_reverse {c : Container} (h : c.Default) (m : Mem α) (xs : List α) :
    Lists (reverse c) m xs ↔ Lists c m xs.reverse := by
  unfold Lists
  rw [rowMajor_reverse h, List.map_reverse, List.reverse_eq_iff]

example : Lists (reverse (.ofShape ⟨0, 0⟩ [2, 2])) (oneBlock 0 [1, 2, 3, 4]) [4, 3, 2, 1] :=
  (C117_reverse (ofShape_default (by simp)) _ _).2 rfl

/-- **C117** `find_last_if` answers with the position of the last match in the sequence. -/
theorem C117_find_last [Nonempty α] [DecidableEq α] {c : Container} (h : c.Default) {m : Mem α} {xs : List α} (hx : Lists c m xs)
    (f : α → Bool) :
    findLastIf m c f = .ok ((xs.reverse.findIdx? f).bind fun k => place c.shape (xs.length - 1 - k)) := by
  have hr : Lists (reverse c) m xs.reverse := (C117_reverse h m _).2 (by rwa [List.reverse_reverse])
  unfold findLastIf
  rw [(C117_find hr f (Classical.arbitrary α)).1, lists_length hx]
  show Except.ok _ = Except.ok _
  congr 1
  cases hi : xs.reverse.findIdx? f with
  | none => rfl
  | some k =>
    have hk : k < xs.length := by
      have := List.findIdx?_eq_some_iff_getElem.1 hi
      obtain ⟨h, -⟩ := this
      simpa using h
    show ((positions c.shape)[k]?).map _ = (positions c.shape)[_]?
    rw [lists_length hx] at hk
    have e := List.getElem?_eq_getElem hk
    rw [place_mirror e, e]
    rfl

example : findLastIf (oneBlock 0 [(1 : Int), 2, 3, 4]) (.ofShape ⟨0, 0⟩ [2, 2]) (fun x => decide (x < 4)) = .ok (some [1, 0]) :=
  C117_find_last (m := oneBlock 0 [(1 : Int), 2, 3, 4]) (c := .ofShape ⟨0, 0⟩ [2, 2]) (ofShape_default (by simp))
    (show Lists _ _ [1, 2, 3, 4] from rfl) _

/-- **C117** `reshape` to as many elements shows the same sequence, of the same cells. -/
theorem C117_reshape {c : Container} (h : c.Default) {sz : Shape} (hn : NonNeg c.shape) (hz : NonNeg sz) (hne : sz ≠ [])
    (hp : sz.prod = c.shape.prod) (m : Mem α) (xs : List α) : Lists (reshape c sz) m xs ↔ Lists c m xs := by
  unfold Lists
  rw [(C51_reshape_partial c sz m h hn hz hne hp).1]

example : Lists (reshape (.ofShape ⟨0, 0⟩ [2, 3]) [6]) (oneBlock 0 [1, 2, 3, 4, 5, 6]) [1, 2, 3, 4, 5, 6] :=
  (C117_reshape (ofShape_default (by simp)) (by decide) (by decide) (by decide) (by decide) _ _).2 rfl

/-- **C117** A slice shows the entries that belong to the selected positions. -/
theorem C117_slice [Nonempty α] (md : Mode) {c : Container} (h : c.Default) {sl : List Slicer} {ls : List (List Int)}
    (hp : PicksAll c.shape sl ls) (hmd : md = .checked → ∀ l ∈ ls, l ≠ []) {m : Mem α} {xs : List α} (hx : Lists c m xs) :
    ∃ c' ys, c.slice md sl = .ok c' ∧ Lists c' m ys ∧ ys.length = (selection ls).length ∧
      ∀ (k n : Nat) p, (selection ls)[k]? = some p → place c.shape n = some p → ys[k]? = xs[n]? := by
  obtain ⟨val, he, rfl⟩ := lists_elems hx
  obtain ⟨c', h1, h2, h3, h4, h5⟩ := slice_facts md h hp hmd
  refine ⟨c', _, h1, elems_lists (slice_elems he h4), ?_, ?_⟩
  · rw [h2, selection_eq, List.length_map, List.length_map]
  · intro k n p hk hn
    rw [selection_eq, List.getElem?_map] at hk
    rw [List.getElem?_map, List.getElem?_map, h2, show (positions c.shape)[n]? = some p from hn]
    obtain ⟨i, hi, rfl⟩ := Option.map_eq_some_iff.1 hk
    rw [hi]
    rfl

/-- A reversed container as the source of a copy, a reshaped one as the destination. -/
example : ((do
    let m ← copy (oneBlock 0 [1, 2, 3, 4, 5, 6, 0, 0, 0, 0, 0, 0]) (reshape (Container.ofShape ⟨0, 6⟩ [6]) [3, 2])
      (reverse (Container.ofShape ⟨0, 0⟩ [3, 2])) 0
    reduce m (Container.ofShape ⟨0, 6⟩ [6]) (fun a e => a ++ [e]) []) : Res (List Int)) = .ok [6, 5, 4, 3, 2, 1] := by
  decide +kernel

end Kwk
