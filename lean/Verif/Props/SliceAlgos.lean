import Verif.Props.Slicing
import Verif.Props.Writing
import Verif.Props.Reading
import Verif.Props.Search

/-!
# Property C112: algorithms on slices

`PicksAll c.shape sl ls`: the slicers `sl` select the indexes `ls`, axis by axis; `Selected ls p`: the position `p` is
selected; `pickAt ls i`: the `i`-th of them.  All in `Spec/Slice.lean`.
-/

namespace Kwk
open Spec

variable {α : Type}

theorem selected_iff {ls : List (List Int)} {p : List Int} :
    Selected ls p ↔ ∃ i, InBox (pickShape ls) i ∧ pickAt ls i = p := by
  constructor
  · intro h
    induction h with
    | nil => exact ⟨[], .nil, rfl⟩
    | @cons l x ls p hx _ ih =>
      obtain ⟨i, h1, h2⟩ := ih
      obtain ⟨k, hk, e⟩ := List.mem_iff_getElem.1 hx
      refine ⟨(k : Int) :: i, inBox_cons.2 ⟨⟨by omega, by simp only; omega⟩, h1⟩, ?_⟩
      show l.getD (k : Int).toNat 0 :: pickAt ls i = x :: p
      rw [h2, Int.toNat_natCast, List.getD_eq_getElem?_getD, List.getElem?_eq_getElem hk, e]; rfl
  · rintro ⟨i, h, rfl⟩
    induction ls generalizing i with
    | nil => rw [pickShape, List.map_nil, inBox_nil] at h; subst h; exact .nil
    | cons l ls ih =>
      cases i with
      | nil => cases h
      | cons k i =>
        obtain ⟨⟨h1, h2⟩, h3⟩ := inBox_cons.1 h
        refine .cons ?_ (ih i h3)
        have : k.toNat < l.length := by simp only at h2; omega
        show l.getD k.toNat 0 ∈ l
        rw [List.getD_eq_getElem?_getD, List.getElem?_eq_getElem this]
        exact List.getElem_mem _

/-- What is known of a slice. -/
theorem slice_facts (md : Mode) {c : Container} (h : c.Default) {sl : List Slicer} {ls : List (List Int)}
    (hp : PicksAll c.shape sl ls) (hmd : md = .checked → ∀ l ∈ ls, l ≠ []) :
    ∃ c', c.slice md sl = .ok c' ∧ c'.shape = pickShape ls ∧ Distinct c' ∧
      (∀ i, InBox c'.shape i → InBox c.shape (pickAt ls i) ∧ c'.addr i = c.addr (pickAt ls i)) ∧
      ∀ i j, InBox c'.shape i → InBox c'.shape j → pickAt ls i = pickAt ls j → i = j := by
  obtain ⟨c', h1, h2, h3⟩ := C42_slice_elements (α := Unit) md h hp hmd
  obtain ⟨_, _, _, _, _, _, e5⟩ := picksAll_axes hp
  refine ⟨c', h1, h2, ?_, fun i hi => ⟨(h3 i hi).1, (h3 i hi).2.1⟩, by rw [h2]; exact e5⟩
  intro i j hi hj e
  obtain ⟨b1, a1, -⟩ := h3 i hi
  obtain ⟨b2, a2, -⟩ := h3 j hj
  rw [a1, a2] at e
  rw [h2] at hi hj
  exact e5 i j hi hj (default_distinct h _ _ b1 b2 e)

/-- A change of cells of the slice only, seen from the container. -/
theorem seen_outside {c c' : Container} (h : c.Default) {ls : List (List Int)} (hsh : c'.shape = pickShape ls)
    (ha : ∀ i, InBox c'.shape i → InBox c.shape (pickAt ls i) ∧ c'.addr i = c.addr (pickAt ls i)) {m m' : Mem α}
    (ho : SameOutside c' m m') :
    (∀ p, InBox c.shape p → ¬ Selected ls p → c.get m' p = c.get m p) ∧ SameOutside c m m' := by
  constructor
  · intro p hp hn
    unfold Container.get load
    rw [ho]
    intro i hi e
    obtain ⟨b, a⟩ := ha i hi
    rw [a] at e
    exact hn (selected_iff.2 ⟨i, hsh ▸ hi, default_distinct h _ _ b hp e⟩)
  · intro a hna
    refine ho a fun i hi => ?_
    rw [(ha i hi).2]
    exact hna _ (ha i hi).1

theorem slice_elems {c c' : Container} {ls : List (List Int)} {m : Mem α} {val : List Int → α} (he : Elems c m val)
    (ha : ∀ i, InBox c'.shape i → InBox c.shape (pickAt ls i) ∧ c'.addr i = c.addr (pickAt ls i)) :
    Elems c' m fun i => val (pickAt ls i) := by
  intro i hi
  have := he _ (ha i hi).1
  unfold Container.get at this ⊢
  rw [(ha i hi).2, this]

/-- **C112** `auto s = c(slicers...); fill(s, v)` sets the selected elements of `c`, and changes nothing else. -/
theorem C112_fill (md : Mode) {c : Container} (h : c.Default) {sl : List Slicer} {ls : List (List Int)}
    (hp : PicksAll c.shape sl ls) (hmd : md = .checked → ∀ l ∈ ls, l ≠ []) {m : Mem α} {val : List Int → α}
    (he : Elems c m val) (v : α) :
    ∃ c' m', c.slice md sl = .ok c' ∧ fill m c' v = .ok m' ∧ SameOutside c m m' ∧
      ∀ p, InBox c.shape p → (Selected ls p → c.get m' p = .ok v) ∧ (¬ Selected ls p → c.get m' p = .ok (val p)) := by
  obtain ⟨c', h1, h2, h3, h4, h5⟩ := slice_facts md h hp hmd
  obtain ⟨m', f1, f2, f3⟩ := C34_fill m c' h3 (fun i hi => ⟨_, slice_elems he h4 i hi⟩) v
  obtain ⟨o1, o2⟩ := seen_outside h h2 h4 f3
  refine ⟨c', m', h1, f1, o2, fun p hp => ⟨fun hs => ?_, fun hs => by rw [o1 p hp hs]; exact he p hp⟩⟩
  obtain ⟨i, hi, rfl⟩ := selected_iff.1 hs
  rw [← h2] at hi
  have := f2 i hi
  unfold Container.get at this ⊢
  rwa [(h4 i hi).2] at this

/-- The second row and the columns 0 and 2 of a 2x3 container. -/
example : ((do
    let c ← (Container.ofShape ⟨0, 0⟩ [2, 3]).slice .checked [.index 1, slice (by_ := some 2)]
    let m ← fill (oneBlock 0 [1, 2, 3, 4, 5, 6]) c 0
    reduce m (Container.ofShape ⟨0, 0⟩ [2, 3]) (fun a e => a ++ [e]) []) : Res (List Int)) =
      .ok [1, 2, 3, 0, 5, 0] := by decide +kernel
example : PicksAll [2, 3] [.index 1, slice (by_ := some 2)] [[1], [0, 2]] ∧ Selected [[1], [0, 2]] [1, 2] ∧
    ¬ Selected [[1], [0, 2]] [1, 1] := by
  refine ⟨.cons (.index (by decide) (by decide)) (.cons (l := selectUp 3 0 3 2) (.up .none .none rfl (by decide) (by decide)
    (by decide) (by decide)) .nil), .cons (by decide) (.cons (by decide) .nil), ?_⟩
  rintro (_ | ⟨_, _ | ⟨h, _⟩⟩)
  exact absurd h (by decide)

/-- **C112** `replace_if(c(slicers...), f, v)` replaces the selected elements that match, and changes nothing else. -/
theorem C112_replace_if (md : Mode) {c : Container} (h : c.Default) {sl : List Slicer} {ls : List (List Int)}
    (hp : PicksAll c.shape sl ls) (hmd : md = .checked → ∀ l ∈ ls, l ≠ []) {m : Mem α} {val : List Int → α}
    (he : Elems c m val) (f : α → Bool) (v : α) :
    ∃ c' m', c.slice md sl = .ok c' ∧ replaceIf m c' f v = .ok m' ∧ SameOutside c m m' ∧
      ∀ p, InBox c.shape p → (Selected ls p ∧ f (val p) = true → c.get m' p = .ok v) ∧
        (¬ (Selected ls p ∧ f (val p) = true) → c.get m' p = .ok (val p)) := by
  obtain ⟨c', h1, h2, h3, h4, h5⟩ := slice_facts md h hp hmd
  obtain ⟨m', f1, f2, f3⟩ := C38_replace_if m c' h3 _ (slice_elems he h4) f v
  obtain ⟨o1, o2⟩ := seen_outside h h2 h4 f3
  have hsel : ∀ p, Selected ls p → c.get m' p = .ok (if f (val p) then v else val p) := by
    intro p hs
    obtain ⟨i, hi, rfl⟩ := selected_iff.1 hs
    rw [← h2] at hi
    have := f2 i hi
    unfold Container.get at this ⊢
    rwa [(h4 i hi).2] at this
  refine ⟨c', m', h1, f1, o2, fun p hp => ⟨fun hs => by rw [hsel p hs.1, if_pos hs.2], fun hs => ?_⟩⟩
  by_cases hs' : Selected ls p
  · rw [hsel p hs', if_neg fun hf => hs ⟨hs', hf⟩]
  · rw [o1 p hp hs']; exact he p hp

example : ((do
    let c ← (Container.ofShape ⟨0, 0⟩ [2, 3]).slice .checked [.joker, slice (some (.int 1))]
    let m ← replaceIf (oneBlock 0 [1, 2, 3, 4, 5, 6]) c (fun x => decide (x % 2 = 0)) 0
    reduce m (Container.ofShape ⟨0, 0⟩ [2, 3]) (fun a e => a ++ [e]) []) : Res (List Int)) =
      .ok [1, 0, 3, 4, 5, 0] := by decide +kernel

/-- **C112** `count_if`, `all_of`, `any_of` and `none_of` on a slice count and test the selected elements. -/
theorem C112_count_test (md : Mode) {c : Container} (h : c.Default) {sl : List Slicer} {ls : List (List Int)}
    (hp : PicksAll c.shape sl ls) (hmd : md = .checked → ∀ l ∈ ls, l ≠ []) {m : Mem α} {val : List Int → α}
    (he : Elems c m val) (f : α → Bool) :
    ∃ c' a b n, c.slice md sl = .ok c' ∧
      countIf m c' f = .ok (Set.ncard {p | InBox c.shape p ∧ Selected ls p ∧ f (val p) = true}) ∧
      allOf m c' f = .ok a ∧ anyOf m c' f = .ok b ∧ noneOf m c' f = .ok n ∧
      (a = true ↔ ∀ p, InBox c.shape p → Selected ls p → f (val p) = true) ∧
      (b = true ↔ ∃ p, InBox c.shape p ∧ Selected ls p ∧ f (val p) = true) ∧
      (n = true ↔ ∀ p, InBox c.shape p → Selected ls p → f (val p) = false) := by
  classical
  obtain ⟨c', h1, h2, h3, h4, h5⟩ := slice_facts md h hp hmd
  have he' := slice_elems he h4
  obtain ⟨a, b, n, q1, q2, q3, q4, q5, q6⟩ := C24_quantifiers m c' _ he' f
  have hsel : ∀ p, (InBox c.shape p ∧ Selected ls p) ↔ ∃ i, InBox c'.shape i ∧ pickAt ls i = p := by
    intro p
    rw [selected_iff, ← h2]
    constructor
    · exact fun h => h.2
    · rintro ⟨i, hi, rfl⟩; exact ⟨(h4 i hi).1, i, hi, rfl⟩
  refine ⟨c', a, b, n, h1, ?_, q1, q2, q3, ?_, ?_, ?_⟩
  · have : countIf m c' f = .ok (Set.ncard {i | InBox c'.shape i ∧ f (val (pickAt ls i)) = true}) := by
      have := C25_count (α := α) m c' (fun i => val (pickAt ls i)) he' f
      exact (this (val (pickAt ls []))).1
    rw [this]
    have himg : {p | InBox c.shape p ∧ Selected ls p ∧ f (val p) = true} =
        pickAt ls '' {i | InBox c'.shape i ∧ f (val (pickAt ls i)) = true} := by
      ext p
      simp only [Set.mem_ofPred_eq, Set.mem_image]
      rw [← and_assoc, hsel]
      constructor
      · rintro ⟨⟨i, hi, rfl⟩, hf⟩; exact ⟨i, ⟨hi, hf⟩, rfl⟩
      · rintro ⟨i, ⟨hi, hf⟩, rfl⟩; exact ⟨⟨i, hi, rfl⟩, hf⟩
    rw [himg, Set.InjOn.ncard_image fun i hi j hj e => h5 i j hi.1 hj.1 e]
  · rw [q4]
    exact ⟨fun hh p hp hs => by obtain ⟨i, hi, rfl⟩ := (hsel p).1 ⟨hp, hs⟩; exact hh i hi,
      fun hh i hi => hh _ ((hsel _).2 ⟨i, hi, rfl⟩).1 ((hsel _).2 ⟨i, hi, rfl⟩).2⟩
  · rw [q5]
    exact ⟨fun ⟨i, hi, hf⟩ => ⟨_, ((hsel _).2 ⟨i, hi, rfl⟩).1, ((hsel _).2 ⟨i, hi, rfl⟩).2, hf⟩,
      fun ⟨p, hp, hs, hf⟩ => by obtain ⟨i, hi, rfl⟩ := (hsel p).1 ⟨hp, hs⟩; exact ⟨i, hi, hf⟩⟩
  · rw [q6]
    exact ⟨fun hh p hp hs => by obtain ⟨i, hi, rfl⟩ := (hsel p).1 ⟨hp, hs⟩; exact hh i hi,
      fun hh i hi => hh _ ((hsel _).2 ⟨i, hi, rfl⟩).1 ((hsel _).2 ⟨i, hi, rfl⟩).2⟩

example : ((do
    let c ← (Container.ofShape ⟨0, 0⟩ [2, 3]).slice .checked [.index 1, slice (by_ := some 2)]
    countIf (oneBlock 0 [1, 2, 3, 4, 5, 6]) c (fun x => decide (4 < x))) : Res Nat) = .ok 1 := by decide +kernel

/-- **C112** Copying one slice of a container to another slice of it, with the same number of indexes on every axis and no
position in common, copies the selected elements in order and changes nothing else. -/
theorem C112_copy (md : Mode) {c : Container} (h : c.Default) {sl1 sl2 : List Slicer} {ls1 ls2 : List (List Int)}
    (hp1 : PicksAll c.shape sl1 ls1) (hp2 : PicksAll c.shape sl2 ls2)
    (hmd1 : md = .checked → ∀ l ∈ ls1, l ≠ []) (hmd2 : md = .checked → ∀ l ∈ ls2, l ≠ [])
    (hsame : ls1.map (·.length) = ls2.map (·.length)) (hdis : ∀ p, ¬ (Selected ls1 p ∧ Selected ls2 p))
    {m : Mem α} {val : List Int → α} (he : Elems c m val) (dflt : α) :
    ∃ out inp m', c.slice md sl1 = .ok out ∧ c.slice md sl2 = .ok inp ∧ copy m out inp dflt = .ok m' ∧
      SameOutside c m m' ∧ (∀ i, InBox (pickShape ls1) i → c.get m' (pickAt ls1 i) = .ok (val (pickAt ls2 i))) ∧
      ∀ p, InBox c.shape p → ¬ Selected ls1 p → c.get m' p = .ok (val p) := by
  obtain ⟨out, a1, a2, a3, a4, a5⟩ := slice_facts md h hp1 hmd1
  obtain ⟨inp, b1, b2, b3, b4, b5⟩ := slice_facts md h hp2 hmd2
  have hshape : pickShape ls1 = pickShape ls2 := by
    have := congrArg (List.map fun n : Nat => (n : Int)) hsame
    simpa [pickShape, Function.comp_def] using this
  have hsh : out.shape = inp.shape := by rw [a2, b2, hshape]
  have hapart : ∀ p q, InBox out.shape p → InBox inp.shape q → out.addr p ≠ inp.addr q := by
    intro p q hp hq e
    rw [(a4 p hp).2, (b4 q hq).2] at e
    have := default_distinct h _ _ (a4 p hp).1 (b4 q hq).1 e
    exact hdis (pickAt ls1 p) ⟨selected_iff.2 ⟨p, a2 ▸ hp, rfl⟩, selected_iff.2 ⟨q, b2 ▸ hq, this.symm⟩⟩
  obtain ⟨m', f1, f2, f3, -⟩ := C37_copy m out inp a3 (fun i hi => ⟨_, slice_elems he a4 i hi⟩)
    (fun p q hp hq _ => hapart q p hq (hsh ▸ hp)) (fun i => val (pickAt ls2 i))
    (fun p hp => slice_elems he b4 p (hsh ▸ hp)) dflt
  obtain ⟨o1, o2⟩ := seen_outside h a2 a4 f3
  refine ⟨out, inp, m', a1, b1, f1, o2, ?_, fun p hp hs => by rw [o1 p hp hs]; exact he p hp⟩
  intro i hi
  rw [← a2] at hi
  have := f2 i hi
  unfold Container.get at this ⊢
  rwa [(a4 i hi).2] at this

/-- The first row over the last row of a 3x2 container, reversed. -/
example : ((do
    let o ← (Container.ofShape ⟨0, 0⟩ [3, 2]).slice .checked [.ext (EndT.all.sub 1), slice (by_ := some (-1))]
    let i ← (Container.ofShape ⟨0, 0⟩ [3, 2]).slice .checked [.index 0, .joker]
    let m ← copy (oneBlock 0 [1, 2, 3, 4, 5, 6]) o i 0
    reduce m (Container.ofShape ⟨0, 0⟩ [3, 2]) (fun a e => a ++ [e]) []) : Res (List Int)) =
      .ok [1, 2, 3, 4, 2, 1] := by decide +kernel


private theorem mapUpTo (l : List Int) : (upTo (l.length : Int)).map (fun k => l.getD k.toNat 0) = l := by
  apply List.ext_getElem?
  intro k
  by_cases hk : k < l.length
  · simp [upTo, hk]
  · simp [upTo, hk]

theorem selection_eq (ls : List (List Int)) : selection ls = (positions (pickShape ls)).map (pickAt ls) := by
  induction ls with
  | nil => rfl
  | cons l ls ih =>
    show (l.flatMap fun i => (selection ls).map fun p => i :: p) =
      ((upTo (l.length : Int)).flatMap fun i => (positions (pickShape ls)).map fun p => i :: p).map (pickAt (l :: ls))
    rw [List.map_flatMap, ih]
    conv_lhs => rw [← mapUpTo l, List.flatMap_map]
    refine congrArg₂ _ (funext fun k => ?_) rfl
    rw [List.map_map, List.map_map]
    rfl

private theorem selection_getElem? {ls : List (List Int)} {k : Nat} {p : List Int} (h : (selection ls)[k]? = some p) :
    ∃ i, (positions (pickShape ls))[k]? = some i ∧ InBox (pickShape ls) i ∧ pickAt ls i = p := by
  rw [selection_eq, List.getElem?_map, Option.map_eq_some_iff] at h
  obtain ⟨i, h1, h2⟩ := h
  exact ⟨i, h1, mem_positions.1 (List.mem_of_getElem? h1), h2⟩

/-- **C112** `selection ls` lists every selected position once. -/
theorem C112_selection {ds : List Int} {sl : List Slicer} {ls : List (List Int)} (hp : PicksAll ds sl ls) :
    (selection ls).Nodup ∧ ∀ p, p ∈ selection ls ↔ Selected ls p := by
  obtain ⟨_, _, _, _, _, _, e5⟩ := picksAll_axes hp
  constructor
  · rw [selection_eq]
    refine List.Nodup.map_on (fun i hi j hj e => e5 i j (mem_positions.1 hi) (mem_positions.1 hj) e) (positions_nodup _)
  · intro p
    rw [selection_eq, selected_iff, List.mem_map]
    exact ⟨fun ⟨i, hi, e⟩ => ⟨i, mem_positions.1 hi, e⟩, fun ⟨i, hi, e⟩ => ⟨i, mem_positions.2 hi, e⟩⟩

example : selection [[1], [2, 0]] = [[1, 2], [1, 0]] := by decide

/-- **C112** `reduce(c(slicers...), f, init)` folds the selected elements from the first to the last. -/
theorem C112_reduce {β : Type} (md : Mode) {c : Container} (h : c.Default) {sl : List Slicer} {ls : List (List Int)}
    (hp : PicksAll c.shape sl ls) (hmd : md = .checked → ∀ l ∈ ls, l ≠ []) {m : Mem α} {val : List Int → α}
    (he : Elems c m val) (f : β → α → β) (init : β) :
    ∃ c', c.slice md sl = .ok c' ∧ reduce m c' f init = .ok (((selection ls).map val).foldl f init) := by
  obtain ⟨c', h1, h2, h3, h4, h5⟩ := slice_facts md h hp hmd
  refine ⟨c', h1, ?_⟩
  rw [(C23_reduce_left_fold m c' _ (slice_elems he h4) f init).2, h2, selection_eq, List.map_map]
  rfl

/-- The last row of a 2x3 container, from right to left. -/
example : ((do
    let c ← (Container.ofShape ⟨0, 0⟩ [2, 3]).slice .checked [.ext (EndT.all.sub 1), slice (by_ := some (-1))]
    reduce (oneBlock 0 [1, 2, 3, 4, 5, 6]) c (fun a e => a * 10 + e) 0) : Res Int) = .ok 654 := by decide +kernel

/-- **C112** `find_if(c(slicers...), f)` answers with the place, in the slice, of the first selected element that matches. -/
theorem C112_find (md : Mode) {c : Container} (h : c.Default) {sl : List Slicer} {ls : List (List Int)}
    (hp : PicksAll c.shape sl ls) (hmd : md = .checked → ∀ l ∈ ls, l ≠ []) {m : Mem α} {val : List Int → α}
    (he : Elems c m val) (f : α → Bool) :
    ∃ c' r, c.slice md sl = .ok c' ∧ findIf m c' f = .ok r ∧
      (r = none ↔ ∀ p ∈ selection ls, f (val p) = false) ∧
      ∀ i, r = some i ↔ InBox (pickShape ls) i ∧ ∃ k, (selection ls)[k]? = some (pickAt ls i) ∧ f (val (pickAt ls i)) = true ∧
        ∀ q ∈ (selection ls).take k, f (val q) = false := by
  obtain ⟨c', h1, h2, h3, h4, h5⟩ := slice_facts md h hp hmd
  refine ⟨c', _, h1, findIf_eq f (slice_elems he h4), ?_, ?_⟩
  · rw [List.find?_eq_none, selection_eq, h2]
    simp
  · intro i
    rw [h2] at h5 ⊢
    rw [List.find?_eq_some_iff_getElem]
    constructor
    · rintro ⟨hf, k, hk, e, hlt⟩
      have hget : (positions (pickShape ls))[k]? = some i := by rw [List.getElem?_eq_getElem hk, e]
      refine ⟨mem_positions.1 (List.mem_of_getElem? hget), k, ?_, hf, ?_⟩
      · rw [selection_eq, List.getElem?_map, hget]; rfl
      · intro q hq
        rw [selection_eq, ← List.map_take, List.mem_map] at hq
        obtain ⟨j, hj, rfl⟩ := hq
        obtain ⟨n, hn, e'⟩ := List.mem_iff_getElem.1 hj
        have hn' : n < k := by simp at hn; omega
        have := hlt n hn'
        rw [List.getElem_take] at e'
        rw [e'] at this
        simpa using this
    · rintro ⟨hi, k, hk, hf, hlt⟩
      obtain ⟨j, e1, e2, e3⟩ := selection_getElem? hk
      obtain rfl := h5 _ _ hi e2 e3.symm
      obtain ⟨hk', e⟩ := List.getElem?_eq_some_iff.1 e1
      refine ⟨hf, k, hk', e, fun n hn => ?_⟩
      have := hlt (pickAt ls ((positions (pickShape ls))[n])) (by
        rw [selection_eq, ← List.map_take, List.mem_map]
        refine ⟨_, List.mem_iff_getElem.2 ⟨n, by simp; omega, ?_⟩, rfl⟩
        rw [List.getElem_take])
      simp [this]

/-- Looking backward in the last row: the first match is the 6, at place 0. -/
example : ((do
    let c ← (Container.ofShape ⟨0, 0⟩ [2, 3]).slice .checked [.ext (EndT.all.sub 1), slice (by_ := some (-1))]
    findIf (oneBlock 0 [1, 2, 3, 4, 5, 6]) c (fun x => decide (x % 2 = 0))) : Res (Option (List Int))) = .ok (some [0, 0]) := by
  decide +kernel

/-- **C112** `transform(f, c(slicers...), c(slicers...))`, in place, applies `f` to the selected elements and changes nothing
else. -/
theorem C112_transform (md : Mode) {c : Container} (h : c.Default) {sl : List Slicer} {ls : List (List Int)}
    (hp : PicksAll c.shape sl ls) (hmd : md = .checked → ∀ l ∈ ls, l ≠ []) {m : Mem α} {val : List Int → α}
    (he : Elems c m val) (f : α → α) (dflt : α) :
    ∃ c' m', c.slice md sl = .ok c' ∧ transform m (fun vs => f (vs.headD dflt)) c' [c'] = .ok m' ∧ SameOutside c m m' ∧
      ∀ p, InBox c.shape p → (Selected ls p → c.get m' p = .ok (f (val p))) ∧ (¬ Selected ls p → c.get m' p = .ok (val p)) := by
  obtain ⟨c', h1, h2, h3, h4, h5⟩ := slice_facts md h hp hmd
  obtain ⟨m', f1, f2, f3⟩ := C36_transform_in_place m f c' h3 _ (slice_elems he h4) dflt
  obtain ⟨o1, o2⟩ := seen_outside h h2 h4 f3
  refine ⟨c', m', h1, f1, o2, fun p hp => ⟨fun hs => ?_, fun hs => by rw [o1 p hp hs]; exact he p hp⟩⟩
  obtain ⟨i, hi, rfl⟩ := selected_iff.1 hs
  rw [← h2] at hi
  have := f2 i hi
  unfold Container.get at this ⊢
  rwa [(h4 i hi).2] at this

example : ((do
    let c ← (Container.ofShape ⟨0, 0⟩ [2, 3]).slice .checked [.joker, slice (some (.int 1))]
    let m ← transform (oneBlock 0 [1, 2, 3, 4, 5, 6]) (fun vs => (vs.headD 0) * 10) c [c]
    reduce m (Container.ofShape ⟨0, 0⟩ [2, 3]) (fun a e => a ++ [e]) []) : Res (List Int)) =
      .ok [1, 20, 30, 4, 50, 60] := by decide +kernel

/-- **C112** `iota(c(slicers...), v)` numbers the selected elements in order, and changes nothing else. -/
theorem C112_iota {β : Type} (md : Mode) {c : Container} (h : c.Default) {sl : List Slicer} {ls : List (List Int)}
    (hp : PicksAll c.shape sl ls) (hmd : md = .checked → ∀ l ∈ ls, l ≠ []) {m : Mem α} {val : List Int → α}
    (he : Elems c m val) (incr : β → β) (conv : β → α) (v : β) :
    ∃ c' m', c.slice md sl = .ok c' ∧ iota m c' incr conv v = .ok m' ∧ SameOutside c m m' ∧
      (∀ k p, (selection ls)[k]? = some p → c.get m' p = .ok (conv (incr^[k] v))) ∧
      ∀ p, InBox c.shape p → p ∉ selection ls → c.get m' p = .ok (val p) := by
  obtain ⟨c', h1, h2, h3, h4, h5⟩ := slice_facts md h hp hmd
  obtain ⟨m', f1, f3, f2⟩ := C35_iota_iterate md m c' h3 (fun i hi => ⟨_, slice_elems he h4 i hi⟩) incr conv v
  obtain ⟨o1, o2⟩ := seen_outside h h2 h4 f3
  refine ⟨c', m', h1, f1, o2, fun k p hk => ?_, fun p hb hs => ?_⟩
  · obtain ⟨i, e1, hi, rfl⟩ := selection_getElem? hk
    rw [← h2] at hi e1
    have := f2 i _ hi (linearIndex_ok md hi)
    have hk' : (linearize (sfx c'.shape) i).toNat = k := positions_rank e1 ▸ rfl
    rw [hk'] at this
    unfold Container.get at this ⊢
    rwa [(h4 i hi).2] at this
  · rw [o1 p hb fun hs' => hs (((C112_selection hp).2 p).2 hs')]; exact he p hb

example : ((do
    let c ← (Container.ofShape ⟨0, 0⟩ [2, 3]).slice .checked [.joker, slice (by_ := some (-2))]
    let m ← iota (oneBlock 0 [1, 2, 3, 4, 5, 6]) c (· + 1) id 10
    reduce m (Container.ofShape ⟨0, 0⟩ [2, 3]) (fun a e => a ++ [e]) []) : Res (List Int)) =
      .ok [11, 2, 10, 13, 5, 12] := by decide +kernel

/-- **C112** Algorithms on a slice by fewer slicers than axes are the algorithms on the same slice of the container seen with
its leading axes merged: the two slices have the same extents and the same elements. -/
theorem C112_merged (md : Mode) {c : Container} (h : c.Default) {sl : List Slicer} {ls : List (List Int)}
    (hn : 0 < sl.length) (hlen : sl.length ≤ c.shape.length) (hp : PicksAll (compress sl.length c.shape) sl ls)
    (hmd : md = .checked → ∀ l ∈ ls, l ≠ []) :
    ∃ c1 c2, c.slice md sl = .ok c1 ∧ (Container.ofShape c.base (compress sl.length c.shape)).slice md sl = .ok c2 ∧
      c1.shape = c2.shape ∧ ∀ i, InBox c1.shape i → c1.addr i = c2.addr i := by
  obtain ⟨c1, a1, a2, a3⟩ := C42_slice_merged md h hn hlen hp hmd
  have hne : compress sl.length c.shape ≠ [] := by
    intro e
    have := hp.length_eq.1
    rw [e] at this
    simp at this
    rw [this] at hn
    simp at hn
  obtain ⟨c2, b1, b2, b3⟩ := C42_slice_elements (α := Unit) md (ofShape_default (b := c.base) hne) hp hmd
  refine ⟨c1, c2, a1, b1, by rw [a2, b2], fun i hi => ?_⟩
  rw [(a3 i hi).2, (b3 i (by rw [b2, ← a2]; exact hi)).2.1]

/-- One slicer on a 2x3 container: its six elements in a row, every second of them. -/
example : ((do
    let c ← (Container.ofShape ⟨0, 0⟩ [2, 3]).slice .checked [slice (by_ := some 2)]
    let m ← fill (oneBlock 0 [1, 2, 3, 4, 5, 6]) c 0
    reduce m (Container.ofShape ⟨0, 0⟩ [2, 3]) (fun a e => a ++ [e]) []) : Res (List Int)) =
      .ok [0, 2, 0, 4, 0, 6] := by decide +kernel

end Kwk
