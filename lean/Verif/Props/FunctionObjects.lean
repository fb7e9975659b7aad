import Verif.Lemmas.FunctionObjects
import Verif.Props.Effects

/-!
# Property C162: function objects with state of their own

`answers call`: the object `s`, asked about `x`, answers `(call s x).1` and becomes `(call s x).2`.
-/

namespace Kwk
open Spec

variable {α β σ : Type}

/-- The full property: whichever the algorithm and form, a function object whose calls change it is accepted, and all questions are asked to
one object, so that `binary_search` is as if its function kept the state elsewhere. -/
def C162_statement : Prop :=
  (∀ (a : WithFunction) (ctx : Bool) (body : StateT Nat Res Bool) (s : Nat), (withObject (a.way ctx) false body s).isSome) ∧
  ∀ (ctx : Bool) (md : Mode) (m : Mem Int) (c : Container) (v : Int) (call : Nat → Int → Int → Bool × Nat) (s : Nat) (r : Bool) (s' : Nat),
    binarySearch md m c v (fun x y s => .ok (call s x y)) s = .ok (r, s') →
    ∃ s'', binarySearchBy ctx false md m c v (fun x y s => .ok (call s x y)) s = some (.ok (r, s''))

/-- **C162** is false: `count_if(c, [n = 0](auto) mutable { return ++n < 3; })` does not compile. -/
theorem C162_not : ¬ C162_statement := fun h => absurd (h.1 .countIf true (pure true) 0) (by decide)

/-- **C162** A function object whose calls change it is accepted by exactly these algorithms, in both forms; one with a const call operator by
all. -/
theorem C162_which_partial (a : WithFunction) (ctx : Bool) (body : StateT σ Res β) (s : σ) :
    ((withObject (a.way ctx) false body s).isSome ↔ a = .findIf ∨ a = .findLastIf ∨ a = .reduce ∨ a = .transform ∨ a = .lowerBound ∨
      a = .upperBound ∨ a = .binarySearch) ∧
    (withObject (a.way ctx) true body s).isSome := by
  cases a <;> cases ctx <;> exact ⟨by simp [withObject, WithFunction.way, WithFunction.wayCtx, Hold.take],
    by simp [withObject, WithFunction.way, WithFunction.wayCtx, Hold.take]⟩

example : (withObject (WithFunction.reduce.way false) false (pure true : StateT Nat Res Bool) 0).isSome :=
  (C162_which_partial .reduce false (pure true) 0).1.2 (by simp)

/-- **C162** `find_if`, `find_last_if` and `reduce` ask one object about one element after the other; the caller's object is left as it was. -/
theorem C162_progress_partial (ctx constOp : Bool) {c : Container} {m : Mem α} {xs : List α} (h : Lists c m xs) (call : σ → α → Bool × σ)
    (op : β → α → σ → β × σ) (init : β) (s : σ) :
    findIfBy ctx constOp m c (answers call) s = some (.ok (place c.shape (firstYes call s xs).1, s)) ∧
    reduceBy ctx constOp m c (fun a x s => .ok (op a x s)) init s = some (.ok ((xs.foldl (fun r x => op r.1 x r.2) (init, s)).1, s)) ∧
    (c.Default → findLastIfBy ctx constOp m c (answers call) s =
      some (.ok (if (firstYes call s xs.reverse).1 < xs.length then place c.shape (xs.length - 1 - (firstYes call s xs.reverse).1) else none,
        s))) := by
  have e1 : findIfM (elemOf m c) (answers call) c.shape s = .ok (place c.shape (firstYes call s xs).1, (firstYes call s xs).2) := by
    rw [findIfM_eq]
    exact hit_obj call (fun _ _ => rfl) h s
  have e2 : reduceM (elemOf m c) (fun a x s => .ok (op a x s)) init c.shape s = .ok (xs.foldl (fun r x => op r.1 x r.2) (init, s)) := by
    rw [reduceM_eq]
    exact fold_obj op (fun _ _ _ => rfl) h init s
  refine ⟨?_, ?_, fun hc => ?_⟩
  · cases ctx <;>
    · show some (findIfM (elemOf m c) (answers call) c.shape s >>= _) = _
      rw [e1]
      rfl
  · cases ctx <;>
    · show some (reduceM (elemOf m c) (fun a x s => .ok (op a x s)) init c.shape s >>= _) = _
      rw [e2]
      rfl
  · have hr : Lists (reverse c) m xs.reverse := (C117_reverse hc m _).2 (by rwa [List.reverse_reverse])
    have hlen := lists_length h
    have e3 : findIfM (elemOf m (reverse c)) (answers call) c.shape s =
        .ok (place c.shape (firstYes call s xs.reverse).1, (firstYes call s xs.reverse).2) := by
      rw [findIfM_eq]
      exact hit_obj call (fun _ _ => rfl) hr s
    have e4 : (place c.shape (firstYes call s xs.reverse).1).map (fun pos => c.shape.zipWith (fun d i => d - 1 - i) pos) =
        if (firstYes call s xs.reverse).1 < xs.length then place c.shape (xs.length - 1 - (firstYes call s xs.reverse).1) else none := by
      show ((positions c.shape)[_]?).map _ = _
      split
      · rename_i hk
        show _ = (positions c.shape)[_]?
        rw [hlen] at hk ⊢
        have e := List.getElem?_eq_getElem hk
        rw [place_mirror e, e]
        rfl
      · rename_i hk
        rw [List.getElem?_eq_none (by rw [← hlen]; omega)]
        rfl
    cases ctx <;>
    · show some ((findIfM (elemOf m (reverse c)) (answers call) c.shape s >>= fun r => _) >>= _) = _
      rw [e3, ← e4]
      rfl

-- the third element is found by an object that counts its calls
example : findIfBy true false exMem exView (answers fun n _ => (n + 1 == 3, n + 1)) 0 = some (.ok (some [1, 0], 0)) :=
  (C162_progress_partial true false exLists _ (fun (a : Nat) _ s => (a, s)) 0 0).1

-- the third from the end
example : findLastIfBy true false (oneBlock 0 [(1 : Int), 2, 3, 4]) (.ofShape ⟨0, 0⟩ [2, 2]) (answers fun n _ => (n + 1 == 3, n + 1)) 0 =
    some (.ok (some [0, 1], 0)) :=
  (C162_progress_partial true false (c := .ofShape ⟨0, 0⟩ [2, 2]) (m := oneBlock 0 [(1 : Int), 2, 3, 4]) (xs := [1, 2, 3, 4]) rfl _ (fun (a : Nat) _ s => (a, s)) 0 0).2.2
    (ofShape_default (by simp))

/-- **C162** Where the object is const, it answers as it did at first: for calls that do not change it, the answers are those of the
predicate that it is. -/
theorem C162_const_partial (ctx : Bool) {c : Container} {m : Mem α} {xs : List α} (h : Lists c m xs) (call : σ → α → Bool × σ)
    (hc : ∀ s x, (call s x).2 = s) (s : σ) :
    allOfBy ctx true m c (answers call) s = some (.ok (xs.all fun x => (call s x).1, s)) ∧
    anyOfBy ctx true m c (answers call) s = some (.ok (xs.any fun x => (call s x).1, s)) ∧
    noneOfBy ctx true m c (answers call) s = some (.ok (!xs.any fun x => (call s x).1, s)) ∧
    countIfBy ctx true m c (answers call) s = some (.ok (xs.countP fun x => (call s x).1, s)) ∧
    findIfNotBy ctx true m c (answers call) s = some (.ok (place c.shape (xs.findIdx fun x => !(call s x).1), s)) := by
  have a1 : allOfM (elemOf m c) (answers call) c.shape s = .ok (xs.all fun x => (call s x).1, s) := by
    unfold allOfM
    rw [reduceM_eq, fold_obj (fun a x s => if a then call s x else (false, s)) (fun a x s => by cases a <;> rfl) h]
    have : ∀ (xs : List α) (a : Bool), xs.foldl (fun r x => if r.1 then call r.2 x else (false, r.2)) (a, s) =
        (a && xs.all fun x => (call s x).1, s) := by
      intro xs
      induction xs with
      | nil => simp
      | cons x xs ih =>
        intro a
        have e : (if a then call s x else (false, s)) = (a && (call s x).1, s) := by
          cases a
          · rfl
          · exact Prod.ext (by simp) (hc s x)
        rw [List.foldl_cons]
        show xs.foldl _ (if a then call s x else (false, s)) = _
        rw [e, ih, List.all_cons, Bool.and_assoc]
    rw [this, Bool.true_and]
  have a2 : anyOfM (elemOf m c) (answers call) c.shape s = .ok (xs.any fun x => (call s x).1, s) := by
    unfold anyOfM
    rw [reduceM_eq, fold_obj (fun a x s => if a then (true, s) else call s x) (fun a x s => by cases a <;> rfl) h]
    have : ∀ (xs : List α) (a : Bool), xs.foldl (fun r x => if r.1 then (true, r.2) else call r.2 x) (a, s) =
        (a || xs.any fun x => (call s x).1, s) := by
      intro xs
      induction xs with
      | nil => simp
      | cons x xs ih =>
        intro a
        have e : (if a then (true, s) else call s x) = (a || (call s x).1, s) := by
          cases a
          · exact Prod.ext (by simp) (hc s x)
          · rfl
        rw [List.foldl_cons]
        show xs.foldl _ (if a then (true, s) else call s x) = _
        rw [e, ih, List.any_cons, Bool.or_assoc]
    rw [this, Bool.false_or]
  have a3 : noneOfM (elemOf m c) (answers call) c.shape s = .ok (!xs.any fun x => (call s x).1, s) := by
    unfold noneOfM
    show (anyOfM (elemOf m c) (answers call) c.shape s >>= _) = _
    rw [a2]
    rfl
  have a4 : countIfM (elemOf m c) (answers call) c.shape s = .ok (xs.countP fun x => (call s x).1, s) := by
    unfold countIfM
    rw [reduceM_eq]
    refine (fold_obj (fun (a : Nat) x s => (a + if (call s x).1 then 1 else 0, (call s x).2)) (fun _ _ _ => rfl) h 0 s).trans ?_
    have : ∀ (xs : List α) (a : Nat), xs.foldl (fun r x => (r.1 + if (call r.2 x).1 then 1 else 0, (call r.2 x).2)) (a, s) =
        (a + xs.countP fun x => (call s x).1, s) := by
      intro xs
      induction xs with
      | nil => simp
      | cons x xs ih =>
        intro a
        rw [List.foldl_cons]
        show xs.foldl _ (a + (if (call s x).1 then 1 else 0), (call s x).2) = _
        rw [hc, ih, List.countP_cons]
        congr 1
        omega
    rw [this, Nat.zero_add]
  have a5 : findIfM (elemOf m c) (fun x => do let b ← answers call x; pure !b) c.shape s =
      .ok (place c.shape (xs.findIdx fun x => !(call s x).1), s) := by
    rw [findIfM_eq]
    refine (hit_obj (fun s x => (!(call s x).1, (call s x).2)) (fun _ _ => rfl) h s).trans ?_
    rw [firstYes_const (call := fun s x => (!(call s x).1, (call s x).2)) (fun s x => hc s x)]
    rfl
  refine ⟨?_, ?_, ?_, ?_, ?_⟩
  · cases ctx <;>
    · show some (allOfM (elemOf m c) (answers call) c.shape s >>= _) = _
      rw [a1]
      rfl
  · cases ctx <;>
    · show some (anyOfM (elemOf m c) (answers call) c.shape s >>= _) = _
      rw [a2]
      rfl
  · cases ctx <;>
    · show some (noneOfM (elemOf m c) (answers call) c.shape s >>= _) = _
      rw [a3]
      rfl
  · cases ctx <;>
    · show some (countIfM (elemOf m c) (answers call) c.shape s >>= _) = _
      rw [a4]
      rfl
  · cases ctx <;>
    · show some (findIfM (elemOf m c) (fun x => do let b ← answers call x; pure !b) c.shape s >>= _) = _
      rw [a5]
      rfl

example : countIfBy false true exMem exView (answers fun n x => (decide (n < x), n)) 2 = some (.ok (2, 2)) :=
  (C162_const_partial false exLists _ (fun _ _ => rfl) 2).2.2.2.1

/-- **C162** So does `find_last_if_not`, from the last element on. -/
theorem C162_find_last_if_not_partial (ctx : Bool) {c : Container} (hd : c.Default) {m : Mem α} {xs : List α} (h : Lists c m xs)
    (call : σ → α → Bool × σ) (hc : ∀ s x, (call s x).2 = s) (s : σ) :
    findLastIfNotBy ctx true m c (answers call) s = some (.ok ((xs.reverse.findIdx? fun x => !(call s x).1).bind fun k =>
      place c.shape (xs.length - 1 - k), s)) := by
  have hr : Lists (reverse c) m xs.reverse := (C117_reverse hd m _).2 (by rwa [List.reverse_reverse])
  have hlen := lists_length h
  have e3 : findIfM (elemOf m (reverse c)) (fun x => do let b ← answers call x; pure !b) c.shape s =
      .ok (place c.shape (xs.reverse.findIdx fun x => !(call s x).1), s) := by
    rw [findIfM_eq]
    refine (hit_obj (fun s x => (!(call s x).1, (call s x).2)) (fun _ _ => rfl) hr s).trans ?_
    rw [firstYes_const (call := fun s x => (!(call s x).1, (call s x).2)) (fun s x => hc s x)]
    rfl
  have e4 : (place c.shape (xs.reverse.findIdx fun x => !(call s x).1)).map (fun pos => c.shape.zipWith (fun d i => d - 1 - i) pos) =
      (xs.reverse.findIdx? fun x => !(call s x).1).bind fun k => place c.shape (xs.length - 1 - k) := by
    show ((positions c.shape)[_]?).map _ = _
    rw [List.findIdx?_eq_guard_findIdx_lt, List.length_reverse]
    by_cases hk : (xs.reverse.findIdx fun x => !(call s x).1) < xs.length
    · rw [Option.guard_eq_some_iff.2 ⟨rfl, by simpa using hk⟩]
      show _ = (positions c.shape)[_]?
      rw [hlen] at hk ⊢
      have e := List.getElem?_eq_getElem hk
      rw [place_mirror e, e]
      rfl
    · rw [List.getElem?_eq_none (by rw [← hlen]; omega), Option.guard_eq_none_iff.2 (by simpa using hk)]
      rfl
  cases ctx <;>
  · show some ((findIfM (elemOf m (reverse c)) (fun x => do let b ← answers call x; pure !b) c.shape s >>= fun r => _) >>= _) = _
    rw [e3, ← e4]
    rfl

example : findLastIfNotBy false true (oneBlock 0 [(1 : Int), 2, 3, 4]) (.ofShape ⟨0, 0⟩ [2, 2]) (answers fun n x => (decide (n < x), n)) 2 =
    some (.ok (some [0, 1], 2)) :=
  C162_find_last_if_not_partial false (c := .ofShape ⟨0, 0⟩ [2, 2]) (ofShape_default (by simp)) (m := oneBlock 0 [(1 : Int), 2, 3, 4])
    (xs := [1, 2, 3, 4]) rfl (fun n x => (decide (n < x), n)) (fun _ _ => rfl) 2

/-- **C162** These do not compile with a function object whose calls change it, in either form. -/
theorem C162_rejected (ctx : Bool) (m : Mem α) (c out : Container) (f : α → StateT σ Res Bool) (g : σ → α → Res (Bool × σ)) (v : α)
    (s : σ) :
    allOfBy ctx false m c f s = none ∧ anyOfBy ctx false m c f s = none ∧ noneOfBy ctx false m c f s = none ∧
    countIfBy ctx false m c f s = none ∧ findIfNotBy ctx false m c f s = none ∧ findLastIfNotBy ctx false m c f s = none ∧
    copyIfBy ctx false m g out c s = none ∧ replaceIfBy ctx false m c g v s = none := by
  cases ctx <;> exact ⟨rfl, rfl, rfl, rfl, rfl, rfl, rfl, rfl⟩

example : countIfBy true false exMem exView (answers fun n _ => (n + 1 == 3, n + 1)) 0 = none :=
  (C162_rejected true exMem exView exView _ (fun n _ => .ok (n + 1 == 3, n + 1)) 0 0).2.2.2.1

/-- **C162** `copy_if` and `replace_if` with a const call operator are those of the predicate that the object is. -/
theorem C162_writing_partial (ctx : Bool) {c out inp : Container} {m : Mem α} {xs ys zs : List α} (hs : out.shape = inp.shape)
    (hd : Distinct out) (hc : NoClobber out inp) (hx : Lists inp m xs) (hy : Lists out m ys) (hdc : Distinct c) (hz : Lists c m zs)
    (P : σ → α → Bool) (v : α) (s : σ) :
    (∃ m', copyIfBy ctx true m (fun s x => .ok (P s x, s)) out inp s = some (.ok (m', s)) ∧
      Lists out m' (List.zipWith (fun x y => if P s x then x else y) xs ys) ∧ SameOutside out m m') ∧
    ∃ m', replaceIfBy ctx true m c (fun s x => .ok (P s x, s)) v s = some (.ok (m', s)) ∧
      Lists c m' (zs.map fun x => if P s x then v else x) ∧ SameOutside c m m' := by
  have : Nonempty α := ⟨v⟩
  constructor
  · obtain ⟨m', h1, h2, h3⟩ := (C117_copy hs hd hc hx hy (P s) v).2
    refine ⟨m', ?_, h2, h3⟩
    unfold copyIf at h1
    have key := map_still (F := fun o is (s, m) => do
      let x ← load m (is.headD o)
      let b ← (.ok (P s x, s) : Res (Bool × σ))
      if b.1 then do
        let m ← store m o x
        pure (b.2, m)
      else pure (b.2, m)) (G := fun o is ((), m) => do
      let x ← load m (is.headD o)
      if P s x then do
        let m ← store m o x
        pure ((), m)
      else pure ((), m)) s (fun o is m => by
        show (load m (is.headD o) >>= _) = (load m (is.headD o) >>= _) >>= _
        cases load m (is.headD o) with
        | error e => rfl
        | ok x =>
          show (if P s x then _ else _ : Res (σ × Mem α)) = (if P s x then _ else _ : Res (Unit × Mem α)) >>= _
          cases P s x
          · rfl
          · show (store m o x >>= _) = (store m o x >>= _) >>= _
            cases store m o x <;> rfl) out [inp] m
    cases ctx <;>
    · show some ((mapCtx _ out [inp] s m >>= _) >>= _) = _
      rw [key]
      cases hg : mapCtx (σ := Unit) _ out [inp] () m with
      | error e => rw [hg] at h1; cases h1
      | ok r => rw [hg] at h1; cases h1; rfl
  · obtain ⟨m', h1, h2, h3⟩ := (C117_writing hdc hz v v id (P s) (fun _ => v) id id v).2.2.1
    refine ⟨m', ?_, h2, h3⟩
    unfold replaceIf at h1
    have key := map_still (F := fun o _ (s, m) => do
      let x ← load m o
      let b ← (.ok (P s x, s) : Res (Bool × σ))
      if b.1 then do
        let m ← store m o v
        pure (b.2, m)
      else pure (b.2, m)) (G := fun o _ ((), m) => do
      let x ← load m o
      if P s x then do
        let m ← store m o v
        pure ((), m)
      else pure ((), m)) s (fun o _ m => by
        show (load m o >>= _) = (load m o >>= _) >>= _
        cases load m o with
        | error e => rfl
        | ok x =>
          show (if P s x then _ else _ : Res (σ × Mem α)) = (if P s x then _ else _ : Res (Unit × Mem α)) >>= _
          cases P s x
          · rfl
          · show (store m o v >>= _) = (store m o v >>= _) >>= _
            cases store m o v <;> rfl) c [] m
    cases ctx <;>
    · show some ((mapCtx _ c [] s m >>= _) >>= _) = _
      rw [key]
      cases hg : mapCtx (σ := Unit) _ c [] () m with
      | error e => rw [hg] at h1; cases h1
      | ok r => rw [hg] at h1; cases h1; rfl

example : ∃ m', replaceIfBy true true exMem exView (fun (n : Int) x => .ok (decide (n < x), n)) 9 2 = some (.ok (m', 2)) ∧
    Lists exView m' [1, 2, 9, 9] :=
  let ⟨m', h1, h2, _⟩ := (C162_writing_partial true (c := exView) (out := exView) (inp := exView) rfl exDistinct
    (noClobber_self exDistinct) exLists exLists exDistinct exLists (fun (n : Int) x => decide (n < x)) 9 2).2
  ⟨m', h1, h2⟩

/-- **C162** `generate` as well: the function is const, and each element is what it makes of the position. -/
theorem C162_generate_partial (ctx : Bool) (m : Mem α) (make : σ → List Int → α) (s : σ) (out : Container) (hd : Distinct out)
    (hv : Valid out m) :
    (∀ f : σ → List Int → Res (α × σ), generateBy ctx false m f out s = none) ∧
    ∃ m', generateBy ctx true m (fun s p => .ok (make s p, s)) out s = some (.ok (m', s)) ∧
      (∀ p, InBox out.shape p → m' (out.addr p) = some (make s p)) ∧ SameOutside out m m' := by
  refine ⟨fun f => by cases ctx <;> rfl, ?_⟩
  have e : ∀ l : List (List Int), drawAll (fun s p => (.ok (make s p, s) : Res (α × σ))) s l = .ok (l.map (make s), s) := by
    intro l
    induction l with
    | nil => rfl
    | cons p l ih =>
      show (drawAll (fun s p => (.ok (make s p, s) : Res (α × σ))) s l >>= _) = _
      rw [ih]
      rfl
  have := C75_generate_order m (fun s p => (.ok (make s p, s) : Res (α × σ))) s out hd hv
  rw [e] at this
  obtain ⟨m', h1, -, h3, h4⟩ := this
  refine ⟨m', ?_, fun p hp => ?_, h4⟩
  · cases ctx <;>
    · show some ((generateS m _ s out >>= _) >>= _) = _
      rw [h1]
      rfl
  · obtain ⟨k, hk⟩ := List.mem_iff_getElem?.1 (mem_positions.2 hp)
    rw [h3 k p hk, List.getElem?_map, hk]
    rfl

example : ∃ m', generateBy true true exTwo (fun (n : Int) p => .ok (n + p.sum, n)) exOut 7 = some (.ok (m', 7)) ∧
    m' (exOut.addr [1, 1]) = some 9 :=
  let ⟨m', h1, h2, _⟩ := (C162_generate_partial true exTwo (fun (n : Int) p => n + p.sum) 7 exOut exOut_distinct exOut_valid).2
  ⟨m', h1, h2 [1, 1] (by decide)⟩

/-- **C162** `transform` asks the caller's own object, position by position, and leaves it as the last call does. -/
theorem C162_transform (ctx constOp : Bool) (m : Mem α) (f : σ → List α → Res (α × σ)) (s : σ) (out : Container) (ins : List Container)
    (vals : Container → List Int → α) (hd : Distinct out) (hv : Valid out m)
    (hin : ∀ c ∈ ins, ∀ p, InBox out.shape p → c.get m p = .ok (vals c p))
    (hdis : ∀ c ∈ ins, ∀ p q, InBox out.shape p → InBox out.shape q → c.addr p ≠ out.addr q) (vs : List α) (s' : σ)
    (hf : drawAll (fun s p => f s (ins.map fun c => vals c p)) s (positions out.shape) = .ok (vs, s')) :
    ∃ m', transformBy ctx constOp m f out ins s = some (.ok (m', s')) ∧
      (∀ (k : Nat) p, (positions out.shape)[k]? = some p → m' (out.addr p) = vs[k]?) ∧ SameOutside out m m' := by
  have := C75_transform_order m f s out ins vals hd hv hin hdis
  rw [hf] at this
  obtain ⟨m', h1, -, h3, h4⟩ := this
  refine ⟨m', ?_, h3, h4⟩
  cases ctx <;>
  · show some ((transformS m f s out ins >>= _) >>= _) = _
    rw [h1]
    rfl

example := C162_transform true false exTwo (fun (n : Int) vs => .ok (n + vs.sum, n + 1)) 0 exOut [exIn] (fun _ => exInVal)
  exOut_distinct exOut_valid

/-- **C162** An order that changes with its calls, but whose answers do not depend on that (it counts them, say), is as good as one that
does not change. -/
theorem C162_searches_partial [Nonempty α] (ctx constOp : Bool) (md : Mode) {c : Container} {m : Mem α} {xs : List α} (h : Lists c m xs)
    (hne : c.shape ≠ []) (hn : NonNeg c.shape) (v : α) (call : σ → α → α → Bool × σ) (lt : α → α → Bool)
    (hl : ∀ s x y, (call s x y).1 = lt x y) (s : σ) :
    (xs.Pairwise (fun a b => lt b v = true → lt a v = true) →
      lowerBoundBy ctx constOp md m c v (fun x y s => .ok (call s x y)) s = some (.ok (place c.shape (xs.countP fun e => lt e v), s))) ∧
    (xs.Pairwise (fun a b => lt v a = true → lt v b = true) →
      upperBoundBy ctx constOp md m c v (fun x y s => .ok (call s x y)) s = some (.ok (place c.shape (xs.countP fun e => !lt v e), s))) ∧
    (StrictWeak lt → xs.Pairwise (fun a b => lt b a = false) →
      binarySearchBy ctx constOp md m c v (fun x y s => .ok (call s x y)) s = some (.ok (xs.any fun x => !lt x v && !lt v x, s))) := by
  refine ⟨fun hp => ?_, fun hp => ?_, fun hw hp => ?_⟩
  · obtain ⟨s', e⟩ := alike_lower md m c v call lt hl _ ((C117_bounds md h hne hn v ()).1 lt hp) s
    cases ctx <;>
    · show some (lowerBound md m c v (fun x y s => .ok (call s x y)) s >>= _) = _
      rw [e]
      rfl
  · obtain ⟨s', e⟩ := alike_upper md m c v call lt hl _ ((C117_bounds md h hne hn v ()).2 lt hp) s
    cases ctx <;>
    · show some (upperBound md m c v (fun x y s => .ok (call s x y)) s >>= _) = _
      rw [e]
      rfl
  · have hb := C117_binary_search md h hne hn lt hw hp v ()
    unfold binarySearch at hb
    change (lowerBound md m c v (fun a b => pure (lt a b)) () >>= _) = _ at hb
    cases hlo : lowerBound (σ := Unit) md m c v (fun a b => pure (lt a b)) () with
    | error e => rw [hlo] at hb; cases hb
    | ok r =>
      rw [hlo] at hb
      obtain ⟨s', e⟩ := alike_lower md m c v call lt hl r.1 hlo s
      obtain ⟨o, u⟩ := r
      cases o with
      | none =>
        have hb' : false = xs.any fun x => !lt x v && !lt v x := by injection hb with hb; injection hb
        rw [← hb']
        cases ctx <;>
        · show some ((lowerBound md m c v (fun x y s => .ok (call s x y)) s >>= _) >>= _) = _
          rw [e]
          rfl
      | some p =>
        cases hg : c.get m p with
        | error er =>
          have hb2 : (((c.get m p : Res α) : StateT Unit Res α) >>= fun e => (pure (lt v e) >>= fun r => pure !r : StateT Unit Res Bool)) () = _ := hb
          rw [hg] at hb2
          cases hb2
        | ok x =>
          have hb2 : (((c.get m p : Res α) : StateT Unit Res α) >>= fun e => (pure (lt v e) >>= fun r => pure !r : StateT Unit Res Bool)) () = _ := hb
          rw [hg] at hb2
          have hb' : (!lt v x) = xs.any fun x => !lt x v && !lt v x := by
            have hb3 : (Except.ok (!lt v x, ()) : Res (Bool × Unit)) = _ := hb2
            injection hb3 with hb3; injection hb3
          rw [← hb', ← hl s v x]
          cases ctx <;>
          · show some ((lowerBound md m c v (fun x y s => .ok (call s x y)) s >>= _) >>= _) = _
            rw [e]
            show some ((c.get m p >>= _) >>= _) = _
            rw [hg]
            rfl

example : upperBoundBy true false .checked exMem exView 2 (fun x y s => .ok (decide (x < y), s + 1)) (0 : Nat) = some (.ok (some [1, 0], 0)) :=
  (C162_searches_partial true false .checked exLists (by decide) (by decide) 2 (fun s x y => (decide (x < y), s + 1))
    (fun x y => decide (x < y)) (fun _ _ _ => rfl) 0).2.1 (by decide)

/-- **C162** `binary_search` asks two objects: its last question is put to the function as it was given, whatever the questions of
`lower_bound` did to their copy. -/
theorem C162_binary_search (ctx constOp : Bool) (md : Mode) (m : Mem α) (c : Container) (v : α) (call : σ → α → α → Bool × σ) (s : σ) :
    (∀ s1, lowerBound md m c v (fun x y s => .ok (call s x y)) s = .ok (none, s1) →
      binarySearchBy ctx constOp md m c v (fun x y s => .ok (call s x y)) s = some (.ok (false, s))) ∧
    ∀ p s1 e, lowerBound md m c v (fun x y s => .ok (call s x y)) s = .ok (some p, s1) → c.get m p = .ok e →
      binarySearchBy ctx constOp md m c v (fun x y s => .ok (call s x y)) s = some (.ok (!(call s v e).1, s)) ∧
      binarySearch md m c v (fun x y s => .ok (call s x y)) s = .ok (!(call s1 v e).1, (call s1 v e).2) := by
  constructor
  · intro s1 h
    cases ctx <;>
    · show some ((lowerBound md m c v _ s >>= _) >>= _) = _
      rw [h]
      rfl
  · intro p s1 e h he
    constructor
    · cases ctx <;>
      · show some ((lowerBound md m c v _ s >>= _) >>= _) = _
        rw [h]
        show some ((c.get m p >>= _) >>= _) = _
        rw [he]
        rfl
    · unfold binarySearch
      show (lowerBound md m c v _ s >>= _) = _
      rw [h]
      show ((c.get m p : Res α) >>= fun r => Except.ok (r, s1)) >>= _ = _
      rw [he]
      rfl

/-- An object that says yes from its second call on. -/
example : ∃ s1, lowerBound .checked (oneBlock 0 [(5 : Int)]) (.ofShape ⟨0, 0⟩ [1]) 5 (fun _ _ s => .ok (decide (0 < s), s + 1)) (0 : Nat) =
    .ok (some [0], s1) := ⟨1, rfl⟩

/-- **C162** The second half of the property is false as well: with an object that says yes from its second call on, the element is found,
which one object asked twice would deny. -/
theorem C162_binary_search_not : ∃ (call : Nat → Int → Int → Bool × Nat),
    binarySearch .checked (oneBlock 0 [(5 : Int)]) (.ofShape ⟨0, 0⟩ [1]) 5 (fun x y s => .ok (call s x y)) 0 = .ok (false, 2) ∧
    binarySearchBy true false .checked (oneBlock 0 [(5 : Int)]) (.ofShape ⟨0, 0⟩ [1]) 5 (fun x y s => .ok (call s x y)) 0 =
      some (.ok (true, 0)) :=
  ⟨fun s _ _ => (decide (0 < s), s + 1), rfl, rfl⟩

end Kwk
