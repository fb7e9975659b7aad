import Verif.Lemmas.Identity
import Verif.Props.Sequences
import Verif.Props.Writing

/-!
# Property C160: functions are given the elements themselves

`Entries c m es`: the elements of `c` in row-major order have the addresses and values `es`.  A function `f` may look at the address:
`ofElem f e` is what it says of the element, `ofCopy f e` what it says of a copy.
-/

namespace Kwk
open Spec

variable {α β : Type}

/-- The full property: quantifiers, counts and searches ask the function about the elements themselves, and copy none. -/
def C160_statement : Prop :=
  ∀ (c : Container) (m : Mem Int) (es : List (Ptr × Int)) (f : Given → Int → Bool) (t : Trace), Entries c m es →
    (∃ t', allOfSeen m c f t = .ok (es.all (ofElem f), t') ∧ t'.copied = t.copied) ∧
    (∃ t', anyOfSeen m c f t = .ok (es.any (ofElem f), t') ∧ t'.copied = t.copied) ∧
    (∃ t', noneOfSeen m c f t = .ok (!es.any (ofElem f), t') ∧ t'.copied = t.copied) ∧
    (∃ t', countIfSeen m c f t = .ok (es.countP (ofElem f), t') ∧ t'.copied = t.copied) ∧
    (∃ t', findIfSeen m c f t = .ok (place c.shape (es.findIdx (ofElem f)), t') ∧ t'.copied = t.copied) ∧
    ∃ t', findIfNotSeen m c f t = .ok (place c.shape (es.findIdx fun e => !ofElem f e), t') ∧ t'.copied = t.copied

/-- The elements of `exView` with their addresses. -/
theorem exEntries : Entries exView exMem [(⟨0, 0⟩, 1), (⟨0, 2⟩, 2), (⟨0, 1⟩, 3), (⟨0, 3⟩, 4)] := rfl

/-- A container of one element. -/
theorem one_entry (p : Ptr) (v : α) : Entries (.ofShape p [1]) (fun q => if q = p then some v else none) [(p, v)] := by
  have e : (Container.ofShape p [1]).addr [0] = p := by
    show Ptr.add p 0 = p
    cases p
    simp [Ptr.add]
  have g : (Container.ofShape p [1]).get (fun q => if q = p then some v else none) [0] = .ok v := by
    unfold Container.get load
    rw [e]
    simp
  show [((Container.ofShape p [1]).addr [0], (Container.ofShape p [1]).get (fun q => if q = p then some v else none) [0])] = [(p, .ok v)]
  rw [e, g]

/-- **C160** `find_if`, `reduce` and `for_each` give the elements themselves to the function, in row-major order; `find_if` stops at the
first hit.  Nothing is copied. -/
theorem C160_references_partial {c : Container} {m : Mem α} {es : List (Ptr × α)} (h : Entries c m es) (t : Trace) (f : Given → α → Bool)
    (op : β → Given → α → β) (init : β) (act : Given → α → Unit) :
    findIfSeen m c f t = .ok (place c.shape (es.findIdx (ofElem f)),
      ⟨t.copied, t.given ++ (through (ofElem f) es).map fun e => .elem e.1⟩) ∧
    reduceSeen m c op init t = .ok (es.foldl (fun a e => op a (.elem e.1) e.2) init, ⟨t.copied, t.given ++ es.map fun e => .elem e.1⟩) ∧
    forEachSeen m c act t = .ok ((), ⟨t.copied, t.given ++ es.map fun e => .elem e.1⟩) := by
  refine ⟨?_, ?_, ?_⟩
  · unfold findIfSeen
    rw [findIfM_eq, hit_seen (ofElem f) (fun _ => []) (fun e => [.elem e.1]) (fun e t => by simp [ask, ofElem]; rfl) h,
      singles_elem, none_flat, List.append_nil]
    rfl
  · unfold reduceSeen
    rw [reduceM_eq, fold_seen (fun a e => op a (.elem e.1) e.2) (fun _ => []) (fun _ e => [.elem e.1])
      (fun a e t => by simp [ask]; rfl) h, givenBy_const, singles_elem, none_flat, List.append_nil]
  · unfold forEachSeen
    rw [forEach_eq]
    have key := fold_seen (m := m) (c := c) (step := fun _ x => ask act x) (fun _ _ => ()) (fun _ => []) (fun _ e => [.elem e.1])
      (fun a e t => by simp [ask]; rfl) h () t
    rw [givenBy_const, singles_elem, none_flat, List.append_nil] at key
    have e1 : ∀ l : List (List Int), runAll (fun is => refTo m c is >>= fun x => ask act x) l =
        l.foldlM (fun _ p => refTo m c p >>= fun x => ask act x) () := by
      intro l
      induction l with
      | nil => rfl
      | cons p l ih =>
        rw [List.foldlM_cons]
        show ((refTo m c p >>= fun x => ask act x) >>= fun _ => runAll _ l) = _
        rw [ih]
    rw [e1, key]

-- the element at a given address is found
example : findIfSeen exMem exView (fun g _ => decide (g = .elem ⟨0, 1⟩)) ⟨[], []⟩ =
    .ok (some [1, 0], ⟨[], [.elem ⟨0, 0⟩, .elem ⟨0, 2⟩, .elem ⟨0, 1⟩]⟩) :=
  (C160_references_partial exEntries ⟨[], []⟩ _ (fun (a : Nat) _ _ => a) 0 fun _ _ => ()).1

/-- **C160** What the others do: they copy every element they look at, and it is the copies that are given to the function. -/
theorem C160_copies {c : Container} {m : Mem α} {es : List (Ptr × α)} (h : Entries c m es) (t : Trace) (f : Given → α → Bool) :
    allOfSeen m c f t = .ok (es.all (ofCopy f), ⟨t.copied ++ es.map (·.1),
      t.given ++ (through (fun e => !ofCopy f e) es).map fun e => .temp e.1⟩) ∧
    anyOfSeen m c f t = .ok (es.any (ofCopy f), ⟨t.copied ++ es.map (·.1), t.given ++ (through (ofCopy f) es).map fun e => .temp e.1⟩) ∧
    noneOfSeen m c f t = .ok (!es.any (ofCopy f), ⟨t.copied ++ es.map (·.1), t.given ++ (through (ofCopy f) es).map fun e => .temp e.1⟩) ∧
    countIfSeen m c f t = .ok (es.countP (ofCopy f), ⟨t.copied ++ es.map (·.1), t.given ++ es.map fun e => .temp e.1⟩) ∧
    findIfNotSeen m c f t = .ok (place c.shape (es.findIdx fun e => !ofCopy f e),
      ⟨t.copied ++ (through (fun e => !ofCopy f e) es).map (·.1), t.given ++ (through (fun e => !ofCopy f e) es).map fun e => .temp e.1⟩) := by
  have hall : ∀ (es : List (Ptr × α)) (a : Bool), es.foldl (fun a e => a && ofCopy f e) a = (a && es.all (ofCopy f)) := by
    intro es
    induction es with
    | nil => simp
    | cons e es ih => intro a; simp [ih, Bool.and_assoc]
  have hany : ∀ (es : List (Ptr × α)) (a : Bool), es.foldl (fun a e => a || ofCopy f e) a = (a || es.any (ofCopy f)) := by
    intro es
    induction es with
    | nil => simp
    | cons e es ih => intro a; simp [ih, Bool.or_assoc]
  have hcount : ∀ (es : List (Ptr × α)) (a : Nat), es.foldl (fun a e => a + if ofCopy f e then 1 else 0) a = a + es.countP (ofCopy f) := by
    intro es
    induction es with
    | nil => simp
    | cons e es ih => intro a; rw [List.foldl_cons, ih, List.countP_cons]; omega
  have key : anyOfSeen m c f t = .ok (es.any (ofCopy f), ⟨t.copied ++ es.map (·.1), t.given ++ (through (ofCopy f) es).map fun e => .temp e.1⟩) := by
    unfold anyOfSeen
    rw [reduceM_eq, fold_seen (fun a e => a || ofCopy f e) (fun e => [e.1]) (fun a e => if a then [] else [.temp e.1]) ?_ h,
      hany, singles_addr, show false = !true from rfl, givenBy_until (s := true) (b := ofCopy f) (H := fun e => [.temp e.1]), singles_temp]
    · rfl
    · simp
    · simp
    · intro e; cases ofCopy f e <;> rfl
    · simp
    · intro a e t
      cases a
      · simp [ofCopy]; rfl
      · simp; rfl
  refine ⟨?_, key, ?_, ?_, ?_⟩
  · unfold allOfSeen
    rw [reduceM_eq, fold_seen (fun a e => a && ofCopy f e) (fun e => [e.1]) (fun a e => if a then [.temp e.1] else []) ?_ h,
      hall, singles_addr, show true = !false from rfl, givenBy_until (s := false) (b := fun e => !ofCopy f e) (H := fun e => [.temp e.1]), singles_temp]
    · rfl
    · simp
    · simp
    · intro e; cases ofCopy f e <;> rfl
    · simp
    · intro a e t
      cases a
      · simp; rfl
      · simp [ofCopy]; rfl
  · unfold noneOfSeen
    show (anyOfSeen m c f t >>= _) = _
    rw [key]
    rfl
  · unfold countIfSeen
    rw [reduceM_eq, fold_seen (fun a e => a + if ofCopy f e then 1 else 0) (fun e => [e.1]) (fun _ e => [.temp e.1]) ?_ h,
      hcount, singles_addr, givenBy_const, singles_temp, Nat.zero_add]
    intro a e t
    rfl
  · unfold findIfNotSeen
    rw [findIfM_eq, hit_seen (fun e => !ofCopy f e) (fun e => [e.1]) (fun e => [.temp e.1]) (fun e t => rfl) h,
      singles_addr, singles_temp]
    rfl

example : countIfSeen exMem exView (fun _ v => decide (2 < v)) ⟨[], []⟩ =
    .ok (2, ⟨[⟨0, 0⟩, ⟨0, 2⟩, ⟨0, 1⟩, ⟨0, 3⟩], [.temp ⟨0, 0⟩, .temp ⟨0, 2⟩, .temp ⟨0, 1⟩, .temp ⟨0, 3⟩]⟩) :=
  (C160_copies exEntries ⟨[], []⟩ _).2.2.2.1

/-- **C160** The searches by value and the sum have no function of the user, and copy every element they look at. -/
theorem C160_values [DecidableEq α] [Add α] [Zero α] {c : Container} {m : Mem α} {es : List (Ptr × α)} (h : Entries c m es) (t : Trace) (v : α) :
    countSeen m c v t = .ok (es.countP fun e => decide (e.2 = v), ⟨t.copied ++ es.map (·.1), t.given⟩) ∧
    reduceSumSeen m c t = .ok (es.foldl (fun a e => a + e.2) 0, ⟨t.copied ++ es.map (·.1), t.given⟩) ∧
    findSeen m c v t = .ok (place c.shape (es.findIdx fun e => decide (e.2 = v)),
      ⟨t.copied ++ (through (fun e => decide (e.2 = v)) es).map (·.1), t.given⟩) := by
  have hcount : ∀ (es : List (Ptr × α)) (a : Nat), es.foldl (fun a e => a + if e.2 = v then 1 else 0) a = a + es.countP fun e => decide (e.2 = v) := by
    intro es
    induction es with
    | nil => simp
    | cons e es ih => intro a; rw [List.foldl_cons, ih, List.countP_cons]; simp only [decide_eq_true_eq]; omega
  refine ⟨?_, ?_, ?_⟩
  · unfold countSeen
    rw [reduceM_eq, fold_seen (fun a e => a + if e.2 = v then 1 else 0) (fun e => [e.1]) (fun _ _ => []) ?_ h,
      hcount, singles_addr, givenBy_const, none_flat, List.append_nil, Nat.zero_add]
    intro a e t
    simp; rfl
  · unfold reduceSumSeen
    rw [reduceM_eq, fold_seen (fun a e => a + e.2) (fun e => [e.1]) (fun _ _ => []) ?_ h,
      singles_addr, givenBy_const, none_flat, List.append_nil]
    intro a e t
    simp; rfl
  · unfold findSeen
    rw [findIfM_eq, hit_seen (fun e => decide (e.2 = v)) (fun e => [e.1]) (fun _ => []) ?_ h, singles_addr, none_flat, List.append_nil]
    · rfl
    · intro e t
      simp; rfl

example : findSeen exMem exView 3 ⟨[], []⟩ = .ok (some [1, 0], ⟨[⟨0, 0⟩, ⟨0, 2⟩, ⟨0, 1⟩], []⟩) :=
  (C160_values exEntries ⟨[], []⟩ 3).2.2

/-- **C160** `replace_if`, `copy_if` and `transform` give the elements themselves to the function. -/
theorem C160_writing (m : Mem α) {c out inp : Container} (hd : Distinct c) (val : List Int → α) (h : Elems c m val) (hdo : Distinct out)
    (hvo : Valid out m) (hc : NoClobber out inp) (src : List Int → α) (hi : ∀ p, InBox out.shape p → inp.get m p = .ok (src p))
    (f : Given → α → Bool) (g : Given → α → α) (v : α) :
    (∃ m', replaceIfSeen m c f v = .ok m' ∧ Elems c m' (fun p => if f (.elem (c.addr p)) (val p) then v else val p) ∧ SameOutside c m m') ∧
    (∃ m', copyIfSeen m f out inp = .ok m' ∧
      (∀ p, InBox out.shape p →
        (f (.elem (inp.addr p)) (src p) = true → out.get m' p = .ok (src p)) ∧
        (f (.elem (inp.addr p)) (src p) = false → out.get m' p = out.get m p)) ∧ SameOutside out m m') ∧
    ∃ m', transformSeen m g out inp = .ok m' ∧ (∀ p, InBox out.shape p → out.get m' p = .ok (g (.elem (inp.addr p)) (src p))) ∧
      SameOutside out m m' := by
  have hv : Valid c m := fun p hp => ⟨_, h p hp⟩
  refine ⟨?_, ?_, ?_⟩
  · obtain ⟨s', m', h1, h2, h3⟩ := run_write (s0 := ()) hd hv
      (fun p sm => do
        let w ← load sm.2 (c.addr p)
        if f (.elem (c.addr p)) w then do
          let m ← store sm.2 (c.addr p) v
          pure ((), m)
        else pure ((), sm.2)) (fun p _ => ((), if f (.elem (c.addr p)) (val p) then some v else none)) (by
        intro p hp s m1 ha hs
        have e : load m1 (c.addr p) = .ok (val p) := by
          apply load_ok
          rw [own_cell hd hp ha]
          exact get_ok_iff.1 (h p hp)
        simp only [e, bind, Except.bind]
        cases hf : f (.elem (c.addr p)) (val p)
        · rfl
        · simp only [if_true]
          rw [store_ok (valid_isSome hv hp hs)]; rfl)
    refine ⟨m', ?_, ?_, h2⟩
    · unfold replaceIfSeen mapCtx; rw [h1]; rfl
    · intro p hp
      rw [get_ok_iff, h3 _ p (getElem?_rank hp)]
      cases hf : f (.elem (c.addr p)) (val p)
      · simpa [hf] using get_ok_iff.1 (h p hp)
      · simp [hf]
  · obtain ⟨s', m', h1, h2, h3⟩ := run_write (s0 := ()) hdo hvo
      (fun p sm => do
        let w ← load sm.2 (inp.addr p)
        if f (.elem (inp.addr p)) w then do
          let m ← store sm.2 (out.addr p) w
          pure ((), m)
        else pure ((), sm.2)) (fun p _ => ((), if f (.elem (inp.addr p)) (src p) then some (src p) else none)) (by
        intro p hp s m1 ha hs
        have e : load m1 (inp.addr p) = .ok (src p) := by
          apply load_ok
          rw [ha _ fun q hq hlt => hc p q hp hq hlt]
          exact get_ok_iff.1 (hi p hp)
        simp only [e, bind, Except.bind]
        cases hf : f (.elem (inp.addr p)) (src p)
        · rfl
        · simp only [if_true]
          rw [store_ok (valid_isSome hvo hp hs)]; rfl)
    refine ⟨m', ?_, ?_, h2⟩
    · unfold copyIfSeen mapCtx
      simp only [List.map_cons, List.map_nil, List.headD_cons]
      show (loopState _ _ _ >>= _) = _
      rw [h1]; rfl
    · intro p hp
      have := h3 _ p (getElem?_rank hp)
      constructor
      · intro hf; rw [get_ok_iff, this]; simp [hf]
      · intro hf
        simp only [hf, Bool.false_eq_true, if_false] at this
        unfold Container.get load
        rw [this]
  · obtain ⟨s', m', h1, h2, h3⟩ := run_write (s0 := ()) hdo hvo
      (fun p sm => do
        let w ← load sm.2 (inp.addr p)
        let m ← store sm.2 (out.addr p) (g (.elem (inp.addr p)) w)
        pure ((), m)) (fun p _ => ((), some (g (.elem (inp.addr p)) (src p)))) (by
        intro p hp s m1 ha hs
        have e : load m1 (inp.addr p) = .ok (src p) := by
          apply load_ok
          rw [ha _ fun q hq hlt => hc p q hp hq hlt]
          exact get_ok_iff.1 (hi p hp)
        simp only [e, bind, Except.bind]
        rw [store_ok (valid_isSome hvo hp hs)]; rfl)
    refine ⟨m', ?_, ?_, h2⟩
    · unfold transformSeen mapCtx
      simp only [List.map_cons, List.map_nil, List.headD_cons]
      show (loopState _ _ _ >>= _) = _
      rw [h1]; rfl
    · intro p hp
      rw [get_ok_iff, h3 _ p (getElem?_rank hp)]

example := C160_writing exTwo exIn_distinct exInVal exIn_elems exOut_distinct exOut_valid ex_noClobber exInVal exIn_elems
  (fun g _ => decide (g = .elem (exIn.addr [0, 1]))) (fun _ x => x + 1) 9

/-- **C160** `find_last_if` gives the elements themselves to the function, from the last one on; `find_last_if_not` gives copies. -/
theorem C160_find_last_partial {c : Container} (hc : c.Default) {m : Mem α} {es : List (Ptr × α)} (h : Entries c m es) (t : Trace)
    (f : Given → α → Bool) :
    findLastIfSeen m c f t = .ok ((es.reverse.findIdx? (ofElem f)).bind fun k => place c.shape (es.length - 1 - k),
      ⟨t.copied, t.given ++ (through (ofElem f) es.reverse).map fun e => .elem e.1⟩) ∧
    findLastIfNotSeen m c f t = .ok ((es.reverse.findIdx? fun e => !ofCopy f e).bind fun k => place c.shape (es.length - 1 - k),
      ⟨t.copied ++ (through (fun e => !ofCopy f e) es.reverse).map (·.1),
        t.given ++ (through (fun e => !ofCopy f e) es.reverse).map fun e => .temp e.1⟩) := by
  have hlen : es.length = (positions c.shape).length := by
    have := congrArg List.length h
    simpa using this.symm
  have hr : Entries (reverse c) m es.reverse := by
    unfold Entries at h ⊢
    rw [List.map_reverse, ← h, ← List.map_reverse, ← positions_mirror, List.map_map]
    refine List.map_congr_left fun p hp => ?_
    have hb := mem_positions.1 hp
    have := (C46_reverse_partial (α := α) hc.toWF (C46_default_corner hc ⟨p, hb⟩)).2 p hb
    exact Prod.ext this.1 (this.2 m)
  have back : ∀ g : Ptr × α → Bool, (place (reverse c).shape (es.reverse.findIdx g)).map
      (fun pos => c.shape.zipWith (fun d i => d - 1 - i) pos) = (es.reverse.findIdx? g).bind fun k => place c.shape (es.length - 1 - k) := by
    intro g
    show ((positions c.shape)[_]?).map _ = _
    cases hi : es.reverse.findIdx? g with
    | none =>
      rw [List.findIdx?_eq_none_iff_findIdx_eq.1 hi, List.length_reverse, hlen, List.getElem?_eq_none (Nat.le_refl _)]
      rfl
    | some k =>
      have hk : k < es.length := by
        obtain ⟨h, -⟩ := List.findIdx?_eq_some_iff_getElem.1 hi
        simpa using h
      rw [(List.findIdx?_eq_some_iff_findIdx_eq.1 hi).2]
      show _ = (positions c.shape)[_]?
      rw [hlen] at hk ⊢
      have e := List.getElem?_eq_getElem hk
      rw [place_mirror e, e]
      rfl
  constructor
  · unfold findLastIfSeen
    show (findIfSeen m (reverse c) f t >>= _) = _
    rw [(C160_references_partial hr t f (fun (a : Nat) _ _ => a) 0 fun _ _ => ()).1, ← back]
    rfl
  · unfold findLastIfNotSeen
    show (findIfNotSeen m (reverse c) f t >>= _) = _
    rw [(C160_copies hr t f).2.2.2.2, ← back]
    rfl

example : findLastIfSeen (oneBlock 0 [(1 : Int), 2, 3, 4]) (.ofShape ⟨0, 0⟩ [2, 2]) (fun g _ => decide (g = .elem ⟨0, 2⟩)) ⟨[], []⟩ =
    .ok (some [1, 0], ⟨[], [.elem ⟨0, 3⟩, .elem ⟨0, 2⟩]⟩) :=
  (C160_find_last_partial (c := .ofShape ⟨0, 0⟩ [2, 2]) (m := oneBlock 0 [1, 2, 3, 4]) (es := [(⟨0, 0⟩, 1), (⟨0, 1⟩, 2), (⟨0, 2⟩, 3), (⟨0, 3⟩, 4)]) (ofShape_default (by simp)) rfl ⟨[], []⟩ _).1

/-- **C160** is false: `count_if(v, [&](auto const& x) { return &x == &v(1,0); })` counts none. -/
theorem C160_not : ¬ C160_statement := by
  intro h
  obtain ⟨t', h1, -⟩ := (h exView exMem _ (fun g _ => decide (g = .elem ⟨0, 1⟩)) ⟨[], []⟩ exEntries).2.2.2.1
  rw [(C160_copies exEntries _ _).2.2.2.1] at h1
  exact absurd (Prod.mk.inj (Except.ok.inj h1)).1 (by decide)

/-- **C160** Exactly the functions that say the same of an element and of its copy are answered for rightly, whatever the container. -/
theorem C160_iff (f : Given → α → Bool) :
    (∀ (c : Container) (m : Mem α) (es : List (Ptr × α)) (t : Trace), Entries c m es →
      (∃ t', allOfSeen m c f t = .ok (es.all (ofElem f), t')) ∧ (∃ t', anyOfSeen m c f t = .ok (es.any (ofElem f), t')) ∧
      (∃ t', noneOfSeen m c f t = .ok (!es.any (ofElem f), t')) ∧ (∃ t', countIfSeen m c f t = .ok (es.countP (ofElem f), t')) ∧
      ∃ t', findIfNotSeen m c f t = .ok (place c.shape (es.findIdx fun e => !ofElem f e), t')) ↔
    ∀ p v, f (.temp p) v = f (.elem p) v := by
  constructor
  · intro h p v
    obtain ⟨-, ⟨t', h1⟩, -⟩ := h _ _ _ ⟨[], []⟩ (one_entry p v)
    rw [(C160_copies (one_entry p v) _ f).2.1] at h1
    simpa [ofElem, ofCopy] using (Prod.mk.inj (Except.ok.inj h1)).1
  · intro hf c m es t h
    have e : ofCopy f = ofElem f := funext fun e => hf e.1 e.2
    obtain ⟨h1, h2, h3, h4, h5⟩ := C160_copies h t f
    rw [e] at h1 h2 h3 h4 h5
    exact ⟨⟨_, h1⟩, ⟨_, h2⟩, ⟨_, h3⟩, ⟨_, h4⟩, ⟨_, h5⟩⟩

example : ∃ t', anyOfSeen exMem exView (fun _ v => decide (v = 3)) ⟨[], []⟩ = .ok (true, t') :=
  ((C160_iff fun _ v => decide (v = (3 : Int))).2 (fun _ _ => rfl) exView exMem _ ⟨[], []⟩ exEntries).2.1

end Kwk
