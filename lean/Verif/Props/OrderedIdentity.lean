import Verif.Spec.OrderedIdentity
import Verif.Lemmas.OrderedIdentity
import Verif.Props.Identity

/-!
# Property C163: what the order of an ordered search is given
-/

namespace Kwk
open Spec

variable {α : Type}

private theorem given_all (l : List (Ptr × α)) (t : Trace) :
    l.foldl (fun (s : Trace) e => { s with given := s.given ++ [.elem e.1] }) t = ⟨t.copied, t.given ++ l.map fun e => .elem e.1⟩ := by
  induction l generalizing t with
  | nil => simp
  | cons e l ih =>
    rw [List.foldl_cons, ih]
    simp

private theorem copied_all (l : List (Ptr × α)) (t : Trace) :
    l.foldl (fun (s : Trace) e => { s with copied := s.copied ++ [e.1] }) t = ⟨t.copied ++ l.map (·.1), t.given⟩ := by
  induction l generalizing t with
  | nil => simp
  | cons e l ih =>
    rw [List.foldl_cons, ih]
    simp

private theorem run_of {β : Type} {x : Watched β} {t t' : Trace} {r : β} (h : x t = .ok (r, t')) :
    (x >>= fun _ => pure () : Watched Unit) t = .ok ((), t') := by
  show (x t >>= _) = _
  rw [h]
  rfl

/-- The full property: every ordered search compiles for elements without copy constructor. -/
def C163_statement : Prop := ∀ s : OrderedSearch, s.compiles false = true

section
variable [Nonempty α]

private theorem nonempty_pair : Nonempty (Ptr × α) := ⟨⟨0, 0⟩, Classical.arbitrary α⟩

/-- **C163** `lower_bound` and `upper_bound` with an order: the order is given elements, by reference; nothing is copied.  `f` and `g`
may decide by addresses, provided the container is ordered accordingly. -/
theorem C163_bounds (md : Mode) {c : Container} (hne : c.shape ≠ []) (hn : NonNeg c.shape) {m : Mem α} {es : List (Ptr × α)}
    (h : Entries c m es) (f : Given → α → Bool) (t : Trace) :
    (es.Pairwise (fun a b => ofElem f b = true → ofElem f a = true) → ∃ l, Questions es l ∧
      lowerBoundSeen md m c f t = .ok (place c.shape (es.countP (ofElem f)), ⟨t.copied, t.given ++ l.map fun e => .elem e.1⟩)) ∧
    (es.Pairwise (fun a b => ofElem f a = true → ofElem f b = true) → ∃ l, Questions es l ∧
      upperBoundSeen md m c f t = .ok (place c.shape (es.countP fun e => !ofElem f e), ⟨t.copied, t.given ++ l.map fun e => .elem e.1⟩)) := by
  have := nonempty_pair (α := α)
  constructor
  · intro hp
    obtain ⟨l, h1, h2⟩ := search_seen md hne hn (entries_elems h) (fun e => ask f (.elem e.1, e.2)) (ofElem f)
      (fun e (s : Trace) => { s with given := s.given ++ [.elem e.1] }) (fun s => s.given.length) (fun _ _ => rfl)
      (fun _ _ => by simp) hp t
    refine ⟨l, h2, ?_⟩
    unfold lowerBoundSeen
    rw [lowerBound_eq, h1, given_all]
  · intro hp
    obtain ⟨l, h1, h2⟩ := search_seen md hne hn (entries_elems h) (fun e => do let r ← ask f (.elem e.1, e.2); pure !r)
      (fun e => !ofElem f e) (fun e (s : Trace) => { s with given := s.given ++ [.elem e.1] }) (fun s => s.given.length) (fun _ _ => rfl)
      (fun _ _ => by simp) (hp.imp fun {a b} hab hb => by
        cases ha : ofElem f a
        · rfl
        · rw [hab ha] at hb; cases hb) t
    refine ⟨l, h2, ?_⟩
    unfold upperBoundSeen
    rw [upperBound_eq, h1, given_all]

example : ∃ l : List (Ptr × Int), Questions [(⟨0, 0⟩, 1), (⟨0, 2⟩, 2), (⟨0, 1⟩, 3), (⟨0, 3⟩, 4)] l ∧
    lowerBoundSeen .checked exMem exView (fun _ v => decide (v < 3)) ⟨[], []⟩ = .ok (some [1, 0], ⟨[], l.map fun e => .elem e.1⟩) :=
  (C163_bounds .checked (by decide) (by decide) exEntries _ ⟨[], []⟩).1 (by decide)

/-- **C163** `binary_search` with an order: no copies, and one question more if `lower_bound` has found a place. -/
theorem C163_binary_search (md : Mode) {c : Container} (hne : c.shape ≠ []) (hn : NonNeg c.shape) {m : Mem α} {es : List (Ptr × α)}
    (h : Entries c m es) (f g : Given → α → Bool) (t : Trace)
    (hp : es.Pairwise (fun a b => ofElem f b = true → ofElem f a = true)) :
    ∃ l, Questions es l ∧ binarySearchSeen md m c f g t = .ok (match es[es.countP (ofElem f)]? with
      | none => (false, ⟨t.copied, t.given ++ l.map fun e => .elem e.1⟩)
      | some e => (!ofElem g e, ⟨t.copied, t.given ++ (l ++ [e]).map fun e => .elem e.1⟩)) := by
  obtain ⟨l, h1, h2⟩ := (C163_bounds md hne hn h f t).1 hp
  refine ⟨l, h1, ?_⟩
  unfold binarySearchSeen
  show (lowerBoundSeen md m c f t >>= _) = _
  rw [h2]
  have hk := congrArg (fun l : List (Ptr × Res α) => l[es.countP (ofElem f)]?) h
  simp only [List.getElem?_map] at hk
  cases hq : (positions c.shape)[es.countP (ofElem f)]? with
  | none =>
    rw [hq] at hk
    cases he : es[es.countP (ofElem f)]? with
    | some e => rw [he] at hk; cases hk
    | none =>
      rw [show place c.shape (es.countP (ofElem f)) = none from hq]
      rfl
  | some q =>
    rw [hq] at hk
    cases he : es[es.countP (ofElem f)]? with
    | none => rw [he] at hk; cases hk
    | some e =>
      rw [he] at hk
      have hk2 := Option.some.inj hk
      have h3 : c.addr q = e.1 := congrArg Prod.fst hk2
      have h4 : c.get m q = .ok e.2 := congrArg Prod.snd hk2
      rw [show place c.shape (es.countP (ofElem f)) = some q from hq]
      show (((c.get m q : Res α) >>= fun v => Except.ok (v, _)) >>= _) >>= _ = _
      rw [h4]
      show Except.ok (!g (.elem (c.addr q)) e.2, _) = _
      rw [h3]
      simp [ofElem]

example : ∃ l : List (Ptr × Int), Questions [(⟨0, 0⟩, 1), (⟨0, 2⟩, 2), (⟨0, 1⟩, 3), (⟨0, 3⟩, 4)] l ∧
    binarySearchSeen .checked exMem exView (fun _ v => decide (v < 3)) (fun _ v => decide (3 < v)) ⟨[], []⟩ =
      .ok (true, ⟨[], (l ++ [((⟨0, 1⟩, 3) : Ptr × Int)]).map fun e => .elem e.1⟩) :=
  C163_binary_search .checked (by decide) (by decide) exEntries _ _ ⟨[], []⟩ (by decide)

/-- **C163** Without an order, each question copies an element. -/
theorem C163_plain_partial (md : Mode) {c : Container} (hne : c.shape ≠ []) (hn : NonNeg c.shape) {m : Mem α} {es : List (Ptr × α)}
    (h : Entries c m es) (below above : α → Bool) (t : Trace) :
    (es.Pairwise (fun a b => below b.2 = true → below a.2 = true) → ∃ l, Questions es l ∧
      lowerBoundPlain md m c below t = .ok (place c.shape (es.countP fun e => below e.2), ⟨t.copied ++ l.map (·.1), t.given⟩)) ∧
    (es.Pairwise (fun a b => above a.2 = true → above b.2 = true) → ∃ l, Questions es l ∧
      upperBoundPlain md m c above t = .ok (place c.shape (es.countP fun e => !above e.2), ⟨t.copied ++ l.map (·.1), t.given⟩)) ∧
    (es.Pairwise (fun a b => below b.2 = true → below a.2 = true) → ∃ l, Questions es l ∧
      binarySearchPlain md m c below above t = .ok (match es[es.countP fun e => below e.2]? with
        | none => (false, ⟨t.copied ++ l.map (·.1), t.given⟩)
        | some e => (!above e.2, ⟨t.copied ++ (l ++ [e]).map (·.1), t.given⟩))) := by
  have := nonempty_pair (α := α)
  have lower : es.Pairwise (fun a b => below b.2 = true → below a.2 = true) → ∃ l, Questions es l ∧
      lowerBoundPlain md m c below t = .ok (place c.shape (es.countP fun e => below e.2), ⟨t.copied ++ l.map (·.1), t.given⟩) := by
    intro hp
    obtain ⟨l, h1, h2⟩ := search_seen md hne hn (entries_elems h) (fun e => do let x ← byValue (.elem e.1, e.2); pure (below x.2))
      (fun e => below e.2) (fun e (s : Trace) => { s with copied := s.copied ++ [e.1] }) (fun s => s.copied.length) (fun _ _ => rfl)
      (fun _ _ => by simp) hp t
    refine ⟨l, h2, ?_⟩
    unfold lowerBoundPlain
    rw [lowerBound_eq, h1, copied_all]
  refine ⟨lower, ?_, ?_⟩
  · intro hp
    obtain ⟨l, h1, h2⟩ := search_seen md hne hn (entries_elems h)
      (fun e => do
        let r ← (do let x ← byValue (.elem e.1, e.2); pure (above x.2) : Watched Bool)
        pure !r)
      (fun e => !above e.2) (fun e (s : Trace) => { s with copied := s.copied ++ [e.1] }) (fun s => s.copied.length) (fun _ _ => rfl)
      (fun _ _ => by simp) (hp.imp fun {a b} hab hb => by
        cases ha : above a.2
        · rfl
        · rw [hab ha] at hb; cases hb) t
    refine ⟨l, h2, ?_⟩
    unfold upperBoundPlain
    rw [upperBound_eq, h1, copied_all]
  · intro hp
    obtain ⟨l, h1, h2⟩ := lower hp
    refine ⟨l, h1, ?_⟩
    unfold binarySearchPlain
    show (lowerBoundPlain md m c below t >>= _) = _
    rw [h2]
    have hk := congrArg (fun l : List (Ptr × Res α) => l[es.countP fun e => below e.2]?) h
    simp only [List.getElem?_map] at hk
    cases hq : (positions c.shape)[es.countP fun e => below e.2]? with
    | none =>
      rw [hq] at hk
      cases he : es[es.countP fun e => below e.2]? with
      | some e => rw [he] at hk; cases hk
      | none =>
        rw [show place c.shape (es.countP fun e => below e.2) = none from hq]
        rfl
    | some q =>
      rw [hq] at hk
      cases he : es[es.countP fun e => below e.2]? with
      | none => rw [he] at hk; cases hk
      | some e =>
        rw [he] at hk
        have hk2 := Option.some.inj hk
        have h3 : c.addr q = e.1 := congrArg Prod.fst hk2
        have h4 : c.get m q = .ok e.2 := congrArg Prod.snd hk2
        rw [show place c.shape (es.countP fun e => below e.2) = some q from hq]
        show (((c.get m q : Res α) >>= fun v => Except.ok (v, _)) >>= _) >>= _ = _
        rw [h4]
        show Except.ok (!above e.2, (⟨(t.copied ++ l.map (·.1)) ++ [c.addr q], t.given⟩ : Trace)) = _
        rw [h3]
        simp

example : ∃ l : List (Ptr × Int), Questions [(⟨0, 0⟩, 1), (⟨0, 2⟩, 2), (⟨0, 1⟩, 3), (⟨0, 3⟩, 4)] l ∧
    upperBoundPlain .checked exMem exView (fun v => decide (2 < v)) ⟨[], []⟩ = .ok (some [1, 0], ⟨l.map (·.1), []⟩) :=
  (C163_plain_partial .checked (by decide) (by decide) exEntries (fun v => decide (v < 2)) _ ⟨[], []⟩).2.1 (by decide)

end

/-- **C163** An ordered search compiles for elements without copy constructor exactly if no call of it ever copies an element; with one,
all compile. -/
theorem C163_iff (s : OrderedSearch) : (s.compiles false = true ↔ OrderedNeverCopies s) ∧ s.compiles true = true := by
  refine ⟨⟨?_, ?_⟩, by rcases s with (_ | _) | (_ | _) | (_ | _) <;> rfl⟩
  · intro h md c m es f g below above t hne hn he hs
    rcases s with (_ | _) | (_ | _) | (_ | _)
    · cases h
    · obtain ⟨l, -, h2⟩ := (C163_bounds md hne hn he f t).1 hs.lower
      exact ⟨_, run_of h2, rfl⟩
    · cases h
    · obtain ⟨l, -, h2⟩ := (C163_bounds md hne hn he g t).2 hs.upper
      exact ⟨_, run_of h2, rfl⟩
    · cases h
    · obtain ⟨l, -, h2⟩ := C163_binary_search md hne hn he f g t hs.lower
      refine ⟨_, run_of h2, ?_⟩
      cases es[es.countP (ofElem f)]? <;> rfl
  · intro h
    obtain ⟨t', h1, h2⟩ := h .checked _ _ _ (fun _ _ => false) (fun _ _ => false) (fun _ => false) (fun _ => false) ⟨[], []⟩
      (by decide) (by decide) (one_entry ⟨0, 0⟩ (7 : Int)) ⟨by simp, by simp, by simp, by simp⟩
    obtain ⟨p1, p2, p3⟩ := C163_plain_partial .checked (c := .ofShape ⟨0, 0⟩ [1]) (by decide) (by decide) (one_entry ⟨0, 0⟩ (7 : Int))
      (fun _ => false) (fun _ => false) ⟨[], []⟩
    rcases s with (_ | _) | (_ | _) | (_ | _)
    · obtain ⟨l, q, e⟩ := p1 (by simp)
      have := h1.symm.trans (run_of e)
      rw [(Prod.mk.inj (Except.ok.inj this)).2] at h2
      exact absurd (by simpa using h2) (q.2.2 (by simp))
    · rfl
    · obtain ⟨l, q, e⟩ := p2 (by simp)
      have := h1.symm.trans (run_of e)
      rw [(Prod.mk.inj (Except.ok.inj this)).2] at h2
      exact absurd (by simpa using h2) (q.2.2 (by simp))
    · rfl
    · obtain ⟨l, q, e⟩ := p3 (by simp)
      have := h1.symm.trans (run_of e)
      rw [(Prod.mk.inj (Except.ok.inj this)).2] at h2
      simp at h2
    · rfl

example : OrderedNeverCopies (.binarySearch true) := (C163_iff (.binarySearch true)).1.1 (by decide)

/-- **C163** is false: `lower_bound` without an order needs a copy constructor. -/
theorem C163_not : ¬ C163_statement := fun h => absurd (h (.lowerBound false)) (by decide)

/-- **C163** The searches that compile for elements without copy constructor: those with an order. -/
theorem C163_which_partial (s : OrderedSearch) :
    s.compiles false = true ↔ s = .lowerBound true ∨ s = .upperBound true ∨ s = .binarySearch true := by
  rcases s with (_ | _) | (_ | _) | (_ | _) <;> decide

example : OrderedSearch.compiles (.upperBound true) false = true := (C163_which_partial _).2 (by simp)

end Kwk
