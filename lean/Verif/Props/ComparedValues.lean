import Verif.Lemmas.ComparedValues
import Verif.Props.Sequences

/-!
# Property C164: values that are only compared need not be copyable
-/

namespace Kwk
open Spec

variable {α : Type}

/-- The full property: the algorithms that only compare a value compile for a value that can be moved but not copied, if it is given up
by the caller. -/
def C164_statement : Prop := ∀ s : Comparing, s.compiles .rvalue false = true

/-- **C164** `find`, `find_last`, `count` and `replace`: their results, and how often they copy the value. -/
theorem C164_scans_partial [Nonempty α] [DecidableEq α] {c : Container} {m : Mem α} {xs : List α} (h : Lists c m xs) (v : α)
    (g : GivenAs) (n : Nat) :
    findCtxVal m c v g n = .ok ((xs.findIdx? fun x => decide (x = v)).bind (place c.shape), n + ofCaller g) ∧
    findVal m c v g n = .ok ((xs.findIdx? fun x => decide (x = v)).bind (place c.shape), n + ofCaller g + 1) ∧
    (c.Default → findLastCtxVal m c v g n =
      .ok ((xs.reverse.findIdx? fun x => decide (x = v)).bind fun k => place c.shape (xs.length - 1 - k), n + ofCaller g)) ∧
    (c.Default → findLastVal m c v g n =
      .ok ((xs.reverse.findIdx? fun x => decide (x = v)).bind fun k => place c.shape (xs.length - 1 - k), n + ofCaller g + 1)) ∧
    countCtxVal m c v g n = .ok (xs.count v, n + ofCaller g + 1) ∧
    countVal m c v g n = .ok (xs.count v, n + ofCaller g + 2) ∧
    (Distinct c → ∀ new, ∃ m', Lists c m' (xs.map fun x => if x = v then new else x) ∧ SameOutside c m m' ∧
      replaceCtxVal m c v new g n = .ok (m', n + ofCaller g + 2) ∧ replaceVal m c v new g n = .ok (m', n + ofCaller g + 3)) := by
  have hf := (C117_find h (fun _ => true) v).2.2
  have hc := (C117_reading h (fun _ => true) v (fun (a : Nat) _ => a) 0).2.2.2.2.2
  have f1 : ∀ g n, findCtxVal m c v g n = .ok ((xs.findIdx? fun x => decide (x = v)).bind (place c.shape), n + ofCaller g) := by
    intro g n
    unfold findCtxVal
    rw [takeValue_then, noCopies_ok hf]
  have c1 : ∀ g n, countCtxVal m c v g n = .ok (xs.count v, n + ofCaller g + 1) := by
    intro g n
    unfold countCtxVal
    rw [takeValue_then, takeValue_then, noCopies_ok hc]
    rfl
  have l1 : c.Default → ∀ g n, findLastCtxVal m c v g n =
      .ok ((xs.reverse.findIdx? fun x => decide (x = v)).bind fun k => place c.shape (xs.length - 1 - k), n + ofCaller g) := by
    intro hd g n
    unfold findLastCtxVal
    rw [takeValue_then, noCopies_ok (r := findLast m c v) (C117_find_last hd h fun x => decide (x = v))]
  refine ⟨f1 g n, ?_, fun hd => l1 hd g n, fun hd => ?_, c1 g n, ?_, fun hd new => ?_⟩
  · unfold findVal
    rw [takeValue_then, f1]
    rfl
  · unfold findLastVal
    rw [takeValue_then, l1 hd]
    rfl
  · unfold countVal
    rw [takeValue_then, c1]
    rfl
  · obtain ⟨m', h1, h2, h3⟩ := (C117_writing hd h new new (fun x => x) (fun x => decide (x = v)) (fun _ => new) (fun x : Nat => x)
      (fun _ => new) 0).2.2.1
    have r1 : ∀ g n, replaceCtxVal m c v new g n = .ok (m', n + ofCaller g + 2) := by
      intro g n
      unfold replaceCtxVal replaceIfVal
      rw [takeValue_then, takeValue_then, takeValue_then, takeValue_then, noCopies_ok h1]
      rfl
    refine ⟨m', by simpa using h2, h3, r1 g n, ?_⟩
    unfold replaceVal
    rw [takeValue_then, r1]
    rfl

example : countVal exMem exView 3 .rvalue 0 = .ok (1, 2) := (C164_scans_partial exLists 3 .rvalue 0).2.2.2.2.2.1

variable [Nonempty α]

/-- **C164** `lower_bound` and `upper_bound`: their results, and how often they copy the value; without an order once for each of the `q`
comparisons. -/
theorem C164_bounds_partial (md : Mode) {c : Container} (hne : c.shape ≠ []) (hn : NonNeg c.shape) {m : Mem α} {xs : List α}
    (h : Lists c m xs) (lt : α → α → Bool) (v : α) (ctx order : Bool) (g : GivenAs) (n : Nat) :
    (xs.Pairwise (fun a b => lt b v = true → lt a v = true) → ∃ q, (order = false → Comparisons xs.length q) ∧
      orderedVal (lowerCtxVal md m c v) lt ctx order g n = .ok (place c.shape (xs.countP fun e => lt e v),
        n + ofCaller g + (if ctx then 0 else 1) + if order then 0 else 1 + q)) ∧
    (xs.Pairwise (fun a b => lt v a = true → lt v b = true) → ∃ q, (order = false → Comparisons xs.length q) ∧
      orderedVal (upperCtxVal md m c v) lt ctx order g n = .ok (place c.shape (xs.countP fun e => !lt v e),
        n + ofCaller g + (if ctx then 0 else 1) + if order then 0 else 1 + q)) := by
  constructor
  · intro hp
    refine ordered_val (k := 0) (P := Comparisons xs.length) (fun g n => ?_) (fun n => ?_) ctx order g n
    · unfold lowerCtxVal
      rw [takeValue_then]
      exact (C117_bounds md h hne hn v (n + ofCaller g)).1 lt hp
    · obtain ⟨q, hq, h1⟩ := lower_copies md hne hn h lt v hp (n + 1)
      refine ⟨q, hq, ?_⟩
      unfold lowerCtxVal
      rw [takeValue_then]
      exact h1
  · intro hp
    refine ordered_val (k := 0) (P := Comparisons xs.length) (fun g n => ?_) (fun n => ?_) ctx order g n
    · unfold upperCtxVal
      rw [takeValue_then]
      exact (C117_bounds md h hne hn v (n + ofCaller g)).2 lt hp
    · obtain ⟨q, hq, h1⟩ := upper_copies md hne hn h lt v hp (n + 1)
      refine ⟨q, hq, ?_⟩
      unfold upperCtxVal
      rw [takeValue_then]
      exact h1

example : orderedVal (lowerCtxVal .checked exMem exView 3) (fun a b => decide (a < b)) true true .rvalue 5 = .ok (some [1, 0], 5) := by
  obtain ⟨q, -, h⟩ := (C164_bounds_partial .checked (by decide) (by decide) exLists (fun a b => decide (a < b)) 3 true true .rvalue 5).1
    (by decide)
  exact h

/-- **C164** `binary_search` copies the value at least once, for `lower_bound`. -/
theorem C164_binary_search_partial (md : Mode) {c : Container} (hne : c.shape ≠ []) (hn : NonNeg c.shape) {m : Mem α} {xs : List α}
    (h : Lists c m xs) (lt : α → α → Bool) (hlt : StrictWeak lt) (hs : xs.Pairwise fun a b => lt b a = false) (v : α)
    (ctx order : Bool) (g : GivenAs) (n : Nat) :
    ∃ q, (order = false → q ≤ Nat.log 2 xs.length + 2 ∧ (xs ≠ [] → q ≠ 0)) ∧
      orderedVal (binaryCtxVal md m c v) lt ctx order g n = .ok (xs.any fun x => !lt x v && !lt v x,
        n + ofCaller g + (if ctx then 0 else 1) + 1 + if order then 0 else 1 + q) := by
  have hp := sorted_below hlt hs v
  have key : ∀ n, binarySearch md m c v (byReference lt) n = .ok (xs.any fun x => !lt x v && !lt v x, n) :=
    fun n => C117_binary_search md h hne hn lt hlt hs v n
  refine ordered_val (k := 1) (P := fun q => q ≤ Nat.log 2 xs.length + 2 ∧ (xs ≠ [] → q ≠ 0)) (fun g n => ?_) (fun n => ?_) ctx order g n
  · unfold binaryCtxVal lowerCtxVal
    rw [takeValue_then]
    exact key (n + ofCaller g + 1)
  · obtain ⟨q, hq, h1⟩ := lower_copies md hne hn h lt v hp (n + 1 + 1)
    have h0 := (C117_bounds md h hne hn v n).1 lt hp
    have k0 := key n
    unfold binarySearch at k0
    change (lowerBound md m c v (byReference lt) n >>= _) = _ at k0
    rw [show lowerBound md m c v (byReference lt) n = _ from h0] at k0
    unfold binaryCtxVal lowerCtxVal
    rw [takeValue_then]
    cases hr : place c.shape (xs.countP fun e => lt e v) with
    | none =>
      rw [hr] at k0 h1
      refine ⟨q, ⟨by have := hq.1; omega, fun hx => hq.2 (by simpa using hx)⟩, ?_⟩
      show (lowerBound md m c v (byCopies lt) (n + 1 + 1) >>= _) = _
      rw [h1, ← (Prod.mk.inj (Except.ok.inj k0)).1]
      rfl
    | some p =>
      rw [hr] at k0 h1
      refine ⟨q + 1, ⟨by have := hq.1; omega, fun _ => by omega⟩, ?_⟩
      show (lowerBound md m c v (byCopies lt) (n + 1 + 1) >>= _) = _
      rw [h1]
      change ((c.get m p >>= fun e => Except.ok (e, n)) >>= _) = _ at k0
      show ((c.get m p >>= fun e => Except.ok (e, n + 1 + 1 + q)) >>= _) = _
      cases hg : c.get m p with
      | error e => rw [hg] at k0; cases k0
      | ok e =>
        rw [hg] at k0
        rw [← (Prod.mk.inj (Except.ok.inj k0)).1]
        rfl

example : ∃ q, q ≠ 0 ∧ orderedVal (binaryCtxVal .checked exMem exView 3) (fun a b => decide (a < b)) false false .lvalue 0 =
    .ok (true, 4 + q) := by
  obtain ⟨q, h1, h⟩ := C164_binary_search_partial .checked (by decide) (by decide) exLists (fun a b => decide (a < b))
    ⟨by simp, fun a b c => by simp; omega, fun a b c => by simp; omega⟩ (by decide) 3 false false .lvalue 0
  refine ⟨q, (h1 rfl).2 (by simp), h.trans ?_⟩
  show Except.ok (true, 0 + 1 + 1 + 1 + (1 + q)) = _
  congr 2
  omega

omit [Nonempty α] in
private theorem run_val {β : Type} {x : Copying β} {n n' : Nat} {r : β} (h : x n = .ok (r, n')) :
    (x >>= fun _ => pure () : Copying Unit) n = .ok ((), n') := by
  show (x n >>= _) = _
  rw [h]
  rfl

omit [Nonempty α] in
/-- **C164** A call compiles for a value without copy constructor exactly if no such call ever copies its value; with one, all compile. -/
theorem C164_iff (s : Comparing) (g : GivenAs) : (s.compiles g false = true ↔ NeverCopiesValue s g) ∧ s.compiles g true = true := by
  refine ⟨⟨?_, ?_⟩, by cases s <;> rfl⟩
  · intro hc md c m xs v new lt n hne hn hd hdi h hlt hs
    cases g with
    | lvalue => simp [Comparing.compiles] at hc
    | rvalue =>
      cases s with
      | find ctx =>
        cases ctx
        · cases hc
        · exact run_val (C164_scans_partial h v .rvalue n).1
      | findLast ctx =>
        cases ctx
        · cases hc
        · exact run_val ((C164_scans_partial h v .rvalue n).2.2.1 hd)
      | count ctx => cases ctx <;> cases hc
      | replace ctx => cases ctx <;> cases hc
      | lowerBound ctx order =>
        cases ctx <;> cases order <;> try cases hc
        obtain ⟨q, -, h1⟩ := (C164_bounds_partial md hne hn h lt v true true .rvalue n).1 (sorted_below hlt hs v)
        exact run_val h1
      | upperBound ctx order =>
        cases ctx <;> cases order <;> try cases hc
        obtain ⟨q, -, h1⟩ := (C164_bounds_partial md hne hn h lt v true true .rvalue n).2 (sorted_above hlt hs v)
        exact run_val h1
      | binarySearch ctx order => cases ctx <;> cases order <;> cases hc
  · intro h
    have h0 := h .checked (.ofShape ⟨0, 0⟩ [1]) (fun q => if q = ⟨0, 0⟩ then some 7 else none) [7] 7 8 (fun a b => decide (a < b)) 0
      (by decide) (by decide) (ofShape_default (by simp)) (by
        intro p q hp hq _
        have hp := mem_positions.2 hp
        have hq := mem_positions.2 hq
        rw [show positions (Container.ofShape ⟨0, 0⟩ [1]).shape = [[0]] from rfl] at hp hq
        rw [List.mem_singleton.1 hp, List.mem_singleton.1 hq]) rfl
      ⟨by simp, fun a b c => by simp; omega, fun a b c => by simp; omega⟩ (by simp)
    revert h0
    cases g <;> rcases s with (_ | _) | (_ | _) | (_ | _) | (_ | _) | ⟨_ | _, _ | _⟩ | ⟨_ | _, _ | _⟩ | ⟨_ | _, _ | _⟩ <;>
      first
        | exact fun _ => rfl
        | exact fun h => absurd (congrArg (fun r : Res (Unit × Nat) => match r with | .ok x => x.2 | .error _ => 0) h) (by decide +kernel)

example : ¬ NeverCopiesValue (.count true) .rvalue := fun h => absurd ((C164_iff _ _).1.2 h) (by decide)

/-- **C164** is false: `count` captures its value by copy. -/
theorem C164_not : ¬ C164_statement := fun h => absurd (h (.count true)) (by decide)

/-- **C164** The calls that compile for a value without copy constructor: with a context, `find` and `find_last`, and with an order besides
`lower_bound` and `upper_bound`. -/
theorem C164_which_partial (s : Comparing) : s.compiles .rvalue false = true ↔
    s = .find true ∨ s = .findLast true ∨ s = .lowerBound true true ∨ s = .upperBound true true := by
  rcases s with (_ | _) | (_ | _) | (_ | _) | (_ | _) | ⟨_ | _, _ | _⟩ | ⟨_ | _, _ | _⟩ | ⟨_ | _, _ | _⟩ <;> decide

example : Comparing.compiles (.lowerBound false true) .rvalue false = false := by
  rw [← Bool.not_eq_true, C164_which_partial]
  decide

end Kwk
