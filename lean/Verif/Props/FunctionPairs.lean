import Verif.Lemmas.FunctionPairs
import Verif.Lemmas.Witnesses

/-!
# Property C162: function objects of the numeric algorithms
-/

namespace Kwk
open Spec

variable {α β γ σ τ : Type}

/-- **C162** `transform_reduce` and `inner_product` with functions whose calls change them: the sum after the last element, each function
having seen its calls in order; the caller's objects are left as they were. -/
theorem C162_sums [Nonempty α] (ctx constOp : Bool) (md : Mode) {a b : Container} {m : Mem α} {xs ys : List α} (hs : a.shape = b.shape)
    (ha : Lists a m xs) (hb : Lists b m ys) (init : β) (R : σ → β → γ → β × σ) (T : τ → α → α → γ × τ) (s : σ) (t : τ) :
    ∃ r, (runningSums R (fun t (xy : α × α) => T t xy.1 xy.2) init s t (xs.zip ys)).getLast? = some r ∧
      transformReduceBy ctx constOp m a b init R T (s, t) = some (.ok (r, s, t)) ∧
      innerProductBy ctx constOp md m a b init R T (s, t) = some (.ok (r, s, t)) := by
  refine ⟨_, runningSums_last R (fun t (xy : α × α) => T t xy.1 xy.2) init s t (xs.zip ys), ?_, ?_⟩
  · have h := (C117_reading_two hs ha hb (addBy R fun t (xy : α × α) => T t xy.1 xy.2) Prod.mk (init, s, t) md).1
    have e : transformReduceBy ctx constOp m a b init R T (s, t) =
        some (transformReduce m a b (init, s, t) (addBy R fun t (xy : α × α) => T t xy.1 xy.2) Prod.mk >>= fun r => pure (r.1, s, t)) := by
      cases ctx <;> rfl
    rw [e, h]
    rfl
  · have h := (C117_reading_two hs ha hb (addBy R fun t (xy : α × α) => T t xy.1 xy.2) Prod.mk (init, s, t) md).2
    have e : innerProductBy ctx constOp md m a b init R T (s, t) =
        some (innerProduct md m a b (init, s, t) (addBy R fun t (xy : α × α) => T t xy.1 xy.2) Prod.mk >>= fun r => pure (r.1, s, t)) := by
      cases ctx <;> rfl
    rw [e, h]
    rfl

-- weights 1, 2, 3, 4 kept by the second function, and a first one that adds and subtracts in turns: 1 - 4 + 9 - 16
example : transformReduceBy true false exMem exView exView (0 : Int) (fun (s : Bool) a d => (if s then a - d else a + d, !s))
    (fun (t : Int) x _ => (t * x, t + 1)) (false, 1) = some (.ok (-10, false, 1)) := by
  obtain ⟨r, h1, h2, -⟩ := C162_sums true false .checked rfl exLists exLists (0 : Int)
    (fun (s : Bool) a d => (if s then a - d else a + d, !s)) (fun (t : Int) x _ => (t * x, t + 1)) false 1
  obtain rfl : -10 = r := Option.some.inj h1
  exact h2

/-- **C162** The scans with functions whose calls change them. -/
theorem C162_scans [Nonempty α] (ctx constOp : Bool) {out inp : Container} {m : Mem α} {xs : List α} (hs : out.shape = inp.shape)
    (hd : Distinct out) (hv : Valid out m) (hdis : ∀ p q, InBox out.shape p → InBox out.shape q → inp.addr p ≠ out.addr q)
    (hx : Lists inp m xs) (init : α) (f1 : σ → α → γ → α × σ) (f2 : τ → α → γ × τ) (s : σ) (t : τ) :
    (∃ m', transformInclusiveScanBy ctx constOp m inp out init f1 f2 (s, t) = some (.ok (m', s, t)) ∧
      Lists out m' (runningSums f1 f2 init s t xs).tail ∧ SameOutside out m m') ∧
    ∃ m', transformExclusiveScanBy ctx constOp m inp out init f1 f2 (s, t) = some (.ok (m', s, t)) ∧
      Lists out m' (runningSums f1 f2 init s t xs).dropLast ∧ SameOutside out m m' := by
  obtain ⟨val, he, rfl⟩ := lists_elems hx
  constructor
  · obtain ⟨m', st', h1, h2, h3⟩ := inclusive_loop hs hd hv hdis he init f1 f2 (s, t)
    refine ⟨m', ?_, h2, h3⟩
    cases ctx <;>
    · show some (inclusiveLoop m inp out init f1 f2 (s, t) >>= _) = _
      rw [h1]
      rfl
  · obtain ⟨m', st', h1, h2, h3⟩ := exclusive_loop hs hd hv hdis he init f1 f2 (s, t)
    refine ⟨m', ?_, h2, h3⟩
    cases ctx <;>
    · show some (exclusiveLoop m inp out init f1 f2 (s, t) >>= _) = _
      rw [h1]
      rfl

theorem exTwo_lists : Lists exIn exTwo [1, 2, 3, 4] := rfl

theorem exIn_apart : ∀ p q, InBox exOut.shape p → InBox exOut.shape q → exIn.addr p ≠ exOut.addr q :=
  fun p q hp hq => (ex_disjoint q p hq hp).symm

-- 10, 10 + 1, 10 + 1 - 2, 10 + 1 - 2 + 3
example : ∃ m', transformExclusiveScanBy false false exTwo exIn exOut 10 (fun (s : Bool) a d => (if s then a - d else a + d, !s))
    (fun (t : Unit) x => (x, t)) (false, ()) = some (.ok (m', false, ())) ∧ Lists exOut m' [10, 11, 9, 12] :=
  let ⟨m', h1, h2, _⟩ := (C162_scans false false (out := exOut) (inp := exIn) rfl exOut_distinct exOut_valid exIn_apart exTwo_lists 10
    (fun (s : Bool) a d => (if s then a - d else a + d, !s)) (fun (t : Unit) x => (x, t)) false ()).2
  ⟨m', h1, h2⟩

/-- **C162** The scans with one function: the elements themselves are added. -/
theorem C162_scans_one [Nonempty α] (ctx constOp : Bool) {out inp : Container} {m : Mem α} {xs : List α} (hs : out.shape = inp.shape)
    (hd : Distinct out) (hv : Valid out m) (hdis : ∀ p q, InBox out.shape p → InBox out.shape q → inp.addr p ≠ out.addr q)
    (hx : Lists inp m xs) (init : α) (f : σ → α → α → α × σ) (s : σ) :
    (∃ m', inclusiveScanBy ctx constOp m inp out init f (s, ()) = some (.ok (m', s, ())) ∧
      Lists out m' ((xs.scanl (fun r x => f r.2 r.1 x) (init, s)).map (·.1)).tail ∧ SameOutside out m m') ∧
    ∃ m', exclusiveScanBy ctx constOp m inp out init f (s, ()) = some (.ok (m', s, ())) ∧
      Lists out m' ((xs.scanl (fun r x => f r.2 r.1 x) (init, s)).map (·.1)).dropLast ∧ SameOutside out m m' := by
  have key : ∀ (b : α) (s : σ) (xs : List α), runningSums f (fun _ e => (e, ())) b s () xs =
      (xs.scanl (fun r x => f r.2 r.1 x) (b, s)).map (·.1) := by
    intro b s xs
    induction xs generalizing b s with
    | nil => simp [runningSums]
    | cons x xs ih =>
      unfold runningSums
      rw [List.scanl_cons, List.map_cons, ← ih]
  rw [← key]
  obtain ⟨val, he, rfl⟩ := lists_elems hx
  constructor
  · obtain ⟨m', st', h1, h2, h3⟩ := inclusive_loop hs hd hv hdis he init f (fun _ e => (e, ())) (s, ())
    refine ⟨m', ?_, h2, h3⟩
    cases ctx <;>
    · show some (inclusiveLoop m inp out init f (fun _ e => (e, ())) (s, ()) >>= _) = _
      rw [h1]
      rfl
  · obtain ⟨m', st', h1, h2, h3⟩ := exclusive_loop hs hd hv hdis he init f (fun _ e => (e, ())) (s, ())
    refine ⟨m', ?_, h2, h3⟩
    cases ctx <;>
    · show some (exclusiveLoop m inp out init f (fun _ e => (e, ())) (s, ()) >>= _) = _
      rw [h1]
      rfl

example : ∃ m', inclusiveScanBy true false exTwo exIn exOut 10 (fun (s : Bool) a d => (if s then a - d else a + d, !s)) (false, ()) =
    some (.ok (m', false, ())) ∧ Lists exOut m' [11, 9, 12, 8] :=
  let ⟨m', h1, h2, _⟩ := (C162_scans_one true false (out := exOut) (inp := exIn) rfl exOut_distinct exOut_valid exIn_apart exTwo_lists 10
    (fun (s : Bool) a d => (if s then a - d else a + d, !s)) false).1
  ⟨m', h1, h2⟩

end Kwk
