import Verif.Lemmas.StackThrowsStep

/-!
# C157: tables with fully static shape whose elements throw

Programs that catch all exceptions, for every element type and every choice of the calls that throw.
-/

namespace Kwk
open Spec EM Throws

variable {α : Type} {K : ElemKind α} {throws : Nat → Bool} {ext : Ptr → Prop} {ty : ElemType}

/-- `f` and `s` are the tables and the elements after some program that was not terminated. -/
def ReachedE (K : ElemKind α) (throws : Nat → Bool) (ext : Ptr → Prop) (f : Frame) (s : Elems α) : Prop :=
  ∃ f0 ops s0, EmptyFrame ext f0 ∧ SourcesAliveE ext K throws f0 ops s0 ∧ runE K throws f0 ops s0 = (some f, s)

private theorem reached_inv {f : Frame} {s : Elems α} (h : ReachedE K throws ext f s) : FrameInv ext f := by
  obtain ⟨f0, ops, s0, h0, hs, hr⟩ := h
  exact (runE_respects (ty := ⟨true⟩) (empty_inv h0) hs hr).1

/-- The full claim: an exception of an element goes to the caller, and the tables have the elements they had, but for moves.  False
(`C157_statement_false`). -/
def C157_statement : Prop :=
  ∀ (α : Type) (K : ElemKind α) (throws : Nat → Bool) (ext : Ptr → Prop) (f : Frame) (s : Elems α) (op : ThrowOp α),
    ReachedE K throws ext f s → SourceAlive ext f op →
      (stepE K throws f op s).1 ≠ .error .terminate ∧
      ∀ s', stepE K throws f op s = (.error .exception, s') → ∃ k, contents f s'.val = partEffect K (contents f s.val) k op

/-- **C157** What happens, exactly: if one of the first `callsOutside` calls of constructors and assignment operators throws, the exception
goes to the caller; else, if one of the `callsInside` calls after them throws, the program is terminated; else the operation is done. -/
theorem C157_outcome {f : Frame} {s : Elems α} (h : ReachedE K throws ext f s) {op : ThrowOp α} (hs : SourceAlive ext f op) :
    let out := callsOutside (contents f s.val) op
    let ins := callsInside (contents f s.val) op
    ((∃ f' s', stepE K throws f op s = (.ok f', s')) ↔ Quiet throws s.calls (out + ins)) ∧
    ((∃ s', stepE K throws f op s = (.error .exception, s')) ↔ ¬ Quiet throws s.calls out) ∧
    ((∃ s', stepE K throws f op s = (.error .terminate, s')) ↔ Quiet throws s.calls out ∧ ¬ Quiet throws (s.calls + out) ins) := by
  dsimp only
  have hi := reached_inv h
  by_cases h1 : Quiet throws s.calls (callsOutside (contents f s.val) op)
  · by_cases h2 : Quiet throws s.calls (callsOutside (contents f s.val) op + callsInside (contents f s.val) op)
    · obtain ⟨s1, e, -⟩ := stepE_ok (K := K) hi hs h2
      have h3 := (quiet_add.1 h2).2
      rw [e]
      exact ⟨⟨fun _ => h2, fun _ => ⟨_, _, rfl⟩⟩, ⟨fun ⟨_, e⟩ => (by cases e), fun n => absurd h1 n⟩,
        ⟨fun ⟨_, e⟩ => (by cases e), fun n => absurd h3 n.2⟩⟩
    · obtain ⟨s1, e⟩ := stepE_terminate (K := K) hi hs h1 h2
      rw [e]
      exact ⟨⟨fun ⟨_, _, e⟩ => (by cases e), fun n => absurd n h2⟩, ⟨fun ⟨_, e⟩ => (by cases e), fun n => absurd h1 n⟩,
        ⟨fun _ => ⟨h1, fun h3 => h2 (quiet_add.2 ⟨h1, h3⟩)⟩, fun _ => ⟨_, rfl⟩⟩⟩
  · obtain ⟨s1, es, k, e, -⟩ := stepE_fail (K := K) (ty := ⟨true⟩) hi hs h1
    rw [e]
    exact ⟨⟨fun ⟨_, _, e⟩ => (by cases e), fun n => absurd (quiet_add.1 n).1 h1⟩, ⟨fun _ => h1, fun _ => ⟨_, rfl⟩⟩,
      ⟨fun ⟨_, e⟩ => (by cases e), fun n => absurd n.1 h1⟩⟩

/-- **C157** An operation of which nothing throws: the tables have the elements they should have, `callsOutside + callsInside` constructors
and assignment operators were called, and nothing else changed. -/
theorem C157_effect {f f' : Frame} {s s' : Elems α} (h : ReachedE K throws ext f s) {op : ThrowOp α} (hs : SourceAlive ext f op)
    (hr : stepE K throws f op s = (.ok f', s')) :
    contents f' s'.val = effect K s.val (contents f s.val) op ∧
      s'.calls = s.calls + (callsOutside (contents f s.val) op + callsInside (contents f s.val) op) ∧ ∀ q, ext q → s'.val q = s.val q := by
  have hq := (C157_outcome h hs).1.1 ⟨f', s', hr⟩
  obtain ⟨s1, e, c, -, v, w⟩ := stepE_ok (K := K) (reached_inv h) hs hq
  rw [e] at hr
  cases hr
  exact ⟨v, c, w⟩

/-- **C157** An exception that goes to the caller: it comes from the first call that throws, number `k` of the operation, after which nothing
is called; the tables have the elements they had, except that after a move the first `k` elements of the source are moved; nothing else
changed.  (Missing from `C157_statement`: the exceptions that end the program.) -/
theorem C157_exception_partial {f : Frame} {s s' : Elems α} (h : ReachedE K throws ext f s) {op : ThrowOp α} (hs : SourceAlive ext f op)
    (hr : stepE K throws f op s = (.error .exception, s')) :
    ∃ k, Quiet throws s.calls k ∧ throws (s.calls + k) = true ∧ s'.calls = s.calls + (k + 1) ∧
      contents f s'.val = partEffect K (contents f s.val) k op ∧ ∀ q, ext q → s'.val q = s.val q := by
  have hq := (C157_outcome h hs).2.1.1 ⟨s', hr⟩
  obtain ⟨s1, es, k, e, -, -, ⟨-, q1, q2⟩, v, w⟩ := stepE_fail (K := K) (ty := ⟨true⟩) (reached_inv h) hs hq
  rw [e] at hr
  cases hr
  have hc := counts_step (K := K) (throws := throws) f op s
  rw [e] at hc
  obtain ⟨k', c, q1', q2'⟩ := hc
  obtain rfl := first_unique q1 q2 q1' q2'
  exact ⟨k, q1, q2, c, v, w⟩

/-- **C157** An exception during anything but a move leaves every table as it was. -/
theorem C157_strong {f : Frame} {s s' : Elems α} (h : ReachedE K throws ext f s) {op : ThrowOp α} (hs : SourceAlive ext f op)
    (hr : stepE K throws f op s = (.error .exception, s')) (hm : ∀ x y, op ≠ .move x y ∧ op ≠ .moveAssign x y) :
    contents f s'.val = contents f s.val := by
  obtain ⟨k, -, -, -, v, -⟩ := C157_exception_partial h hs hr
  rw [v]
  cases op with
  | move x y => exact absurd rfl (hm x y).1
  | moveAssign x y => exact absurd rfl (hm x y).2
  | _ => rfl

/-- **C157** In every program that catches all exceptions and is not terminated: every element is constructed before it is used, no element is
used after its destruction, and no element is lost, whichever calls throw.  After the program the objects are the elements of the tables
that exist, and what was there before. -/
theorem C157_programs {f f' : Frame} {s s' : Elems α} (h : EmptyFrame ext f) {ops : List (ThrowOp α)}
    (hs : SourcesAliveE ext K throws f ops s) (hl : s.log = []) (hr : runE K throws f ops s = (some f', s')) :
    Respects ty (AllElements ext f) s'.log (AllElements ext f') := by
  obtain ⟨-, es, l, r⟩ := runE_respects (ty := ty) (empty_inv h) hs hr
  rw [l, hl]
  exact r

/-- **C157** Once all tables are gone, every place had as many constructions as destructions, whichever calls threw. -/
theorem C157_balance {f f' : Frame} {s s' : Elems α} (h : EmptyFrame ext f) {ops : List (ThrowOp α)}
    (hs : SourcesAliveE ext K throws f ops s) (hl : s.log = []) (hr : runE K throws f ops s = (some f', s'))
    (he : ∀ x, f'.objs x = none) (p : Ptr) : s'.log.count (.construct p) = s'.log.count (.destroy p) := by
  have h1 := respects_balance (ty := ⟨false⟩) rfl (C157_programs (ty := ⟨false⟩) h hs hl hr) p
  have e : AllElements ext f p = AllElements ext f' p := all_congr (or_congr Iff.rfl (by
    constructor
    · rintro ⟨x, o, hx, -⟩; rw [h.noTable] at hx; cases hx
    · rintro ⟨x, o, hx, -⟩; rw [he] at hx; cases hx))
  rw [e] at h1
  exact Nat.add_right_cancel h1

/-! ### Programs that are terminated -/

/-- Elements that are `0` by default and after a move. -/
def exKind157 : ElemKind Int := ⟨0, fun _ => 0⟩

/-- The values before the program: `1, 2, ...` in every block. -/
def exElems157 : Elems Int := ⟨fun p => p.off + 1, 0, []⟩

/-- Call `n` throws. -/
def throwAt (n : Nat) : Nat → Bool := fun k => k == n

/-- No table; the first block is used by the rest of the program. -/
def exFrame157 : Frame := ⟨fun _ => none, 1⟩

theorem exFrame157_empty : EmptyFrame (InBlock 0 3) exFrame157 := ⟨fun _ => rfl, fun p h => by have := h.1; simp [exFrame157, this]⟩

/-- Default constructed tables, swaps and copies of tables end the program when an element throws. -/
theorem C157_statement_false : ¬ C157_statement := by
  intro H
  refine (H Int exKind157 (throwAt 1) (InBlock 0 3) exFrame157 exElems157 (.dflt 0 2) ⟨exFrame157, [], exElems157, exFrame157_empty, trivial, rfl⟩
    trivial).1 ?_
  rfl

/-- Default constructed tables, swaps, and both kinds of copies: the last call of each that throws. -/
example : (runE exKind157 (throwAt 3) exFrame157 [.dflt 0 2, .dflt 1 2] exElems157).1.isNone = true := by decide +kernel

example : (runE exKind157 (throwAt 9) exFrame157 [.dflt 0 2, .dflt 1 2, .swap 0 1] exElems157).1.isNone = true := by decide +kernel

example : (runE exKind157 (throwAt 13) exFrame157 [.dflt 0 2, .dflt 1 2, .copyAssign 0 1] exElems157).1.isNone = true := by decide +kernel

example : (runE exKind157 (throwAt 11) exFrame157 [.dflt 0 2, .assignFrom 0 ⟨0, 1⟩] exElems157).1.isNone = true := by decide +kernel

/-! ### A program whose calls throw -/

/-- Exceptions during a copy, a move, two assignments and a write. -/
def exThrows157 : Nat → Bool := fun n => n ∈ [10, 13, 18, 20, 21]

/-- The first part of the program, then the rest. -/
def exStart157 : List (ThrowOp Int) := [.make 0 3 (some ⟨0, 0⟩), .dflt 1 3]

/-- See `exThrows157`. -/
def exRest157 : List (ThrowOp Int) :=
  [.copy 2 0, .move 2 0, .copyAssign 1 0, .moveAssign 1 0, .write 0 1 5, .write 0 1 6, .destroy 0, .destroy 1]

private theorem free_sources {f : Frame} {ops : List (ThrowOp α)} (h : ∀ op ∈ ops, ∀ f, SourceAlive ext f op) (s : Elems α) :
    SourcesAliveE ext K throws f ops s := by
  induction ops generalizing f s with
  | nil => trivial
  | cons op ops ih =>
    refine ⟨h op (by simp) f, ?_⟩
    split
    · exact ih (fun o ho => h o (by simp [ho])) _
    · exact ih (fun o ho => h o (by simp [ho])) _
    · trivial

private theorem ex_sources (ops : List (ThrowOp Int)) (h : ∀ op ∈ ops, ∀ f, SourceAlive (InBlock 0 3) f op) (t : Nat → Bool) :
    SourcesAliveE (InBlock 0 3) exKind157 t exFrame157 (.make 0 3 (some ⟨0, 0⟩) :: ops) exElems157 := by
  refine ⟨fun k hk => .inl ⟨rfl, by simp [Ptr.add], by simp [Ptr.add]; omega⟩, ?_⟩
  split
  · exact free_sources h _
  · exact free_sources h _
  · trivial

/-- The tables after a program that was not terminated. -/
def endFrame (t : Nat → Bool) (ops : List (ThrowOp Int)) (h : (runE exKind157 t exFrame157 ops exElems157).1.isSome = true) : Frame :=
  (runE exKind157 t exFrame157 ops exElems157).1.get h

private theorem endFrame_run {t : Nat → Bool} {ops : List (ThrowOp Int)} (h : (runE exKind157 t exFrame157 ops exElems157).1.isSome = true) :
    runE exKind157 t exFrame157 ops exElems157 = (some (endFrame t ops h), (runE exKind157 t exFrame157 ops exElems157).2) := by
  rw [endFrame, Option.some_get]

private theorem ex_free : ∀ op ∈ (ThrowOp.dflt 1 3 :: exRest157 : List (ThrowOp Int)), ∀ f, SourceAlive (InBlock 0 3) f op := by
  intro op ho f
  simp only [exRest157, List.mem_cons, List.not_mem_nil, or_false] at ho
  rcases ho with rfl | rfl | rfl | rfl | rfl | rfl | rfl | rfl | rfl <;> trivial

/-- The program is not terminated. -/
theorem exRun157 : (runE exKind157 exThrows157 exFrame157 (exStart157 ++ exRest157) exElems157).1.isSome = true := by decide +kernel

example : Respects ⟨false⟩ (AllElements (InBlock 0 3) exFrame157) (runE exKind157 exThrows157 exFrame157 (exStart157 ++ exRest157) exElems157).2.log
    (AllElements (InBlock 0 3) (endFrame exThrows157 _ exRun157)) :=
  C157_programs exFrame157_empty (ex_sources _ ex_free _) rfl (endFrame_run exRun157)

/-- Operations do not touch the tables they do not name. -/
private theorem run_unnamed {x : Nat} {f f' : Frame} {ops : List (ThrowOp α)} {s s' : Elems α}
    (h : ∀ op ∈ ops, ∀ f : Frame, (f.step (toStack op)).2.objs x = f.objs x) (hi : FrameInv ext f)
    (hs : SourcesAliveE ext K throws f ops s) (hr : runE K throws f ops s = (some f', s')) : f'.objs x = f.objs x := by
  induction ops generalizing f s with
  | nil => cases hr; rfl
  | cons op ops ih =>
    obtain ⟨h1, h2⟩ := hs
    simp only [runE] at hr
    rcases hst : stepE K throws f op s with ⟨r, s1⟩
    rw [hst] at hr h2
    match r with
    | .ok f1 =>
      rw [ih (fun o ho => h o (by simp [ho])) (stepE_respects (ty := ⟨true⟩) hi h1 (.inl hst)).1 h2 hr, ← h op (by simp) f]
      by_cases q : Quiet throws s.calls (callsOutside (contents f s.val) op + callsInside (contents f s.val) op)
      · obtain ⟨s2, e, -⟩ := stepE_ok (K := K) hi h1 q
        rw [e] at hst; cases hst; rfl
      · by_cases q1 : Quiet throws s.calls (callsOutside (contents f s.val) op)
        · obtain ⟨s2, e⟩ := stepE_terminate (K := K) hi h1 q1 q
          rw [e] at hst; cases hst
        · obtain ⟨s2, es, k, e, -⟩ := stepE_fail (K := K) (ty := ⟨true⟩) hi h1 q1
          rw [e] at hst; cases hst
    | .error .exception => exact ih (fun o ho => h o (by simp [ho])) hi h2 hr
    | .error .terminate => cases hr

/-- A short program: the third element of a copy throws, its elements are destroyed, then the first table ends. -/
def exShort157 : List (ThrowOp Int) := [.make 0 3 (some ⟨0, 0⟩), .copy 1 0, .destroy 0]

theorem exShort157_run : (runE exKind157 (throwAt 8) exFrame157 exShort157 exElems157).1.isSome = true := by decide +kernel

example (p : Ptr) : (runE exKind157 (throwAt 8) exFrame157 exShort157 exElems157).2.log.count (.construct p) =
    (runE exKind157 (throwAt 8) exFrame157 exShort157 exElems157).2.log.count (.destroy p) := by
  refine C157_balance exFrame157_empty (ex_sources _ (fun op ho f => ?_) _) rfl (endFrame_run exShort157_run) (fun x => ?_) p
  · simp only [List.mem_cons, List.not_mem_nil, or_false] at ho
    rcases ho with rfl | rfl <;> trivial
  · by_cases hx : x = 0
    · subst hx; exact Option.isNone_iff_eq_none.1 (by decide +kernel)
    · by_cases hx1 : x = 1
      · subst hx1; exact Option.isNone_iff_eq_none.1 (by decide +kernel)
      · refine run_unnamed (ops := exShort157) (fun op ho f => ?_) (empty_inv exFrame157_empty) (ex_sources _ (fun op ho f => ?_) _)
          (endFrame_run exShort157_run)
        · simp only [exShort157, List.mem_cons, List.not_mem_nil, or_false] at ho
          rcases ho with rfl | rfl | rfl <;> simp only [toStack, Frame.step] <;> split <;>
            simp [Frame.add, upd_ne _ _ hx, upd_ne _ _ hx1]
        · simp only [List.mem_cons, List.not_mem_nil, or_false] at ho
          rcases ho with rfl | rfl <;> trivial

example : (runE exKind157 (throwAt 8) exFrame157 exShort157 exElems157).2.log.length = 20 := by decide +kernel

/-! ### Single operations -/

/-- A table with the values `1, 2, 3`. -/
def exOne157 : List (ThrowOp Int) := [.make 0 3 (some ⟨0, 0⟩)]

theorem exOne157_run : (runE exKind157 (throwAt 8) exFrame157 exOne157 exElems157).1.isSome = true := by decide +kernel

theorem exReached157 : ReachedE exKind157 (throwAt 8) (InBlock 0 3) (endFrame (throwAt 8) exOne157 exOne157_run)
    (runE exKind157 (throwAt 8) exFrame157 exOne157 exElems157).2 :=
  ⟨exFrame157, exOne157, exElems157, exFrame157_empty, ex_sources [] (by simp) _, endFrame_run exOne157_run⟩

/-- The third element of a move throws; the values of the calls before and after. -/
example : ∃ s', stepE exKind157 (throwAt 8) (endFrame (throwAt 8) exOne157 exOne157_run) (.move 1 0)
    (runE exKind157 (throwAt 8) exFrame157 exOne157 exElems157).2 = (.error .exception, s') :=
  (C157_outcome (op := .move 1 0) exReached157 trivial).2.1.2 (fun h => absurd (h 2 (by decide +kernel)) (by decide +kernel))

/-- Then two elements of the source are moved. -/
example : ∀ s', stepE exKind157 (throwAt 8) (endFrame (throwAt 8) exOne157 exOne157_run) (.move 1 0)
    (runE exKind157 (throwAt 8) exFrame157 exOne157 exElems157).2 = (.error .exception, s') →
      contents (endFrame (throwAt 8) exOne157 exOne157_run) s'.val 0 = some [0, 0, 3] := by
  intro s' h
  obtain ⟨k, q1, q2, -, v, -⟩ := C157_exception_partial (op := .move 1 0) exReached157 trivial h
  have hc : (runE exKind157 (throwAt 8) exFrame157 exOne157 exElems157).2.calls = 6 := by decide +kernel
  rw [hc] at q2
  obtain rfl : k = 2 := by
    simp [throwAt] at q2; omega
  rw [v]
  decide +kernel

/-- A copy that throws leaves the table as it was. -/
example : ∀ s', stepE exKind157 (throwAt 8) (endFrame (throwAt 8) exOne157 exOne157_run) (.copy 1 0)
    (runE exKind157 (throwAt 8) exFrame157 exOne157 exElems157).2 = (.error .exception, s') →
      contents (endFrame (throwAt 8) exOne157 exOne157_run) s'.val 0 = some [1, 2, 3] := by
  intro s' h
  rw [C157_strong (op := .copy 1 0) exReached157 trivial h (by simp)]
  decide +kernel

/-- A write that does not throw. -/
example : ∀ f' s', stepE exKind157 (throwAt 8) (endFrame (throwAt 8) exOne157 exOne157_run) (.write 0 1 9)
    (runE exKind157 (throwAt 8) exFrame157 exOne157 exElems157).2 = (.ok f', s') → contents f' s'.val 0 = some [1, 9, 3] := by
  intro f' s' h
  rw [(C157_effect (op := .write 0 1 9) exReached157 trivial h).1]
  decide +kernel

end Kwk
