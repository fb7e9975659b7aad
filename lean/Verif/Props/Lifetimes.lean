import Verif.Lemmas.Lifetimes
import Verif.Props.Ownership

/-! # Property C144: the elements of a table live as long as the language wants -/

namespace Kwk
open Spec

variable {α : Type} {ty : ElemType}

/-! ### Fully static tables -/

/-- **C144** Tables of fully static types: in every program, for every element type, every element is constructed before it is used, no
element is used after its destruction, and no element is lost.  After the program the objects are the elements of the tables that still
exist, and what was there before. -/
theorem C144_static {ext : Ptr → Prop} {f : Frame} (h : EmptyFrame ext f) {ops : List StackOp} (hs : SourcesAlive ext f ops) :
    Respects ty (AllElements ext f) (f.trace ops).1 (AllElements ext (f.trace ops).2) := frame_trace (empty_inv h) hs

/-- **C144** Once all tables of fully static types are gone, every place had as many constructions as destructions. -/
theorem C144_static_balance {ext : Ptr → Prop} {f : Frame} (h : EmptyFrame ext f) {ops : List StackOp} (hs : SourcesAlive ext f ops)
    (he : ∀ x, (f.trace ops).2.objs x = none) (p : Ptr) :
    (f.trace ops).1.count (.construct p) = (f.trace ops).1.count (.destroy p) := by
  have h1 := respects_balance (ty := ⟨false⟩) rfl (C144_static (ty := ⟨false⟩) h hs) p
  have e : AllElements ext f p = AllElements ext (f.trace ops).2 p := all_congr (or_congr Iff.rfl (by
    constructor
    · rintro ⟨x, o, hx, -⟩; rw [h.noTable] at hx; cases hx
    · rintro ⟨x, o, hx, -⟩; rw [he] at hx; cases hx))
  rw [e] at h1
  exact Nat.add_right_cancel h1

/-! ### Run-time shaped tables -/

/-- The full claim, for run-time shaped tables: for every element type. -/
def C144_statement : Prop :=
  ∀ (ty : ElemType) (α : Type) (w : World α) (ops : List (Op α)) (es : List Event), Fresh w → w.trace ops = .ok es →
    ∃ s, Respects ty (AliveCells w.mem) es s

/-- **C144** Run-time shaped tables whose elements begin and end without constructors and destructors: every program that does not stop
keeps the rules, and afterwards the objects are the cells of the memory that is left.  Missing: the other element types. -/
theorem C144_dynamic_partial (hi : ty.implicit = true) {w w' : World α} (hw : Fresh w) {ops : List (Op α)} (hr : w.run ops = .ok w') :
    ∃ es, w.trace ops = .ok es ∧ Respects ty (AliveCells w.mem) es (AliveCells w'.mem) := by
  obtain ⟨es, h⟩ := trace_run.2 ⟨w', hr⟩
  refine ⟨es, h, ?_⟩
  have := trace_respects (ty := ty) (fresh_inv hw) h hr (.inl hi)
  rwa [implicit_slots hi, implicit_slots hi] at this

/-- **C144** For the other types the exact condition is that no element of a run-time shaped table is ever given a value.  Missing: programs
that use their tables. -/
theorem C144_exact_partial (hi : ty.implicit = false) {w : World α} (hw : Fresh w) {ops : List (Op α)} {es : List Event}
    (h : w.trace ops = .ok es) : (∃ s, Respects ty (AliveCells w.mem) es s) ↔ ¬ SomeValue w ops := by
  rw [← trace_noAssign h, ← fresh_slots (ty := ty) hw]
  constructor
  · rintro ⟨s, hs⟩
    by_contra hn
    exact trace_unborn (fresh_inv hw) hi h hn hs
  · intro hn
    obtain ⟨w', hr⟩ := trace_run.1 ⟨es, h⟩
    exact ⟨_, trace_respects (fresh_inv hw) h hr (.inr hn)⟩

/-- **C144** Disagreement: no constructor and no destructor of an element ever runs for a run-time shaped table, whatever the type. -/
theorem C144_no_constructor_false (w : World α) (ops : List (Op α)) (es : List Event) (h : w.trace ops = .ok es) (p : Ptr) :
    .construct p ∉ es ∧ .destroy p ∉ es := by
  have hb : ∀ (w : World α) s src e, e ∈ w.buildEvents s src → e ≠ .construct p ∧ e ≠ .destroy p := by
    intro w s src e he
    unfold World.buildEvents at he
    dsimp only at he
    split at he
    · simp at he
    · rcases List.mem_cons.1 he with rfl | he
      · simp
      · split at he
        · simp only [copyEvents, List.mem_flatMap, List.mem_cons, List.not_mem_nil, or_false] at he
          obtain ⟨k, -, rfl | rfl⟩ := he <;> simp
        · simp at he
  have ht : ∀ (t : Table) e, e ∈ t.releaseEvents → e ≠ .construct p ∧ e ≠ .destroy p := by
    intro t e he
    unfold Table.releaseEvents at he
    split at he
    · simp at he
    · rw [List.mem_singleton] at he; subst he; simp
  have hs : ∀ (w : World α) op e, e ∈ w.events op → e ≠ .construct p ∧ e ≠ .destroy p := by
    intro w op e he
    cases op <;> simp only [World.events] at he <;> (repeat' split at he) <;>
      first
      | simp at he; done
      | exact hb _ _ _ _ he
      | exact ht _ _ he
      | (rcases List.mem_append.1 he with h | h
         · exact hb _ _ _ _ h
         · exact ht _ _ h)
      | (rw [List.mem_singleton] at he; subst he; simp)
  have key : ∀ e ∈ es, e ≠ .construct p ∧ e ≠ .destroy p := by
    induction ops generalizing w es with
    | nil => cases h; simp
    | cons op ops ih =>
      obtain ⟨w1, h1⟩ := trace_step h
      obtain ⟨es', h2, rfl⟩ := trace_cons h1 h
      intro e he
      rcases List.mem_append.1 he with h3 | h3
      · exact hs _ _ _ h3
      · exact ih _ _ h2 e h3
  exact ⟨fun h => (key _ h).1 rfl, fun h => (key _ h).2 rfl⟩

/-- The array 1 2 3 4 5 6 copied into a table of shape 2 × 3, which is then destroyed. -/
def exLife : List (Op Int) := [.make 0 heapAlloc [2, 3] (some (some ⟨0, 0⟩)), .destroy 0]

example : ∃ es, exWorld.trace exLife = .ok es ∧ es.length = 14 := by
  refine ⟨_, rfl, by decide⟩

/-- **C144** Disagreement: a table of strings made from an array of strings assigns to strings that were never constructed. -/
theorem C144_statement_false : ¬ C144_statement := by
  intro h
  obtain ⟨es, he⟩ : ∃ es, exWorld.trace exLife = .ok es := ⟨_, rfl⟩
  refine (C144_exact_partial (ty := ⟨false⟩) rfl exWorld_fresh he).1 (h ⟨false⟩ Int exWorld exLife es exWorld_fresh he) ?_
  exact ⟨[], _, _, exWorld, rfl, rfl, rfl, by decide⟩

/-- The table of integers is fine. -/
example : ∃ es, exWorld.trace exLife = .ok es ∧ ∃ s, Respects ⟨true⟩ (AliveCells exWorld.mem) es s := by
  obtain ⟨w', hr⟩ : ∃ w', exWorld.run exLife = .ok w' := ⟨_, rfl⟩
  obtain ⟨es, h1, h2⟩ := C144_dynamic_partial (ty := ⟨true⟩) rfl exWorld_fresh hr
  exact ⟨es, h1, _, h2⟩

/-- A table of six strings that is only made, moved and destroyed. -/
def exIdle : List (Op Int) := [.make 0 heapAlloc [2, 3] none, .move 1 0, .destroy 0, .destroy 1]

/-- It is fine. -/
example : ∃ es, exWorld.trace exIdle = .ok es ∧ ∃ s, Respects ⟨false⟩ (AliveCells exWorld.mem) es s := by
  obtain ⟨es, he⟩ : ∃ es, exWorld.trace exIdle = .ok es := ⟨_, rfl⟩
  refine ⟨es, he, (C144_exact_partial (ty := ⟨false⟩) rfl exWorld_fresh he).2 ?_⟩
  rintro ⟨o1, op, o2, w1, e, -, hg⟩
  have hm : op ∈ exIdle := by rw [e]; simp
  unfold exIdle at hm
  simp only [List.mem_cons, List.not_mem_nil, or_false] at hm
  rcases hm with rfl | rfl | rfl | rfl <;> exact hg

/-- Three tables of two strings: from an array, a copy, an assignment, a swap; all are destroyed. -/
def exStack : List StackOp :=
  [.make 0 2 (some ⟨0, 0⟩), .copy 1 0, .move 2 1, .copyAssign 0 2, .assignFrom 1 ⟨0, 0⟩, .swap 0 1, .write 2 1, .moveAssign 2 0,
    .destroy 1, .destroy 0, .destroy 2]

/-- Two objects outside the tables, no table. -/
def exFrame : Frame := ⟨fun _ => none, 1⟩

theorem exFrame_empty : EmptyFrame (InBlock 0 2) exFrame := ⟨fun _ => rfl, fun p h => by have := h.1; simp [exFrame, this]⟩

theorem exStack_sources : SourcesAlive (InBlock 0 2) exFrame exStack := by
  refine ⟨fun k hk => .inl ⟨rfl, ?_, ?_⟩, trivial, trivial, trivial, fun o ho k hk => .inl ?_, trivial, trivial, trivial, trivial, trivial,
    trivial, trivial⟩
  · simp [Ptr.add]
  · simp only [Ptr.add]; omega
  · have : o.count = 2 := by
      have e : o = ⟨2, 2⟩ := by simpa [exFrame, Frame.step, Frame.add, upd] using ho.symm
      rw [e]
    rw [this] at hk
    exact ⟨rfl, by simp [Ptr.add], by simp only [Ptr.add]; omega⟩

example : ∃ s, Respects ⟨false⟩ (AllElements (InBlock 0 2) exFrame) (exFrame.trace exStack).1 s :=
  ⟨_, C144_static exFrame_empty exStack_sources⟩

/-- 10 strings were constructed in tables and local tables, and 6 in the swaps. -/
example : ((exFrame.trace exStack).1.filter fun e => match e with | .construct _ => true | _ => false).length = 16 := by decide

example : ∀ p, (exFrame.trace exStack).1.count (.construct p) = (exFrame.trace exStack).1.count (.destroy p) :=
  C144_static_balance exFrame_empty exStack_sources fun x => by
    by_cases h0 : x = 0 <;> by_cases h1 : x = 1 <;> by_cases h2 : x = 2 <;>
      simp [exStack, exFrame, Frame.trace, Frame.step, Frame.add, upd, h0, h1, h2]

end Kwk
