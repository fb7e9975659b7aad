import Verif.Lemmas.CustomisedTables
import Verif.Lemmas.Customised

/-!
# Algorithms that users write for their own contexts (C142)

Full statement: if a user writes, in the namespace of their context, their own version of an algorithm `b` (the function templates of the
library that run its loops, but for this context), then every call with this context whose work is done by `b` uses the user's version,
with the objects meant, provided that it takes the context.  False: see `C142_qualified_false`, `C142_const_false`.
-/

namespace Kwk

open Calls Spec

/-- **C142** (partial) The user's version does the work iff overload resolution prefers it (it is not `my_context const&` with a context
that is not `const`), the outputs are named objects, and the call is either the one of the user's own template, not written `kwk::`, or a
call of another algorithm with a named context, which the library does not pass on by a qualified call. Missing: the calls excluded, for
which the library's own loops run or the call does not compile. -/
theorem C142_used_partial (f : CallForm) (hf : f ∈ callForms) (form : Form) (hform : form ≠ .fwd) (c : Cat) (q : Bool) (cats : List Cat)
    (hl : cats.length = f.roles.length) :
    (∃ args, callMine form f.runs q f.name (callArgs f (some c) cats) = some (true, f.runs, args)) ↔
      Preferred form c ∧ (∀ rc ∈ f.roles.zip cats, rc.1 = .output → rc.2 ≠ .temporary) ∧
      (Direct f → q = false) ∧ (¬ Direct f → c ≠ .temporary ∧ ¬ PassedQualified f) := by
  have h := mine_table f hf hform c q cats hl
  unfold mineAt at h
  have hr : ∀ b : Bool, (b = (decide (Preferred form c) && decide (∀ rc ∈ f.roles.zip cats, rc.1 = .output → rc.2 ≠ .temporary) &&
      if Direct f then !q else decide (c ≠ .temporary ∧ ¬ PassedQualified f))) → (b = true ↔
      Preferred form c ∧ (∀ rc ∈ f.roles.zip cats, rc.1 = .output → rc.2 ≠ .temporary) ∧
      (Direct f → q = false) ∧ (¬ Direct f → c ≠ .temporary ∧ ¬ PassedQualified f)) := by
    intro b hb
    rw [hb, Bool.and_eq_true, Bool.and_eq_true, decide_eq_true_eq, decide_eq_true_eq, and_assoc]
    refine and_congr Iff.rfl (and_congr Iff.rfl ?_)
    by_cases hd : Direct f
    · rw [if_pos hd]; simp [hd]
    · rw [if_neg hd]; simp [hd]
  rcases heq : callMine form f.runs q f.name (callArgs f (some c) cats) with _ | r
  · rw [heq] at h
    simp only [Bool.and_eq_true, Bool.not_eq_true', decide_eq_true_eq] at h
    rw [← hr _ rfl, h.1]
    simp
  · rw [heq] at h
    simp only [Bool.and_eq_true, beq_iff_eq, decide_eq_true_eq] at h
    obtain ⟨⟨⟨h1, h2⟩, -⟩, -⟩ := h
    rw [← hr _ h1]
    constructor
    · rintro ⟨args, e⟩
      rw [Option.some.inj e]
    · intro e
      refine ⟨r.2.2, ?_⟩
      have : r.2.1 = f.runs := congrArg Prod.fst h2
      rw [← this, ← e]

example := C142_used_partial ⟨.count, [.input, .value], .reduce, [.user 1, .made .countEqual (.user 2), .fresh .zeroCount]⟩ (by decide) .lref
  (by decide) .named false [.named, .temporary] rfl

/-- **C142** Whether the user's version or the library's does the work, it is the algorithm meant, on the context given, with the things
meant. -/
theorem C142_meaning (f : CallForm) (hf : f ∈ callForms) (form : Form) (hform : form ≠ .fwd) (c : Cat) (q : Bool) (cats : List Cat)
    (hl : cats.length = f.roles.length) (r : Bool × Algo × List Arg)
    (hr : callMine form f.runs q f.name (callArgs f (some c) cats) = some r) :
    (r.2.1, r.2.2.map Arg.thing) = f.meaning (some c) ∧ ∀ x ∈ r.2.2.tail, ReachesWell f cats x := by
  have h := mine_table f hf hform c q cats hl
  unfold mineAt at h
  rw [hr] at h
  simp only [Bool.and_eq_true, beq_iff_eq, decide_eq_true_eq, List.all_eq_true] at h
  exact ⟨h.1.1.2, h.1.2⟩

example := C142_meaning ⟨.count, [.input, .value], .reduce, [.user 1, .made .countEqual (.user 2), .fresh .zeroCount]⟩ (by decide) .lref
  (by decide) .named false [.named, .temporary] rfl _ rfl

/-- **C142** Where the user's version is not used, nothing changes: the call does what it does without it, and it does not become
ambiguous. -/
theorem C142_otherwise (f : CallForm) (hf : f ∈ callForms) (form : Form) (hform : form ≠ .fwd) (c : Cat) (q : Bool) (cats : List Cat)
    (hl : cats.length = f.roles.length)
    (hn : ¬ ∃ args, callMine form f.runs q f.name (callArgs f (some c) cats) = some (true, f.runs, args)) :
    callMine form f.runs q f.name (callArgs f (some c) cats) = (call f.name (callArgs f (some c) cats)).map fun r => (false, r) := by
  have h := mine_table f hf hform c q cats hl
  unfold mineAt at h
  rcases heq : callMine form f.runs q f.name (callArgs f (some c) cats) with _ | r
  · rw [heq] at h
    simp only [Bool.and_eq_true, Bool.not_eq_true', decide_eq_true_eq] at h
    rw [h.2, Option.map_none]
  · rw [heq] at h hn
    simp only [Bool.and_eq_true, beq_iff_eq, decide_eq_true_eq] at h
    obtain ⟨⟨⟨-, h2⟩, -⟩, h3⟩ := h
    have hr : r.2.1 = f.runs := congrArg Prod.fst h2
    have h1 : r.1 = false := by
      rcases hb : r.1
      · rfl
      · exact absurd ⟨r.2.2, by rw [← hr, ← hb]⟩ hn
    rw [h1, Bool.false_or, decide_eq_true_eq] at h3
    rw [h3, Option.map_some, ← h1]

-- `all_of`, `count` and `none_of` use the `reduce` of the user, which takes `my_context&`
example : ∀ f ∈ callForms, f.name = .allOf ∨ f.name = .count ∨ f.name = .noneOf →
    ((callMine .lref .reduce false f.name (callArgs f (some .named) [.named, .temporary])).map fun r => (r.1, r.2.1)) =
      some (true, .reduce) := by decide

example : (⟨.count, [.input, .value], .reduce, [.user 1, .made .countEqual (.user 2), .fresh .zeroCount]⟩ : CallForm) ∈ callForms ∧
    Preferred .lref .named ∧ ¬ Direct ⟨.count, [.input, .value], .reduce, [.user 1, .made .countEqual (.user 2), .fresh .zeroCount]⟩ ∧
    ¬ PassedQualified ⟨.count, [.input, .value], .reduce, [.user 1, .made .countEqual (.user 2), .fresh .zeroCount]⟩ := by decide

/-- **C142** (`for_each` over any number of containers, partial) A user's `for_each` is used iff overload resolution prefers it and the call
is not written `kwk::for_each`. -/
theorem C142_for_each_partial (form : Form) (hform : form ≠ .fwd) (c : Cat) (q : Bool) (cf c0 : Cat) (cs : List Cat) :
    (callMine form .forEach q .forEach (callArgs (forEachForm (cs.length + 1)) (some c) (cf :: c0 :: cs))).map
        (fun r => (r.1, r.2.1, r.2.2.map Arg.thing)) =
      if Preferred form c ∧ q = false then some (true, (forEachForm (cs.length + 1)).meaning (some c))
      else if c ≠ .temporary then some (false, (forEachForm (cs.length + 1)).meaning (some c)) else none := by
  obtain ⟨h1, -, h3⟩ := inputs_from 3 cs
  have hargs : callArgs (forEachForm (cs.length + 1)) (some c) (cf :: c0 :: cs) = ⟨.user 0, .context, c, false⟩ ::
      ⟨.user 1, .function, cf, false⟩ :: ⟨.user 2, .container, c0, false⟩ :: argsFrom 3 (List.replicate cs.length .input) cs := by
    simp [callArgs, forEachForm, List.replicate_succ, argsFrom, Role.kind]
  have hm : (Thing.user 0 :: Thing.user 1 :: Thing.user 2 :: (argsFrom 3 (List.replicate cs.length .input) cs).map Arg.thing) =
      ((forEachForm (cs.length + 1)).meaning (some c)).2 := by
    rw [h3]
    simp only [CallForm.meaning, Option.isSome_some, if_true, forEachForm, List.range_succ_eq_map, List.map_cons, List.map_map]
    simp; intros; omega
  rw [hargs, forEach_mine hform q _ _ _ _ (by rfl) rfl rfl rfl h1]
  simp only [List.map_cons, hm]
  rfl

example := C142_for_each_partial .lref (by decide) .named false .temporary .named [.constant, .named]

/-- **C142** (`transform` of any number of containers, partial) A user's `transform` is used iff overload resolution prefers it, the output
is a named object and the call is not written `kwk::transform`. -/
theorem C142_transform_partial (form : Form) (hform : form ≠ .fwd) (c : Cat) (q : Bool) (cf co c0 : Cat) (cs : List Cat) :
    (callMine form .transform q .transform (callArgs (transformForm (cs.length + 1)) (some c) (cf :: co :: c0 :: cs))).map
        (fun r => (r.1, r.2.1, r.2.2.map Arg.thing)) =
      if co = .temporary then none
      else if Preferred form c ∧ q = false then some (true, (transformForm (cs.length + 1)).meaning (some c))
      else if c ≠ .temporary then some (false, (transformForm (cs.length + 1)).meaning (some c)) else none := by
  obtain ⟨h1, -, h3⟩ := inputs_from 4 cs
  have hargs : callArgs (transformForm (cs.length + 1)) (some c) (cf :: co :: c0 :: cs) = ⟨.user 0, .context, c, false⟩ ::
      ⟨.user 1, .function, cf, false⟩ :: ⟨.user 2, .container, co, false⟩ :: ⟨.user 3, .container, c0, false⟩ ::
      argsFrom 4 (List.replicate cs.length .input) cs := by
    simp [callArgs, transformForm, List.replicate_succ, argsFrom, Role.kind]
  have hm : (Thing.user 0 :: Thing.user 1 :: Thing.user 2 :: Thing.user 3 ::
      (argsFrom 4 (List.replicate cs.length .input) cs).map Arg.thing) = ((transformForm (cs.length + 1)).meaning (some c)).2 := by
    rw [h3]
    simp only [CallForm.meaning, Option.isSome_some, if_true, transformForm, List.range_succ_eq_map, List.map_cons, List.map_map]
    simp; intros; omega
  rw [hargs, transform_mine hform q _ _ _ _ _ (by rfl) rfl rfl rfl rfl h1]
  simp only [List.map_cons, hm]
  rfl

example : (callMine .val .transform false .transform
      (callArgs (transformForm 2) (some .constant) [.temporary, .named, .constant, .named])).map (·.1) = some true ∧
    (callMine .lref .forEach false .forEach (callArgs (forEachForm 3) (some .named) [.temporary, .named, .constant, .named])).map (·.1) =
      some true := by decide

/-- **C142** Calls without the user's context, of all algorithms and with all arguments, do what they do without the user's version. -/
theorem C142_other_contexts (form : Form) (b a : Algo) (q : Bool) (args : List Arg) (h : ∀ x ∈ args, x.thing ≠ .user 0) :
    callMine form b q a args = (call a args).map fun r => (false, r) :=
  callMineIn_other form b 6 a _ q args h

example : callMine .lref .reduce false .reduce (callArgs (⟨.reduce, [.input], .reduce, []⟩ : CallForm) none [.named]) =
    (call .reduce [⟨.user 1, .container, .named, false⟩]).map fun r => (false, r) :=
  C142_other_contexts _ _ _ _ _ (by intro x hx; revert x; decide)

/-- **C142** is false where the library passes a call on by a qualified call: the user writes `reduce` for `my_context`; `reduce(ctx, in, f)`,
`reduce(ctx, in)`, as well as `copy(ctx, out, in)` and `for_each_index(ctx, f, c)` with the user's `transform` and `for_each`, do not use
it, whereas `all_of(ctx, in, f)` does. -/
theorem C142_qualified_false (form : Form) (hform : form ≠ .fwd) (c : Cat) (hc : c ≠ .temporary) (q : Bool) :
    (∀ c1 c2, ((callMine form .reduce q .reduce [⟨.user 0, .context, c, false⟩, ⟨.user 1, .container, c1, false⟩,
        ⟨.user 2, .function, c2, false⟩]).map fun r => (r.1, r.2.1)) = some (false, .reduce)) ∧
      (∀ c1, ((callMine form .reduce q .reduce [⟨.user 0, .context, c, false⟩, ⟨.user 1, .container, c1, false⟩]).map
        fun r => (r.1, r.2.1)) = some (false, .reduce)) ∧
      (∀ c1 c2, c1 ≠ .temporary → ((callMine form .transform q .copy [⟨.user 0, .context, c, false⟩, ⟨.user 1, .container, c1, false⟩,
        ⟨.user 2, .container, c2, false⟩]).map fun r => (r.1, r.2.1)) = some (false, .transform)) ∧
      ∀ c1 c2, ((callMine form .forEach q .forEachIndex [⟨.user 0, .context, c, false⟩, ⟨.user 1, .function, c1, false⟩,
        ⟨.user 2, .container, c2, false⟩]).map fun r => (r.1, r.2.1)) = some (false, .forEach) := by
  have h : ∀ form ∈ [Form.lref, .clref, .val], ∀ c ∈ [Cat.named, .constant], ∀ q ∈ [true, false],
      ∀ c1 ∈ [Cat.named, .constant, .temporary], ∀ c2 ∈ [Cat.named, .constant, .temporary],
      (((callMine form .reduce q .reduce [⟨.user 0, .context, c, false⟩, ⟨.user 1, .container, c1, false⟩,
        ⟨.user 2, .function, c2, false⟩]).map fun r => (r.1, r.2.1)) = some (false, .reduce)) ∧
      (((callMine form .reduce q .reduce [⟨.user 0, .context, c, false⟩, ⟨.user 1, .container, c1, false⟩]).map
        fun r => (r.1, r.2.1)) = some (false, .reduce)) ∧
      (c1 ≠ .temporary → ((callMine form .transform q .copy [⟨.user 0, .context, c, false⟩, ⟨.user 1, .container, c1, false⟩,
        ⟨.user 2, .container, c2, false⟩]).map fun r => (r.1, r.2.1)) = some (false, .transform)) ∧
      (((callMine form .forEach q .forEachIndex [⟨.user 0, .context, c, false⟩, ⟨.user 1, .function, c1, false⟩,
        ⟨.user 2, .container, c2, false⟩]).map fun r => (r.1, r.2.1)) = some (false, .forEach)) := by decide +kernel
  have hc' : c ∈ [Cat.named, .constant] := by cases c <;> simp at hc ⊢
  exact ⟨fun c1 c2 => (h form (mem_forms hform) c hc' q (mem_bools q) c1 (mem_cats c1) c2 (mem_cats c2)).1,
    fun c1 => (h form (mem_forms hform) c hc' q (mem_bools q) c1 (mem_cats c1) c1 (mem_cats c1)).2.1,
    fun c1 c2 => (h form (mem_forms hform) c hc' q (mem_bools q) c1 (mem_cats c1) c2 (mem_cats c2)).2.2.1,
    fun c1 c2 => (h form (mem_forms hform) c hc' q (mem_bools q) c1 (mem_cats c1) c2 (mem_cats c2)).2.2.2⟩

/-- **C142** is false for user's versions that take `my_context const&`: with a context that is not `const`, the library's template is
called although the user's one takes it; with a `const` one the user's is. -/
theorem C142_const_false :
    ((callMine .clref .reduce false .reduce [⟨.user 0, .context, .named, false⟩, ⟨.user 1, .container, .named, false⟩,
        ⟨.user 2, .function, .temporary, false⟩, ⟨.user 3, .value, .temporary, false⟩]).map fun r => (r.1, r.2.1)) =
        some (false, .reduce) ∧ Takes .clref .named ∧
      ((callMine .clref .reduce false .reduce [⟨.user 0, .context, .constant, false⟩, ⟨.user 1, .container, .named, false⟩,
        ⟨.user 2, .function, .temporary, false⟩, ⟨.user 3, .value, .temporary, false⟩]).map fun r => (r.1, r.2.1)) =
        some (true, .reduce) := by decide

/-- **C142** The full property. -/
def C142_statement : Prop :=
  ∀ f ∈ callForms, ∀ form : Form, form ≠ .fwd → ∀ (c : Cat) (cats : List Cat), cats.length = f.roles.length →
    NamedTargets f (some c) cats → Takes form c →
    ∃ args, callMine form f.runs false f.name (callArgs f (some c) cats) = some (true, f.runs, args)

theorem C142_statement_false : ¬ C142_statement := by
  intro h
  obtain ⟨args, e⟩ := h ⟨.reduce, [.input], .reduce, [.user 1, .fresh .plus, .fresh .zero]⟩ (by decide) .lref (by decide) .named [.named]
    rfl (by decide) (by decide)
  have := (C142_qualified_false .lref (by decide) .named (by decide) false).2.1 .named
  rw [show callArgs ⟨.reduce, [.input], .reduce, [.user 1, .fresh .plus, .fresh .zero]⟩ (some .named) [.named] =
    [⟨.user 0, .context, .named, false⟩, ⟨.user 1, .container, .named, false⟩] from rfl] at e
  rw [e] at this
  cases this

end Kwk
