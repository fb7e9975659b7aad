import Verif.Lemmas.AuxCalls

/-!
# Calls of algorithms reach the function that is meant (C124)

Full statement: for every way to call an algorithm (`Spec.callForms`, and `Spec.forEachForm n`, `Spec.transformForm n` for every number
of containers), with or without a context, if the context and the outputs are named objects, then whatever the categories of the other
arguments, the call runs the algorithm meant with the things meant, on the context given or on the CPU.
False for `for_each` and `transform` with a named function and several containers.
-/

namespace Kwk

open Calls Spec

/-- What a call runs, and with what. -/
abbrev ran (a : Algo) (args : List Arg) : Option (Algo × List Thing) := (call a args).map fun r => (r.1, r.2.map Arg.thing)

/-- **C124** (fixed number of containers) A call compiles iff the context and the outputs are named objects; it then runs what is
meant. -/
theorem C124_calls_partial (f : CallForm) (hf : f ∈ callForms) (context : Option Cat) (cats : List Cat)
    (hl : cats.length = f.roles.length) :
    ran f.name (callArgs f context cats) = if NamedTargets f context cats then some (f.meaning context) else none := by
  have h := calls_table f hf context cats hl
  unfold rightAt at h
  unfold ran
  split at h
  · rename_i r hr
    simp only [Bool.and_eq_true, decide_eq_true_eq] at h
    rw [if_pos h.1.1, hr, ← h.1.2]
    rfl
  · rename_i hr
    rw [if_neg (by simpa using h), hr]
    rfl

example : ran .reduce [⟨.user 1, .container, .temporary, false⟩] = some (.reduce, [.cpu, .user 1, .fresh .plus, .fresh .zero]) := by decide
example : ran .fill [⟨.user 1, .container, .temporary, false⟩, ⟨.user 2, .value, .named, false⟩] = none := by decide

/-- **C124** (fixed number of containers) On the way to the function that does the work, containers, shapes and contexts are not copied; it
sees inputs as `const`, and outputs as `const` only if they are. -/
theorem C124_arguments (f : CallForm) (hf : f ∈ callForms) (context : Option Cat) (cats : List Cat)
    (hl : cats.length = f.roles.length) (r : Algo × List Arg) (hr : call f.name (callArgs f context cats) = some r) :
    ∀ x ∈ r.2, ReachesWell f cats x := by
  have h := calls_table f hf context cats hl
  unfold rightAt at h
  rw [hr] at h
  simp only [Bool.and_eq_true, List.all_eq_true, decide_eq_true_eq] at h
  exact h.2

example : (call .copyIf [⟨.user 1, .function, .named, false⟩, ⟨.user 2, .container, .named, false⟩, ⟨.user 3, .container, .named, false⟩]).map
    (fun r => r.2.map fun x => (x.cat, x.copied)) =
    some [(.constant, false), (.named, true), (.named, false), (.constant, false)] := by decide

/-- **C124** (fixed number of containers) A call with something else in the place of a container, or of a shape, does not compile. -/
theorem C124_misuse (f : CallForm) (hf : f ∈ callForms) (context : Option Cat) (cats : List Cat)
    (hl : cats.length = f.roles.length) (k : Nat) (r : Role) (hk : f.roles[k]? = some r) (hr : r = .input ∨ r = .output ∨ r = .shape)
    (kind : Kind) (hkind : kind ≠ r.kind) (hs : ¬ (kind = .container ∧ f.name = .forEach)) :
    call f.name (misuse f context cats k kind) = none := by
  have h5 : f.roles.length ≤ 5 := (show ∀ f ∈ callForms, f.roles.length ≤ 5 by decide) f hf
  have hk5 : k < 5 := by
    have := (List.getElem?_eq_some_iff.1 hk).1
    omega
  refine call_none fun o ho => ?_
  have hm : (misuse f context cats k kind).map named = misuse f (context.map fun _ => .named) (f.roles.map fun _ => .named) k kind := by
    unfold misuse callArgs
    rw [← modify_named, List.map_append, named_args _ _ _ hl]
    cases context <;> rfl
  rw [hm]
  exact misuse_table f hf _ (by cases context <;> simp) k (List.mem_range.2 hk5) r hk hr kind (by cases kind <;> simp) hkind hs o ho

example : call .findFirstOf [⟨.user 1, .container, .named, false⟩, ⟨.user 2, .value, .named, false⟩] = none := by decide

/-- **C124** (`for_each_index`) A call runs what is meant iff the context is a named object; the function sees the container as the caller
does: elements of a `const` container are `const`, the others can be written. -/
theorem C124_for_each_index (context : Option Cat) (cf cc : Cat) :
    ran .forEachIndex (callArgs (forEachIndexForm (cc = .constant)) context [cf, cc]) =
      if context ≠ some .temporary then some ((forEachIndexForm (cc = .constant)).meaning context) else none := by
  revert context cf cc
  have h : ∀ context ∈ [none, some Cat.named, some Cat.constant, some Cat.temporary], ∀ cf ∈ [Cat.named, .constant, .temporary],
      ∀ cc ∈ [Cat.named, .constant, .temporary],
      ran .forEachIndex (callArgs (forEachIndexForm (cc = .constant)) context [cf, cc]) =
        if context ≠ some .temporary then some ((forEachIndexForm (cc = .constant)).meaning context) else none := by decide +kernel
  intro context cf cc
  exact h context (by rcases context with _ | (_ | _ | _) <;> simp) cf (by cases cf <;> simp) cc (by cases cc <;> simp)

/-- **C124** (`for_each_index`) Neither the container nor, with a context, the function is copied. -/
theorem C124_for_each_index_copies (context : Option Cat) (cf cc : Cat) (r : Algo × List Arg)
    (hr : call .forEachIndex (callArgs (forEachIndexForm (cc = .constant)) context [cf, cc]) = some r) :
    r.2.map Arg.copied = [false, context.isNone && cf != .temporary, false] := by
  have h : ∀ context ∈ [none, some Cat.named, some Cat.constant, some Cat.temporary], ∀ cf ∈ [Cat.named, .constant, .temporary],
      ∀ cc ∈ [Cat.named, .constant, .temporary],
      ∀ r ∈ call .forEachIndex (callArgs (forEachIndexForm (cc = .constant)) context [cf, cc]),
        r.2.map Arg.copied = [false, context.isNone && cf != .temporary, false] := by decide +kernel
  exact h context (by rcases context with _ | (_ | _ | _) <;> simp) cf (by cases cf <;> simp) cc (by cases cc <;> simp) r hr

example : ran .forEachIndex [⟨.user 1, .function, .named, false⟩, ⟨.user 2, .container, .constant, false⟩] =
    some (.forEach, [.cpu, .over .atCoordinates (.user 1) (.user 2) true, .made .shapeOf (.user 2)]) := by decide

/-- **C124** (`for_each`) A call of `for_each` with containers runs what is meant iff the context is a named object and, without context,
the function is a temporary or there is only one container. -/
theorem C124_for_each_exact_partial (context : Option Cat) (cf c0 : Cat) (cs : List Cat) :
    ran .forEach (callArgs (forEachForm (cs.length + 1)) context (cf :: c0 :: cs)) =
      if NamedTargets (forEachForm (cs.length + 1)) context (cf :: c0 :: cs) ∧ (context.isSome ∨ cf = .temporary ∨ cs = [])
      then some ((forEachForm (cs.length + 1)).meaning context) else none := by
  obtain ⟨h1, h2, h3⟩ := inputs_from 3 cs
  have hnt : NamedTargets (forEachForm (cs.length + 1)) context (cf :: c0 :: cs) ↔ context ≠ some .temporary := by
    refine ⟨fun h => h.1, fun h => ⟨h, fun rc hrc ho => ?_⟩⟩
    have := (List.of_mem_zip hrc).1
    rw [ho] at this
    simp [forEachForm, List.mem_replicate] at this
  have hargs : argsFrom 1 (forEachForm (cs.length + 1)).roles (cf :: c0 :: cs) =
      ⟨.user 1, .function, cf, false⟩ :: ⟨.user 2, .container, c0, false⟩ :: argsFrom 3 (List.replicate cs.length .input) cs := by
    simp [forEachForm, List.replicate_succ, argsFrom, Role.kind]
  have hth : (forEachForm (cs.length + 1)).things = .user 1 :: .user 2 :: (List.range cs.length).map fun i => Thing.user (3 + i) := by
    simp only [forEachForm, List.range_succ_eq_map, List.map_cons, List.map_map]
    simp; intros; omega
  have hnil : argsFrom 3 (List.replicate cs.length .input) cs = [] ↔ cs = [] := by
    rw [← List.map_eq_nil_iff (f := Arg.cat), h2]
  rcases context with _ | x
  · simp only [ran, callArgs, Option.toList_none, List.map_nil, List.nil_append, hargs, hnt]
    rw [forEach_plain _ _ _ rfl rfl h1]
    simp only [hnil]
    by_cases h : cf = .temporary ∨ cs = []
    · rw [if_pos h, if_pos (by simpa using h)]
      simp [h3, asSeen, Function.comp_def, CallForm.meaning, hth]
      rfl
    · rw [if_neg h, if_neg (by simpa using h)]
      rfl
  · simp only [ran, callArgs, Option.toList_some, List.map_cons, List.map_nil, List.cons_append, List.nil_append, hargs, hnt]
    rw [show call .forEach = callIn (5 + 1) .forEach 4 from rfl, forEach_context _ _ _ _ _ _ (.inr rfl) rfl rfl rfl h1]
    by_cases h : x = .temporary
    · simp [h]
    · rw [if_neg h, if_pos (by simpa using h)]
      simp [h3, asSeen, Function.comp_def, CallForm.meaning, hth]
      rfl

example : ran .forEach [⟨.user 1, .function, .temporary, false⟩, ⟨.user 2, .container, .named, false⟩, ⟨.user 3, .container, .constant, false⟩] =
    some (.forEach, [.cpu, .user 1, .user 2, .user 3]) := by decide

/-- **C124** (`for_each`) The function object and the containers are those of the caller, not copies; they are `const` iff they were given
so. -/
theorem C124_for_each_objects (context : Option Cat) (cf c0 : Cat) (cs : List Cat) (r : Algo × List Arg)
    (hr : call .forEach (callArgs (forEachForm (cs.length + 1)) context (cf :: c0 :: cs)) = some r) :
    r.2.drop 1 = (argsFrom 1 (forEachForm (cs.length + 1)).roles (cf :: c0 :: cs)).map asSeen := by
  obtain ⟨h1, -, -⟩ := inputs_from 3 cs
  have hargs : argsFrom 1 (forEachForm (cs.length + 1)).roles (cf :: c0 :: cs) =
      ⟨.user 1, .function, cf, false⟩ :: ⟨.user 2, .container, c0, false⟩ :: argsFrom 3 (List.replicate cs.length .input) cs := by
    simp [forEachForm, List.replicate_succ, argsFrom, Role.kind]
  rcases context with _ | x
  · simp only [callArgs, Option.toList_none, List.map_nil, List.nil_append, hargs] at hr
    rw [forEach_plain _ _ _ rfl rfl h1] at hr
    split at hr
    · cases hr
      simp [hargs]
    · cases hr
  · simp only [callArgs, Option.toList_some, List.map_cons, List.map_nil, List.cons_append, List.nil_append, hargs] at hr
    rw [show call .forEach = callIn (5 + 1) .forEach 4 from rfl, forEach_context _ _ _ _ _ _ (.inr rfl) rfl rfl rfl h1] at hr
    split at hr
    · cases hr
    · cases hr
      simp [hargs]

example : (call .forEach [⟨.user 1, .function, .temporary, false⟩, ⟨.user 2, .container, .named, false⟩,
    ⟨.user 3, .container, .constant, false⟩]).map (fun r => r.2.map fun x => (x.cat, x.copied)) =
    some [(.constant, false), (.named, false), (.named, false), (.constant, false)] := by decide

/-- **C124** (`for_each`) A call with something that is not a container among the containers does not compile, with or without a context;
the only call without containers is the one with a shape. -/
theorem C124_for_each_misuse (context : Option Arg) (f : Arg) (hf : f.kind = .function)
    (l : List Arg) (hl : ∃ a ∈ l, a.kind ≠ .container) (hs : ∀ a, l = [a] → a.kind ≠ .shape) :
    call .forEach (context.toList ++ f :: l) = none := by
  obtain ⟨b, hb, hbk⟩ := hl
  rcases hr : call .forEach (context.toList ++ f :: l) with _ | r
  · rfl
  · exfalso
    obtain ⟨o, ho, hv, hk⟩ := call_some hr
    have hnc : ∀ c l', l = c :: l' → Containers (c :: l') → False := fun c l' e h => hbk (h b (e ▸ hb))
    simp only [overloads, List.mem_cons, List.not_mem_nil, or_false] at ho
    rcases context with _ | x
    · simp only [Option.toList_none, List.nil_append] at hv hk
      rcases ho with rfl | rfl | rfl | rfl
      · match l, hv with
        | [a, c], _ =>
          have := hk _ rfl _ (List.mem_cons_self ..) rfl
          rw [hf] at this; cases this
      · match l, hv with
        | [a], hv =>
          refine hs a rfl ?_
          simp [Overload.viable, Overload.expand, Param.accepts, funcFwd, shp] at hv
          exact hv
      · obtain ⟨x, g, c, l', e, h⟩ := fe2_containers hv
        cases e
        have := hk _ (fe2_expand l'.length) _ (List.mem_cons_self ..) rfl
        rw [hf] at this; cases this
      · obtain ⟨g, c, l', e, h⟩ := fe3_containers hv
        cases e
        exact hnc c l' rfl h
    · simp only [Option.toList_some, List.cons_append, List.nil_append] at hv hk
      rcases ho with rfl | rfl | rfl | rfl
      · match l, hv with
        | [a], hv =>
          refine hs a rfl ?_
          simp [Overload.viable, Overload.expand, Param.accepts, ctx, funcFwd, shp] at hv
          exact hv.2
      · rcases l with _ | ⟨a, l⟩
        · cases hb
        · simp [Overload.viable, Overload.expand] at hv
      · obtain ⟨y, g, c, l', e, h⟩ := fe2_containers hv
        cases e
        exact hnc c l' rfl h
      · obtain ⟨g, c, l', e, h⟩ := fe3_containers hv
        cases e
        have := h f (List.mem_cons_self ..)
        rw [hf] at this; cases this

example : call .forEach [⟨.user 1, .function, .temporary, false⟩, ⟨.user 2, .container, .named, false⟩, ⟨.user 3, .shape, .named, false⟩] =
    none := by decide

/-- **C124** (`transform`) A call of `transform` runs what is meant iff context and output are named objects and, without context, the
function or the first input is a temporary, or there is one input only, or some other input is not a `const` object. -/
theorem C124_transform_exact_partial (context : Option Cat) (cf co c0 : Cat) (cs : List Cat) :
    ran .transform (callArgs (transformForm (cs.length + 1)) context (cf :: co :: c0 :: cs)) =
      if NamedTargets (transformForm (cs.length + 1)) context (cf :: co :: c0 :: cs) ∧
        (context.isSome ∨ cf = .temporary ∨ c0 = .temporary ∨ cs = [] ∨ ∃ c ∈ cs, c ≠ .constant)
      then some ((transformForm (cs.length + 1)).meaning context) else none := by
  obtain ⟨h1, h2, h3⟩ := inputs_from 4 cs
  have hnt : NamedTargets (transformForm (cs.length + 1)) context (cf :: co :: c0 :: cs) ↔
      context ≠ some .temporary ∧ co ≠ .temporary := by
    refine ⟨fun h => ⟨h.1, h.2 (.output, co) (by simp [transformForm]) rfl⟩, fun h => ⟨h.1, fun rc hrc ho => ?_⟩⟩
    simp only [transformForm, List.replicate_succ, List.zip_cons_cons, List.mem_cons] at hrc
    rcases hrc with rfl | rfl | rfl | hrc
    · cases ho
    · exact h.2
    · cases ho
    · have := (List.of_mem_zip hrc).1
      rw [ho] at this
      simp [List.mem_replicate] at this
  have hargs : argsFrom 1 (transformForm (cs.length + 1)).roles (cf :: co :: c0 :: cs) =
      ⟨.user 1, .function, cf, false⟩ :: ⟨.user 2, .container, co, false⟩ :: ⟨.user 3, .container, c0, false⟩ ::
        argsFrom 4 (List.replicate cs.length .input) cs := by
    simp [transformForm, List.replicate_succ, argsFrom, Role.kind]
  have hth : (transformForm (cs.length + 1)).things =
      .user 1 :: .user 2 :: .user 3 :: (List.range cs.length).map fun i => Thing.user (4 + i) := by
    simp only [transformForm, List.range_succ_eq_map, List.map_cons, List.map_map]
    simp; intros; omega
  have hnil : argsFrom 4 (List.replicate cs.length .input) cs = [] ↔ cs = [] := by
    rw [← List.map_eq_nil_iff (f := Arg.cat), h2]
  have hex : (∃ a ∈ argsFrom 4 (List.replicate cs.length .input) cs, a.cat ≠ .constant) ↔ ∃ c ∈ cs, c ≠ .constant := by
    constructor
    · rintro ⟨a, ha, hac⟩
      exact ⟨a.cat, h2 ▸ List.mem_map_of_mem ha, hac⟩
    · rintro ⟨c, hc, hcc⟩
      rw [← h2] at hc
      obtain ⟨a, ha, rfl⟩ := List.mem_map.1 hc
      exact ⟨a, ha, hcc⟩
  rcases context with _ | x
  · simp only [ran, callArgs, Option.toList_none, List.map_nil, List.nil_append, hargs, hnt]
    rw [transform_plain _ _ _ _ rfl rfl rfl h1]
    simp only [hnil, hex]
    by_cases h : co ≠ .temporary ∧ (cf = .temporary ∨ c0 = .temporary ∨ cs = [] ∨ ∃ c ∈ cs, c ≠ .constant)
    · rw [if_pos h, if_pos (by simpa using h)]
      simp [h3, asSeen, asRead, Function.comp_def, CallForm.meaning, hth]
      rfl
    · rw [if_neg h, if_neg (by simpa using h)]
      rfl
  · simp only [ran, callArgs, Option.toList_some, List.map_cons, List.map_nil, List.cons_append, List.nil_append, hargs, hnt]
    rw [show call .transform = callIn (5 + 1) .transform 2 from rfl, transform_context _ _ _ _ _ _ _ (.inr rfl) rfl rfl rfl rfl h1]
    by_cases h : x ≠ .temporary ∧ co ≠ .temporary
    · rw [if_pos h, if_pos (by simpa using h)]
      simp [h3, asSeen, asRead, Function.comp_def, CallForm.meaning, hth]
      rfl
    · rw [if_neg h, if_neg (by simpa using h)]
      rfl

example : ran .transform [⟨.user 1, .function, .named, false⟩, ⟨.user 2, .container, .named, false⟩, ⟨.user 3, .container, .named, false⟩,
    ⟨.user 4, .container, .named, false⟩] = some (.transform, [.cpu, .user 1, .user 2, .user 3, .user 4]) := by decide

/-- **C124** (`transform`) The function object and the containers are those of the caller, not copies; the inputs are seen as `const`, the
output as `const` iff it was given so. -/
theorem C124_transform_objects (context : Option Cat) (cf co c0 : Cat) (cs : List Cat) (r : Algo × List Arg)
    (hr : call .transform (callArgs (transformForm (cs.length + 1)) context (cf :: co :: c0 :: cs)) = some r) :
    r.2.drop 1 = asSeen ⟨.user 1, .function, cf, false⟩ :: asSeen ⟨.user 2, .container, co, false⟩ ::
      (argsFrom 3 (List.replicate (cs.length + 1) .input) (c0 :: cs)).map asRead := by
  obtain ⟨h1, -, -⟩ := inputs_from 4 cs
  have hargs : argsFrom 1 (transformForm (cs.length + 1)).roles (cf :: co :: c0 :: cs) =
      ⟨.user 1, .function, cf, false⟩ :: ⟨.user 2, .container, co, false⟩ :: ⟨.user 3, .container, c0, false⟩ ::
        argsFrom 4 (List.replicate cs.length .input) cs := by
    simp [transformForm, List.replicate_succ, argsFrom, Role.kind]
  rcases context with _ | x
  · simp only [callArgs, Option.toList_none, List.map_nil, List.nil_append, hargs] at hr
    rw [transform_plain _ _ _ _ rfl rfl rfl h1] at hr
    split at hr
    · cases hr
      simp [List.replicate_succ, argsFrom, Role.kind]
    · cases hr
  · simp only [callArgs, Option.toList_some, List.map_cons, List.map_nil, List.cons_append, List.nil_append, hargs] at hr
    rw [show call .transform = callIn (5 + 1) .transform 2 from rfl, transform_context _ _ _ _ _ _ _ (.inr rfl) rfl rfl rfl rfl h1] at hr
    split at hr
    · cases hr
      simp [List.replicate_succ, argsFrom, Role.kind]
    · cases hr

example : (call .transform [⟨.user 1, .function, .named, false⟩, ⟨.user 2, .container, .named, false⟩,
    ⟨.user 3, .container, .named, false⟩]).map (fun r => r.2.map fun x => (x.cat, x.copied)) =
    some [(.constant, false), (.named, false), (.named, false), (.constant, false)] := by decide

/-- **C124** (`transform`) A call with something that is not a container among the containers does not compile, with or without a
context. -/
theorem C124_transform_misuse (context : Option Arg) (f : Arg) (hf : f.kind = .function)
    (l : List Arg) (hl : ∃ a ∈ l, a.kind ≠ .container) : call .transform (context.toList ++ f :: l) = none := by
  obtain ⟨b, hb, hbk⟩ := hl
  rcases hr : call .transform (context.toList ++ f :: l) with _ | r
  · rfl
  · exfalso
    obtain ⟨o, ho, hv, hk⟩ := call_some hr
    have hnc : Containers l → False := fun h => hbk (h b hb)
    simp only [overloads, List.mem_cons, List.not_mem_nil, or_false] at ho
    rcases context with _ | x
    · simp only [Option.toList_none, List.nil_append] at hv hk
      rcases ho with rfl | rfl
      · obtain ⟨x, g, o, c, l', e, h⟩ := tr0_containers hv
        cases e
        have := hk _ (tr0_expand l'.length) _ (List.mem_cons_self ..) rfl
        rw [hf] at this; cases this
      · obtain ⟨g, o, c, l', e, h⟩ := tr1_containers hv
        cases e
        exact hnc h
    · simp only [Option.toList_some, List.cons_append, List.nil_append] at hv hk
      rcases ho with rfl | rfl
      · obtain ⟨y, g, o, c, l', e, h⟩ := tr0_containers hv
        cases e
        exact hnc h
      · obtain ⟨g, o, c, l', e, h⟩ := tr1_containers hv
        cases e
        have := h f (List.mem_cons_self ..)
        rw [hf] at this; cases this

example : call .transform [⟨.user 1, .function, .temporary, false⟩, ⟨.user 2, .container, .named, false⟩,
    ⟨.user 3, .container, .named, false⟩, ⟨.user 4, .value, .named, false⟩] = none := by decide

/-- **C124** The full statement is false: `for_each(f, a, b)` with a named function takes it for a context, and does not compile. -/
theorem C124_named_function_false :
    ¬ ∀ (n : Nat) (context : Option Cat) (cats : List Cat), cats.length = (forEachForm n).roles.length →
      NamedTargets (forEachForm n) context cats →
      ran .forEach (callArgs (forEachForm n) context cats) = some ((forEachForm n).meaning context) := by
  intro h
  exact absurd (h 2 none [.named, .named, .named] rfl (by decide)) (by decide)

/-- **C124** `transform(f, out, a, b)` with a named function and a named `const` container `b` is ambiguous. -/
theorem C124_ambiguous_false :
    ran .transform (callArgs (transformForm 2) none [.named, .named, .named, .constant]) = none ∧
      ran .transform (callArgs (transformForm 2) none [.temporary, .named, .named, .constant]) =
        some ((transformForm 2).meaning none) := by decide

/-- **C124** The full property: calls with named contexts and outputs run what is meant, the others do not compile. -/
def C124_statement : Prop :=
  ∀ f : CallForm, (f ∈ callForms ∨ (∃ n, f = forEachForm (n + 1)) ∨ ∃ n, f = transformForm (n + 1)) →
    ∀ (context : Option Cat) (cats : List Cat), cats.length = f.roles.length →
    ran f.name (callArgs f context cats) = if NamedTargets f context cats then some (f.meaning context) else none

theorem C124_statement_false : ¬ C124_statement := by
  intro h
  have := h (transformForm 2) (.inr (.inr ⟨1, rfl⟩)) none [.named, .named, .named, .constant] rfl
  rw [show (transformForm 2).name = .transform from rfl, C124_ambiguous_false.1, if_pos (by decide)] at this
  cases this

end Kwk
