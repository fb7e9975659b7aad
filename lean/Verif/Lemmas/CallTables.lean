import Verif.Spec.Calls

/-! # Helper lemmas: tables of calls -/

namespace Kwk

open Calls Spec

/-- All lists of categories of a given length. -/
def allCats : Nat → List (List Cat)
  | 0 => [[]]
  | n + 1 => (allCats n).flatMap fun cs => [.named :: cs, .constant :: cs, .temporary :: cs]

theorem mem_allCats : ∀ cs : List Cat, cs ∈ allCats cs.length
  | [] => by simp [allCats]
  | c :: cs => by
    simp only [allCats, List.length_cons, List.mem_flatMap]
    exact ⟨cs, mem_allCats cs, by cases c <;> simp⟩

/-- All contexts of a call. -/
abbrev allContexts : List (Option Cat) := [none, some .named, some .constant, some .temporary]

theorem mem_allContexts (context : Option Cat) : context ∈ allContexts := by rcases context with _ | (_ | _ | _) <;> simp

/-- A statement about the ways to call algorithms, checked for those with few arguments and for the others. -/
theorem forms_cases {P : CallForm → Prop} (small : ∀ f ∈ callForms.filter (·.roles.length ≤ 3), P f)
    (four : ∀ f ∈ callForms.filter (·.roles.length = 4), P f) (five : ∀ f ∈ callForms.filter (5 ≤ ·.roles.length), P f) :
    ∀ f ∈ callForms, P f := by
  intro f hf
  rcases Nat.lt_trichotomy f.roles.length 4 with h | h | h
  · exact small f (List.mem_filter.2 ⟨hf, decide_eq_true (Nat.le_of_lt_succ h)⟩)
  · exact four f (List.mem_filter.2 ⟨hf, decide_eq_true h⟩)
  · exact five f (List.mem_filter.2 ⟨hf, decide_eq_true h⟩)

/-- The call runs what is meant and its arguments reach it well, or it is not meant to compile and does not. -/
def rightAt (f : CallForm) (context : Option Cat) (cats : List Cat) : Bool :=
  match call f.name (callArgs f context cats) with
  | some r => decide (NamedTargets f context cats) && decide ((r.1, r.2.map Arg.thing) = f.meaning context) &&
      r.2.all fun x => decide (ReachesWell f cats x)
  | none => !decide (NamedTargets f context cats)

/-- This holds for all contexts and categories. -/
abbrev CallsRight (f : CallForm) : Prop := ∀ context ∈ allContexts, ∀ cats ∈ allCats f.roles.length, rightAt f context cats = true

theorem calls_small : ∀ f ∈ callForms.filter (·.roles.length ≤ 3), CallsRight f := by decide +kernel
theorem calls_four : ∀ f ∈ callForms.filter (·.roles.length = 4), CallsRight f := by decide +kernel
theorem calls_five : ∀ f ∈ callForms.filter (5 ≤ ·.roles.length), CallsRight f := by decide +kernel

theorem calls_table (f : CallForm) (hf : f ∈ callForms) (context : Option Cat) (cats : List Cat) (hl : cats.length = f.roles.length) :
    rightAt f context cats = true :=
  forms_cases calls_small calls_four calls_five f hf context (mem_allContexts context) cats (hl ▸ mem_allCats cats)

/-- No function template accepts a call with something that is not a container, or a shape, in its place. -/
theorem misuse_table : ∀ f ∈ callForms, ∀ context ∈ [none, some Cat.named], ∀ k ∈ List.range 5, ∀ r ∈ f.roles[k]?,
    (r = .input ∨ r = .output ∨ r = .shape) → ∀ kind ∈ [Kind.context, .function, .container, .shape, .value], kind ≠ r.kind →
    ¬ (kind = .container ∧ f.name = .forEach) →
    ∀ o ∈ overloads f.name, o.viable (misuse f context (f.roles.map fun _ => .named) k kind) = false := by decide +kernel

/-- The same argument, as a named object. -/
def named (a : Arg) : Arg := { a with cat := .named }

theorem accepts_named (p : Param) (a : Arg) (h : p.accepts a = true) : p.accepts (named a) = true := by
  simp only [Param.accepts, named, Bool.and_eq_true] at h ⊢
  exact ⟨h.1, by simp⟩

theorem viable_named (o : Overload) (args : List Arg) (h : o.viable args = true) : o.viable (args.map named) = true := by
  unfold Overload.viable at h ⊢
  rw [List.length_map]
  split at h
  · exact absurd h (by simp)
  · rw [List.all_eq_true] at h ⊢
    rintro ⟨p, a⟩ hpa
    rw [List.zip_map_right] at hpa
    obtain ⟨⟨q, b⟩, hq, he⟩ := List.mem_map.1 hpa
    cases he
    exact accepts_named _ _ (h _ hq)

theorem resolve_some {os : List Overload} {args : List Arg} {i : Nat} (h : resolve os args = some i) :
    ∃ o, os[i]? = some o ∧ o.viable args = true := by
  unfold resolve at h
  have := List.mem_of_find?_eq_some h
  have := (List.mem_filter.1 this).2
  rcases ho : os[i]? with _ | o
  · simp [ho] at this
  · exact ⟨o, rfl, by simpa [ho] using this⟩

theorem call_none {a : Algo} {args : List Arg} (h : ∀ o ∈ overloads a, o.viable (args.map named) = false) : call a args = none := by
  rcases hr : resolve (overloads a) args with _ | i
  · unfold call callIn
    simp [hr]
  · obtain ⟨o, ho, hv⟩ := resolve_some hr
    exact absurd ((viable_named _ _ hv).symm.trans (h o (List.mem_of_getElem? ho))) (by simp)

theorem modify_named (l : List Arg) (i : Nat) (kind : Kind) :
    (l.map named).modify i (fun a => { a with kind := kind }) = (l.modify i fun a => { a with kind := kind }).map named := by
  induction l generalizing i with
  | nil => simp
  | cons a l ih =>
    cases i with
    | zero => simp [named]
    | succ i => simp [ih]

theorem named_args (k : Nat) (rs : List Role) (cats : List Cat) (h : cats.length = rs.length) :
    (argsFrom k rs cats).map named = argsFrom k rs (rs.map fun _ => .named) := by
  induction rs generalizing k cats with
  | nil => cases cats <;> simp [argsFrom]
  | cons r rs ih =>
    rcases cats with _ | ⟨c, cats⟩
    · simp at h
    · simp only [argsFrom, List.map_cons, ih (k + 1) cats (by simpa using h)]
      rfl

end Kwk
