import Verif.Spec.Customised
import Verif.Lemmas.CallTables
import Mathlib.Tactic.Tauto
import Mathlib.Tactic.ByContra

/-! # Helper lemmas: tables of calls of algorithms that users write for their own contexts -/

namespace Kwk

open Calls Spec

/-- The templates a call sees. -/
abbrev seenBy (form : Form) (b a : Algo) (seen : Nat) (q : Bool) (args : List Arg) : List Candidate :=
  (((overloads a).take seen).map fun o => ⟨o, false⟩) ++
    if a == b && !q && args.any Arg.mine then userTemplates form a else []

theorem callMineIn_none {form : Form} {b a : Algo} {fuel seen : Nat} {q : Bool} {args : List Arg}
    (h : resolveMine (seenBy form b a seen q args) args = none) : callMineIn form b (fuel + 1) a seen q args = none := by
  unfold callMineIn
  simp only [Option.bind_eq_bind]
  rw [h]; rfl

theorem callMineIn_runs {form : Form} {b a : Algo} {fuel seen : Nat} {q : Bool} {args : List Arg} {k : Nat} {c : Candidate}
    {ps : List (Param × Bool)} (h : resolveMine (seenBy form b a seen q args) args = some k)
    (hk : (seenBy form b a seen q args)[k]? = some c) (he : c.o.expand args.length = some ps) (hb : c.o.body = .runs)
    (hc : ((ps.zip args).any fun x => x.1.1.kind == .context && x.2.kind != .context) = false) :
    callMineIn form b (fuel + 1) a seen q args = some (c.mine, a, (ps.zip args).map fun x => x.1.1.inside x.2) := by
  unfold callMineIn
  simp only [Option.bind_eq_bind]
  rw [h, Option.bind_some, hk, Option.bind_some, he, Option.bind_some, hc, hb]
  rfl

theorem zip_things (ps : List (Param × Bool)) (args : List Arg) (h : ps.length = args.length) :
    ((ps.zip args).map fun x => x.1.1.inside x.2).map Arg.thing = args.map Arg.thing := by
  induction ps generalizing args with
  | nil => cases args <;> simp at h ⊢
  | cons p ps ih =>
    cases args with
    | nil => simp at h
    | cons a args =>
      simp only [List.length_cons, Nat.add_right_cancel_iff] at h
      simp only [List.zip_cons_cons, List.map_cons, ih args h]
      rfl

/-! ## Calls of the templates that run the loops -/

theorem find?_unique {α : Type} {p : α → Bool} {l : List α} {i : α} (hi : i ∈ l) (hp : p i = true) (h : ∀ j ∈ l, p j = true → j = i) :
    l.find? p = some i := by
  rcases hf : l.find? p with _ | j
  · exact absurd hp (List.find?_eq_none.1 hf i hi)
  · rw [h j (List.mem_of_find?_eq_some hf) (List.find?_some hf)]

/-- A template that is better than all others is selected. -/
theorem resolveMine_best {cs : List Candidate} {args : List Arg} {i : Nat} {c : Candidate} (hi : cs[i]? = some c)
    (hv : c.viable args = true)
    (hb : ∀ j d, cs[j]? = some d → j ≠ i → d.viable args = true → c.betterMatch d args = true ∧ d.betterMatch c args = false) :
    resolveMine cs args = some i := by
  unfold resolveMine
  have hmem : ∀ j, j ∈ (List.range cs.length).filter (fun i => (cs[i]?.map (·.viable args)).getD false) ↔
      ∃ d, cs[j]? = some d ∧ d.viable args = true := by
    intro j
    rw [List.mem_filter, List.mem_range]
    constructor
    · rintro ⟨hj, h⟩
      rw [List.getElem?_eq_getElem hj] at h
      exact ⟨_, List.getElem?_eq_getElem hj, h⟩
    · rintro ⟨d, hd, h⟩
      exact ⟨(List.getElem?_eq_some_iff.1 hd).1, by rw [hd]; exact h⟩
  apply find?_unique ((hmem i).2 ⟨c, hi, hv⟩)
  · rw [List.all_eq_true]
    intro j hj
    obtain ⟨d, hd, hdv⟩ := (hmem j).1 hj
    by_cases hji : j = i
    · simp [hji]
    · rw [hi, hd]
      simp [(hb j d hd hji hdv).1]
  · intro j hj h
    obtain ⟨d, hd, hdv⟩ := (hmem j).1 hj
    rw [List.all_eq_true] at h
    have := h i ((hmem i).2 ⟨c, hi, hv⟩)
    rw [hi, hd] at this
    by_cases hji : j = i
    · exact hji
    · simp [hji, (hb j d hd hji hdv).2] at this

theorem resolveMine_fail {cs : List Candidate} {args : List Arg} (h : ∀ c ∈ cs, c.viable args = false) : resolveMine cs args = none := by
  unfold resolveMine
  rw [List.find?_eq_none]
  intro i hi
  rw [List.mem_filter, List.mem_range] at hi
  rw [List.getElem?_eq_getElem hi.1, Option.map_some, Option.getD_some, h _ (List.getElem_mem hi.1)] at hi
  exact absurd hi.2 (by simp)

/-- Overload resolution among the templates of the library alone. -/
theorem resolveMine_library (os : List Overload) (args : List Arg) :
    resolveMine (os.map fun o => ⟨o, false⟩) args = resolve os args := by
  have hv : ∀ i : Nat, (((os.map fun o => (⟨o, false⟩ : Candidate))[i]?).map fun c => c.viable args).getD false =
      ((os[i]?).map fun o => o.viable args).getD false := by
    intro i
    rw [List.getElem?_map]
    rcases os[i]? <;> simp [Candidate.viable]
  have hb : ∀ o o' : Overload, (Candidate.mk o false).betterMatch ⟨o', false⟩ args = betterMatch o o' args := by
    intro o o'
    unfold Candidate.betterMatch betterMatch Candidate.moreSpecialised
    rcases o.expand args.length <;> rcases o'.expand args.length <;> simp
  unfold resolveMine resolve
  simp only [hv, List.length_map]
  congr 1
  funext i
  congr 1
  funext j
  congr 1
  rw [List.getElem?_map, List.getElem?_map]
  rcases os[i]? <;> rcases os[j]? <;> simp [hb]

theorem mine_viable_named (c : Candidate) (args : List Arg) (h : c.viable args = true) : c.viable (args.map named) = true := by
  unfold Candidate.viable at h ⊢
  rw [Bool.and_eq_true] at h ⊢
  refine ⟨viable_named _ _ h.1, ?_⟩
  have h2 := h.2
  rcases hm : c.mine
  · rfl
  · rw [hm] at h2
    rcases hp : c.o.params.head? with _ | p
    · simp [hp] at h2
    · cases args with
      | nil => simp [hp] at h2
      | cons a args =>
        simp only [hp, List.head?_cons, List.map_cons, Bool.not_true, Bool.false_or, Bool.and_eq_true] at h2 ⊢
        exact ⟨h2.1, by simp [named]⟩

/-- The templates that run the loops, the library's and the user's. -/
abbrev loopsOf (ps : List Param) : Overload := ⟨ctx :: ps, none, .runs⟩
abbrev loopsMine (form : Form) (ps : List Param) : Overload := ⟨⟨form, .context⟩ :: ps, none, .runs⟩

theorem self_conversion (p : Param) (a : Arg) : betterConversion p p a = false := by
  unfold betterConversion
  rcases hf : p.form <;> rcases a.cat <;> simp

theorem self_specialised (p : Param × Bool) : atLeastAsSpecialised p p = true := by
  unfold atLeastAsSpecialised
  rcases p with ⟨⟨f, k⟩, b⟩
  cases f <;> cases k <;> cases b <;> rfl

theorem self_conversions : ∀ (ps : List (Param × Bool)) (args : List Arg),
    (((ps.zip ps).zip args).any fun t => betterConversion t.1.1.1 t.1.2.1 t.2) = false ∧
      (((ps.zip ps).zip args).any fun t => betterConversion t.1.2.1 t.1.1.1 t.2) = false
  | [], _ => by simp
  | _ :: _, [] => by simp
  | p :: ps, a :: args => by
    obtain ⟨h1, h2⟩ := self_conversions ps args
    simp [self_conversion, h1, h2]

theorem loops_better {form : Form} (hform : form ≠ .fwd) (ps : List Param) (x : Arg) (l : List Arg) (hl : l.length = ps.length) :
    (Candidate.mk (loopsOf ps) false).betterMatch ⟨loopsMine form ps, true⟩ (x :: l) = decide (form = .clref ∧ x.cat = .named) ∧
      (Candidate.mk (loopsMine form ps) true).betterMatch ⟨loopsOf ps, false⟩ (x :: l) = !decide (form = .clref ∧ x.cat = .named) := by
  have e1 : (loopsOf ps).expand (l.length + 1) = some ((ctx, false) :: ps.map (·, false)) := by
    unfold Overload.expand; rw [if_pos (by simp [hl])]; rfl
  have e2 : (loopsMine form ps).expand (l.length + 1) = some ((⟨form, .context⟩, false) :: ps.map (·, false)) := by
    unfold Overload.expand; rw [if_pos (by simp [hl])]; rfl
  obtain ⟨h1, h2⟩ := self_conversions (ps.map (·, false)) l
  have h3 : ((ps.map (·, false)).zip (ps.map (·, false))).all (fun pq => atLeastAsSpecialised pq.1 pq.2) = true := by
    rw [List.all_eq_true]
    intro pq hpq
    obtain ⟨i, hi, rfl⟩ := List.mem_iff_getElem.1 hpq
    simp only [List.getElem_zip]
    exact self_specialised _
  have m1 : (Candidate.mk (loopsOf ps) false).moreSpecialised ⟨loopsMine form ps, true⟩ (l.length + 1) = false := by
    unfold Candidate.moreSpecialised
    simp only [e1, e2]; rfl
  have m2 : (Candidate.mk (loopsMine form ps) true).moreSpecialised ⟨loopsOf ps, false⟩ (l.length + 1) = true := by
    unfold Candidate.moreSpecialised
    simp only [e1, e2]
    exact h3
  unfold Candidate.betterMatch
  rw [show (x :: l).length = l.length + 1 from rfl, m1, m2]
  simp only [e1, e2, List.zip_cons_cons, List.any_cons, h1, h2, Bool.or_false]
  constructor <;> cases form <;> cases hcat : x.cat <;> simp [betterConversion, ctx, hcat] at hform ⊢

/-- The parameters suit the roles of the arguments. -/
def Suits (p : Param) (r : Role) : Prop :=
  (p.kind = .container → r.kind = .container) ∧ (p.kind = .shape → r.kind = .shape) ∧ p.kind ≠ .context ∧
  (p.form = .lref ↔ r = .output) ∧ (r = .input → p.form = .clref) ∧ (r = .shape → p.form ≠ .val)

instance (p : Param) (r : Role) : Decidable (Suits p r) := by unfold Suits; infer_instance

/-- What has to be checked of a way to call a template that runs the loops: which templates, of the library and of the user, are called,
and that no other one is viable. -/
def DirectAt (form : Form) (f : CallForm) (i j : Nat) (ps : List Param) : Prop :=
  let cs : List Candidate := ((overloads f.name).map fun o => ⟨o, false⟩) ++ userTemplates form f.name
  i ≠ j ∧ i < (overloads f.name).length ∧ cs[i]? = some ⟨loopsOf ps, false⟩ ∧ cs[j]? = some ⟨loopsMine form ps, true⟩ ∧
  ps.length = f.roles.length ∧
  (∀ pr ∈ ps.zip f.roles, Suits pr.1 pr.2) ∧
  ∀ k ∈ List.range cs.length, k ≠ i → k ≠ j →
    (cs[k]?.map fun c => c.viable (callArgs f (some .named) (f.roles.map fun _ => .named))) = some false

instance (form : Form) (f : CallForm) (i j : Nat) (ps : List Param) : Decidable (DirectAt form f i j ps) := by
  unfold DirectAt; infer_instance

/-- The templates of a call. -/
def directOf (form : Form) (f : CallForm) : Option (Nat × Nat × List Param) :=
  let cs : List Candidate := ((overloads f.name).map fun o => ⟨o, false⟩) ++ userTemplates form f.name
  let args := callArgs f (some .named) (f.roles.map fun _ => .named)
  match (List.range cs.length).filter fun k => (cs[k]?.map (·.viable args)).getD false with
  | [i, j] => (cs[i]?).map fun c => (i, j, c.o.params.tail)
  | _ => none

set_option maxRecDepth 10000 in
theorem direct_table : ∀ form ∈ [Form.lref, .clref, .val], ∀ f ∈ callForms, Direct f →
    ((directOf form f).map fun x => decide (DirectAt form f x.1 x.2.1 x.2.2)) = some true := by decide +kernel

theorem direct_exists {form : Form} (hform : form ≠ .fwd) {f : CallForm} (hf : f ∈ callForms) (hd : Direct f) :
    ∃ i j ps, DirectAt form f i j ps := by
  have := direct_table form (by cases form <;> simp at hform ⊢) f hf hd
  rcases h : directOf form f with _ | x
  · rw [h] at this; cases this
  · rw [h, Option.map_some, Option.some_inj, decide_eq_true_eq] at this
    exact ⟨_, _, _, this⟩

/-- No output is a temporary. -/
abbrev Outputs (rs : List Role) (cats : List Cat) : Prop := ∀ rc ∈ rs.zip cats, rc.1 = .output → rc.2 ≠ .temporary

/-- Parameters that suit the roles accept the arguments, unless an output is a temporary. -/
theorem suits_accepts : ∀ (k : Nat) (ps : List Param) (rs : List Role) (cats : List Cat), ps.length = rs.length →
    cats.length = rs.length → (∀ pr ∈ ps.zip rs, Suits pr.1 pr.2) →
    ((((ps.map (·, false)).zip (argsFrom k rs cats)).all fun pa => pa.1.1.accepts pa.2) = true ↔ Outputs rs cats)
  | _, [], [], _, _, _, _ => by simp [Outputs]
  | _, _ :: _, [], _, h, _, _ => by simp at h
  | _, [], _ :: _, _, h, _, _ => by simp at h
  | _, _ :: _, _ :: _, [], _, h, _ => by simp at h
  | k, p :: ps, r :: rs, c :: cats, h1, h2, hs => by
    simp only [List.length_cons, Nat.add_right_cancel_iff] at h1 h2
    have hp := hs (p, r) (by simp)
    have ih := suits_accepts (k + 1) ps rs cats h1 h2 (fun pr hpr => hs pr (by simp [hpr]))
    simp only [argsFrom, List.map_cons, List.zip_cons_cons, List.all_cons, Bool.and_eq_true, ih]
    obtain ⟨s1, s2, s3, s4, -, -⟩ := hp
    simp only at s1 s2 s3 s4
    have : p.accepts ⟨.user k, r.kind, c, false⟩ = true ↔ (r = .output → c ≠ .temporary) := by
      unfold Param.accepts
      simp only [Bool.and_eq_true, Bool.or_eq_true, bne_iff_ne, beq_iff_eq, ne_eq]
      rw [← s4]
      tauto
    rw [this]
    simp [Outputs]

theorem args_length : ∀ (k : Nat) (rs : List Role) (cats : List Cat), cats.length = rs.length → (argsFrom k rs cats).length = rs.length
  | _, [], _, _ => by simp [argsFrom]
  | _, _ :: _, [], h => by simp at h
  | k, _ :: rs, _ :: cats, h => by
    simp only [List.length_cons, Nat.add_right_cancel_iff] at h
    simp [argsFrom, args_length (k + 1) rs cats h]

theorem args_kinds : ∀ (k : Nat) (ps : List Param) (rs : List Role) (cats : List Cat), (∀ pr ∈ ps.zip rs, Suits pr.1 pr.2) →
    (((ps.map (·, false)).zip (argsFrom k rs cats)).any fun x => x.1.1.kind == .context && x.2.kind != .context) = false
  | _, [], _, _, _ => by simp
  | _, _ :: _, [], _, _ => by simp [argsFrom]
  | _, _ :: _, _ :: _, [], _ => by simp [argsFrom]
  | k, p :: ps, r :: rs, c :: cats, hs => by
    have hp := (hs (p, r) (by simp)).2.2.1
    simp only at hp
    have ih := args_kinds (k + 1) ps rs cats (fun pr hpr => hs pr (by simp [hpr]))
    simp only [argsFrom, List.map_cons, List.zip_cons_cons, List.any_cons, ih, Bool.or_false]
    simp [hp]

/-- What a template that runs the loops sees. -/
abbrev seesOf (p : Param) (ps : List Param) (args : List Arg) : List Arg :=
  (((p, false) :: ps.map (·, false)).zip args).map fun x => x.1.1.inside x.2

theorem direct_mine {form : Form} (hform : form ≠ .fwd) {f : CallForm} (hn : f.name = f.runs) {i j : Nat} {ps : List Param}
    (hd : DirectAt form f i j ps) (c : Cat) (q : Bool) (cats : List Cat) (hl : cats.length = f.roles.length) :
    (callMine form f.runs q f.name (callArgs f (some c) cats) =
      if Outputs f.roles cats then
        if Preferred form c ∧ q = false then some (true, f.runs, seesOf ⟨form, .context⟩ ps (callArgs f (some c) cats))
        else if c ≠ .temporary then some (false, f.runs, seesOf ctx ps (callArgs f (some c) cats)) else none
      else none) ∧
    call f.name (callArgs f (some c) cats) =
      if Outputs f.roles cats ∧ c ≠ .temporary then some (f.runs, seesOf ctx ps (callArgs f (some c) cats)) else none := by
  obtain ⟨hij, hi, hci, hcj, hlen, hs, hk⟩ := hd
  have hal := args_length 1 f.roles cats hl
  have hargs : callArgs f (some c) cats = ⟨.user 0, .context, c, false⟩ :: argsFrom 1 f.roles cats := rfl
  have hnamed : (callArgs f (some c) cats).map named = callArgs f (some .named) (f.roles.map fun _ => .named) := by
    rw [hargs, List.map_cons, named_args 1 f.roles cats hl]; rfl
  have eL : (loopsOf ps).expand ((argsFrom 1 f.roles cats).length + 1) = some ((ctx, false) :: ps.map (·, false)) := by
    unfold Overload.expand; rw [if_pos (by simp [hal, hlen])]; rfl
  have eU : (loopsMine form ps).expand ((argsFrom 1 f.roles cats).length + 1) =
      some ((⟨form, .context⟩, false) :: ps.map (·, false)) := by
    unfold Overload.expand; rw [if_pos (by simp [hal, hlen])]; rfl
  have hacc := suits_accepts 1 ps f.roles cats hlen hl hs
  have vL : (Candidate.mk (loopsOf ps) false).viable (callArgs f (some c) cats) = true ↔ c ≠ .temporary ∧ Outputs f.roles cats := by
    unfold Candidate.viable Overload.viable
    rw [hargs, List.length_cons]
    simp only [eL, List.zip_cons_cons, List.all_cons, Bool.and_eq_true, hacc]
    cases c <;> simp [Param.accepts, ctx]
  have vU : (Candidate.mk (loopsMine form ps) true).viable (callArgs f (some c) cats) = true ↔ Takes form c ∧ Outputs f.roles cats := by
    unfold Candidate.viable Overload.viable
    rw [hargs, List.length_cons]
    simp only [eU, List.zip_cons_cons, List.all_cons, Bool.and_eq_true, hacc]
    unfold Takes
    cases form <;> cases c <;> simp [Param.accepts, Arg.mine] at hform ⊢
  have others : ∀ k d, (((overloads f.name).map fun o => (⟨o, false⟩ : Candidate)) ++ userTemplates form f.name)[k]? = some d →
      k ≠ i → k ≠ j → d.viable (callArgs f (some c) cats) = false := by
    intro k d hkd hki hkj
    have := hk k (List.mem_range.2 (List.getElem?_eq_some_iff.1 hkd).1) hki hkj
    rw [hkd, Option.map_some, Option.some_inj] at this
    rcases hv : d.viable (callArgs f (some c) cats)
    · rfl
    · have := mine_viable_named d _ hv
      rw [hnamed] at this
      simp_all
  obtain ⟨b1, b2⟩ := loops_better hform ps ⟨.user 0, .context, c, false⟩ (argsFrom 1 f.roles cats) (by rw [hal, hlen])
  rw [← hargs] at b1 b2
  have kinds : ∀ p : Param, p.kind = .context → ((((p, false) :: ps.map (·, false)).zip (callArgs f (some c) cats)).any
      fun x => x.1.1.kind == .context && x.2.kind != .context) = false := by
    intro p hp
    rw [hargs, List.zip_cons_cons, List.any_cons, args_kinds 1 ps f.roles cats hs]
    simp
  have hclib : ((overloads f.name).map fun o => (⟨o, false⟩ : Candidate))[i]? = some ⟨loopsOf ps, false⟩ := by
    rw [← hci, List.getElem?_append_left (by rw [List.length_map]; exact hi)]
  have olib : ∀ k d, ((overloads f.name).map fun o => (⟨o, false⟩ : Candidate))[k]? = some d → k ≠ i →
      d.viable (callArgs f (some c) cats) = false := by
    intro k d hkd hki
    have hkl := (List.getElem?_eq_some_iff.1 hkd).1
    refine others k d ?_ hki ?_
    · rw [List.getElem?_append_left hkl]; exact hkd
    · rintro rfl
      rw [List.getElem?_append_left hkl, hkd] at hcj
      have hm := List.mem_of_getElem? hkd
      rw [Option.some.inj hcj] at hm
      obtain ⟨o, -, ho⟩ := List.mem_map.1 hm
      cases ho
  -- the library alone
  have rlib : resolveMine ((overloads f.name).map fun o => ⟨o, false⟩) (callArgs f (some c) cats) =
      if Outputs f.roles cats ∧ c ≠ .temporary then some i else none := by
    by_cases ho : Outputs f.roles cats ∧ c ≠ .temporary
    · rw [if_pos ho]
      exact resolveMine_best hclib (vL.2 ⟨ho.2, ho.1⟩) (fun k d hkd hki hdv => absurd hdv (by rw [olib k d hkd hki]; simp))
    · rw [if_neg ho]
      refine resolveMine_fail fun d hdm => ?_
      obtain ⟨k, hkd⟩ := List.getElem?_of_mem hdm
      by_cases hki : k = i
      · rw [hki, hclib] at hkd
        cases hkd
        exact Bool.eq_false_iff.2 fun hh => ho ⟨(vL.1 hh).2, (vL.1 hh).1⟩
      · exact olib k d hkd hki
  have seen : seenBy form f.runs f.name (overloads f.name).length q (callArgs f (some c) cats) =
      ((overloads f.name).map fun o => (⟨o, false⟩ : Candidate)) ++ if q = false then userTemplates form f.name else [] := by
    unfold seenBy
    rw [List.take_length, hn]
    have : (callArgs f (some c) cats).any Arg.mine = true := by rw [hargs]; rfl
    rw [this]
    cases q <;> simp
  have runL : ∀ k, (seenBy form f.runs f.name (overloads f.name).length q (callArgs f (some c) cats))[k]? = some ⟨loopsOf ps, false⟩ →
      resolveMine (seenBy form f.runs f.name (overloads f.name).length q (callArgs f (some c) cats)) (callArgs f (some c) cats) = some k →
      callMine form f.runs q f.name (callArgs f (some c) cats) = some (false, f.runs, seesOf ctx ps (callArgs f (some c) cats)) := by
    intro k h1 h2
    unfold callMine
    rw [callMineIn_runs h2 h1 (by rw [hargs, List.length_cons]; exact eL) rfl (kinds ctx rfl), hn]
  refine ⟨?_, ?_⟩
  · cases q
    · rw [if_pos rfl] at seen
      by_cases ho : Outputs f.roles cats
      · rw [if_pos ho]
        by_cases hp : Preferred form c
        · rw [if_pos ⟨hp, rfl⟩]
          have hr : resolveMine (seenBy form f.runs f.name (overloads f.name).length false (callArgs f (some c) cats))
              (callArgs f (some c) cats) = some j := by
            rw [seen]
            refine resolveMine_best hcj (vU.2 ⟨hp.1, ho⟩) fun k d hkd hkj hdv => ?_
            by_cases hki : k = i
            · rw [hki, hci] at hkd
              cases hkd
              rw [b1, b2]
              simp [show ¬ (form = .clref ∧ c = .named) from hp.2]
            · rw [others k d hkd hki hkj] at hdv; cases hdv
          unfold callMine
          rw [callMineIn_runs hr (by rw [seen]; exact hcj) (by rw [hargs, List.length_cons]; exact eU) rfl (kinds _ rfl), hn]
        · rw [if_neg (fun hh => hp hh.1)]
          by_cases hct : c = .temporary
          · rw [if_neg (fun hh => hh hct)]
            have ht : ¬ Takes form c := fun hh => hp ⟨hh, fun h2 => by rw [hct] at h2; cases h2.2⟩
            unfold callMine
            apply callMineIn_none
            rw [seen]
            refine resolveMine_fail fun d hdm => ?_
            obtain ⟨k, hkd⟩ := List.getElem?_of_mem hdm
            by_cases hki : k = i
            · rw [hki, hci] at hkd
              cases hkd
              exact Bool.eq_false_iff.2 fun hh => (vL.1 hh).1 hct
            · by_cases hkj : k = j
              · rw [hkj, hcj] at hkd
                cases hkd
                exact Bool.eq_false_iff.2 fun hh => ht (vU.1 hh).1
              · exact others k d hkd hki hkj
          · rw [if_pos hct]
            refine runL i (by rw [seen]; exact hci) ?_
            rw [seen]
            refine resolveMine_best hci (vL.2 ⟨hct, ho⟩) fun k d hkd hki hdv => ?_
            by_cases hkj : k = j
            · rw [hkj, hcj] at hkd
              cases hkd
              have hcn : form = .clref ∧ c = .named := by
                by_contra hh
                exact hp ⟨(vU.1 hdv).1, hh⟩
              rw [b1, b2]
              simp [hcn]
            · rw [others k d hkd hki hkj] at hdv; cases hdv
      · rw [if_neg ho]
        unfold callMine
        apply callMineIn_none
        rw [seen]
        refine resolveMine_fail fun d hdm => ?_
        obtain ⟨k, hkd⟩ := List.getElem?_of_mem hdm
        by_cases hki : k = i
        · rw [hki, hci] at hkd
          cases hkd
          exact Bool.eq_false_iff.2 fun hh => ho (vL.1 hh).2
        · by_cases hkj : k = j
          · rw [hkj, hcj] at hkd
            cases hkd
            exact Bool.eq_false_iff.2 fun hh => ho (vU.1 hh).2
          · exact others k d hkd hki hkj
    · rw [if_neg (by simp), List.append_nil] at seen
      rw [← seen] at rlib
      by_cases ho : Outputs f.roles cats
      · rw [if_pos ho, if_neg (by simp)]
        by_cases hct : c = .temporary
        · rw [if_neg (fun hh => hh hct)]
          exact callMineIn_none (by rw [rlib, if_neg (fun hh => hh.2 hct)])
        · rw [if_pos hct]
          exact runL i (by rw [seen]; exact hclib) (by rw [rlib, if_pos ⟨ho, hct⟩])
      · rw [if_neg ho]
        exact callMineIn_none (by rw [rlib, if_neg (fun hh => ho hh.1)])
  · rw [resolveMine_library] at rlib
    unfold call callIn
    simp only [List.take_length, rlib]
    by_cases ho : Outputs f.roles cats ∧ c ≠ .temporary
    · rw [if_pos ho, if_pos ho]
      have hoi : (overloads f.name)[i]? = some (loopsOf ps) := by
        rw [List.getElem?_map] at hclib
        obtain ⟨o, ho1, ho2⟩ := Option.map_eq_some_iff.1 hclib
        cases ho2; exact ho1
      simp only [Option.bind_eq_bind, Option.bind_some, hoi]
      rw [show (callArgs f (some c) cats).length = (argsFrom 1 f.roles cats).length + 1 from rfl, eL]
      simp only [Option.bind_some]
      rw [kinds ctx rfl, hn]
      rfl
    · rw [if_neg ho, if_neg ho]; rfl

theorem args_at : ∀ (k : Nat) (rs : List Role) (cats : List Cat), cats.length = rs.length → ∀ m (h : m < rs.length) (h' : m < cats.length),
    (argsFrom k rs cats)[m]? = some ⟨.user (k + m), rs[m].kind, cats[m], false⟩
  | _, [], _, _, _, h, _ => by simp at h
  | _, _ :: _, [], h, _, _, _ => by simp at h
  | k, r :: rs, c :: cats, hl, m, h, h' => by
    cases m with
    | zero => simp [argsFrom]
    | succ m =>
      simp only [List.length_cons, Nat.add_right_cancel_iff] at hl
      simp only [List.length_cons, Nat.add_lt_add_iff_right] at h h'
      simp only [argsFrom, List.getElem?_cons_succ, List.getElem_cons_succ, args_at (k + 1) rs cats hl m h h']
      simp [Nat.add_assoc, Nat.add_comm 1]

theorem sees_well (f : CallForm) (cats : List Cat) (hl : cats.length = f.roles.length) (ps : List Param) (hlen : ps.length = f.roles.length)
    (hs : ∀ pr ∈ ps.zip f.roles, Suits pr.1 pr.2) (ho : Outputs f.roles cats) :
    ∀ x ∈ (((ps.map (·, false)).zip (argsFrom 1 f.roles cats)).map fun x : (Param × Bool) × Arg => x.1.1.inside x.2),
      ReachesWell f cats x := by
  intro x hx
  obtain ⟨m, hm⟩ := List.getElem?_of_mem hx
  rw [List.getElem?_map] at hm
  obtain ⟨⟨⟨p, b⟩, a⟩, h1, h2⟩ := Option.map_eq_some_iff.1 hm
  rw [List.getElem?_zip_eq_some] at h1
  obtain ⟨hp, ha⟩ := h1
  rw [List.getElem?_map] at hp
  obtain ⟨p', hp', he⟩ := Option.map_eq_some_iff.1 hp
  obtain ⟨rfl, rfl⟩ := Prod.mk.inj he
  have hmp := (List.getElem?_eq_some_iff.1 hp').1
  have hmr : m < f.roles.length := by omega
  have hmc : m < cats.length := by omega
  rw [args_at 1 f.roles cats hl m hmr hmc] at ha
  obtain rfl := Option.some.inj ha
  have hsuit := hs (p', f.roles[m]) (List.mem_of_getElem? (List.getElem?_zip_eq_some.2 ⟨hp', List.getElem?_eq_getElem hmr⟩))
  have hout := ho (f.roles[m], cats[m])
    (List.mem_of_getElem? (List.getElem?_zip_eq_some.2 ⟨List.getElem?_eq_getElem hmr, List.getElem?_eq_getElem hmc⟩))
  obtain ⟨-, -, -, s4, s5, s6⟩ := hsuit
  simp only at s4 s5 s6 hout h2
  subst h2
  unfold ReachesWell
  rw [show (p'.inside ⟨.user (1 + m), f.roles[m].kind, cats[m], false⟩).thing = .user (m + 1) from by
    rw [Nat.add_comm]; rfl]
  simp only [origin, List.getElem?_eq_getElem hmr, List.getElem?_eq_getElem hmc]
  rcases hr : f.roles[m]
  · trivial
  · have := s5 hr
    simp [Param.inside, this]
  · have := s4.2 hr
    have hc := hout hr
    cases hcat : cats[m] <;> simp [Param.inside, this, hcat] at hc ⊢
  · have := s6 hr
    simp [Param.inside, this]
  · trivial

/-- The user's template is used where it should, the things it or the library's template gets are the ones meant and reach it well, and the
library does what it does without the user's template. -/
def mineAt (f : CallForm) (form : Form) (c : Cat) (q : Bool) (cats : List Cat) : Bool :=
  let reaches := decide (Preferred form c) && decide (∀ rc ∈ f.roles.zip cats, rc.1 = .output → rc.2 ≠ .temporary) &&
    if Direct f then !q else decide (c ≠ .temporary ∧ ¬ PassedQualified f)
  match callMine form f.runs q f.name (callArgs f (some c) cats) with
  | some r => (r.1 == reaches) && decide ((r.2.1, r.2.2.map Arg.thing) = f.meaning (some c)) &&
      (r.2.2.tail.all fun x => decide (ReachesWell f cats x)) &&
      (r.1 || decide (call f.name (callArgs f (some c) cats) = some r.2))
  | none => !reaches && decide (call f.name (callArgs f (some c) cats) = none)

theorem mine_direct {f : CallForm} (hf : f ∈ callForms) (hd : Direct f) {form : Form} (hform : form ≠ .fwd) (c : Cat) (q : Bool)
    (cats : List Cat) (hl : cats.length = f.roles.length) : mineAt f form c q cats = true := by
  obtain ⟨i, j, ps, h⟩ := direct_exists hform hf hd
  obtain ⟨h1, h2⟩ := direct_mine hform hd.1 h c q cats hl
  obtain ⟨-, -, -, -, hlen, hs, -⟩ := h
  have things : ∀ p : Param, (f.runs, (seesOf p ps (callArgs f (some c) cats)).map Arg.thing) = f.meaning (some c) := by
    intro p
    have hal := args_length 1 f.roles cats hl
    rw [zip_things _ _ (by rw [show callArgs f (some c) cats = ⟨.user 0, .context, c, false⟩ :: argsFrom 1 f.roles cats from rfl]; simp [hal, hlen])]
    have hm : (argsFrom 1 f.roles cats).map Arg.thing = (List.range f.roles.length).map fun i => .user (i + 1) := by
      apply List.ext_getElem?
      intro m
      by_cases hm : m < f.roles.length
      · rw [List.getElem?_map, args_at 1 f.roles cats hl m hm (by omega)]
        simp [hm, Nat.add_comm]
      · rw [List.getElem?_eq_none (by simp [hal]; omega), List.getElem?_eq_none (by simp; omega)]
    rw [show callArgs f (some c) cats = ⟨.user 0, .context, c, false⟩ :: argsFrom 1 f.roles cats from rfl, List.map_cons, hm]
    unfold CallForm.meaning
    rw [hd.2]
    rfl
  have well : ∀ p : Param, Outputs f.roles cats →
      ((seesOf p ps (callArgs f (some c) cats)).tail.all fun x => decide (ReachesWell f cats x)) = true := by
    intro p ho
    rw [List.all_eq_true]
    intro x hx
    exact decide_eq_true (sees_well f cats hl ps hlen hs ho x hx)
  unfold mineAt
  rw [h1, h2, if_pos hd]
  by_cases ho : Outputs f.roles cats
  · rw [if_pos ho]
    by_cases hp : Preferred form c ∧ q = false
    · rw [if_pos hp]
      simp only [things, well _ ho]
      simp only [Outputs] at ho
      simp [hp.1, hp.2]
      exact fun a b h1 h2 => ho (a, b) h1 h2
    · rw [if_neg hp]
      by_cases hc : c = .temporary
      · rw [if_neg (fun hh => hh hc), if_neg (fun hh => hh.2 hc)]
        simp only [decide_true, Bool.and_true, Bool.not_eq_true', Bool.and_eq_false_iff, decide_eq_false_iff_not]
        by_cases hq : q = false
        · exact .inl (.inl fun hh => hp ⟨hh, hq⟩)
        · exact .inr (by cases q <;> simp at hq ⊢)
      · rw [if_pos hc, if_pos ⟨ho, hc⟩]
        simp only [things, well _ ho]
        simp only [decide_true, Bool.and_true, Bool.or_true, beq_iff_eq]
        symm
        rw [Bool.and_eq_false_iff, Bool.and_eq_false_iff, decide_eq_false_iff_not]
        by_cases hq : q = false
        · exact .inl (.inl fun hh => hp ⟨hh, hq⟩)
        · exact .inr (by cases q <;> simp at hq ⊢)
  · rw [if_neg ho, if_neg (fun hh => ho hh.1)]
    simp only [decide_true, Bool.and_true, Bool.not_eq_true', Bool.and_eq_false_iff, decide_eq_false_iff_not]
    exact .inl (.inr ho)

/-! ## Other calls -/

/-- This holds for all contexts and categories. -/
abbrev MineRight (f : CallForm) : Prop := ∀ form ∈ [Form.lref, .clref, .val], ∀ c ∈ [Cat.named, .constant, .temporary],
  ∀ q ∈ if f.name = f.runs then [true, false] else [false], ∀ cats ∈ allCats f.roles.length, mineAt f form c q cats = true

/-- Whether the user's call is qualified does not matter if the user has no template for it. -/
theorem mine_other {f : CallForm} (hd : ¬ Direct f) (hn : f.name ≠ f.runs) (form : Form) (c : Cat) (q : Bool) (cats : List Cat) :
    mineAt f form c q cats = mineAt f form c false cats := by
  have : callMine form f.runs q f.name (callArgs f (some c) cats) = callMine form f.runs false f.name (callArgs f (some c) cats) := by
    unfold callMine callMineIn
    rw [show (f.name == f.runs) = false from by simpa using hn]
    rfl
  unfold mineAt
  rw [this, if_neg hd, if_neg hd]

theorem mine_two : ∀ f ∈ callForms.filter (fun f => f.roles.length ≤ 2 ∧ ¬ Direct f), MineRight f := by decide +kernel
theorem mine_three : ∀ f ∈ callForms.filter (fun f => f.roles.length = 3 ∧ ¬ Direct f), MineRight f := by decide +kernel
theorem mine_four : ∀ f ∈ callForms.filter (fun f => f.roles.length = 4 ∧ ¬ Direct f), MineRight f := by decide +kernel
theorem mine_five : ∀ f ∈ callForms, f.roles.length ≤ 4 ∨ Direct f := by decide

theorem mem_forms {form : Form} (h : form ≠ .fwd) : form ∈ [Form.lref, .clref, .val] := by cases form <;> simp at h ⊢
theorem mem_cats (c : Cat) : c ∈ [Cat.named, .constant, .temporary] := by cases c <;> simp
theorem mem_bools (q : Bool) : q ∈ [true, false] := by cases q <;> simp

theorem mine_table (f : CallForm) (hf : f ∈ callForms) {form : Form} (hform : form ≠ .fwd) (c : Cat) (q : Bool) (cats : List Cat)
    (hl : cats.length = f.roles.length) : mineAt f form c q cats = true := by
  by_cases hd : Direct f
  · exact mine_direct hf hd hform c q cats hl
  · have key : MineRight f := by
      rcases mine_five f hf with h4 | h
      · have hcase : f.roles.length ≤ 2 ∨ f.roles.length = 3 ∨ f.roles.length = 4 := by omega
        rcases hcase with h | h | h
        · exact mine_two f (List.mem_filter.2 ⟨hf, decide_eq_true ⟨h, hd⟩⟩)
        · exact mine_three f (List.mem_filter.2 ⟨hf, decide_eq_true ⟨h, hd⟩⟩)
        · exact mine_four f (List.mem_filter.2 ⟨hf, decide_eq_true ⟨h, hd⟩⟩)
      · exact absurd h hd
    by_cases hn : f.name = f.runs
    · exact key form (mem_forms hform) c (mem_cats c) q (by rw [if_pos hn]; exact mem_bools q) cats (hl ▸ mem_allCats cats)
    · rw [mine_other hd hn]
      exact key form (mem_forms hform) c (mem_cats c) false (by rw [if_neg hn]; simp) cats (hl ▸ mem_allCats cats)

end Kwk
