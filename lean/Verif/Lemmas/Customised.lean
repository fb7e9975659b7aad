import Verif.Lemmas.AuxCalls
import Verif.Lemmas.CustomisedTables

/-! # Helper lemmas: algorithms that users write for their own contexts, any number of containers -/

namespace Kwk

open Calls Spec

theorem resolveMine_six (c0 c1 c2 c3 c4 c5 : Candidate) (args : List Arg) (h0 : c0.viable args = false) (h1 : c1.viable args = false)
    (h3 : c3.viable args = false) (h4 : c4.viable args = false) :
    resolveMine [c0, c1, c2, c3, c4, c5] args =
      if c2.viable args then
        if c5.viable args then
          if c2.betterMatch c5 args then some 2 else if c5.betterMatch c2 args then some 5 else none
        else some 2
      else if c5.viable args then some 5 else none := by
  unfold resolveMine
  simp only [show List.range [c0, c1, c2, c3, c4, c5].length = [0, 1, 2, 3, 4, 5] from rfl]
  rcases h2 : c2.viable args <;> rcases h5 : c5.viable args <;> rcases h6 : c2.betterMatch c5 args <;>
    rcases h7 : c5.betterMatch c2 args <;> simp [h0, h1, h2, h3, h4, h5, h6, h7, List.filter, List.find?]

theorem resolveMine_four (c0 c1 c2 c3 : Candidate) (args : List Arg) (h0 : c0.viable args = false) (h1 : c1.viable args = false)
    (h3 : c3.viable args = false) :
    resolveMine [c0, c1, c2, c3] args = if c2.viable args then some 2 else none := by
  unfold resolveMine
  simp only [show List.range [c0, c1, c2, c3].length = [0, 1, 2, 3] from rfl]
  rcases h2 : c2.viable args <;> simp [h0, h1, h2, h3, List.filter]

theorem resolveMine_three (c0 c1 c2 : Candidate) (args : List Arg) (h1 : c1.viable args = false) :
    resolveMine [c0, c1, c2] args =
      if c0.viable args then
        if c2.viable args then
          if c0.betterMatch c2 args then some 0 else if c2.betterMatch c0 args then some 2 else none
        else some 0
      else if c2.viable args then some 2 else none := by
  unfold resolveMine
  simp only [show List.range [c0, c1, c2].length = [0, 1, 2] from rfl]
  rcases h2 : c0.viable args <;> rcases h5 : c2.viable args <;> rcases h6 : c0.betterMatch c2 args <;>
    rcases h7 : c2.betterMatch c0 args <;> simp [h1, h2, h5, h6, h7, List.filter, List.find?]

theorem resolveMine_two (c0 c1 : Candidate) (args : List Arg) (h1 : c1.viable args = false) :
    resolveMine [c0, c1] args = if c0.viable args then some 0 else none := by
  unfold resolveMine
  simp only [show List.range [c0, c1].length = [0, 1] from rfl]
  rcases h2 : c0.viable args <;> simp [h1, h2, List.filter]

theorem three {α : Type} {l : List α} (h : l.length = 3) : ∃ a b c, l = [a, b, c] := by
  match l, h with
  | [a, b, c], _ => exact ⟨a, b, c, rfl⟩

/-! ## Calls without the user's context -/

theorem eval_other (ps : List (Param × Bool)) (args : List Arg) (h : ∀ x ∈ args, x.thing ≠ .user 0) (s : Source) :
    ∀ x ∈ s.eval ps args, x.thing ≠ .user 0 := by
  have hz : ∀ (i : Nat) y, (ps.zip args)[i]? = some y → y.2.thing ≠ .user 0 := fun i y hy =>
    h _ (List.of_mem_zip (List.mem_of_getElem? hy)).2
  have hf : ∀ (p : Param) (a : Arg), (p.forwarded a).thing = a.thing := by
    intro p a; unfold Param.forwarded; split <;> rfl
  intro x hx
  cases s with
  | param i =>
    simp only [Source.eval] at hx
    rcases hi : (ps.zip args)[i]? with _ | y
    · simp [hi] at hx
    · simp only [hi, Option.elim_some, List.mem_singleton] at hx
      subst hx; exact hz i y hi
  | forward i =>
    simp only [Source.eval] at hx
    rcases hi : (ps.zip args)[i]? with _ | y
    · simp [hi] at hx
    · simp only [hi, Option.elim_some, List.mem_singleton] at hx
      subst hx; rw [hf]; exact hz i y hi
  | forwardRest =>
    simp only [Source.eval, List.mem_map, List.mem_filter] at hx
    obtain ⟨y, ⟨hy, -⟩, rfl⟩ := hx
    rw [hf]; exact h _ (List.of_mem_zip hy).2
  | cpu => simp only [Source.eval, List.mem_singleton] at hx; subst hx; simp
  | fresh k m => simp only [Source.eval, List.mem_singleton] at hx; subst hx; simp
  | made k m i =>
    simp only [Source.eval] at hx
    rcases hi : (ps.zip args)[i]? with _ | y
    · simp [hi] at hx
    · simp only [hi, Option.elim_some, List.mem_singleton] at hx
      subst hx; simp
  | over k m i j =>
    simp only [Source.eval] at hx
    rcases hi : (ps.zip args)[i]? with _ | y
    · simp [hi] at hx
    · rcases hj : (ps.zip args)[j]? with _ | z
      · simp [hi, hj] at hx
      · simp only [hi, hj, Option.elim_some, List.mem_singleton] at hx
        subst hx; simp

theorem callMineIn_other (form : Form) (b : Algo) : ∀ (fuel : Nat) (a : Algo) (seen : Nat) (q : Bool) (args : List Arg),
    (∀ x ∈ args, x.thing ≠ .user 0) →
    callMineIn form b fuel a seen q args = (callIn fuel a seen args).map fun r => (false, r)
  | 0, _, _, _, _, _ => rfl
  | fuel + 1, a, seen, q, args, h => by
    have hany : args.any Arg.mine = false := by
      rw [List.any_eq_false]; intro x hx; simpa [Arg.mine] using h x hx
    unfold callMineIn callIn
    simp only [hany, Bool.and_false, Bool.false_eq_true, if_false, List.append_nil, resolveMine_library, Option.bind_eq_bind]
    rcases resolve ((overloads a).take seen) args with _ | i
    · rfl
    · simp only [Option.bind_some, List.getElem?_map]
      rcases ((overloads a).take seen)[i]? with _ | o
      · rfl
      · simp only [Option.map_some, Option.bind_some]
        rcases o.expand args.length with _ | ps
        · rfl
        · simp only [Option.bind_some]
          split
          · rfl
          · rcases o.body with _ | ⟨q', a', srcs⟩
            · rfl
            · simp only
              apply callMineIn_other
              intro x hx
              obtain ⟨s, -, hs⟩ := List.mem_flatMap.1 hx
              exact eval_other ps args h s x hs

/-! ## `for_each` -/

/-- The user's `for_each`. -/
abbrev feMine (form : Form) : Overload := ⟨[⟨form, .context⟩, funcFwd, contFwd], some contFwd, .runs⟩

theorem feMine_expand (form : Form) (n : Nat) : (feMine form).expand (n + 3) =
    some ([(⟨form, .context⟩, false), (funcFwd, false), (contFwd, false)] ++ List.replicate n (contFwd, true)) := by
  have := expand_pack [⟨form, .context⟩, funcFwd, contFwd] contFwd .runs n
  rw [Nat.add_comm] at this; exact this

theorem feMine_viable {form : Form} (hform : form ≠ .fwd) (x f c : Arg) (l : List Arg) (hx : x.mine = true) (hc : c.kind = .container)
    (h : Containers l) : (Candidate.mk (feMine form) true).viable (x :: f :: c :: l) = true ↔ Takes form x.cat := by
  unfold Candidate.viable Overload.viable
  rw [show (x :: f :: c :: l).length = l.length + 3 from rfl]
  simp only [feMine_expand]
  simp only [List.cons_append, List.nil_append, List.zip_cons_cons, zip_replicate, List.all_cons, List.all_map]
  rw [show (l.all ((fun pa : (Param × Bool) × Arg => pa.1.1.accepts pa.2) ∘ fun y => ((contFwd, true), y))) = true from all_fwd h]
  unfold Takes
  cases form <;> cases hcat : x.cat <;> simp [Param.accepts, funcFwd, contFwd, hc, hx, hcat]

theorem feMine_better {form : Form} (hform : form ≠ .fwd) (x f c : Arg) (l : List Arg) :
    ((Candidate.mk fe2 false).betterMatch ⟨feMine form, true⟩ (x :: f :: c :: l) = true ↔ form = .clref ∧ x.cat = .named) ∧
      ((Candidate.mk (feMine form) true).betterMatch ⟨fe2, false⟩ (x :: f :: c :: l) = true ↔ ¬ (form = .clref ∧ x.cat = .named)) := by
  have e2 : fe2.expand (l.length + 3) = _ := fe2_expand l.length
  have e3 := feMine_expand form l.length
  unfold Candidate.betterMatch Candidate.moreSpecialised
  rw [show (x :: f :: c :: l).length = l.length + 3 from rfl]
  simp only [e2, e3]
  simp only [List.cons_append, List.nil_append, List.zip_cons_cons, zip_two, List.any_cons, List.any_map,
    betterConversion, ctx, funcFwd, contFwd]
  constructor <;> cases form <;> cases hcat : x.cat <;> simp [atLeastAsSpecialised] at hform ⊢

/-- `for_each` over a shape, on a context. -/
abbrev fe0 : Overload := ⟨[ctx, funcFwd, shp], none, .runs⟩
/-- `for_each` over a shape, without context. -/
abbrev fe1 : Overload := ⟨[funcFwd, shp], none, .calls true .forEach [.cpu, .forward 0, .param 1]⟩
/-- The user's `for_each` over a shape. -/
abbrev feMine0 (form : Form) : Overload := ⟨[⟨form, .context⟩, funcFwd, shp], none, .runs⟩

/-- A user's template that takes a shape is not viable without a shape. -/
theorem feShape_viable (form : Form) (args : List Arg) (hn : ∀ a ∈ args, a.kind ≠ .shape) :
    (Candidate.mk ⟨[⟨form, .context⟩, funcFwd, shp], none, .runs⟩ true).viable args = false := by
  unfold Candidate.viable Overload.viable Overload.expand
  by_cases hl : args.length = 3
  · obtain ⟨a, b, c, rfl⟩ := three hl
    have := hn c (by simp)
    simp [Param.accepts, shp, this]
  · simp [hl]

theorem libShape_viable (args : List Arg) (hn : ∀ a ∈ args, a.kind ≠ .shape) :
    (Candidate.mk ⟨[ctx, funcFwd, shp], none, .runs⟩ false).viable args = false := by
  unfold Candidate.viable
  rw [no_shape (fe0_viable args) hn]; rfl

theorem libShape_viable' (args : List Arg) (hn : ∀ a ∈ args, a.kind ≠ .shape) :
    (Candidate.mk ⟨[funcFwd, shp], none, .calls true .forEach [.cpu, .forward 0, .param 1]⟩ false).viable args = false := by
  unfold Candidate.viable
  rw [no_shape (fe1_viable args _) hn]; rfl

theorem userTemplates_forEach (form : Form) : userTemplates form .forEach =
    [⟨⟨[⟨form, .context⟩, funcFwd, shp], none, .runs⟩, true⟩, ⟨feMine form, true⟩] := by cases form <;> rfl

/-- `for_each` on the user's context, over any number of containers. -/
theorem forEach_mine {form : Form} (hform : form ≠ .fwd) (q : Bool) (x f c : Arg) (l : List Arg) (hm : x.mine = true)
    (hx : x.kind = .context) (hf : f.kind = .function) (hc : c.kind = .container) (h : Containers l) :
    (callMine form .forEach q .forEach (x :: f :: c :: l)).map (fun r => (r.1, r.2.1, r.2.2.map Arg.thing)) =
      if Preferred form x.cat ∧ q = false then some (true, .forEach, (x :: f :: c :: l).map Arg.thing)
      else if x.cat ≠ .temporary then some (false, .forEach, (x :: f :: c :: l).map Arg.thing) else none := by
  have hn : ∀ a ∈ x :: f :: c :: l, a.kind ≠ .shape := by
    intro a ha
    simp only [List.mem_cons] at ha
    rcases ha with rfl | rfl | rfl | ha
    · rw [hx]; decide
    · rw [hf]; decide
    · rw [hc]; decide
    · rw [h a ha]; decide
  have v3 : (Candidate.mk fe3 false).viable (x :: f :: c :: l) = false := by
    unfold Candidate.viable Overload.viable
    rw [show (x :: f :: c :: l).length = (l.length + 1) + 2 from rfl]
    simp only [fe3_expand]
    simp [List.replicate_succ, Param.accepts, contFwd, hf]
  have v2 : (Candidate.mk fe2 false).viable (x :: f :: c :: l) = (x.cat != .temporary) := by
    unfold Candidate.viable
    rw [fe2_viable x f c l h, hc]; simp
  have run : ∀ (o : Overload) (p : Param), o.body = .runs → p.kind = .context →
      o.expand (l.length + 3) = some ([(p, false), (funcFwd, false), (contFwd, false)] ++ List.replicate l.length (contFwd, true)) →
      ∀ (m : Bool) (k : Nat), (seenBy form .forEach .forEach 4 q (x :: f :: c :: l))[k]? = some ⟨o, m⟩ →
      resolveMine (seenBy form .forEach .forEach 4 q (x :: f :: c :: l)) (x :: f :: c :: l) = some k →
      (callMine form .forEach q .forEach (x :: f :: c :: l)).map (fun r => (r.1, r.2.1, r.2.2.map Arg.thing)) =
        some (m, Algo.forEach, (x :: f :: c :: l).map Arg.thing) := by
    intro o p hb hp he m k hk hr
    unfold callMine
    have hz : (([(p, false), (funcFwd, false), (contFwd, false)] ++ List.replicate l.length (contFwd, true)).zip
        (x :: f :: c :: l)).any (fun x => x.1.1.kind == .context && x.2.kind != .context) = false := by
      simp [zip_replicate, hp, hx, funcFwd, contFwd]
    rw [show (overloads .forEach).length = 4 from rfl, callMineIn_runs hr hk he hb hz, Option.map_some, zip_things _ _ (by simp)]
  have hany : (x :: f :: c :: l).any Arg.mine = true := by simp [hm]
  cases q
  · have hs : seenBy form .forEach .forEach 4 false (x :: f :: c :: l) =
        [⟨fe0, false⟩, ⟨fe1, false⟩, ⟨fe2, false⟩, ⟨fe3, false⟩, ⟨feMine0 form, true⟩, ⟨feMine form, true⟩] := by
      unfold seenBy
      rw [hany, userTemplates_forEach]; rfl
    have hr := resolveMine_six ⟨fe0, false⟩ ⟨fe1, false⟩ ⟨fe2, false⟩ ⟨fe3, false⟩ ⟨feMine0 form, true⟩ ⟨feMine form, true⟩ (x :: f :: c :: l) (libShape_viable _ hn)
      (libShape_viable' _ hn) v3 (feShape_viable form _ hn)
    rw [← hs, v2] at hr
    have hv := feMine_viable hform x f c l hm hc h
    obtain ⟨b1, b2⟩ := feMine_better hform x f c l
    by_cases ht : Takes form x.cat
    · rw [hv.2 ht] at hr
      by_cases hcn : form = .clref ∧ x.cat = .named
      · rw [if_neg (fun hh => hh.1.2 hcn), if_pos (by rw [hcn.2]; decide)]
        refine run fe2 ctx rfl rfl (fe2_expand _) false 2 (by rw [hs]; rfl) ?_
        rw [hr, b1.2 hcn, hcn.2]; rfl
      · rw [if_pos ⟨⟨ht, hcn⟩, rfl⟩]
        refine run (feMine form) ⟨form, .context⟩ rfl rfl (feMine_expand form _) true 5 (by rw [hs]; rfl) ?_
        rw [hr, b2.2 hcn, Bool.eq_false_iff.2 (fun hh => hcn (b1.1 hh))]
        cases x.cat <;> rfl
    · rw [Bool.eq_false_iff.2 (fun hh => ht (hv.1 hh))] at hr
      rw [if_neg (fun hh => ht hh.1.1)]
      by_cases hcat : x.cat = .temporary
      · rw [if_neg (fun hh => hh hcat)]
        unfold callMine
        rw [show (overloads .forEach).length = 4 from rfl, callMineIn_none (by rw [hr, hcat]; rfl)]; rfl
      · rw [if_pos hcat]
        refine run fe2 ctx rfl rfl (fe2_expand _) false 2 (by rw [hs]; rfl) ?_
        rw [hr]
        cases hh : x.cat <;> simp [hh] at hcat ⊢
  · have hs : seenBy form .forEach .forEach 4 true (x :: f :: c :: l) =
        [⟨fe0, false⟩, ⟨fe1, false⟩, ⟨fe2, false⟩, ⟨fe3, false⟩] := by
      unfold seenBy; rfl
    have hr := resolveMine_four ⟨fe0, false⟩ ⟨fe1, false⟩ ⟨fe2, false⟩ ⟨fe3, false⟩ (x :: f :: c :: l) (libShape_viable _ hn) (libShape_viable' _ hn) v3
    rw [← hs, v2] at hr
    rw [if_neg (fun hh => by simp at hh)]
    by_cases hcat : x.cat = .temporary
    · rw [if_neg (fun hh => hh hcat)]
      unfold callMine
      rw [show (overloads .forEach).length = 4 from rfl, callMineIn_none (by rw [hr, hcat]; rfl)]; rfl
    · rw [if_pos hcat]
      refine run fe2 ctx rfl rfl (fe2_expand _) false 2 (by rw [hs]; rfl) ?_
      rw [hr]
      cases hh : x.cat <;> simp [hh] at hcat ⊢

/-! ## `transform` -/

/-- The user's `transform`. -/
abbrev trMine (form : Form) : Overload := ⟨[⟨form, .context⟩, funcFwd, out, inp], some inp, .runs⟩

theorem trMine_expand (form : Form) (n : Nat) : (trMine form).expand (n + 4) =
    some ([(⟨form, .context⟩, false), (funcFwd, false), (out, false), (inp, false)] ++ List.replicate n (inp, true)) := by
  have := expand_pack [⟨form, .context⟩, funcFwd, out, inp] inp .runs n
  rw [Nat.add_comm] at this; exact this

theorem trMine_viable {form : Form} (hform : form ≠ .fwd) (x f o c : Arg) (l : List Arg) (hx : x.mine = true) (ho : o.kind = .container)
    (hc : c.kind = .container) (h : Containers l) :
    (Candidate.mk (trMine form) true).viable (x :: f :: o :: c :: l) = true ↔ Takes form x.cat ∧ o.cat ≠ .temporary := by
  unfold Candidate.viable Overload.viable
  rw [show (x :: f :: o :: c :: l).length = l.length + 4 from rfl]
  simp only [trMine_expand]
  simp only [List.cons_append, List.nil_append, List.zip_cons_cons, zip_replicate, List.all_cons, List.all_map]
  rw [show (l.all ((fun pa : (Param × Bool) × Arg => pa.1.1.accepts pa.2) ∘ fun y => ((inp, true), y))) = true from all_inp h]
  unfold Takes
  cases form <;> cases hcat : x.cat <;> simp [Param.accepts, funcFwd, out, inp, hc, ho, hx, hcat] at hform ⊢

theorem trMine_better {form : Form} (hform : form ≠ .fwd) (x f o c : Arg) (l : List Arg) :
    ((Candidate.mk tr0 false).betterMatch ⟨trMine form, true⟩ (x :: f :: o :: c :: l) = true ↔ form = .clref ∧ x.cat = .named) ∧
      ((Candidate.mk (trMine form) true).betterMatch ⟨tr0, false⟩ (x :: f :: o :: c :: l) = true ↔
        ¬ (form = .clref ∧ x.cat = .named)) := by
  have e2 : tr0.expand (l.length + 4) = _ := tr0_expand l.length
  have e3 := trMine_expand form l.length
  unfold Candidate.betterMatch Candidate.moreSpecialised
  rw [show (x :: f :: o :: c :: l).length = l.length + 4 from rfl]
  simp only [e2, e3]
  have hb : ∀ a, betterConversion inp inp a = false := by intro a; cases ha : a.cat <;> simp [betterConversion, inp, ha]
  have hb1 : ∀ a, betterConversion funcFwd funcFwd a = false := fun a => rfl
  have hb2 : ∀ a, betterConversion out out a = false := fun a => rfl
  simp only [List.cons_append, List.nil_append, List.zip_cons_cons, zip_two, List.any_cons, List.any_map, Function.comp_def, hb, hb1, hb2]
  constructor <;> cases form <;> cases hcat : x.cat <;>
    simp [atLeastAsSpecialised, betterConversion, ctx, funcFwd, out, inp, hcat] at hform ⊢

theorem userTemplates_transform (form : Form) : userTemplates form .transform = [⟨trMine form, true⟩] := by cases form <;> rfl

/-- `transform` on the user's context, of any number of containers. -/
theorem transform_mine {form : Form} (hform : form ≠ .fwd) (q : Bool) (x f o c : Arg) (l : List Arg) (hm : x.mine = true)
    (hx : x.kind = .context) (hf : f.kind = .function) (ho : o.kind = .container) (hc : c.kind = .container) (h : Containers l) :
    (callMine form .transform q .transform (x :: f :: o :: c :: l)).map (fun r => (r.1, r.2.1, r.2.2.map Arg.thing)) =
      if o.cat = .temporary then none
      else if Preferred form x.cat ∧ q = false then some (true, .transform, (x :: f :: o :: c :: l).map Arg.thing)
      else if x.cat ≠ .temporary then some (false, .transform, (x :: f :: o :: c :: l).map Arg.thing) else none := by
  have v1 : (Candidate.mk tr1 false).viable (x :: f :: o :: c :: l) = false := by
    unfold Candidate.viable
    rw [Bool.eq_false_iff]
    intro hh
    rw [Bool.and_eq_true] at hh
    have hcl : Containers (c :: l) := by
      intro a ha
      rcases List.mem_cons.1 ha with rfl | ha
      · exact hc
      · exact h a ha
    have := ((tr1_viable x f o (c :: l) hcl).1 hh.1).1
    rw [hf] at this; cases this
  have v0 : (Candidate.mk tr0 false).viable (x :: f :: o :: c :: l) = true ↔ x.cat ≠ .temporary ∧ o.cat ≠ .temporary := by
    unfold Candidate.viable
    simp only [Bool.not_false, Bool.true_or, Bool.and_true, tr0_viable x f o c l h, ho, hc, true_and, and_true]
  have run : ∀ (u : Overload) (p : Param), u.body = .runs → p.kind = .context →
      u.expand (l.length + 4) = some ([(p, false), (funcFwd, false), (out, false), (inp, false)] ++ List.replicate l.length (inp, true)) →
      ∀ (m : Bool) (k : Nat), (seenBy form .transform .transform 2 q (x :: f :: o :: c :: l))[k]? = some ⟨u, m⟩ →
      resolveMine (seenBy form .transform .transform 2 q (x :: f :: o :: c :: l)) (x :: f :: o :: c :: l) = some k →
      (callMine form .transform q .transform (x :: f :: o :: c :: l)).map (fun r => (r.1, r.2.1, r.2.2.map Arg.thing)) =
        some (m, Algo.transform, (x :: f :: o :: c :: l).map Arg.thing) := by
    intro u p hb hp he m k hk hr
    unfold callMine
    have hz : (([(p, false), (funcFwd, false), (out, false), (inp, false)] ++ List.replicate l.length (inp, true)).zip
        (x :: f :: o :: c :: l)).any (fun x => x.1.1.kind == .context && x.2.kind != .context) = false := by
      simp [zip_replicate, hp, hx, funcFwd, out, inp]
    rw [show (overloads .transform).length = 2 from rfl, callMineIn_runs hr hk he hb hz, Option.map_some, zip_things _ _ (by simp)]
  have fail : resolveMine (seenBy form .transform .transform 2 q (x :: f :: o :: c :: l)) (x :: f :: o :: c :: l) = none →
      (callMine form .transform q .transform (x :: f :: o :: c :: l)).map (fun r => (r.1, r.2.1, r.2.2.map Arg.thing)) = none := by
    intro hr
    unfold callMine
    rw [show (overloads .transform).length = 2 from rfl, callMineIn_none hr]; rfl
  have hany : (x :: f :: o :: c :: l).any Arg.mine = true := by simp [hm]
  have hv := trMine_viable hform x f o c l hm ho hc h
  obtain ⟨b1, b2⟩ := trMine_better hform x f o c l
  cases q
  · have hs : seenBy form .transform .transform 2 false (x :: f :: o :: c :: l) =
        [⟨tr0, false⟩, ⟨tr1, false⟩, ⟨trMine form, true⟩] := by
      unfold seenBy
      rw [hany, userTemplates_transform]; rfl
    have hr := resolveMine_three ⟨tr0, false⟩ ⟨tr1, false⟩ ⟨trMine form, true⟩ (x :: f :: o :: c :: l) v1
    rw [← hs] at hr
    by_cases hot : o.cat = .temporary
    · rw [if_pos hot]
      apply fail
      rw [hr, if_neg (fun hh => (v0.1 hh).2 hot), if_neg (fun hh => (hv.1 hh).2 hot)]
    rw [if_neg hot]
    by_cases ht : Takes form x.cat
    · rw [if_pos (hv.2 ⟨ht, hot⟩), if_pos (hv.2 ⟨ht, hot⟩)] at hr
      by_cases hcn : form = .clref ∧ x.cat = .named
      · rw [if_neg (fun hh => hh.1.2 hcn), if_pos (by rw [hcn.2]; decide)]
        refine run tr0 ctx rfl rfl (tr0_expand _) false 0 (by rw [hs]; rfl) ?_
        rw [hr, if_pos (v0.2 ⟨by rw [hcn.2]; decide, hot⟩), if_pos (b1.2 hcn)]
      · rw [if_pos ⟨⟨ht, hcn⟩, rfl⟩]
        refine run (trMine form) ⟨form, .context⟩ rfl rfl (trMine_expand form _) true 2 (by rw [hs]; rfl) ?_
        rw [hr, if_neg (fun hh => hcn (b1.1 hh)), if_pos (b2.2 hcn)]
        split <;> rfl
    · rw [if_neg (fun hh => ht (hv.1 hh).1), if_neg (fun hh => ht (hv.1 hh).1)] at hr
      rw [if_neg (fun hh => ht hh.1.1)]
      by_cases hcat : x.cat = .temporary
      · rw [if_neg (fun hh => hh hcat)]
        apply fail
        rw [hr, if_neg (fun hh => (v0.1 hh).1 hcat)]
      · rw [if_pos hcat]
        refine run tr0 ctx rfl rfl (tr0_expand _) false 0 (by rw [hs]; rfl) ?_
        rw [hr, if_pos (v0.2 ⟨hcat, hot⟩)]
  · have hs : seenBy form .transform .transform 2 true (x :: f :: o :: c :: l) = [⟨tr0, false⟩, ⟨tr1, false⟩] := by
      unfold seenBy; rfl
    have hr := resolveMine_two ⟨tr0, false⟩ ⟨tr1, false⟩ (x :: f :: o :: c :: l) v1
    rw [← hs] at hr
    by_cases hot : o.cat = .temporary
    · rw [if_pos hot]
      apply fail
      rw [hr, if_neg (fun hh => (v0.1 hh).2 hot)]
    rw [if_neg hot, if_neg (fun hh => by simp at hh)]
    by_cases hcat : x.cat = .temporary
    · rw [if_neg (fun hh => hh hcat)]
      apply fail
      rw [hr, if_neg (fun hh => (v0.1 hh).1 hcat)]
    · rw [if_pos hcat]
      refine run tr0 ctx rfl rfl (tr0_expand _) false 0 (by rw [hs]; rfl) ?_
      rw [hr, if_pos (v0.2 ⟨hcat, hot⟩)]

end Kwk
