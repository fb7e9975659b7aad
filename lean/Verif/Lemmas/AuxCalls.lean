import Verif.Lemmas.CallTables

/-! # Helper lemmas: overload resolution of variadic algorithms -/

namespace Kwk

open Calls Spec

theorem inside_seen (p : Param) (a : Arg) (h : p.form = .lref ∨ p.form = .fwd) : p.inside a = asSeen a := by
  rcases h with h | h <;> simp [Param.inside, asSeen, h]

theorem seen_cpu : asSeen ⟨.cpu, .context, .constant, false⟩ = ⟨.cpu, .context, .constant, false⟩ := rfl

theorem inside_read (a : Arg) : inp.inside a = asRead a := by simp [Param.inside, asRead, inp]

theorem expand_pack (ps : List Param) (p : Param) (b : Body) (n : Nat) :
    (Overload.mk ps (some p) b).expand (ps.length + n) = some (ps.map (·, false) ++ List.replicate n (p, true)) := by
  unfold Overload.expand
  rcases n with _ | n
  · simp
  · simp

theorem zip_replicate {α β : Type} (x : α) (l : List β) : (List.replicate l.length x).zip l = l.map (x, ·) := by
  induction l with
  | nil => rfl
  | cons a l ih => simp [List.replicate_succ, ih]

theorem zip_two {α β γ : Type} (x : α) (y : β) (l : List γ) :
    ((List.replicate l.length x).zip (List.replicate l.length y)).zip l = l.map ((x, y), ·) := by
  induction l with
  | nil => rfl
  | cons a l ih => simp only [List.replicate_succ, List.length_cons, List.zip_cons_cons, List.map_cons, ih]

/-- Every argument is a container. -/
abbrev Containers (l : List Arg) : Prop := ∀ a ∈ l, a.kind = .container

theorem all_fwd {l : List Arg} (h : Containers l) : l.all (fun a => contFwd.accepts a) = true := by
  rw [List.all_eq_true]; intro a ha; simp [Param.accepts, contFwd, h a ha]

/-- `for_each` on a context. -/
abbrev fe2 : Overload := ⟨[ctx, funcFwd, contFwd], some contFwd, .runs⟩
/-- `for_each` without context. -/
abbrev fe3 : Overload := ⟨[funcFwd, contFwd], some contFwd, .calls true .forEach [.cpu, .forward 0, .forward 1, .forwardRest]⟩

theorem fe2_expand (n : Nat) : fe2.expand (n + 3) = some ([(ctx, false), (funcFwd, false), (contFwd, false)] ++ List.replicate n (contFwd, true)) := by
  have := expand_pack [ctx, funcFwd, contFwd] contFwd .runs n
  rw [Nat.add_comm] at this; exact this

theorem fe3_expand (n : Nat) : fe3.expand (n + 2) = some ([(funcFwd, false), (contFwd, false)] ++ List.replicate n (contFwd, true)) := by
  have := expand_pack [funcFwd, contFwd] contFwd (.calls true .forEach [.cpu, .forward 0, .forward 1, .forwardRest]) n
  rw [Nat.add_comm] at this; exact this

theorem fe2_viable (x f c : Arg) (l : List Arg) (h : Containers l) :
    fe2.viable (x :: f :: c :: l) = (x.cat != .temporary && c.kind == .container) := by
  unfold Overload.viable
  rw [show (x :: f :: c :: l).length = l.length + 3 from rfl, fe2_expand]
  simp only [List.cons_append, List.nil_append, List.zip_cons_cons, zip_replicate, List.all_cons, List.all_map]
  rw [show (l.all ((fun pa : (Param × Bool) × Arg => pa.1.1.accepts pa.2) ∘ fun y => ((contFwd, true), y))) = true from all_fwd h]
  rw [Bool.eq_iff_iff]; simp [Param.accepts, ctx, funcFwd, contFwd]

theorem fe3_viable (f c : Arg) (l : List Arg) (h : Containers l) :
    fe3.viable (f :: c :: l) = (c.kind == .container) := by
  unfold Overload.viable
  rw [show (f :: c :: l).length = l.length + 2 from rfl, fe3_expand]
  simp only [List.cons_append, List.nil_append, List.zip_cons_cons, zip_replicate, List.all_cons, List.all_map]
  rw [show (l.all ((fun pa : (Param × Bool) × Arg => pa.1.1.accepts pa.2) ∘ fun y => ((contFwd, true), y))) = true from all_fwd h]
  rw [Bool.eq_iff_iff]; simp [Param.accepts, funcFwd, contFwd]

theorem fe0_viable (args : List Arg) : (Overload.mk [ctx, funcFwd, shp] none .runs).viable args = true → ∃ a ∈ args, a.kind = .shape := by
  unfold Overload.viable Overload.expand
  split
  · simp
  · rename_i ps hp
    split at hp
    · cases hp
      rename_i h
      match args, h with
      | [a, b, c], _ =>
        simp [Param.accepts, shp, ctx, funcFwd]
        intro _ h; exact Or.inr (Or.inr h)
    · simp at hp

theorem fe1_viable (args : List Arg) (b : Body) : (Overload.mk [funcFwd, shp] none b).viable args = true → ∃ a ∈ args, a.kind = .shape := by
  unfold Overload.viable Overload.expand
  split
  · simp
  · rename_i ps hp
    split at hp
    · cases hp
      rename_i h
      match args, h with
      | [a, b], _ =>
        simp [Param.accepts, shp, funcFwd]
        intro h; exact Or.inr h
    · simp at hp

theorem fe_better (x f c : Arg) (l : List Arg) : betterMatch fe2 fe3 (x :: f :: c :: l) = true ∧ betterMatch fe3 fe2 (x :: f :: c :: l) = false := by
  have e2 : fe2.expand (l.length + 3) = _ := fe2_expand l.length
  have e3 : fe3.expand (l.length + 3) = _ := fe3_expand (l.length + 1)
  unfold betterMatch moreSpecialised
  rw [show (x :: f :: c :: l).length = l.length + 3 from rfl, e2, e3]
  simp only [List.cons_append, List.nil_append, List.zip_cons_cons, List.replicate_succ, zip_two, List.any_cons, List.any_map,
    List.all_cons, betterConversion, ctx, funcFwd, contFwd]
  constructor
  · simp [atLeastAsSpecialised, List.zip_eq_zipWith]
  · simp [atLeastAsSpecialised]

theorem resolve_four (o0 o1 o2 o3 : Overload) (args : List Arg) (h0 : o0.viable args = false) (h1 : o1.viable args = false) :
    resolve [o0, o1, o2, o3] args =
      if o2.viable args then
        if o3.viable args then
          if betterMatch o2 o3 args then some 2 else if betterMatch o3 o2 args then some 3 else none
        else some 2
      else if o3.viable args then some 3 else none := by
  unfold resolve
  simp only [show List.range [o0, o1, o2, o3].length = [0, 1, 2, 3] from rfl]
  rcases h2 : o2.viable args <;> rcases h3 : o3.viable args <;> rcases h4 : betterMatch o2 o3 args <;>
    rcases h5 : betterMatch o3 o2 args <;> simp [h0, h1, h2, h3, h4, h5, List.filter, List.find?]

theorem resolve_three (o0 o1 o2 : Overload) (args : List Arg) (h0 : o0.viable args = false) (h1 : o1.viable args = false) :
    resolve [o0, o1, o2] args = if o2.viable args then some 2 else none := by
  unfold resolve
  simp only [show List.range [o0, o1, o2].length = [0, 1, 2] from rfl]
  rcases h2 : o2.viable args <;> simp [h0, h1, h2, List.filter]

theorem no_shape {args : List Arg} {o : Overload} (h : o.viable args = true → ∃ a ∈ args, a.kind = .shape)
    (hn : ∀ a ∈ args, a.kind ≠ .shape) : o.viable args = false := by
  rcases hv : o.viable args with _ | _
  · rfl
  · obtain ⟨a, ha, he⟩ := h hv
    exact absurd he (hn a ha)

/-- A call of `for_each` on a context runs on it. -/
theorem forEach_context (fuel : Nat) (x f c : Arg) (l : List Arg) (seen : Nat) (hs : seen = 3 ∨ seen = 4) (hx : x.kind = .context)
    (hf : f.kind = .function) (hc : c.kind = .container) (h : Containers l) :
    callIn (fuel + 1) .forEach seen (x :: f :: c :: l) =
      if x.cat = .temporary then none else some (.forEach, asSeen x :: asSeen f :: asSeen c :: l.map asSeen) := by
  have hn : ∀ a ∈ x :: f :: c :: l, a.kind ≠ .shape := by
    intro a ha
    simp only [List.mem_cons] at ha
    rcases ha with rfl | rfl | rfl | ha
    · rw [hx]; decide
    · rw [hf]; decide
    · rw [hc]; decide
    · rw [h a ha]; decide
  have hl : Containers (c :: l) := by
    intro a ha
    rcases List.mem_cons.1 ha with rfl | ha
    · exact hc
    · exact h a ha
  have h2 := fe2_viable x f c l h
  have h3 := fe3_viable x f (c :: l) hl
  have hr : resolve ((overloads .forEach).take seen) (x :: f :: c :: l) = if x.cat = .temporary then none else some 2 := by
    rcases hs with rfl | rfl
    · rw [show (overloads .forEach).take 3 = [⟨[ctx, funcFwd, shp], none, .runs⟩,
        ⟨[funcFwd, shp], none, .calls true .forEach [.cpu, .forward 0, .param 1]⟩, fe2] from rfl,
        resolve_three _ _ _ _ (no_shape (fe0_viable _) hn) (no_shape (fe1_viable _ _) hn), h2]
      simp [hc]
    · rw [show (overloads .forEach).take 4 = [⟨[ctx, funcFwd, shp], none, .runs⟩,
        ⟨[funcFwd, shp], none, .calls true .forEach [.cpu, .forward 0, .param 1]⟩, fe2, fe3] from rfl,
        resolve_four _ _ _ _ _ (no_shape (fe0_viable _) hn) (no_shape (fe1_viable _ _) hn), h2, h3]
      simp [hc, hf]
  unfold callIn
  simp only [hr]
  by_cases hxt : x.cat = .temporary
  · simp [hxt]
  · rw [if_neg hxt, if_neg hxt]
    have ho : ((overloads .forEach).take seen)[2]? = some fe2 := by rcases hs with rfl | rfl <;> rfl
    simp only [Option.bind_eq_bind, Option.bind_some, ho]
    rw [show (x :: f :: c :: l).length = l.length + 3 from rfl, fe2_expand]
    simp only [Option.bind_some, List.cons_append, List.nil_append, List.zip_cons_cons, zip_replicate, List.any_cons, List.any_map]
    rw [if_neg]
    · simp [inside_seen, ctx, funcFwd, contFwd, Function.comp_def]
    · simp [ctx, funcFwd, contFwd, hx]

/-- A call of `for_each` without context: the call on the CPU if the function is a temporary or if there is one container only. -/
theorem forEach_plain (f c : Arg) (l : List Arg) (hf : f.kind = .function) (hc : c.kind = .container) (h : Containers l) :
    call .forEach (f :: c :: l) =
      if f.cat = .temporary ∨ l = []
      then some (.forEach, ⟨.cpu, .context, .constant, false⟩ :: asSeen f :: asSeen c :: l.map asSeen) else none := by
  have hn : ∀ a ∈ f :: c :: l, a.kind ≠ .shape := by
    intro a ha
    simp only [List.mem_cons] at ha
    rcases ha with rfl | rfl | ha
    · rw [hf]; decide
    · rw [hc]; decide
    · rw [h a ha]; decide
  have h3 := fe3_viable f c l h
  have hr : resolve (overloads .forEach) (f :: c :: l) = if f.cat = .temporary ∨ l = [] then some 3 else some 2 := by
    rw [show overloads .forEach = [⟨[ctx, funcFwd, shp], none, .runs⟩,
        ⟨[funcFwd, shp], none, .calls true .forEach [.cpu, .forward 0, .param 1]⟩, fe2, fe3] from rfl,
        resolve_four _ _ _ _ _ (no_shape (fe0_viable _) hn) (no_shape (fe1_viable _ _) hn), h3]
    rcases l with _ | ⟨d, l⟩
    · rw [show fe2.viable [f, c] = false from rfl]
      simp [hc]
    · rw [fe2_viable f c d l (fun a ha => h a (List.mem_cons_of_mem _ ha)), (fe_better f c d l).1, h d (List.mem_cons_self ..), hc]
      cases f.cat <;> simp
  unfold call callIn
  rw [List.take_length]
  simp only [hr]
  by_cases hl : f.cat = .temporary ∨ l = []
  · rw [if_pos hl, if_pos hl]
    simp only [Option.bind_eq_bind, Option.bind_some, show (overloads .forEach)[3]? = some fe3 from rfl]
    rw [show (f :: c :: l).length = l.length + 2 from rfl, fe3_expand]
    simp only [Option.bind_some, List.cons_append, List.nil_append, List.zip_cons_cons, zip_replicate, List.any_cons, List.any_map]
    rw [if_neg (by simp [funcFwd, contFwd])]
    have := forEach_context 4 ⟨.cpu, .context, .constant, false⟩ f c l 4 (.inr rfl) rfl hf hc h
    simp only [reduceCtorEq, if_false, seen_cpu] at this
    rw [← this]
    congr 1
    simp [List.flatMap_cons, Source.eval, zip_replicate, funcFwd, contFwd, Param.forwarded, List.filter_map, Function.comp_def]
  · rw [if_neg hl, if_neg hl]
    obtain ⟨d, l, rfl⟩ : ∃ d l', l = d :: l' := by
      rcases l with _ | ⟨d, l⟩
      · exact absurd (.inr rfl) hl
      · exact ⟨d, l, rfl⟩
    simp only [Option.bind_eq_bind, Option.bind_some, show (overloads .forEach)[2]? = some fe2 from rfl]
    rw [show (f :: c :: d :: l).length = l.length + 3 from rfl, fe2_expand]
    simp only [Option.bind_some, List.cons_append, List.nil_append, List.zip_cons_cons, zip_replicate, List.any_cons, List.any_map]
    rw [if_pos]
    simp [ctx, hf]

/-- `transform` on a context. -/
abbrev tr0 : Overload := ⟨[ctx, funcFwd, out, inp], some inp, .runs⟩
/-- `transform` without context. -/
abbrev tr1 : Overload :=
  ⟨[funcFwd, out, contFwd], some contFwd, .calls true .transform [.cpu, .forward 0, .param 1, .forward 2, .forwardRest]⟩

theorem tr0_expand (n : Nat) : tr0.expand (n + 4) =
    some ([(ctx, false), (funcFwd, false), (out, false), (inp, false)] ++ List.replicate n (inp, true)) := by
  have := expand_pack [ctx, funcFwd, out, inp] inp .runs n
  rw [Nat.add_comm] at this; exact this

theorem tr1_expand (n : Nat) : tr1.expand (n + 3) =
    some ([(funcFwd, false), (out, false), (contFwd, false)] ++ List.replicate n (contFwd, true)) := by
  have := expand_pack [funcFwd, out, contFwd] contFwd
    (.calls true .transform [.cpu, .forward 0, .param 1, .forward 2, .forwardRest]) n
  rw [Nat.add_comm] at this; exact this

theorem all_inp {l : List Arg} (h : Containers l) : l.all (fun a => inp.accepts a) = true := by
  rw [List.all_eq_true]; intro a ha; simp [Param.accepts, inp, h a ha]

theorem tr0_viable (x f o c : Arg) (l : List Arg) (h : Containers l) :
    tr0.viable (x :: f :: o :: c :: l) = true ↔
      x.cat ≠ .temporary ∧ o.kind = .container ∧ o.cat ≠ .temporary ∧ c.kind = .container := by
  unfold Overload.viable
  rw [show (x :: f :: o :: c :: l).length = l.length + 4 from rfl, tr0_expand]
  simp only [List.cons_append, List.nil_append, List.zip_cons_cons, zip_replicate, List.all_cons, List.all_map]
  rw [show (l.all ((fun pa : (Param × Bool) × Arg => pa.1.1.accepts pa.2) ∘ fun y => ((inp, true), y))) = true from all_inp h]
  simp [Param.accepts, ctx, funcFwd, out, inp, and_assoc]

theorem tr1_viable (f o c : Arg) (l : List Arg) (h : Containers l) :
    tr1.viable (f :: o :: c :: l) = true ↔ o.kind = .container ∧ o.cat ≠ .temporary ∧ c.kind = .container := by
  unfold Overload.viable
  rw [show (f :: o :: c :: l).length = l.length + 3 from rfl, tr1_expand]
  simp only [List.cons_append, List.nil_append, List.zip_cons_cons, zip_replicate, List.all_cons, List.all_map]
  rw [show (l.all ((fun pa : (Param × Bool) × Arg => pa.1.1.accepts pa.2) ∘ fun y => ((contFwd, true), y))) = true from all_fwd h]
  simp [Param.accepts, funcFwd, out, contFwd, and_assoc]

theorem tr_better (f o c d : Arg) (l : List Arg) :
    betterMatch tr0 tr1 (f :: o :: c :: d :: l) = false ∧
      (betterMatch tr1 tr0 (f :: o :: c :: d :: l) = true ↔ ∃ a ∈ d :: l, a.cat ≠ .constant) := by
  have e0 : tr0.expand (l.length + 4) = _ := tr0_expand l.length
  have e1 : tr1.expand (l.length + 4) = _ := tr1_expand (l.length + 1)
  have hb : ∀ a : Arg, betterConversion contFwd inp a = true ↔ a.cat ≠ .constant := by
    intro a; cases ha : a.cat <;> simp [betterConversion, contFwd, inp, ha]
  unfold betterMatch moreSpecialised
  rw [show (f :: o :: c :: d :: l).length = l.length + 4 from rfl, e0, e1]
  simp only [List.cons_append, List.nil_append, List.zip_cons_cons, List.replicate_succ, zip_two, List.any_cons, List.any_map,
    List.all_cons]
  constructor
  · simp [atLeastAsSpecialised, betterConversion, ctx, funcFwd, out, contFwd, inp]
    intros; rfl
  · have h1 : ∀ a, betterConversion ctx funcFwd a = false := fun a => rfl
    have h2 : ∀ a, betterConversion funcFwd out a = false := fun a => rfl
    have h3 : ∀ a, betterConversion out contFwd a = false := fun a => rfl
    have h4 : ∀ a, betterConversion inp contFwd a = false := fun a => rfl
    have h5 : ∀ a, betterConversion funcFwd ctx a = false := fun a => rfl
    have h6 : ∀ a, betterConversion out funcFwd a = false := fun a => rfl
    have h7 : ∀ a, betterConversion contFwd out a = false := fun a => rfl
    have h8 : atLeastAsSpecialised (funcFwd, false) (ctx, false) = false := rfl
    simp only [h1, h2, h3, h4, h5, h6, h7, h8, Bool.false_or, Bool.false_and, Bool.or_false, Bool.and_eq_true, Bool.not_eq_true',
      Function.comp_def, Bool.or_eq_true, List.any_eq_true, hb, List.mem_cons, exists_eq_or_imp, List.any_eq_false]
    simp

theorem resolve_two (o0 o1 : Overload) (args : List Arg) :
    resolve [o0, o1] args =
      if o0.viable args then
        if o1.viable args then
          if betterMatch o0 o1 args then some 0 else if betterMatch o1 o0 args then some 1 else none
        else some 0
      else if o1.viable args then some 1 else none := by
  unfold resolve
  simp only [show List.range [o0, o1].length = [0, 1] from rfl]
  rcases h0 : o0.viable args <;> rcases h1 : o1.viable args <;> rcases h4 : betterMatch o0 o1 args <;>
    rcases h5 : betterMatch o1 o0 args <;> simp [h0, h1, h4, h5, List.filter, List.find?]

theorem resolve_one (o0 : Overload) (args : List Arg) : resolve [o0] args = if o0.viable args then some 0 else none := by
  unfold resolve
  simp only [show List.range [o0].length = [0] from rfl]
  rcases h0 : o0.viable args <;> simp [h0, List.filter]

/-- A call of `transform` on a context runs on it. -/
theorem transform_context (fuel : Nat) (x f o c : Arg) (l : List Arg) (seen : Nat) (hs : seen = 1 ∨ seen = 2)
    (hx : x.kind = .context) (hf : f.kind = .function) (ho : o.kind = .container) (hc : c.kind = .container) (h : Containers l) :
    callIn (fuel + 1) .transform seen (x :: f :: o :: c :: l) =
      if x.cat ≠ .temporary ∧ o.cat ≠ .temporary
      then some (.transform, asSeen x :: asSeen f :: asSeen o :: asRead c :: l.map asRead) else none := by
  have hl : Containers (c :: l) := by
    intro a ha
    rcases List.mem_cons.1 ha with rfl | ha
    · exact hc
    · exact h a ha
  have h0 := tr0_viable x f o c l h
  have h1 : tr1.viable (x :: f :: o :: c :: l) = false := by
    rw [Bool.eq_false_iff]
    intro hv
    have := ((tr1_viable x f o (c :: l) hl).1 hv).1
    rw [hf] at this
    cases this
  simp only [ho, hc, true_and, and_true] at h0
  have hr : resolve ((overloads .transform).take seen) (x :: f :: o :: c :: l) =
      if x.cat ≠ .temporary ∧ o.cat ≠ .temporary then some 0 else none := by
    rcases hs with rfl | rfl
    · rw [show (overloads .transform).take 1 = [tr0] from rfl, resolve_one]
      simp only [h0]
    · rw [show (overloads .transform).take 2 = [tr0, tr1] from rfl, resolve_two, h1]
      simp [h0]
  unfold callIn
  simp only [hr]
  by_cases hxt : x.cat ≠ .temporary ∧ o.cat ≠ .temporary
  · rw [if_pos hxt, if_pos hxt]
    have hov : ((overloads .transform).take seen)[0]? = some tr0 := by rcases hs with rfl | rfl <;> rfl
    simp only [Option.bind_eq_bind, Option.bind_some, hov]
    rw [show (x :: f :: o :: c :: l).length = l.length + 4 from rfl, tr0_expand]
    simp only [Option.bind_some, List.cons_append, List.nil_append, List.zip_cons_cons, zip_replicate, List.any_cons, List.any_map]
    rw [if_neg]
    · simp only [List.map_cons, List.map_map, Function.comp_def, inside_read]
      simp [inside_seen, ctx, funcFwd, out]
    · simp [ctx, funcFwd, out, inp, hx]
  · rw [if_neg hxt, if_neg hxt]
    rfl

/-- A call of `transform` without context. -/
theorem transform_plain (f o c : Arg) (l : List Arg) (hf : f.kind = .function) (ho : o.kind = .container) (hc : c.kind = .container)
    (h : Containers l) :
    call .transform (f :: o :: c :: l) =
      if o.cat ≠ .temporary ∧ (f.cat = .temporary ∨ c.cat = .temporary ∨ l = [] ∨ ∃ a ∈ l, a.cat ≠ .constant)
      then some (.transform, ⟨.cpu, .context, .constant, false⟩ :: asSeen f :: asSeen o :: asRead c :: l.map asRead) else none := by
  have h1 := tr1_viable f o c l h
  simp only [ho, hc, true_and, and_true] at h1
  have hgood : resolve (overloads .transform) (f :: o :: c :: l) = some 1 →
      o.cat ≠ .temporary → call .transform (f :: o :: c :: l) =
        some (.transform, ⟨.cpu, .context, .constant, false⟩ :: asSeen f :: asSeen o :: asRead c :: l.map asRead) := by
    intro hr hot
    unfold call callIn
    rw [List.take_length]
    simp only [hr]
    simp only [Option.bind_eq_bind, Option.bind_some, show (overloads .transform)[1]? = some tr1 from rfl]
    rw [show (f :: o :: c :: l).length = l.length + 3 from rfl, tr1_expand]
    simp only [Option.bind_some, List.cons_append, List.nil_append, List.zip_cons_cons, zip_replicate, List.any_cons, List.any_map]
    rw [if_neg (by simp [funcFwd, contFwd, out])]
    have := transform_context 4 ⟨.cpu, .context, .constant, false⟩ f o c l 2 (.inr rfl) rfl hf ho hc h
    rw [if_pos ⟨by simp, hot⟩, seen_cpu] at this
    rw [← this]
    congr 1
    have hoi : out.inside o = o := by
      rcases o with ⟨ot, ok, oc, op⟩
      cases oc <;> cases op <;> first | rfl | exact absurd rfl hot
    simp [List.flatMap_cons, Source.eval, zip_replicate, funcFwd, contFwd, Param.forwarded, List.filter_map, Function.comp_def, hoi]
  have hbad0 : resolve (overloads .transform) (f :: o :: c :: l) = some 0 → l ≠ [] → call .transform (f :: o :: c :: l) = none := by
    intro hr hl
    obtain ⟨d, l, rfl⟩ : ∃ d l', l = d :: l' := by
      rcases l with _ | ⟨d, l⟩
      · exact absurd rfl hl
      · exact ⟨d, l, rfl⟩
    unfold call callIn
    rw [List.take_length]
    simp only [hr]
    simp only [Option.bind_eq_bind, Option.bind_some, show (overloads .transform)[0]? = some tr0 from rfl]
    rw [show (f :: o :: c :: d :: l).length = l.length + 4 from rfl, tr0_expand]
    simp only [Option.bind_some, List.cons_append, List.nil_append, List.zip_cons_cons, zip_replicate, List.any_cons, List.any_map]
    rw [if_pos]
    simp [ctx, hf]
  have hbadn : resolve (overloads .transform) (f :: o :: c :: l) = none → call .transform (f :: o :: c :: l) = none := by
    intro hr
    unfold call callIn
    rw [List.take_length]
    simp only [hr]
    rfl
  have hr : resolve (overloads .transform) (f :: o :: c :: l) = _ := resolve_two tr0 tr1 _
  rcases l with _ | ⟨d, l⟩
  · have h0 : tr0.viable [f, o, c] = false := rfl
    rw [h0] at hr
    by_cases hot : o.cat ≠ .temporary
    · rw [if_pos ⟨hot, .inr (.inr (.inl rfl))⟩]
      exact hgood (by rw [hr]; simp [h1.2 hot]) hot
    · rw [if_neg (fun hh => hot hh.1)]
      refine hbadn ?_
      rw [hr]
      have : tr1.viable [f, o, c] = false := by rw [Bool.eq_false_iff]; exact fun hv => hot (h1.1 hv)
      simp [this]
  · have h0 := tr0_viable f o c d l (fun a ha => h a (List.mem_cons_of_mem _ ha))
    simp only [h d (List.mem_cons_self ..), hc, true_and, and_true] at h0
    obtain ⟨hb0, hb1⟩ := tr_better f o c d l
    by_cases hot : o.cat ≠ .temporary
    · have hv1 := h1.2 hot
      by_cases hv0 : f.cat ≠ .temporary ∧ c.cat ≠ .temporary
      · rw [h0.2 hv0, hv1, hb0] at hr
        by_cases hl : ∃ a ∈ d :: l, a.cat ≠ .constant
        · rw [if_pos ⟨hot, .inr (.inr (.inr hl))⟩]
          exact hgood (by rw [hr, hb1.2 hl]; simp) hot
        · rw [if_neg]
          · refine hbadn ?_
            have hb : betterMatch tr1 tr0 (f :: o :: c :: d :: l) = false := by
              rw [Bool.eq_false_iff]; exact fun hv => hl (hb1.1 hv)
            rw [hr, hb]; simp
          · rintro ⟨_, hh | hh | hh | hh⟩
            · exact hv0.1 hh
            · exact hv0.2 hh
            · cases hh
            · exact hl hh
      · have hv0' : tr0.viable (f :: o :: c :: d :: l) = false := by rw [Bool.eq_false_iff]; exact fun hv => hv0 (h0.1 hv)
        rw [hv0', hv1] at hr
        have hh : f.cat = .temporary ∨ c.cat = .temporary := by
          by_cases hf' : f.cat = .temporary
          · exact .inl hf'
          · exact .inr (Decidable.byContradiction fun hc' => hv0 ⟨hf', hc'⟩)
        rw [if_pos ⟨hot, hh.imp_right .inl⟩]
        exact hgood (by rw [hr]; simp) hot
    · rw [if_neg (fun hh => hot hh.1)]
      have hv1 : tr1.viable (f :: o :: c :: d :: l) = false := by rw [Bool.eq_false_iff]; exact fun hv => hot (h1.1 hv)
      rw [hv1] at hr
      rcases hv0 : tr0.viable (f :: o :: c :: d :: l)
      · exact hbadn (by rw [hr, hv0]; simp)
      · exact hbad0 (by rw [hr, hv0]; simp) (by simp)
/-- Inputs of a call, numbered from `k`. -/
theorem inputs_from (k : Nat) (cs : List Cat) :
    Containers (argsFrom k (List.replicate cs.length .input) cs) ∧
      (argsFrom k (List.replicate cs.length .input) cs).map Arg.cat = cs ∧
      (argsFrom k (List.replicate cs.length .input) cs).map Arg.thing = (List.range cs.length).map fun i => Thing.user (k + i) := by
  induction cs generalizing k with
  | nil => simp [argsFrom, Containers]
  | cons c cs ih =>
    obtain ⟨h1, h2, h3⟩ := ih (k + 1)
    simp only [List.length_cons, List.replicate_succ, argsFrom, List.map_cons, h2, h3]
    refine ⟨?_, trivial, ?_⟩
    · intro a ha
      rcases List.mem_cons.1 ha with rfl | ha
      · rfl
      · exact h1 a ha
    · simp [List.range_succ_eq_map, Nat.add_assoc, Nat.add_comm 1]


/-- A call that compiles: a template is viable, and what it takes for a context is one. -/
theorem call_some {a : Algo} {args : List Arg} {r : Algo × List Arg} (h : call a args = some r) :
    ∃ o ∈ overloads a, o.viable args = true ∧ ∀ ps, o.expand args.length = some ps →
      ∀ x ∈ ps.zip args, x.1.1.kind = .context → x.2.kind = .context := by
  unfold call callIn at h
  rw [List.take_length] at h
  rcases hr : resolve (overloads a) args with _ | i
  · simp [hr] at h
  · obtain ⟨o, ho, hv⟩ := resolve_some hr
    refine ⟨o, List.mem_of_getElem? ho, hv, fun ps hps x hx hk => ?_⟩
    simp only [hr, ho, hps, Option.bind_eq_bind, Option.bind_some] at h
    split at h
    · cases h
    · rename_i hn
      simp only [List.any_eq_true, not_exists, not_and, Bool.and_eq_true, beq_iff_eq, bne_iff_ne, ne_eq, Decidable.not_not] at hn
      exact hn x hx hk

theorem accepts_container {p : Param} {a : Arg} (h : p.accepts a = true) (hp : p.kind = .container) : a.kind = .container := by
  simp [Param.accepts, hp] at h
  exact h.1

theorem fe2_containers {args : List Arg} (h : fe2.viable args = true) : ∃ x f c l, args = x :: f :: c :: l ∧ Containers (c :: l) := by
  match args with
  | [] | [_] | [_, _] => exact absurd h (by simp [Overload.viable, Overload.expand])
  | x :: f :: c :: l =>
    refine ⟨x, f, c, l, rfl, ?_⟩
    unfold Overload.viable at h
    rw [show (x :: f :: c :: l).length = l.length + 3 from rfl, fe2_expand] at h
    simp only [List.cons_append, List.nil_append, List.zip_cons_cons, zip_replicate, List.all_cons, List.all_map, Bool.and_eq_true,
      List.all_eq_true] at h
    intro a ha
    rcases List.mem_cons.1 ha with rfl | ha
    · exact accepts_container h.2.2.1 rfl
    · exact accepts_container (h.2.2.2 a ha) rfl

theorem fe3_containers {args : List Arg} (h : fe3.viable args = true) : ∃ f c l, args = f :: c :: l ∧ Containers (c :: l) := by
  match args with
  | [] | [_] => exact absurd h (by simp [Overload.viable, Overload.expand])
  | f :: c :: l =>
    refine ⟨f, c, l, rfl, ?_⟩
    unfold Overload.viable at h
    rw [show (f :: c :: l).length = l.length + 2 from rfl, fe3_expand] at h
    simp only [List.cons_append, List.nil_append, List.zip_cons_cons, zip_replicate, List.all_cons, List.all_map, Bool.and_eq_true,
      List.all_eq_true] at h
    intro a ha
    rcases List.mem_cons.1 ha with rfl | ha
    · exact accepts_container h.2.1 rfl
    · exact accepts_container (h.2.2 a ha) rfl

theorem tr0_containers {args : List Arg} (h : tr0.viable args = true) :
    ∃ x f o c l, args = x :: f :: o :: c :: l ∧ Containers (o :: c :: l) := by
  match args with
  | [] | [_] | [_, _] | [_, _, _] => exact absurd h (by simp [Overload.viable, Overload.expand])
  | x :: f :: o :: c :: l =>
    refine ⟨x, f, o, c, l, rfl, ?_⟩
    unfold Overload.viable at h
    rw [show (x :: f :: o :: c :: l).length = l.length + 4 from rfl, tr0_expand] at h
    simp only [List.cons_append, List.nil_append, List.zip_cons_cons, zip_replicate, List.all_cons, List.all_map, Bool.and_eq_true,
      List.all_eq_true] at h
    intro a ha
    rcases List.mem_cons.1 ha with rfl | ha
    · exact accepts_container h.2.2.1 rfl
    · rcases List.mem_cons.1 ha with rfl | ha
      · exact accepts_container h.2.2.2.1 rfl
      · exact accepts_container (h.2.2.2.2 a ha) rfl

theorem tr1_containers {args : List Arg} (h : tr1.viable args = true) :
    ∃ f o c l, args = f :: o :: c :: l ∧ Containers (o :: c :: l) := by
  match args with
  | [] | [_] | [_, _] => exact absurd h (by simp [Overload.viable, Overload.expand])
  | f :: o :: c :: l =>
    refine ⟨f, o, c, l, rfl, ?_⟩
    unfold Overload.viable at h
    rw [show (f :: o :: c :: l).length = l.length + 3 from rfl, tr1_expand] at h
    simp only [List.cons_append, List.nil_append, List.zip_cons_cons, zip_replicate, List.all_cons, List.all_map, Bool.and_eq_true,
      List.all_eq_true] at h
    intro a ha
    rcases List.mem_cons.1 ha with rfl | ha
    · exact accepts_container h.2.1 rfl
    · rcases List.mem_cons.1 ha with rfl | ha
      · exact accepts_container h.2.2.1 rfl
      · exact accepts_container (h.2.2.2 a ha) rfl

end Kwk
