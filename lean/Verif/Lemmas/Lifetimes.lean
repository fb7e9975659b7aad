import Mathlib.Tactic.ByContra
import Verif.Lemmas.Ownership
import Verif.Spec.Lifetimes

/-! # Helper lemmas about lifetimes -/

namespace Kwk
open Spec

variable {α : Type} {ty : ElemType}

theorem respects_append {s s' s'' : Slots} {es es' : List Event} (h : Respects ty s es s') (h' : Respects ty s' es' s'') :
    Respects ty s (es ++ es') s'' := by
  induction h with
  | nil => exact h'
  | cons h1 _ ih => exact .cons h1 (ih h')

theorem respects_split {s s'' : Slots} {es es' : List Event} (h : Respects ty s (es ++ es') s'') :
    ∃ s', Respects ty s es s' ∧ Respects ty s' es' s'' := by
  induction es generalizing s with
  | nil => exact ⟨s, .nil, h⟩
  | cons e es ih =>
    cases h with
    | cons h1 h2 =>
      obtain ⟨s', r1, r2⟩ := ih h2
      exact ⟨s', .cons h1 r1, r2⟩

theorem happens_det {s s1 s2 : Slots} {e : Event} (h1 : Happens ty s e s1) (h2 : Happens ty s e s2) : s1 = s2 := by
  cases h1 <;> cases h2 <;> rfl

theorem respects_det {s s1 s2 : Slots} {es : List Event} (h1 : Respects ty s es s1) (h2 : Respects ty s es s2) : s1 = s2 := by
  induction h1 with
  | nil => cases h2; rfl
  | cons a _ ih =>
    cases h2 with
    | cons b c => cases happens_det a b; exact ih c

/-- Events that only use living objects. -/
theorem respects_use {s : Slots} {es : List Event} (h : ∀ e ∈ es, ∃ p, s p = .alive ∧ (e = .read p ∨ e = .assign p)) :
    Respects ty s es s := by
  induction es with
  | nil => exact .nil
  | cons e es ih =>
    obtain ⟨p, hp, he⟩ := h e (by simp)
    refine .cons (s' := s) ?_ (ih fun e' h' => h e' (by simp [h']))
    rcases he with rfl | rfl
    · exact .read hp
    · exact .assign hp

theorem copyEvents_use {s : Slots} {src dst : Ptr} {n : Nat} (h1 : ∀ k : Nat, k < n → s (src.add k) = .alive)
    (h2 : ∀ k : Nat, k < n → s (dst.add k) = .alive) : Respects ty s (copyEvents src dst n) s := by
  refine respects_use fun e he => ?_
  simp only [copyEvents, List.mem_flatMap, List.mem_range] at he
  obtain ⟨k, hk, he⟩ := he
  simp only [List.mem_cons, List.not_mem_nil, or_false] at he
  rcases he with rfl | rfl
  · exact ⟨_, h1 k hk, .inl rfl⟩
  · exact ⟨_, h2 k hk, .inr rfl⟩

/-! ### Run-time shaped tables -/

/-- The places of a state: the cells of tables live only if they begin to live by themselves. -/
def slotsW (ty : ElemType) (w : World α) : Slots := fun p =>
  if (w.mem p).isSome then (if (w.live p.blk).isSome then (if ty.implicit then .alive else .raw) else .alive) else .gone

def NoAssign (es : List Event) : Prop := ∀ p, Event.assign p ∉ es

theorem slotsW_congr {w w' : World α} (h1 : ∀ p, (w.mem p).isSome = (w'.mem p).isSome) (h2 : w.live = w'.live) :
    slotsW ty w = slotsW ty w' := by
  funext p; simp only [slotsW, h1, h2]

theorem slotsW_implicit (hi : ty.implicit = true) (w : World α) {p : Ptr} (h : (w.mem p).isSome) : slotsW ty w p = .alive := by
  simp [slotsW, h, hi]

theorem slotsW_tables (w : World α) (tabs : Nat → Option Table) : slotsW ty ({ w with tables := tabs } : World α) = slotsW ty w := rfl

theorem copyCells_bounds {m m' : Mem α} {src dst : Ptr} {n : Nat} (h : copyCells m src dst n = .ok m') :
    ∀ k : Nat, k < n → (m (src.add k)).isSome ∧ (m (dst.add k)).isSome := by
  induction n generalizing m' with
  | zero => intro k hk; omega
  | succ n ih =>
    intro k hk
    simp only [copyCells, bind, Except.bind] at h
    cases h1 : copyCells m src dst n with
    | error e => rw [h1] at h; cases h
    | ok m1 =>
      rw [h1] at h
      dsimp only at h
      rcases Nat.lt_succ_iff_lt_or_eq.1 hk with hk' | rfl
      · exact ih h1 k hk'
      · cases h2 : load m1 (src.add k) with
        | error e => rw [h2] at h; cases h
        | ok v =>
          rw [h2] at h
          dsimp only at h
          rw [← copyCells_isSome h1, ← copyCells_isSome h1]
          constructor
          · unfold load at h2
            cases e : m1 (src.add k) with
            | none => rw [e] at h2; cases h2
            | some _ => rfl
          · unfold store at h
            cases e : m1 (dst.add k) with
            | none => rw [e] at h; cases h
            | some _ => rfl

theorem allocate_respects {w : World α} (h : WInv w) (a : AllocId) {n : Nat} (hn : n ≠ 0) :
    Respects ty (slotsW ty w) [.allocate w.next n] (slotsW ty (w.allocate a n).2) := by
  have e : slotsW ty (w.allocate a n).2 =
      fun p => if InBlock w.next n p then (if ty.implicit then Slot.alive else .raw) else slotsW ty w p := by
    funext p
    simp only [World.allocate, if_neg hn, slotsW, InBlock]
    by_cases hb : p.blk = w.next
    · simp only [hb, upd_self, if_true, true_and]
      by_cases ho : 0 ≤ p.off ∧ p.off < n
      · simp [ho]
      · simp only [ho, if_false]
        have := h.old p (by omega)
        simp [this]
    · simp only [hb, if_false, false_and, upd_ne _ _ hb]
  rw [e]
  refine .cons (.allocate fun p hp => ?_) .nil
  simp [slotsW, h.old p (by omega)]

theorem build_respects {w w1 : World α} (h : WInv w) {a : AllocId} {s : Shape} {src : Option (Option Ptr)} {t : Table}
    (hb : w.build a s src = .ok (t, w1)) (hi : ty.implicit = true ∨ NoAssign (w.buildEvents s src)) :
    Respects ty (slotsW ty w) (w.buildEvents s src) (slotsW ty w1) := by
  unfold World.build at hb
  unfold World.buildEvents at hi ⊢
  dsimp only at hb hi ⊢
  by_cases hn : (numel s).toNat = 0
  · rw [if_pos hn]
    have : w1 = w := by
      cases src with
      | none => simp only [World.allocate, if_pos hn] at hb; cases hb; rfl
      | some p => simp only [hn, World.allocate, if_true] at hb; cases hb; rfl
    rw [this]; exact .nil
  · rw [if_neg hn] at hi ⊢
    have ha := allocate_respects (ty := ty) h a hn
    match src, hb, hi with
    | none, hb, hi => cases hb; exact ha
    | some none, hb, hi => dsimp only at hb; rw [if_neg hn] at hb; cases hb
    | some (some p), hb, hi =>
      have hd : (w.allocate a (numel s).toNat).1 = some w.next := by simp [World.allocate, hn]
      dsimp only at hb hi
      rw [if_neg hn, hd] at hb
      simp only [bind, Except.bind] at hb
      cases hc : copyCells (w.allocate a (numel s).toNat).2.mem p ⟨w.next, 0⟩ (numel s).toNat with
      | error e => rw [hc] at hb; cases hb
      | ok m =>
        rw [hc] at hb; cases hb
        rcases hi with hi | hi
        · refine respects_append (es := [_]) ha ?_
          have es := slotsW_congr (ty := ty) (w := ({ (w.allocate a (numel s).toNat).2 with mem := m } : World α))
            (w' := (w.allocate a (numel s).toNat).2) (copyCells_isSome hc) rfl
          rw [es]
          have hk := copyCells_bounds hc
          exact copyEvents_use (fun k hk' => slotsW_implicit hi _ (hk k hk').1) (fun k hk' => slotsW_implicit hi _ (hk k hk').2)
        · exact absurd (by
            simp only [copyEvents, List.mem_cons, List.mem_flatMap, List.mem_range]
            exact .inr ⟨0, by omega, .inr (.inl rfl)⟩) (hi ((⟨w.next, 0⟩ : Ptr).add (0 : Nat)))

theorem release_respects {w w1 : World α} {t : Table} (hr : w.release t = .ok w1) :
    Respects ty (slotsW ty w) t.releaseEvents (slotsW ty w1) := by
  unfold World.release at hr
  unfold Table.releaseEvents
  cases hd : t.data with
  | none => rw [hd] at hr; cases hr; exact .nil
  | some b =>
    rw [hd] at hr
    dsimp only at hr ⊢
    unfold World.free at hr
    split at hr
    · cases hr
    · split at hr
      · next a hl =>
        cases hr
        have e : slotsW ty ({ w with mem := fun p => if p.blk = b then none else w.mem p, live := upd w.live b none } : World α) =
            fun p => if p.blk = b then Slot.gone else slotsW ty w p := by
          funext p
          by_cases hb : p.blk = b
          · simp [slotsW, hb]
          · simp only [slotsW, hb, if_false, upd_ne _ _ hb]
        rw [e]
        refine .cons (.release fun p hp h => ?_) .nil
        subst hp
        simp only [slotsW, hl] at h
        by_contra hne
        rw [if_neg hne] at h
        revert h
        simp only [Option.isSome, if_true]
        split <;> simp
      · cases hr

theorem assign_parts {w w' : World α} {x : Nat} {tx : Table} {s : Shape} {src : Option Ptr} (h : w.assign x tx s src = .ok w') :
    ∃ t w1, w.build heapAlloc s (some src) = .ok (t, w1) ∧
      ({ w1 with tables := upd w1.tables x (some t) } : World α).release tx = .ok w' := by
  unfold World.assign at h
  simp only [bind, Except.bind] at h
  cases hb : w.build heapAlloc s (some src) with
  | error e => rw [hb] at h; cases h
  | ok r => rw [hb] at h; exact ⟨r.1, r.2, rfl, h⟩

theorem noAssign_append {es es' : List Event} (h : NoAssign (es ++ es')) : NoAssign es ∧ NoAssign es' :=
  ⟨fun p hp => h p (List.mem_append_left _ hp), fun p hp => h p (List.mem_append_right _ hp)⟩

theorem assign_respects {w w' : World α} (hw : WInv w) {x : Nat} {tx : Table} {s : Shape} {src : Option Ptr}
    (h : w.assign x tx s src = .ok w') (hi : ty.implicit = true ∨ NoAssign (w.buildEvents s (some src) ++ tx.releaseEvents)) :
    Respects ty (slotsW ty w) (w.buildEvents s (some src) ++ tx.releaseEvents) (slotsW ty w') := by
  obtain ⟨t, w1, hb, hr⟩ := assign_parts h
  have hi' := hi.imp id fun h => (noAssign_append h).1
  exact respects_append (build_respects hw hb hi') (release_respects (w := ({ w1 with tables := upd w1.tables x (some t) } : World α)) hr)

theorem make_parts {w w' : World α} {x : Nat} {a : AllocId} {s : Shape} {src : Option (Option Ptr)}
    (h : (do let r ← w.build a s src; pure { r.2 with tables := upd r.2.tables x (some r.1) } : Res (World α)) = .ok w') :
    ∃ t w1, w.build a s src = .ok (t, w1) ∧ slotsW ty w' = slotsW ty w1 := by
  simp only [bind, Except.bind] at h
  cases hb : w.build a s src with
  | error e => rw [hb] at h; cases h
  | ok r => rw [hb] at h; cases h; exact ⟨r.1, r.2, rfl, rfl⟩

/-- One operation. -/
theorem step_respects {w w' : World α} (hw : WInv w) {op : Op α} (h : w.step op = .ok w')
    (hi : ty.implicit = true ∨ NoAssign (w.events op)) : Respects ty (slotsW ty w) (w.events op) (slotsW ty w') := by
  cases op with
  | dflt x axes =>
    simp only [World.step] at h
    simp only [World.events]
    split at h
    · cases h; exact .nil
    · split at h <;> (cases h; exact .nil)
  | make x a s src =>
    simp only [World.step] at h
    simp only [World.events] at hi ⊢
    cases hx : w.tables x with
    | some t => rw [hx] at h; cases h; exact .nil
    | none =>
      rw [hx] at h hi
      obtain ⟨t, w1, hb, e⟩ := make_parts (ty := ty) h
      rw [e]; exact build_respects hw hb hi
  | copy x y =>
    simp only [World.step, World.copyOf] at h
    simp only [World.events] at hi ⊢
    cases hx : w.tables x <;> cases hy : w.tables y <;> rw [hx, hy] at h hi
    case none.some =>
      obtain ⟨t, w1, hb, e⟩ := make_parts (ty := ty) h
      rw [e]; exact build_respects hw hb hi
    all_goals (cases h; exact .nil)
  | copyFrom x c =>
    simp only [World.step] at h
    simp only [World.events] at hi ⊢
    cases hx : w.tables x with
    | some t => rw [hx] at h; cases h; exact .nil
    | none =>
      rw [hx] at h hi
      obtain ⟨t, w1, hb, e⟩ := make_parts (ty := ty) h
      rw [e]; exact build_respects hw hb hi
  | move x y =>
    simp only [World.step] at h
    simp only [World.events]
    split at h <;> (cases h; exact .nil)
  | copyAssign x y =>
    simp only [World.step] at h
    simp only [World.events] at hi ⊢
    cases hx : w.tables x <;> cases hy : w.tables y <;> rw [hx, hy] at h hi
    case some.some => exact assign_respects hw h hi
    all_goals (cases h; exact .nil)
  | assignFrom x c =>
    simp only [World.step] at h
    simp only [World.events] at hi ⊢
    cases hx : w.tables x with
    | none => rw [hx] at h; cases h; exact .nil
    | some tx => rw [hx] at h hi; exact assign_respects hw h hi
  | moveAssign x y =>
    by_cases hxy : x = y
    · subst hxy
      cases hx : w.tables x with
      | none => simp only [World.step, hx] at h; cases h; simp only [World.events, hx]; exact .nil
      | some tx => rw [moveAssign_self hx] at h; cases h; simp only [World.events, hx]; exact .nil
    · cases hx : w.tables x <;> cases hy : w.tables y
      case some.some tx ty' =>
        rw [moveAssign_eq hxy hx hy] at h
        simp only [World.events, hx, hy, if_neg hxy]
        simp only [bind, Except.bind] at h
        cases hr : w.release tx with
        | error e => rw [hr] at h; cases h
        | ok w1 => rw [hr] at h; cases h; exact release_respects (w1 := w1) hr
      all_goals (simp only [World.step, hx, hy] at h; cases h; simp only [World.events, hx, hy]; exact .nil)
  | swap x y =>
    simp only [World.step] at h
    simp only [World.events]
    split at h <;> (cases h; exact .nil)
  | destroy x =>
    simp only [World.step] at h
    simp only [World.events]
    cases hx : w.tables x with
    | none => rw [hx] at h; cases h; exact .nil
    | some tx => rw [hx] at h; exact release_respects (w := ({ w with tables := upd w.tables x none } : World α)) h
  | write x is v =>
    simp only [World.step] at h
    simp only [World.events] at hi ⊢
    cases hx : w.tables x with
    | none => rw [hx] at h; cases h; exact .nil
    | some tx =>
      rw [hx] at h hi
      dsimp only at h hi ⊢
      cases hd : tx.data with
      | none => rw [hd] at h; cases h
      | some b =>
        rw [hd] at h hi
        simp only [bind, Except.bind] at h
        cases hs : store w.mem ((Container.ofShape ⟨b, 0⟩ tx.shape).addr is) v with
        | error e => rw [hs] at h; cases h
        | ok m =>
          rw [hs] at h; cases h
          rcases hi with hi | hi
          · have es := slotsW_congr (ty := ty) (w := ({ w with mem := m } : World α)) (w' := w) (store_isSome hs) rfl
            rw [es]
            refine .cons (.assign (slotsW_implicit hi _ ?_)) .nil
            unfold store at hs
            cases e : w.mem ((Container.ofShape ⟨b, 0⟩ tx.shape).addr is) with
            | none => rw [e] at hs; cases hs
            | some _ => rfl
          · exact absurd (by simp) (hi ((Container.ofShape ⟨b, 0⟩ tx.shape).addr is))

theorem trace_cons {w w1 : World α} {op : Op α} {ops : List (Op α)} {es : List Event} (h1 : w.step op = .ok w1)
    (h : w.trace (op :: ops) = .ok es) : ∃ es', w1.trace ops = .ok es' ∧ es = w.events op ++ es' := by
  simp only [World.trace, h1, bind, Except.bind] at h
  cases ht : w1.trace ops with
  | error e => rw [ht] at h; cases h
  | ok es' => rw [ht] at h; cases h; exact ⟨es', rfl, rfl⟩

theorem trace_step {w : World α} {op : Op α} {ops : List (Op α)} {es : List Event} (h : w.trace (op :: ops) = .ok es) :
    ∃ w1, w.step op = .ok w1 := by
  cases h1 : w.step op with
  | ok w1 => exact ⟨w1, rfl⟩
  | error e => simp only [World.trace, h1, bind, Except.bind] at h; cases h

theorem step_keeps {w w' : World α} (hw : WInv w) {op : Op α} (h : w.step op = .ok w') : WInv w' := by
  rcases step_inv hw op with ⟨w2, h2, i⟩ | ⟨e, h2, -⟩
  · rw [h] at h2; cases h2; exact i
  · rw [h] at h2; cases h2

theorem run_cons {w w1 w' : World α} {op : Op α} {ops : List (Op α)} (h1 : w.step op = .ok w1) (h : w1.run ops = .ok w') :
    w.run (op :: ops) = .ok w' := by
  simp only [World.run, List.foldlM_cons, h1, bind, Except.bind]; exact h

theorem trace_run {w : World α} {ops : List (Op α)} : (∃ es, w.trace ops = .ok es) ↔ ∃ w', w.run ops = .ok w' := by
  induction ops generalizing w with
  | nil => exact ⟨fun _ => ⟨w, rfl⟩, fun _ => ⟨[], rfl⟩⟩
  | cons op ops ih =>
    constructor
    · rintro ⟨es, h⟩
      obtain ⟨w1, h1⟩ := trace_step h
      obtain ⟨es', h2, -⟩ := trace_cons h1 h
      obtain ⟨w', h3⟩ := ih.1 ⟨es', h2⟩
      exact ⟨w', run_cons h1 h3⟩
    · rintro ⟨w', h⟩
      cases h1 : w.step op with
      | error e => simp only [World.run, List.foldlM_cons, h1, bind, Except.bind] at h; cases h
      | ok w1 =>
        simp only [World.run, List.foldlM_cons, h1, bind, Except.bind] at h
        obtain ⟨es, h2⟩ := ih.2 ⟨w', h⟩
        exact ⟨w.events op ++ es, by simp only [World.trace, h1, h2, bind, Except.bind, pure, Except.pure]⟩

/-- A whole program. -/
theorem trace_respects {w w' : World α} (hw : WInv w) {ops : List (Op α)} {es : List Event} (h : w.trace ops = .ok es)
    (hr : w.run ops = .ok w') (hi : ty.implicit = true ∨ NoAssign es) : Respects ty (slotsW ty w) es (slotsW ty w') := by
  induction ops generalizing w es with
  | nil => cases h; cases hr; exact .nil
  | cons op ops ih =>
    obtain ⟨w1, h1⟩ := trace_step h
    obtain ⟨es', h2, rfl⟩ := trace_cons h1 h
    simp only [World.run, List.foldlM_cons, h1, bind, Except.bind] at hr
    exact respects_append (step_respects hw h1 (hi.imp id fun h => (noAssign_append h).1))
      (ih (step_keeps hw h1) h2 hr (hi.imp id fun h => (noAssign_append h).2))

theorem not_noAssign {es : List Event} (h : ¬ NoAssign es) : ∃ p, Event.assign p ∈ es := by
  by_contra hn
  exact h fun p hp => hn ⟨p, hp⟩

theorem releaseEvents_noAssign (t : Table) : NoAssign t.releaseEvents := by
  intro p hp
  unfold Table.releaseEvents at hp
  split at hp <;> simp at hp

/-- The first assignment to an element of a new table. -/
theorem build_unborn {w : World α} (hi : ty.implicit = false) {s : Shape} {src : Option (Option Ptr)} {sl : Slots} {s' : Slots} {p : Ptr}
    (ha : Event.assign p ∈ w.buildEvents s src) : ¬ Respects ty sl (w.buildEvents s src) s' := by
  intro h
  unfold World.buildEvents at h ha
  dsimp only at h ha
  split at h
  · next hn => rw [if_pos hn] at ha; simp at ha
  · next hn =>
    rw [if_neg hn] at ha
    cases h with
    | cons h1 h2 =>
      cases h1 with
      | allocate hg =>
        match src, ha, h2 with
        | none, ha, _ => simp at ha
        | some none, ha, _ => simp at ha
        | some (some q), ha, h2 =>
          dsimp only at h2
          have : ∃ m, (numel s).toNat = m + 1 := ⟨(numel s).toNat - 1, by omega⟩
          obtain ⟨m, hm⟩ := this
          rw [hm, copyEvents, List.range_succ_eq_map, List.flatMap_cons] at h2
          cases h2 with
          | cons r1 r2 =>
            cases r1
            cases r2 with
            | cons r3 _ =>
              cases r3 with
              | assign r =>
                simp [InBlock, Ptr.add, hi] at r

theorem step_unborn {w w' : World α} (hw : WInv w) (hi : ty.implicit = false) {op : Op α} (h : w.step op = .ok w')
    (ha : ¬ NoAssign (w.events op)) {s' : Slots} : ¬ Respects ty (slotsW ty w) (w.events op) s' := by
  obtain ⟨p, hp⟩ := not_noAssign ha
  cases op with
  | dflt x axes => simp [World.events] at hp
  | make x a s src =>
    simp only [World.events] at hp ⊢
    split
    · next e => rw [e] at hp; simp at hp
    · next e => rw [e] at hp; exact build_unborn hi hp
  | copy x y =>
    simp only [World.events] at hp ⊢
    split
    · next e1 e2 => rw [e1, e2] at hp; exact build_unborn hi hp
    · next e =>
      split at hp
      · next e1 e2 => exact absurd e2 (e _ e1)
      · simp at hp
  | copyFrom x c =>
    simp only [World.events] at hp ⊢
    split
    · next e => rw [e] at hp; simp at hp
    · next e => rw [e] at hp; exact build_unborn hi hp
  | move x y => simp [World.events] at hp
  | copyAssign x y =>
    simp only [World.events] at hp ⊢
    cases hx : w.tables x <;> cases hy : w.tables y <;> rw [hx, hy] at hp
    case some.some =>
      intro hr
      obtain ⟨s1, r1, -⟩ := respects_split hr
      rcases List.mem_append.1 hp with h1 | h1
      · exact build_unborn hi h1 r1
      · exact releaseEvents_noAssign _ _ h1
    all_goals simp at hp
  | assignFrom x c =>
    simp only [World.events] at hp ⊢
    cases hx : w.tables x with
    | none => rw [hx] at hp; simp at hp
    | some tx =>
      rw [hx] at hp
      intro hr
      obtain ⟨s1, r1, -⟩ := respects_split hr
      rcases List.mem_append.1 hp with h1 | h1
      · exact build_unborn hi h1 r1
      · exact releaseEvents_noAssign _ _ h1
  | moveAssign x y =>
    simp only [World.events] at hp
    split at hp
    · split at hp
      · simp at hp
      · exact absurd hp (releaseEvents_noAssign _ _)
    · simp at hp
  | swap x y => simp [World.events] at hp
  | destroy x =>
    simp only [World.events] at hp
    split at hp
    · exact absurd hp (releaseEvents_noAssign _ _)
    · simp at hp
  | write x is v =>
    simp only [World.step] at h
    simp only [World.events] at hp ⊢
    cases hx : w.tables x with
    | none => rw [hx] at hp; simp at hp
    | some tx =>
      rw [hx] at h
      dsimp only at h ⊢
      cases hd : tx.data with
      | none => rw [hd] at h; cases h
      | some b =>
        rw [hd] at h
        dsimp only
        intro hr
        cases hr with
        | cons r1 _ =>
          cases r1 with
          | assign r =>
            obtain ⟨a, -, hl⟩ := hw.lv x tx b hx hd
            have hb : ((Container.ofShape ⟨b, 0⟩ tx.shape).addr is).blk = b := rfl
            revert r
            simp only [slotsW, hb, hl, hi]
            split <;> simp

theorem trace_unborn {w : World α} (hw : WInv w) (hi : ty.implicit = false) {ops : List (Op α)} {es : List Event}
    (h : w.trace ops = .ok es) (ha : ¬ NoAssign es) {s' : Slots} : ¬ Respects ty (slotsW ty w) es s' := by
  induction ops generalizing w es with
  | nil => cases h; exact absurd (by simp [NoAssign]) ha
  | cons op ops ih =>
    obtain ⟨w1, h1⟩ := trace_step h
    obtain ⟨es', h2, rfl⟩ := trace_cons h1 h
    intro hr
    obtain ⟨s1, r1, r2⟩ := respects_split hr
    by_cases hn : NoAssign (w.events op)
    · have e := respects_det r1 (step_respects hw h1 (.inr hn))
      rw [e] at r2
      refine ih (step_keeps hw h1) h2 (fun hn' => ha ?_) r2
      intro p hp
      rcases List.mem_append.1 hp with h3 | h3
      · exact hn p h3
      · exact hn' p h3
    · exact step_unborn hw hi h1 hn r1

theorem fresh_slots {w : World α} (h : Fresh w) : slotsW ty w = AliveCells w.mem := by
  funext p; simp [slotsW, AliveCells, h.noBlock]

theorem implicit_slots (hi : ty.implicit = true) (w : World α) : slotsW ty w = AliveCells w.mem := by
  funext p; simp [slotsW, AliveCells, hi]

/-! ### Fully static tables -/

theorem respects_to {s s' s'' : Slots} {es : List Event} (h : Respects ty s es s') (e : s' = s'') : Respects ty s es s'' := e ▸ h

theorem inBlock_mk {b n c k : Nat} (h : c = b) (hk : k < n) : InBlock b n ⟨c, k⟩ := ⟨h, by simp, by simpa using hk⟩

/-- Elements of `b` up to `n` become `v`. -/
def setBlock (s : Slots) (b n : Nat) (v : Slot) : Slots := fun p => if InBlock b n p then v else s p

theorem setBlock_succ (s : Slots) (b n : Nat) (v : Slot) :
    (fun q => if q = (⟨b, n⟩ : Ptr) then v else setBlock s b n v q) = setBlock s b (n + 1) v := by
  funext q
  obtain ⟨qb, qo⟩ := q
  simp only [setBlock, InBlock, Ptr.mk.injEq]
  by_cases h1 : qb = b
  · simp only [h1, true_and]
    by_cases h2 : qo = n
    · rw [if_pos h2, if_pos (by omega)]
    · rw [if_neg h2]
      by_cases h3 : 0 ≤ qo ∧ qo < n
      · rw [if_pos h3, if_pos (by omega)]
      · rw [if_neg h3, if_neg (by omega)]
  · simp [h1]

theorem setBlock_zero (s : Slots) (b : Nat) (v : Slot) : setBlock s b 0 v = s := by
  funext q
  exact if_neg fun h => by have := h.2; omega

theorem setBlock_at (s : Slots) (b n : Nat) (v : Slot) : setBlock s b n v ⟨b, n⟩ = s ⟨b, n⟩ := by
  exact if_neg fun h => by have := h.2.2; simp at this

theorem setBlock_idem (s : Slots) (b n : Nat) (v v' : Slot) : setBlock (setBlock s b n v) b n v' = setBlock s b n v' := by
  funext q; simp only [setBlock]; split <;> rfl

theorem construct_respects {s : Slots} (b n : Nat) (h : ∀ k : Nat, k < n → s ⟨b, k⟩ = .raw ∨ (ty.implicit ∧ s ⟨b, k⟩ = .alive)) :
    Respects ty s (constructEvents b n) (setBlock s b n .alive) := by
  induction n with
  | zero => rw [setBlock_zero]; exact .nil
  | succ n ih =>
    rw [constructEvents, List.range_succ, List.map_append]
    refine respects_append (ih fun k hk => h k (by omega)) ?_
    rw [← setBlock_succ]
    exact .cons (.construct (by rw [setBlock_at]; exact h n (by omega))) .nil

theorem storage_respects {s : Slots} {b : Nat} (n : Nat) (h : ∀ p, p.blk = b → s p = .gone) :
    Respects ty s [.allocate b n] (setBlock s b n (if ty.implicit then .alive else .raw)) := .cons (.allocate h) .nil

theorem newStorage (s : Slots) (b n : Nat) (k : Nat) (hk : k < n) :
    (setBlock s b n (if ty.implicit then .alive else .raw)) ⟨b, k⟩ = .raw ∨
      (ty.implicit ∧ (setBlock s b n (if ty.implicit then .alive else .raw)) ⟨b, k⟩ = .alive) := by
  have : InBlock b n ⟨b, k⟩ := inBlock_mk rfl hk
  simp only [setBlock, if_pos this]
  cases ty.implicit <;> simp

theorem born_respects {s : Slots} {b : Nat} (n : Nat) (h : ∀ p, p.blk = b → s p = .gone) :
    Respects ty s (.allocate b n :: constructEvents b n) (setBlock s b n .alive) := by
  have := respects_append (storage_respects (ty := ty) n h) (construct_respects b n (newStorage s b n))
  rw [setBlock_idem] at this
  exact this

theorem setBlock_inside (s : Slots) {b n : Nat} (v : Slot) {k : Nat} (h : k < n) : setBlock s b n v ((⟨b, 0⟩ : Ptr).add k) = v := by
  have e : (⟨b, 0⟩ : Ptr).add k = ⟨b, k⟩ := by simp [Ptr.add]
  rw [e]; exact if_pos (inBlock_mk rfl h)

theorem setBlock_other {s : Slots} {b n : Nat} (v : Slot) {p : Ptr} (h : p.blk ≠ b) : setBlock s b n v p = s p :=
  if_neg fun e => h e.1

theorem build_stack {s : Slots} {b : Nat} (n : Nat) {src : Option Ptr} (h : ∀ p, p.blk = b → s p = .gone)
    (hs : ∀ q, src = some q → ∀ k : Nat, k < n → s (q.add k) = .alive) :
    Respects ty s (stackBuildEvents b n src) (setBlock s b n .alive) := by
  unfold stackBuildEvents
  rw [← List.cons_append]
  refine respects_append (born_respects n h) ?_
  cases src with
  | none => exact .nil
  | some q =>
    refine copyEvents_use (fun k hk => ?_) (fun k hk => setBlock_inside s .alive hk)
    have := hs q rfl k hk
    rw [setBlock_other _ (fun e => by rw [h _ e] at this; cases this)]; exact this

theorem move_stack {s : Slots} {b c : Nat} (n : Nat) (h : ∀ p, p.blk = b → s p = .gone)
    (hs : ∀ k : Nat, k < n → s ⟨c, k⟩ = .alive) : Respects ty s (stackMoveEvents b n c) (setBlock s b n .alive) := by
  have key : ∀ (m : Nat) (s0 : Slots), m ≤ n → (∀ k : Nat, k < m → s0 ⟨b, k⟩ = .raw ∨ (ty.implicit ∧ s0 ⟨b, k⟩ = .alive)) →
      (∀ k : Nat, k < m → s0 ⟨c, k⟩ = .alive) → (m ≠ 0 → c ≠ b) →
      Respects ty s0 ((List.range m).flatMap fun (k : Nat) => [.read ⟨c, k⟩, .construct ⟨b, k⟩]) (setBlock s0 b m .alive) := by
    intro m
    induction m with
    | zero => intro s0 _ _ _ _; rw [setBlock_zero]; exact .nil
    | succ m ih =>
      intro s0 hm h1 h2 hcb
      rw [List.range_succ, List.flatMap_append]
      refine respects_append (ih s0 (by omega) (fun k hk => h1 k (by omega)) (fun k hk => h2 k (by omega)) (fun _ => hcb (by omega))) ?_
      rw [← setBlock_succ]
      refine .cons (.read ?_) (.cons (.construct ?_) .nil)
      · rw [setBlock_other _ (hcb (by omega))]; exact h2 m (by omega)
      · rw [setBlock_at]; exact h1 m (by omega)
  have hcb : n ≠ 0 → c ≠ b := by
    rintro hn rfl
    have := hs 0 (by omega)
    rw [h _ rfl] at this; cases this
  have := respects_append (storage_respects (ty := ty) n h) (key n _ le_rfl (newStorage s b n)
    (fun k hk => by rw [setBlock_other _ (hcb (by omega))]; exact hs k hk) hcb)
  rw [setBlock_idem] at this
  exact this

theorem destroy_respects {s : Slots} (b n : Nat) (h : ∀ k : Nat, k < n → s ⟨b, k⟩ = .alive) :
    Respects ty s (destroyEvents b n) (setBlock s b n .raw) := by
  induction n generalizing s with
  | zero => rw [setBlock_zero]; exact .nil
  | succ n ih =>
    rw [destroyEvents, List.range_succ, List.reverse_append, List.map_append]
    have h1 : Respects ty s [.destroy ⟨b, n⟩] (fun q => if q = (⟨b, n⟩ : Ptr) then .raw else s q) :=
      .cons (.destroy (h n (by omega))) .nil
    have h2 := ih (s := fun q => if q = (⟨b, n⟩ : Ptr) then .raw else s q) (fun k hk => by
      rw [if_neg (by simp only [Ptr.mk.injEq]; omega)]; exact h k (by omega))
    refine respects_to (respects_append h1 h2) ?_
    rw [← setBlock_succ]
    funext q
    simp only [setBlock]
    by_cases e : q = (⟨b, n⟩ : Ptr)
    · simp [e, InBlock]
    · simp [e]

/-- An object with its elements goes away. -/
theorem end_respects {s : Slots} (b n : Nat) (h : ∀ p, p.blk = b → s p = if InBlock b n p then .alive else .gone) :
    Respects ty s (stackEndEvents b n) (fun p => if p.blk = b then .gone else s p) := by
  have h1 := destroy_respects (ty := ty) (s := s) b n (fun k hk => by
    rw [h _ rfl, if_pos (inBlock_mk rfl hk)])
  refine respects_to (respects_append h1 (.cons (.release ?_) .nil)) ?_
  · intro p hp e
    simp only [setBlock, h p hp] at e
    split at e <;> simp at e
  · funext p
    by_cases hp : p.blk = b
    · simp [hp]
    · rw [if_neg hp, if_neg hp, setBlock_other _ hp]

theorem swapElement_respects {s : Slots} {t : Nat} {p q : Ptr} (ht : ∀ r, r.blk = t → s r = .gone) (hp : s p = .alive) (hq : s q = .alive) :
    Respects ty s (swapElementEvents t p q) s := by
  have hpt : p.blk ≠ t := fun e => by rw [ht p e] at hp; cases hp
  have hqt : q.blk ≠ t := fun e => by rw [ht q e] at hq; cases hq
  have h1 := storage_respects (ty := ty) 1 ht
  have hc : Happens ty (setBlock s t 1 (if ty.implicit then .alive else .raw)) (.construct ⟨t, 0⟩) (setBlock s t 1 .alive) := by
    have := construct_respects t 1 (newStorage (ty := ty) s t 1)
    rw [setBlock_idem] at this
    cases this with
    | cons a b => cases b; exact a
  have ap : ∀ v, setBlock s t 1 v p = .alive := fun v => by rw [setBlock_other _ hpt]; exact hp
  have aq : ∀ v, setBlock s t 1 v q = .alive := fun v => by rw [setBlock_other _ hqt]; exact hq
  have at' : setBlock s t 1 .alive ⟨t, 0⟩ = .alive := by
    exact if_pos (inBlock_mk (k := 0) rfl (by omega))
  have he := end_respects (ty := ty) (s := setBlock s t 1 .alive) t 1 (fun r hr => by
    simp only [setBlock, ht r hr])
  refine respects_append (es := [_]) h1 ?_
  refine .cons (.read (ap _)) (.cons hc (.cons (.read (aq _)) (.cons (.assign (ap _)) (.cons (.read at') (.cons (.assign (aq _)) ?_)))))
  refine respects_to he ?_
  funext r
  by_cases hr : r.blk = t
  · rw [if_pos hr, ht r hr]
  · rw [if_neg hr, setBlock_other _ hr]

theorem swap_respects {s : Slots} {t a b n : Nat} (ht : ∀ r, r.blk = t → s r = .gone) (ha : ∀ k : Nat, k < n → s ⟨a, k⟩ = .alive)
    (hb : ∀ k : Nat, k < n → s ⟨b, k⟩ = .alive) : Respects ty s (swapEvents t a b n) s := by
  induction n with
  | zero => exact .nil
  | succ n ih =>
    rw [swapEvents, List.range_succ, List.flatMap_append]
    refine respects_append (ih (fun k hk => ha k (by omega)) (fun k hk => hb k (by omega))) ?_
    rw [List.flatMap_cons, List.flatMap_nil, List.append_nil]
    exact swapElement_respects ht (ha n (by omega)) (hb n (by omega))

/-- The table objects are apart from each other and from the rest. -/
structure FrameInv (ext : Ptr → Prop) (f : Frame) : Prop where
  old : ∀ p, ext p → p.blk < f.next
  out : ∀ p x o, ext p → f.objs x = some o → p.blk ≠ o.blk
  lt : ∀ x o, f.objs x = some o → o.blk < f.next
  excl : ∀ x y o o', f.objs x = some o → f.objs y = some o' → o.blk = o'.blk → x = y

variable {ext : Ptr → Prop} {f : Frame}

theorem has_blk {p : Ptr} (h : FrameInv ext f) (hp : ext p ∨ Frame.Has f p) : p.blk < f.next := by
  rcases hp with hp | ⟨x, o, hx, hb⟩
  · exact h.old p hp
  · rw [hb.1]; exact h.lt x o hx

theorem all_gone (h : FrameInv ext f) {b : Nat} (hb : f.next ≤ b) : ∀ p, p.blk = b → AllElements ext f p = .gone := by
  intro p hp
  refine if_neg fun e => ?_
  have := has_blk h e
  omega

theorem all_alive {p : Ptr} (h : ext p ∨ Frame.Has f p) : AllElements ext f p = .alive := if_pos h

theorem all_congr {f' : Frame} {p : Ptr} (h : (ext p ∨ Frame.Has f p) ↔ (ext p ∨ Frame.Has f' p)) :
    AllElements ext f p = AllElements ext f' p := by
  unfold AllElements
  by_cases h1 : ext p ∨ Frame.Has f p
  · rw [if_pos h1, if_pos (h.1 h1)]
  · rw [if_neg h1, if_neg fun e => h1 (h.2 e)]

theorem obj_alive {x : Nat} {o : StackObj} (hx : f.objs x = some o) {k : Nat} (hk : k < o.count) :
    AllElements ext f ⟨o.blk, k⟩ = .alive := all_alive (.inr ⟨x, o, hx, inBlock_mk rfl hk⟩)

theorem obj_add {x : Nat} {o : StackObj} (hx : f.objs x = some o) {k : Nat} (hk : k < o.count) :
    AllElements ext f ((⟨o.blk, 0⟩ : Ptr).add k) = .alive := by
  have e : (⟨o.blk, 0⟩ : Ptr).add k = ⟨o.blk, k⟩ := by simp [Ptr.add]
  rw [e]; exact obj_alive hx hk

theorem add_has {x n : Nat} (hx : f.objs x = none) (p : Ptr) :
    Frame.Has (f.add x n) p ↔ Frame.Has f p ∨ InBlock f.next n p := by
  constructor
  · rintro ⟨y, o, hy, hb⟩
    by_cases e : y = x
    · subst e
      simp only [Frame.add, upd_self, Option.some.injEq] at hy
      subst hy; exact .inr hb
    · simp only [Frame.add, upd_ne _ _ e] at hy
      exact .inl ⟨y, o, hy, hb⟩
  · rintro (⟨y, o, hy, hb⟩ | hb)
    · refine ⟨y, o, ?_, hb⟩
      have e : y ≠ x := by rintro rfl; rw [hx] at hy; cases hy
      simp only [Frame.add, upd_ne _ _ e]; exact hy
    · exact ⟨x, ⟨f.next, n⟩, by simp only [Frame.add, upd_self], hb⟩

theorem add_slots {x n : Nat} (hx : f.objs x = none) :
    setBlock (AllElements ext f) f.next n .alive = AllElements ext (f.add x n) := by
  funext p
  by_cases h1 : InBlock f.next n p
  · rw [all_alive (.inr ((add_has hx p).2 (.inr h1)))]; exact if_pos h1
  · rw [setBlock, if_neg h1]
    refine all_congr (or_congr Iff.rfl ?_)
    rw [add_has hx]
    simp [h1]

theorem add_inv (h : FrameInv ext f) (x n : Nat) : FrameInv ext (f.add x n) where
  old p hp := by have := h.old p hp; simp only [Frame.add]; omega
  out p y o hp hy := by
    by_cases e : y = x
    · subst e
      simp only [Frame.add, upd_self, Option.some.injEq] at hy
      subst hy
      have := h.old p hp
      dsimp only; omega
    · simp only [Frame.add, upd_ne _ _ e] at hy
      exact h.out p y o hp hy
  lt y o hy := by
    by_cases e : y = x
    · subst e
      simp only [Frame.add, upd_self, Option.some.injEq] at hy
      subst hy; simp [Frame.add]
    · simp only [Frame.add, upd_ne _ _ e] at hy
      have := h.lt y o hy
      simp only [Frame.add]; omega
  excl y z o o' hy hz e := by
    by_cases e1 : y = x <;> by_cases e2 : z = x
    · rw [e1, e2]
    · subst e1
      simp only [Frame.add, upd_self, Option.some.injEq] at hy
      simp only [Frame.add, upd_ne _ _ e2] at hz
      subst hy
      have := h.lt z o' hz
      dsimp only at e; omega
    · subst e2
      simp only [Frame.add, upd_self, Option.some.injEq] at hz
      simp only [Frame.add, upd_ne _ _ e1] at hy
      subst hz
      have := h.lt y o hy
      dsimp only at e; omega
    · simp only [Frame.add, upd_ne _ _ e1] at hy
      simp only [Frame.add, upd_ne _ _ e2] at hz
      exact h.excl y z o o' hy hz e

theorem next_inv (h : FrameInv ext f) (k : Nat) : FrameInv ext { f with next := f.next + k } where
  old p hp := by have := h.old p hp; dsimp only; omega
  out := h.out
  lt x o hx := by have := h.lt x o hx; dsimp only; omega
  excl := h.excl

theorem assign_stack (h : FrameInv ext f) {x : Nat} {o : StackObj} (hx : f.objs x = some o) {src : Ptr}
    (hs : ∀ k : Nat, k < o.count → AllElements ext f (src.add k) = .alive) :
    Respects ty (AllElements ext f) (stackAssignEvents f o src) (AllElements ext f) := by
  have hg := all_gone h le_rfl
  have h1 := build_stack (ty := ty) (s := AllElements ext f) o.count (src := some src) hg (fun q hq => by cases hq; exact hs)
  have hne : o.blk ≠ f.next := by have := h.lt x o hx; omega
  have h2 := swap_respects (ty := ty) (s := setBlock (AllElements ext f) f.next o.count .alive) (t := f.next + 1) (a := o.blk)
    (b := f.next) (n := o.count)
    (fun r hr => by rw [setBlock_other _ (by omega)]; exact all_gone h (by omega) r hr)
    (fun k hk => by rw [setBlock_other _ hne]; exact obj_alive hx hk)
    (fun k hk => if_pos (inBlock_mk rfl hk))
  have h3 := end_respects (ty := ty) (s := setBlock (AllElements ext f) f.next o.count .alive) f.next o.count
    (fun p hp => by simp only [setBlock, hg p hp])
  refine respects_to (respects_append (respects_append h1 h2) h3) ?_
  funext p
  by_cases hp : p.blk = f.next
  · rw [if_pos hp, hg p hp]
  · rw [if_neg hp, setBlock_other _ hp]

theorem all_next (k : Nat) : AllElements ext ({ f with next := f.next + k } : Frame) = AllElements ext f := rfl

theorem destroy_stack (h : FrameInv ext f) {x : Nat} {o : StackObj} (hx : f.objs x = some o) :
    Respects ty (AllElements ext f) (stackEndEvents o.blk o.count) (AllElements ext { f with objs := upd f.objs x none }) ∧
      FrameInv ext { f with objs := upd f.objs x none } := by
  have key : ∀ p, p.blk = o.blk → (ext p ∨ Frame.Has f p ↔ InBlock o.blk o.count p) := by
    intro p hp
    constructor
    · rintro (he | ⟨y, o', hy, hb⟩)
      · exact absurd hp (h.out p x o he hx)
      · have : y = x := h.excl y x o' o hy hx (by rw [← hb.1, hp])
        subst this
        rw [hx] at hy; cases hy; exact hb
    · exact fun hb => .inr ⟨x, o, hx, hb⟩
  have hne : ∀ y o', upd f.objs x none y = some o' → y ≠ x ∧ f.objs y = some o' := by
    intro y o' hy
    by_cases e : y = x
    · subst e; rw [upd_self] at hy; cases hy
    · rw [upd_ne _ _ e] at hy; exact ⟨e, hy⟩
  constructor
  · refine respects_to (end_respects o.blk o.count fun p hp => ?_) ?_
    · simp only [AllElements, key p hp]
    · funext p
      by_cases hp : p.blk = o.blk
      · rw [if_pos hp]
        symm
        refine if_neg ?_
        rintro (he | ⟨y, o', hy, hb⟩)
        · exact h.out p x o he hx hp
        · obtain ⟨e1, e2⟩ := hne y o' hy
          exact e1 (h.excl y x o' o e2 hx (by rw [← hb.1, hp]))
      · rw [if_neg hp]
        have : (ext p ∨ Frame.Has f p) ↔ (ext p ∨ Frame.Has { f with objs := upd f.objs x none } p) := by
          refine or_congr Iff.rfl ⟨?_, ?_⟩
          · rintro ⟨y, o', hy, hb⟩
            refine ⟨y, o', ?_, hb⟩
            have e : y ≠ x := by
              rintro rfl
              rw [hx] at hy; cases hy; exact hp hb.1
            dsimp only; rw [upd_ne _ _ e]; exact hy
          · rintro ⟨y, o', hy, hb⟩
            exact ⟨y, o', (hne y o' hy).2, hb⟩
        exact all_congr this
  · exact ⟨h.old, fun p y o' hp hy => h.out p y o' hp (hne y o' hy).2, fun y o' hy => h.lt y o' (hne y o' hy).2,
      fun y z o1 o2 hy hz e => h.excl y z o1 o2 (hne y o1 hy).2 (hne z o2 hz).2 e⟩

/-- One operation. -/
theorem frame_step (h : FrameInv ext f) {op : StackOp} {ops : List StackOp} (hs : SourcesAlive ext f (op :: ops)) :
    Respects ty (AllElements ext f) (f.step op).1 (AllElements ext (f.step op).2) ∧ FrameInv ext (f.step op).2 := by
  have nop : Respects ty (AllElements ext f) [] (AllElements ext f) ∧ FrameInv ext f := ⟨.nil, h⟩
  have hg := all_gone h le_rfl
  cases op with
  | make x n src =>
    simp only [Frame.step]
    cases hx : f.objs x with
    | some o => exact nop
    | none =>
      refine ⟨respects_to (build_stack n hg fun q hq k hk => ?_) (add_slots hx), add_inv h x n⟩
      subst hq
      exact all_alive (hs.1 k hk)
  | copy x y =>
    simp only [Frame.step]
    cases hx : f.objs x <;> cases hy : f.objs y
    case none.some o =>
      dsimp only
      refine ⟨respects_to (build_stack o.count hg fun q hq k hk => ?_) (add_slots hx), add_inv h x o.count⟩
      cases hq
      exact obj_add hy hk
    all_goals exact nop
  | move x y =>
    simp only [Frame.step]
    cases hx : f.objs x <;> cases hy : f.objs y
    case none.some o =>
      exact ⟨respects_to (move_stack o.count hg fun k hk => obj_alive hy hk) (add_slots hx), add_inv h x o.count⟩
    all_goals exact nop
  | copyAssign x y =>
    simp only [Frame.step]
    cases hx : f.objs x <;> cases hy : f.objs y
    case some.some o o' =>
      dsimp only
      split
      · next e => exact ⟨assign_stack h hx fun k hk => obj_add hy (by omega), next_inv h 2⟩
      · exact nop
    all_goals exact nop
  | assignFrom x src =>
    simp only [Frame.step]
    cases hx : f.objs x with
    | none => exact nop
    | some o => exact ⟨assign_stack h hx fun k hk => all_alive (hs.1 o hx k hk), next_inv h 2⟩
  | moveAssign x y =>
    simp only [Frame.step]
    cases hx : f.objs x <;> cases hy : f.objs y
    case some.some o o' =>
      dsimp only
      split
      · next e => exact ⟨copyEvents_use (fun k hk => obj_add hy (by omega)) (fun k hk => obj_add hx hk), h⟩
      · exact nop
    all_goals exact nop
  | swap x y =>
    simp only [Frame.step]
    cases hx : f.objs x <;> cases hy : f.objs y
    case some.some o o' =>
      dsimp only
      split
      · next e => exact ⟨swap_respects hg (fun k hk => obj_alive hx hk) (fun k hk => obj_alive hy (by omega)), next_inv h 1⟩
      · exact nop
    all_goals exact nop
  | destroy x =>
    simp only [Frame.step]
    cases hx : f.objs x with
    | none => exact nop
    | some o => exact destroy_stack h hx
  | write x k =>
    simp only [Frame.step]
    cases hx : f.objs x with
    | none => exact nop
    | some o =>
      dsimp only
      split
      · next hk => exact ⟨.cons (.assign (obj_alive hx hk)) .nil, h⟩
      · exact nop

theorem frame_trace (h : FrameInv ext f) {ops : List StackOp} (hs : SourcesAlive ext f ops) :
    Respects ty (AllElements ext f) (f.trace ops).1 (AllElements ext (f.trace ops).2) := by
  induction ops generalizing f with
  | nil => exact .nil
  | cons op ops ih =>
    obtain ⟨h1, h2⟩ := frame_step (ty := ty) h hs
    exact respects_append h1 (ih h2 hs.2)

/-! ### Which operations give values -/

theorem buildEvents_noAssign {w w1 : World α} {a : AllocId} {s : Shape} {src : Option (Option Ptr)} {t : Table}
    (h : w.build a s src = .ok (t, w1)) : NoAssign (w.buildEvents s src) ↔ src = none ∨ ¬ 0 < numel s := by
  unfold World.build at h
  unfold World.buildEvents
  dsimp only at h ⊢
  by_cases hn : (numel s).toNat = 0
  · rw [if_pos hn]
    exact ⟨fun _ => .inr (by omega), fun _ p hp => by simp at hp⟩
  · rw [if_neg hn]
    match src, h with
    | none, _ => exact ⟨fun _ => .inl rfl, fun _ p hp => by simp at hp⟩
    | some none, h => dsimp only at h; rw [if_neg hn] at h; cases h
    | some (some q), _ =>
      refine ⟨fun hna => ?_, fun h => ?_⟩
      · exact absurd (by
          simp only [copyEvents, List.mem_cons, List.mem_flatMap, List.mem_range]
          exact .inr ⟨0, by omega, .inr (.inl rfl)⟩) (hna ((⟨w.next, 0⟩ : Ptr).add (0 : Nat)))
      · rcases h with h | h
        · cases h
        · omega

theorem append_noAssign {es : List Event} (t : Table) : NoAssign (es ++ t.releaseEvents) ↔ NoAssign es :=
  ⟨fun h => (noAssign_append h).1, fun h p hp => by
    rcases List.mem_append.1 hp with h1 | h1
    · exact h p h1
    · exact releaseEvents_noAssign t p h1⟩

theorem nil_noAssign : NoAssign [] := fun p hp => by simp at hp

theorem events_noAssign {w w' : World α} {op : Op α} (h : w.step op = .ok w') : NoAssign (w.events op) ↔ ¬ GivesValues w op := by
  have triv : ∀ {P : Prop}, ¬ P → (NoAssign [] ↔ ¬ P) := fun hp => ⟨fun _ => hp, fun _ => nil_noAssign⟩
  cases op with
  | dflt x axes => exact triv (by simp [GivesValues])
  | make x a s src =>
    simp only [World.step] at h
    simp only [World.events]
    cases hx : w.tables x with
    | some t => exact triv (by cases src <;> simp [GivesValues, hx])
    | none =>
      rw [hx] at h
      obtain ⟨t, w1, hb, -⟩ := make_parts (ty := ⟨true⟩) h
      dsimp only
      rw [buildEvents_noAssign hb]
      cases src <;> simp [GivesValues, hx]
  | copy x y =>
    simp only [World.step, World.copyOf] at h
    simp only [World.events]
    cases hx : w.tables x <;> cases hy : w.tables y <;> rw [hx, hy] at h
    case none.some u =>
      obtain ⟨t, w1, hb, -⟩ := make_parts (ty := ⟨true⟩) h
      dsimp only
      rw [buildEvents_noAssign hb]
      simp [GivesValues, hx, hy]
    all_goals exact triv (by simp [GivesValues, hx, hy])
  | copyFrom x c =>
    simp only [World.step] at h
    simp only [World.events]
    cases hx : w.tables x with
    | some t => exact triv (by simp [GivesValues, hx])
    | none =>
      rw [hx] at h
      obtain ⟨t, w1, hb, -⟩ := make_parts (ty := ⟨true⟩) h
      dsimp only
      rw [buildEvents_noAssign hb]
      simp [GivesValues, hx, Container.settings]
  | move x y => exact triv (by simp [GivesValues])
  | copyAssign x y =>
    simp only [World.step] at h
    simp only [World.events]
    cases hx : w.tables x <;> cases hy : w.tables y <;> rw [hx, hy] at h
    case some.some u v =>
      obtain ⟨t, w1, hb, -⟩ := assign_parts h
      dsimp only
      rw [append_noAssign, buildEvents_noAssign hb]
      simp [GivesValues, hx, hy]
    all_goals exact triv (by simp [GivesValues, hx, hy])
  | assignFrom x c =>
    simp only [World.step] at h
    simp only [World.events]
    cases hx : w.tables x with
    | none => exact triv (by simp [GivesValues, hx])
    | some u =>
      rw [hx] at h
      obtain ⟨t, w1, hb, -⟩ := assign_parts h
      dsimp only
      rw [append_noAssign, buildEvents_noAssign hb]
      simp [GivesValues, hx, Container.settings]
  | moveAssign x y =>
    refine ⟨fun _ => by simp [GivesValues], fun _ => ?_⟩
    simp only [World.events]
    split
    · split
      · exact nil_noAssign
      · exact releaseEvents_noAssign _
    · exact nil_noAssign
  | swap x y => exact triv (by simp [GivesValues])
  | destroy x =>
    refine ⟨fun _ => by simp [GivesValues], fun _ => ?_⟩
    simp only [World.events]
    split
    · exact releaseEvents_noAssign _
    · exact nil_noAssign
  | write x is v =>
    simp only [World.step] at h
    simp only [World.events]
    cases hx : w.tables x with
    | none => exact triv (by simp [GivesValues, hx])
    | some tx =>
      rw [hx] at h
      dsimp only at h ⊢
      cases hd : tx.data with
      | none => rw [hd] at h; cases h
      | some b =>
        dsimp only
        exact ⟨fun hna => absurd (by simp) (hna ((Container.ofShape ⟨b, 0⟩ tx.shape).addr is)), fun hg => absurd ⟨tx, hx⟩ hg⟩

theorem trace_noAssign {w : World α} {ops : List (Op α)} {es : List Event} (h : w.trace ops = .ok es) :
    NoAssign es ↔ ¬ SomeValue w ops := by
  induction ops generalizing w es with
  | nil =>
    cases h
    refine ⟨fun _ => ?_, fun _ => nil_noAssign⟩
    rintro ⟨o1, op, o2, w1, e, -⟩
    simp at e
  | cons op ops ih =>
    obtain ⟨w1, h1⟩ := trace_step h
    obtain ⟨es', h2, rfl⟩ := trace_cons h1 h
    have e1 := events_noAssign h1
    have e2 := ih h2
    constructor
    · rintro hna ⟨o1, op', o2, w2, e, hr, hg⟩
      obtain ⟨n1, n2⟩ := noAssign_append hna
      cases o1 with
      | nil =>
        simp only [List.nil_append, List.cons.injEq] at e
        obtain ⟨rfl, rfl⟩ := e
        cases hr
        exact e1.1 n1 hg
      | cons a o1 =>
        simp only [List.cons_append, List.cons.injEq] at e
        obtain ⟨rfl, rfl⟩ := e
        simp only [World.run, List.foldlM_cons, h1, bind, Except.bind] at hr
        exact e2.1 n2 ⟨o1, op', o2, w2, rfl, hr, hg⟩
    · intro hn
      have n1 := e1.2 fun hg => hn ⟨[], op, ops, w, rfl, rfl, hg⟩
      have n2 := e2.2 (by
        rintro ⟨o1, op', o2, w2, rfl, hr, hg⟩
        exact hn ⟨op :: o1, op', o2, w2, rfl, run_cons h1 hr, hg⟩)
      intro p hp
      rcases List.mem_append.1 hp with h3 | h3
      · exact n1 p h3
      · exact n2 p h3

theorem empty_inv {ext : Ptr → Prop} {f : Frame} (h : EmptyFrame ext f) : FrameInv ext f where
  old := h.old
  out p x o _ hx := by rw [h.noTable] at hx; cases hx
  lt x o hx := by rw [h.noTable] at hx; cases hx
  excl x y o o' hx _ _ := by rw [h.noTable] at hx; cases hx

/-- Constructions and destructions are balanced at every place (helper). -/
theorem respects_balance (hi : ty.implicit = false) {s s' : Slots} {es : List Event} (h : Respects ty s es s') (p : Ptr) :
    es.count (.construct p) + (if s p = .alive then 1 else 0) = es.count (.destroy p) + (if s' p = .alive then 1 else 0) := by
  induction h with
  | nil => simp
  | @cons s s1 s2 e es1 h1 _ ih =>
    cases h1 with
    | @allocate b n hg =>
      rw [List.count_cons_of_ne (by simp), List.count_cons_of_ne (by simp), ← ih]
      congr 1
      by_cases hb : InBlock b n p
      · simp [hb, hi, hg p hb.1]
      · simp [hb]
    | @construct q hq =>
      have hq' : s q = .raw := by rcases hq with h | h; exacts [h, by simp [hi] at h]
      rw [List.count_cons_of_ne (a := Event.destroy p) (b := Event.construct q) (by simp), ← ih]
      by_cases e : p = q
      · subst e; simp [hq']
      · rw [List.count_cons_of_ne (by simpa using fun h => e h.symm)]; simp [e]
    | assign _ => rw [List.count_cons_of_ne (by simp), List.count_cons_of_ne (by simp), ← ih]
    | read _ => rw [List.count_cons_of_ne (by simp), List.count_cons_of_ne (by simp), ← ih]
    | @destroy q hq =>
      rw [List.count_cons_of_ne (a := Event.construct p) (b := Event.destroy q) (by simp)]
      by_cases e : p = q
      · subst e
        simp only [List.count_cons_self, hq, if_true] at ih ⊢
        simp at ih
        omega
      · rw [List.count_cons_of_ne (by simpa using fun h => e h.symm), ← ih]; simp [e]
    | @release b hr =>
      rw [List.count_cons_of_ne (by simp), List.count_cons_of_ne (by simp), ← ih]
      congr 1
      by_cases hb : p.blk = b
      · have : s p ≠ .alive := fun e => by simp [hi] at hr; exact hr p hb e
        simp [hb, this]
      · simp [hb]

end Kwk
