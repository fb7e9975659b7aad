import Verif.Lemmas.Container

/-!
# Properties C20-C22: traversals

`runAll`, `runUntil`, `firstHit` are in `Spec/Seq.lean`; `positions` is characterised in
`Props/Index.lean` (`positions_spec`).
-/

namespace Kwk
open Spec

/-- **C20** `for_each(f, shape)` runs `f` once on each valid position, in lexicographic order, for a
callback with arbitrary effects (any lawful monad). -/
theorem C20_for_each_runs_positions {m : Type → Type} [Monad m] [LawfulMonad m]
    (f : List Int → m Unit) (s : List Int) : forEach f s = runAll f (positions s) :=
  forEach_eq f s

example := C20_for_each_runs_positions (m := StateM (List (List Int))) (fun p => modify (· ++ [p])) [2, 3]

/-- The positions visited by `for_each`, recorded by a logging callback. -/
def visited (s : List Int) : List (List Int) :=
  (forEach (m := StateM (List (List Int))) (fun p => modify fun log => log ++ [p]) s []).2

theorem runAll_log {α : Type} (l log : List α) :
    (runAll (m := StateM (List α)) (fun p => modify fun log => log ++ [p]) l log).2 = log ++ l := by
  induction l generalizing log with
  | nil => simp [runAll]; rfl
  | cons a l ih =>
    have := ih (log ++ [a])
    simp only [List.append_assoc, List.singleton_append] at this
    rw [← this]; rfl

/-- **C20** (observable form) The calls of the callback are: every valid position exactly once, no
other tuple, and their linear indexes are `0, 1, …, numel-1` in this order. -/
theorem C20_for_each_visits (s : List Int) (hne : s ≠ []) :
    (∀ p, InBox s p → (visited s).count p = 1) ∧ (∀ p, ¬ InBox s p → p ∉ visited s) ∧
    (visited s).Pairwise (· < ·) ∧
    (NonNeg s → ∀ md, (visited s).mapM (linearIndex md s) = .ok (upTo (numel s))) := by
  have hv : visited s = positions s := by
    unfold visited; rw [forEach_eq, runAll_log]; rfl
  rw [hv]
  refine ⟨fun p hp => ?_, fun p hp h => hp (mem_positions.1 h), positions_sorted s, ?_⟩
  · exact List.count_eq_one_of_mem (positions_nodup s) (mem_positions.2 hp)
  · intro hs md
    rw [numel_eq_prod hne, ← positions_map_lin hs]
    have : ∀ l : List (List Int), (∀ p ∈ l, InBox s p) →
        l.mapM (linearIndex md s) = .ok (l.map (linearize (sfx s))) := by
      intro l
      induction l with
      | nil => intro _; rfl
      | cons p l ih =>
        intro h
        rw [List.mapM_cons, linearIndex_ok md (h p (by simp)), ih fun q hq => h q (by simp [hq])]
        rfl
    exact this _ fun p hp => mem_positions.1 hp

example := C20_for_each_visits [2, 3] (by decide)

/-- **C20** (empty) A zero or negative extent yields no call. -/
theorem C20_for_each_empty {m : Type → Type} [Monad m] [LawfulMonad m]
    (f : List Int → m Unit) (s : List Int) (h : ∃ d ∈ s, d ≤ 0) : forEach f s = pure () := by
  rw [forEach_eq, positions_eq_nil h]; rfl

example : visited [2, 3] = [[0,0],[0,1],[0,2],[1,0],[1,1],[1,2]] := by decide
example : visited [2, 0, 3] = [] := by decide

/-- **C21** `find_if` reads and tests positions in lexicographic order until the first success and
does nothing more, for a predicate with arbitrary effects. -/
theorem C21_find_if_runs_prefix {α : Type} {m : Type → Type} [Monad m] [LawfulMonad m]
    (rd : List Int → m α) (f : α → m Bool) (s : List Int) :
    findIfM rd f s = firstHit rd f (positions s) :=
  findIfM_eq rd f s

example := C21_find_if_runs_prefix (m := StateM (List Int)) (fun p => pure (p.headD 0)) (fun v => do modify (· ++ [v]); pure (v == 1)) [2, 3]

/-- The positions on which the predicate of `find_if` was evaluated, recorded by a logging access. -/
def evaluated (s : List Int) (P : List Int → Bool) : List (List Int) :=
  (findIfM (m := StateM (List (List Int))) (fun p => fun log => (p, log ++ [p]))
    (fun p => pure (P p)) s []).2

/-- **C21** (observable form) The predicate is evaluated on a prefix of the positions in
lexicographic order; no evaluation but the last one succeeds; and either the last one succeeds or
all positions have been evaluated. -/
theorem C21_find_if_evaluations (s : List Int) (P : List Int → Bool) :
    evaluated s P <+: positions s ∧
    (∀ p ∈ (evaluated s P).dropLast, P p = false) ∧
    ((∃ p ∈ (evaluated s P).getLast?, P p = true) ∨
      (evaluated s P = positions s ∧ ∀ p, InBox s p → P p = false)) := by
  have key : ∀ (l log : List (List Int)), ∃ ev,
      (firstHit (m := StateM (List (List Int))) (fun p => fun log => (p, log ++ [p]))
        (fun p => pure (P p)) l log).2 = log ++ ev ∧ ev <+: l ∧
      (∀ p ∈ ev.dropLast, P p = false) ∧
      ((∃ p ∈ ev.getLast?, P p = true) ∨ (ev = l ∧ ∀ p ∈ l, P p = false)) := by
    intro l
    induction l with
    | nil => intro log; exact ⟨[], by simp [firstHit]; rfl, by simp, by simp, by simp⟩
    | cons a l ih =>
      intro log
      cases ha : P a
      · obtain ⟨ev, h1, h2, h3, h4⟩ := ih (log ++ [a])
        refine ⟨a :: ev, ?_, ?_, ?_, ?_⟩
        · rw [List.append_assoc, List.singleton_append] at h1
          rw [← h1]
          simp only [firstHit, bind, StateT.bind, pure, StateT.pure, ha]
          rfl
        · exact List.cons_prefix_cons.2 ⟨rfl, h2⟩
        · intro p hp
          cases ev with
          | nil => simp at hp
          | cons x xs =>
            simp only [List.dropLast_cons_cons, List.mem_cons] at hp
            rcases hp with rfl | hp
            · exact ha
            · exact h3 p hp
        · rcases h4 with ⟨p, hp, hP⟩ | ⟨rfl, hall⟩
          · left
            refine ⟨p, ?_, hP⟩
            cases ev with
            | nil => simp at hp
            | cons x xs => simpa [List.getLast?_cons_cons] using hp
          · right
            exact ⟨rfl, by intro p hp; rcases List.mem_cons.1 hp with rfl | hp; exact ha; exact hall p hp⟩
      · refine ⟨[a], ?_, ?_, ?_, ?_⟩
        · simp only [firstHit, bind, StateT.bind, pure, StateT.pure, ha]; rfl
        · exact List.cons_prefix_cons.2 ⟨rfl, List.nil_prefix⟩
        · simp
        · left; exact ⟨a, by simp, ha⟩
  obtain ⟨ev, h1, h2, h3, h4⟩ := key (positions s) []
  have hev : evaluated s P = ev := by
    unfold evaluated; rw [findIfM_eq, h1]; simp
  rw [hev]
  refine ⟨h2, h3, ?_⟩
  rcases h4 with h | ⟨h, hall⟩
  · exact Or.inl h
  · exact Or.inr ⟨h, fun p hp => hall p (mem_positions.2 hp)⟩

example : evaluated [2, 2] (fun p => p == [1, 0]) = [[0,0],[0,1],[1,0]] := by decide

/-- **C22** Walking a container with default layout visits the cells `data, data+1, …,
data+numel-1` in this order. -/
theorem C22_default_layout_walk (c : Container) (h : c.Default) (hs : NonNeg c.shape) :
    (visited c.shape).map c.addr = (upTo c.numel).map fun k => c.base.add k := by
  have hv : visited c.shape = positions c.shape := by
    unfold visited; rw [forEach_eq, runAll_log]; rfl
  rw [hv, Container.numel, numel_eq_prod h.ne, ← positions_map_lin hs, List.map_map]
  apply List.map_congr_left
  intro p hp
  exact addr_default h (mem_positions.1 hp)

example : (visited [2, 2]).map (Container.ofShape ⟨0, 5⟩ [2, 2]).addr =
    [⟨0, 5⟩, ⟨0, 6⟩, ⟨0, 7⟩, ⟨0, 8⟩] := by decide

end Kwk
