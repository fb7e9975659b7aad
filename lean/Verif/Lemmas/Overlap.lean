import Verif.Lemmas.Writing

/-!
# Lemmas: copying between overlapping containers
-/

namespace Kwk
open Spec

variable {α P : Type}

/-- One element of a copy. -/
def moveStep (src dst : P → Ptr) (sm : Unit × Mem α) (p : P) : Res (Unit × Mem α) := do
  let v ← load sm.2 (src p)
  let m ← store sm.2 (dst p) v
  pure ((), m)

/-- Copying one element after the other: the value that ends up at `p` is the original one, or the one that was stored there
by an earlier step. -/
theorem move_run (src dst : P → Ptr) (l : List P) (m : Mem α) (hd : l.Pairwise fun p q => dst p ≠ dst q)
    (hs : ∀ p ∈ l, (m (src p)).isSome) (ht : ∀ p ∈ l, (m (dst p)).isSome) :
    ∃ m', l.foldlM (moveStep src dst) ((), m) = .ok ((), m') ∧ (∀ a, (∀ p ∈ l, dst p ≠ a) → m' a = m a) ∧
      ∀ l1 p l2, l = l1 ++ p :: l2 → ((∀ q ∈ l1, dst q ≠ src p) → m' (dst p) = m (src p)) ∧
        ∀ q ∈ l1, dst q = src p → m' (dst p) = m' (dst q) := by
  induction l generalizing m with
  | nil => exact ⟨m, rfl, fun _ _ => rfl, fun l1 p l2 e => by simp at e⟩
  | cons x l ih =>
    rw [List.pairwise_cons] at hd
    obtain ⟨v, hv⟩ := Option.isSome_iff_exists.1 (hs x (by simp))
    have hsome : ∀ a, (wr m (dst x) (some v) a).isSome = (m a).isSome := wr_isSome m (some v) (ht x (by simp))
    obtain ⟨m', h1, h2, h3⟩ := ih (wr m (dst x) (some v)) hd.2
      (fun p hp => by rw [hsome]; exact hs p (by simp [hp])) (fun p hp => by rw [hsome]; exact ht p (by simp [hp]))
    have hx : m' (dst x) = some v := by
      rw [h2 _ fun p hp => (hd.1 p hp).symm, wr_self]
    refine ⟨m', ?_, ?_, ?_⟩
    · rw [List.foldlM_cons]
      have : moveStep src dst ((), m) x = .ok ((), wr m (dst x) (some v)) := by
        unfold moveStep
        simp only [load_ok hv]
        show (do let m ← store m (dst x) v; pure ((), m)) = _
        rw [store_ok (ht x (by simp))]
        rfl
      rw [this]
      exact h1
    · intro a ha
      rw [h2 a fun p hp => ha p (by simp [hp]), wr_other _ _ (ha x (by simp))]
    · intro l1 p l2 e
      cases l1 with
      | nil =>
        rw [List.nil_append] at e
        cases e
        exact ⟨fun _ => by rw [hx, hv], fun q hq => by simp at hq⟩
      | cons y l1 =>
        rw [List.cons_append] at e
        obtain ⟨rfl, rfl⟩ := List.cons.inj e
        obtain ⟨g1, g2⟩ := h3 l1 p l2 rfl
        constructor
        · intro hq
          rw [g1 fun q hm => hq q (by simp [hm]), wr_other _ _ (hq x (by simp))]
        · intro q hq hqe
          rcases List.mem_cons.1 hq with rfl | hq
          · rw [g1 fun r hr hre => hd.1 r (by simp [hr]) (hqe.trans hre.symm), ← hqe, hx, wr_self]
          · exact g2 q hq hqe

/-- A loop whose step at `p` writes at most the cell `dst p`: what the step at `p` sees is the original memory, with the final
values in the cells of the steps before it. -/
theorem seen_run {σ : Type} (dst : P → Ptr) (step : P → σ × Mem α → Res (σ × Mem α)) (l : List P) (m : Mem α) (s : σ)
    (hd : l.Pairwise fun p q => dst p ≠ dst q) (ht : ∀ p ∈ l, (m (dst p)).isSome)
    (hstep : ∀ p ∈ l, ∀ s m1, (∀ a, (m1 a).isSome = (m a).isSome) → ∃ s' w, step p (s, m1) = .ok (s', wr m1 (dst p) w)) :
    ∃ s' m', l.foldlM (fun sm p => step p sm) (s, m) = .ok (s', m') ∧ (∀ a, (∀ p ∈ l, dst p ≠ a) → m' a = m a) ∧
      (∀ a, (m' a).isSome = (m a).isSome) ∧
      ∀ l1 p l2, l = l1 ++ p :: l2 → ∃ s1 m1 s2 m2, l1.foldlM (fun sm p => step p sm) (s, m) = .ok (s1, m1) ∧
        step p (s1, m1) = .ok (s2, m2) ∧ l2.foldlM (fun sm p => step p sm) (s2, m2) = .ok (s', m') ∧
        m2 (dst p) = m' (dst p) ∧ (∀ a, (m1 a).isSome = (m a).isSome) ∧
        (∀ a, (∀ q ∈ l1, dst q ≠ a) → m1 a = m a) ∧ ∀ q ∈ l1, m1 (dst q) = m' (dst q) := by
  induction l generalizing m s with
  | nil => exact ⟨s, m, rfl, fun _ _ => rfl, fun _ => rfl, fun l1 p l2 e => by simp at e⟩
  | cons x l ih =>
    rw [List.pairwise_cons] at hd
    obtain ⟨s1, w, hx⟩ := hstep x (by simp) s m fun _ => rfl
    have hsome : ∀ a, (wr m (dst x) w a).isSome = (m a).isSome := wr_isSome m w (ht x (by simp))
    obtain ⟨s', m', h1, h2, h3, h4⟩ := ih (wr m (dst x) w) s1 hd.2 (fun p hp => by rw [hsome]; exact ht p (by simp [hp]))
      (fun p hp s m1 hm => hstep p (by simp [hp]) s m1 fun a => (hm a).trans (hsome a))
    have hfin : wr m (dst x) w (dst x) = m' (dst x) := (h2 _ fun p hp => (hd.1 p hp).symm).symm
    refine ⟨s', m', by rw [List.foldlM_cons, hx]; exact h1, fun a ha => ?_, fun a => (h3 a).trans (hsome a), fun l1 p l2 e => ?_⟩
    · rw [h2 a fun p hp => ha p (by simp [hp]), wr_other _ _ (ha x (by simp))]
    · cases l1 with
      | nil =>
        rw [List.nil_append] at e
        cases e
        exact ⟨s, m, s1, _, rfl, hx, h1, hfin, fun _ => rfl, fun _ _ => rfl, fun q hq => by simp at hq⟩
      | cons y l1 =>
        rw [List.cons_append] at e
        obtain ⟨rfl, rfl⟩ := List.cons.inj e
        obtain ⟨t1, m1, t2, m2, g1, g2, g3, g4, g5, g6, g7⟩ := h4 l1 p l2 rfl
        refine ⟨t1, m1, t2, m2, by rw [List.foldlM_cons, hx]; exact g1, g2, g3, g4, fun a => (g5 a).trans (hsome a),
          fun a ha => by rw [g6 a fun q hq => ha q (by simp [hq]), wr_other _ _ (ha x (by simp))], fun q hq => ?_⟩
        rcases List.mem_cons.1 hq with rfl | hq
        · rw [g6 _ fun r hr => (hd.1 r (by simp [hr])).symm, hfin]
        · exact g7 q hq

/-- The same for a loop over the positions of a container that writes at most the element it has reached. -/
theorem cells_run {σ : Type} (out : Container) (m : Mem α) (s : σ) (hd : Distinct out) (hv : Valid out m)
    (step : List Int → σ × Mem α → Res (σ × Mem α))
    (hstep : ∀ p, InBox out.shape p → ∀ s m1, (∀ a, (m1 a).isSome = (m a).isSome) →
      ∃ s' w, step p (s, m1) = .ok (s', wr m1 (out.addr p) w)) :
    ∃ s' m', loopState step out.shape (s, m) = .ok (s', m') ∧ SameOutside out m m' ∧
      (∀ a, (m' a).isSome = (m a).isSome) ∧
      ∀ p (k : Nat), (positions out.shape)[k]? = some p → ∃ s1 m1 s2 m2,
        ((positions out.shape).take k).foldlM (fun sm p => step p sm) (s, m) = .ok (s1, m1) ∧
        step p (s1, m1) = .ok (s2, m2) ∧
        ((positions out.shape).drop (k + 1)).foldlM (fun sm p => step p sm) (s2, m2) = .ok (s', m') ∧
        m2 (out.addr p) = m' (out.addr p) ∧ (∀ a, (m1 a).isSome = (m a).isSome) ∧
        (∀ a, (∀ q, InBox out.shape q → q < p → out.addr q ≠ a) → m1 a = m a) ∧
        ∀ q, InBox out.shape q → q < p → m1 (out.addr q) = m' (out.addr q) := by
  have hmem : ∀ {p}, p ∈ positions out.shape → InBox out.shape p := fun h => mem_positions.1 h
  obtain ⟨s', m', h1, h2, h3, h4⟩ := seen_run out.addr step (positions out.shape) m s
    ((positions_nodup out.shape).imp_of_mem fun hp hq hne e => hne (hd _ _ (hmem hp) (hmem hq) e))
    (fun p hp => by obtain ⟨v, h⟩ := hv p (hmem hp); exact isSome_of_get h) (fun p hp => hstep p (hmem hp))
  refine ⟨s', m', by rw [loopState_eq]; exact h1, fun a ha => h2 a fun p hp => ha p (hmem hp), h3, fun p k hk => ?_⟩
  obtain ⟨hlt, hp⟩ := List.getElem?_eq_some_iff.1 hk
  have e : positions out.shape = (positions out.shape).take k ++ p :: (positions out.shape).drop (k + 1) := by
    rw [← hp, List.getElem_cons_drop, List.take_append_drop]
  have hs := positions_sorted out.shape
  rw [e, List.pairwise_append] at hs
  have hbefore : ∀ q, q ∈ (positions out.shape).take k ↔ InBox out.shape q ∧ q < p := by
    intro q
    constructor
    · intro hq
      exact ⟨hmem (List.mem_of_mem_take hq), hs.2.2 q hq p (by simp)⟩
    · rintro ⟨hb, hlt⟩
      have := mem_positions.2 hb
      rw [e, List.mem_append, List.mem_cons] at this
      rcases this with h | rfl | h
      · exact h
      · exact absurd hlt (lt_irrefl _)
      · exact absurd (lt_trans hlt ((List.pairwise_cons.1 hs.2.1).1 q h)) (lt_irrefl _)
  obtain ⟨s1, m1, s2, m2, g1, g2, g3, g4, g5, g6, g7⟩ := h4 _ p _ e
  exact ⟨s1, m1, s2, m2, g1, g2, g3, g4, g5, fun a ha => g6 a fun q hq => ha q ((hbefore q).1 hq).1 ((hbefore q).1 hq).2,
    fun q hq hlt => g7 q ((hbefore q).2 ⟨hq, hlt⟩)⟩

end Kwk
