import Verif.Lemmas.Container

/-! # Helper lemmas: loops that write one cell per position -/

namespace Kwk
open Spec

variable {α β σ P : Type}

/-- Optional write of one cell. -/
def wr (m : Mem α) (a : Ptr) (w : Option α) : Mem α :=
  match w with
  | none => m
  | some v => fun q => if q = a then some v else m q

theorem store_ok {m : Mem α} {a : Ptr} {v : α} (h : (m a).isSome) : store m a v = .ok (wr m a (some v)) := by
  unfold store wr
  cases hm : m a
  · simp [hm] at h
  · rfl

theorem wr_other (m : Mem α) {a b : Ptr} (w : Option α) (h : a ≠ b) : wr m a w b = m b := by
  cases w
  · rfl
  · simp [wr, h.symm]

theorem wr_self (m : Mem α) (a : Ptr) (w : Option α) :
    wr m a w a = match w with | some v => some v | none => m a := by
  cases w <;> simp [wr]

theorem wr_isSome (m : Mem α) {a : Ptr} (w : Option α) (h : (m a).isSome) (b : Ptr) :
    (wr m a w b).isSome = (m b).isSome := by
  cases w
  · rfl
  · by_cases e : b = a
    · subst e; simp [wr, h]
    · simp [wr, e]

/-- A loop whose step at `p` optionally writes the cell `addr p`, where the new value only depends on
the position and on the captured state, provided that cells not yet visited are untouched. -/
theorem foldlM_write (l : List P) (addr : P → Ptr) (new : P → σ → σ × Option α)
    (step : σ × Mem α → P → Res (σ × Mem α)) (m0 : Mem α) (s0 : σ)
    (hinj : l.Pairwise fun p q => addr p ≠ addr q)
    (hdom : ∀ p ∈ l, (m0 (addr p)).isSome)
    (hstep : ∀ l1 p l2, l = l1 ++ p :: l2 → ∀ s m,
      (∀ a, (∀ q ∈ l1, addr q ≠ a) → m a = m0 a) → (∀ a, (m a).isSome = (m0 a).isSome) →
      step (s, m) p = .ok ((new p s).1, wr m (addr p) (new p s).2)) :
    ∃ m', l.foldlM step (s0, m0) = .ok (l.foldl (fun s p => (new p s).1) s0, m') ∧
      (∀ a, (∀ p ∈ l, addr p ≠ a) → m' a = m0 a) ∧
      (∀ a, (m' a).isSome = (m0 a).isSome) ∧
      ∀ l1 p l2, l = l1 ++ p :: l2 →
        m' (addr p) = match (new p (l1.foldl (fun s p => (new p s).1) s0)).2 with
          | some v => some v
          | none => m0 (addr p) := by
  induction l using List.reverseRecOn with
  | nil => exact ⟨m0, rfl, fun _ _ => rfl, fun _ => rfl, by simp⟩
  | append_singleton l p ih =>
    rw [List.pairwise_append] at hinj
    obtain ⟨m1, h1, h2, h3, h4⟩ := ih hinj.1 (fun q hq => hdom q (by simp [hq])) (by
      intro l1 q l2 e s m ha hd
      exact hstep l1 q (l2 ++ [p]) (by rw [e]; simp) s m ha hd)
    have hs := hstep l p [] rfl (l.foldl (fun s p => (new p s).1) s0) m1 h2 h3
    have hpd : (m1 (addr p)).isSome := by rw [h3]; exact hdom p (by simp)
    refine ⟨wr m1 (addr p) (new p (l.foldl (fun s p => (new p s).1) s0)).2, ?_, ?_, ?_, ?_⟩
    rotate_left
    · intro a ha
      rw [wr_other _ _ (ha p (by simp)), h2 a fun q hq => ha q (by simp [hq])]
    · intro a; rw [wr_isSome _ _ hpd, h3]
    · intro l1 q l2 e
      rcases List.eq_nil_or_concat l2 with rfl | ⟨l2', x, rfl⟩
      · have := List.append_inj' e rfl
        obtain ⟨rfl, e2⟩ := this
        cases e2
        rw [wr_self, h2 (addr p) fun q hq => hinj.2.2 q hq p (by simp)]
      · have e' : l ++ [p] = (l1 ++ q :: l2') ++ [x] := by rw [e]; simp
        obtain ⟨rfl, e2⟩ := List.append_inj' e' rfl
        cases e2
        rw [wr_other _ _ (hinj.2.2 q (by simp) p (by simp)).symm]
        exact h4 l1 q l2' rfl
    · rw [List.foldlM_append, h1]
      simp only [bind, Except.bind, List.foldlM_cons, List.foldlM_nil]
      rw [hs]
      simp [pure, Except.pure]

theorem split_take {l : List P} {k : Nat} {p : P} (h : l[k]? = some p) :
    l = l.take k ++ p :: l.drop (k + 1) := by
  obtain ⟨hk, rfl⟩ := List.getElem?_eq_some_iff.1 h
  rw [List.getElem_cons_drop, List.take_append_drop]

/-- `foldlM_write` for the positions of a box, in terms of the lexicographic order and of ranks. -/
theorem loop_write (shp : List Int) (addr : List Int → Ptr) (new : List Int → σ → σ × Option α)
    (step : σ × Mem α → List Int → Res (σ × Mem α)) (m0 : Mem α) (s0 : σ)
    (hinj : ∀ p q, InBox shp p → InBox shp q → addr p = addr q → p = q)
    (hdom : ∀ p, InBox shp p → (m0 (addr p)).isSome)
    (hstep : ∀ p, InBox shp p → ∀ s m,
      (∀ a, (∀ q, InBox shp q → q < p → addr q ≠ a) → m a = m0 a) →
      (∀ a, (m a).isSome = (m0 a).isSome) →
      step (s, m) p = .ok ((new p s).1, wr m (addr p) (new p s).2)) :
    ∃ m', (positions shp).foldlM step (s0, m0) =
        .ok ((positions shp).foldl (fun s p => (new p s).1) s0, m') ∧
      (∀ a, (∀ p, InBox shp p → addr p ≠ a) → m' a = m0 a) ∧
      (∀ a, (m' a).isSome = (m0 a).isSome) ∧
      ∀ k p, (positions shp)[k]? = some p →
        m' (addr p) = match (new p (((positions shp).take k).foldl (fun s p => (new p s).1) s0)).2 with
          | some v => some v
          | none => m0 (addr p) := by
  have hmem : ∀ {p}, p ∈ positions shp → InBox shp p := fun h => mem_positions.1 h
  obtain ⟨m', h1, h2, h3, h4⟩ := foldlM_write (positions shp) addr new step m0 s0
    ((positions_nodup shp).imp_of_mem fun hp hq hne e => hne (hinj _ _ (hmem hp) (hmem hq) e))
    (fun p hp => hdom p (hmem hp)) (by
      intro l1 p l2 e s m ha hd
      have hp : p ∈ positions shp := by rw [e]; simp
      refine hstep p (hmem hp) s m ?_ hd
      intro a hq
      refine ha a fun q hql => hq q (hmem (by rw [e]; simp [hql])) ?_
      have hsort := positions_sorted shp
      rw [e, List.pairwise_append] at hsort
      exact hsort.2.2 q hql p (by simp))
  refine ⟨m', h1, fun a ha => h2 a fun p hp => ha p (hmem hp), h3, ?_⟩
  intro k p hk
  exact h4 _ p _ (split_take hk)

/-- A loop that succeeds, keeps the set of cells, and only changes cells in `W`. -/
theorem foldlM_safe (l : List P) (W : Ptr → Prop) (step : σ × Mem α → P → Res (σ × Mem α))
    (m0 : Mem α) (s0 : σ)
    (hstep : ∀ p ∈ l, ∀ s m, (∀ a, ¬ W a → m a = m0 a) → (∀ a, (m a).isSome = (m0 a).isSome) →
      ∃ s' m', step (s, m) p = .ok (s', m') ∧ (∀ a, ¬ W a → m' a = m0 a) ∧
        (∀ a, (m' a).isSome = (m0 a).isSome)) :
    ∃ s' m', l.foldlM step (s0, m0) = .ok (s', m') ∧ (∀ a, ¬ W a → m' a = m0 a) ∧
      (∀ a, (m' a).isSome = (m0 a).isSome) := by
  have gen : ∀ (l : List P), (∀ p ∈ l, ∀ s m, (∀ a, ¬ W a → m a = m0 a) →
      (∀ a, (m a).isSome = (m0 a).isSome) →
      ∃ s' m', step (s, m) p = .ok (s', m') ∧ (∀ a, ¬ W a → m' a = m0 a) ∧
        (∀ a, (m' a).isSome = (m0 a).isSome)) → ∀ s m, (∀ a, ¬ W a → m a = m0 a) →
      (∀ a, (m a).isSome = (m0 a).isSome) →
      ∃ s' m', l.foldlM step (s, m) = .ok (s', m') ∧ (∀ a, ¬ W a → m' a = m0 a) ∧
        (∀ a, (m' a).isSome = (m0 a).isSome) := by
    intro l
    induction l with
    | nil => intro _ s m h1 h2; exact ⟨s, m, rfl, h1, h2⟩
    | cons p l ih =>
      intro h s m h1 h2
      obtain ⟨s1, m1, e, g1, g2⟩ := h p (by simp) s m h1 h2
      rw [List.foldlM_cons, e]
      exact ih (fun q hq => h q (by simp [hq])) s1 m1 g1 g2
  exact gen l hstep s0 m0 (fun _ _ => rfl) (fun _ => rfl)

theorem isSome_of_get {c : Container} {m : Mem α} {p : List Int} {v : α} (h : c.get m p = .ok v) :
    (m (c.addr p)).isSome := by rw [get_ok_iff.1 h]; rfl

theorem getElem?_rank {s p : List Int} (h : InBox s p) :
    (positions s)[(linearize (sfx s) p).toNat]? = some p := positions_getElem? h

end Kwk
