import Verif.Model.Throws
import Verif.Spec.Throws
import Verif.Lemmas.Effects

/-! # Lemmas: loops that stop at an exception -/

namespace Kwk
open Spec

variable {α β ε σ P : Type}

/-- Writes recorded values. -/
def wrAll (addr : P → Ptr) (m : Mem α) (l : List (P × α)) : Mem α := l.foldl (fun m w => wr m (addr w.1) (some w.2)) m

theorem wrAll_other (addr : P → Ptr) (m : Mem α) (l : List (P × α)) {a : Ptr} (h : ∀ w ∈ l, addr w.1 ≠ a) : wrAll addr m l a = m a := by
  induction l generalizing m with
  | nil => rfl
  | cons w l ih =>
    show wrAll addr (wr m (addr w.1) (some w.2)) l a = m a
    rw [ih _ fun v hv => h v (by simp [hv]), wr_other _ _ (h w (by simp))]

theorem wrAll_mem (addr : P → Ptr) (m : Mem α) (l : List (P × α)) (hp : l.Pairwise fun v w => addr v.1 ≠ addr w.1) {w : P × α} (hw : w ∈ l) :
    wrAll addr m l (addr w.1) = some w.2 := by
  induction l generalizing m with
  | nil => cases hw
  | cons v l ih =>
    show wrAll addr (wr m (addr v.1) (some v.2)) l (addr w.1) = some w.2
    rw [List.pairwise_cons] at hp
    rcases List.mem_cons.1 hw with rfl | hw
    · rw [wrAll_other _ _ _ fun u hu => (hp.1 u hu).symm, wr_self]
    · exact ih _ hp.2 hw

theorem untilThrow_mem {g : σ → P → Option α × Except ε σ} {s : σ} {l : List P} {w : P × α} (h : w ∈ (untilThrow g s l).1) : w.1 ∈ l := by
  induction l generalizing s with
  | nil => cases h
  | cons p l ih =>
    simp only [untilThrow] at h
    split at h
    · simp only [List.mem_map] at h
      obtain ⟨v, -, rfl⟩ := h; simp
    · simp only [List.mem_append, List.mem_map] at h
      rcases h with ⟨v, -, rfl⟩ | h
      · simp
      · exact List.mem_cons_of_mem _ (ih h)

theorem untilThrow_pairwise (R : P → P → Prop) {g : σ → P → Option α × Except ε σ} {s : σ} {l : List P} (h : l.Pairwise R) :
    (untilThrow g s l).1.Pairwise fun v w => R v.1 w.1 := by
  induction l generalizing s with
  | nil => exact .nil
  | cons p l ih =>
    rw [List.pairwise_cons] at h
    have h1 : ∀ o : Option α, (o.toList.map fun v => (p, v)).Pairwise fun v w => R v.1 w.1 := by
      intro o; cases o <;> simp
    simp only [untilThrow]
    split
    · exact h1 _
    · rw [List.pairwise_append]
      refine ⟨h1 _, ih h.2, ?_⟩
      intro v hv w hw
      simp only [List.mem_map] at hv
      obtain ⟨x, -, rfl⟩ := hv
      exact h.1 _ (untilThrow_mem hw)

/-- The loop of an algorithm whose step at `p` reads only cells that are not written before. -/
theorem loop_until (addr : P → Ptr) (g : σ → P → Option α × Except ε σ) (step : P → σ × Mem α → Res (Except ε Unit × (σ × Mem α)))
    (L : List P) (m0 : Mem α) (R : P → P → Prop) (hR : L.Pairwise R)
    (hstep : ∀ p ∈ L, ∀ s m1, (∀ a, (∀ q ∈ L, R q p → addr q ≠ a) → m1 a = m0 a) → (∀ a, (m1 a).isSome = (m0 a).isSome) →
      ∃ s', step p (s, m1) = .ok ((g s p).2.map fun _ => (), (s', wr m1 (addr p) (g s p).1)) ∧ ∀ x, (g s p).2 = .ok x → s' = x)
    (hdom : ∀ p ∈ L, (m0 (addr p)).isSome) (s : σ) :
    ∃ s', runAll (m := Code ε σ α) step L (s, m0) =
      .ok ((untilThrow g s L).2.map fun _ => (), (s', wrAll addr m0 (untilThrow g s L).1)) := by
  suffices H : ∀ (l done : List P) (s : σ) (m : Mem α), L = done ++ l → (∀ a, (∀ q ∈ done, addr q ≠ a) → m a = m0 a) →
      (∀ a, (m a).isSome = (m0 a).isSome) → ∃ s', runAll (m := Code ε σ α) step l (s, m) =
        .ok ((untilThrow g s l).2.map fun _ => (), (s', wrAll addr m (untilThrow g s l).1)) from
    H L [] s m0 rfl (fun _ _ => rfl) fun _ => rfl
  intro l
  induction l with
  | nil => intro done s m _ _ _; exact ⟨s, rfl⟩
  | cons p l ih =>
    intro done s m hL hm hd
    have hpL : p ∈ L := by rw [hL]; simp
    have hne : ∀ q ∈ done, R q p := by
      rw [hL, List.pairwise_append] at hR
      intro q hq
      exact hR.2.2 q hq p (by simp)
    obtain ⟨s1, h1, h2⟩ := hstep p hpL s m (fun a ha => by
      by_cases e : ∀ q ∈ done, addr q ≠ a
      · exact hm a e
      · exfalso
        apply e
        intro q hq
        exact ha q (by rw [hL]; simp [hq]) (hne _ hq)) hd
    have hrun : runAll (m := Code ε σ α) step (p :: l) (s, m) = (do
        let r ← step p (s, m)
        match r with
        | (.error e, sm) => pure (.error e, sm)
        | (.ok (), sm) => runAll (m := Code ε σ α) step l sm) := by
      simp only [runAll]
      show (do
        let r ← step p (s, m)
        _) = _
      congr 1
      funext r
      obtain ⟨_ | _, sm⟩ := r <;> rfl
    rw [hrun, h1]
    simp only [bind, Except.bind]
    simp only [untilThrow]
    cases hg : (g s p).2 with
    | error e =>
      refine ⟨s1, ?_⟩
      simp only [Except.map, pure, Except.pure]
      cases (g s p).1 <;> rfl
    | ok s2 =>
      have := h2 s2 hg
      subst this
      simp only [Except.map]
      have hsome : (m (addr p)).isSome := by rw [hd]; exact hdom p hpL
      obtain ⟨s', h'⟩ := ih (done ++ [p]) s1 (wr m (addr p) (g s p).1) (by rw [hL]; simp) (fun a ha => by
        rw [wr_other _ _ (ha p (by simp))]; exact hm a fun q hq => ha q (by simp [hq])) (fun a => by rw [wr_isSome _ _ hsome, hd])
      refine ⟨s', ?_⟩
      rw [h']
      congr 3
      unfold wrAll
      rw [List.foldl_append]
      congr 1
      cases (g s p).1 <;> rfl

theorem untilThrow_append {g : σ → P → Option α × Except ε σ} {s s1 : σ} {pre : List P} {ws : List (P × α)}
    (h : untilThrow g s pre = (ws, .ok s1)) (l : List P) :
    untilThrow g s (pre ++ l) = (ws ++ (untilThrow g s1 l).1, (untilThrow g s1 l).2) := by
  induction pre generalizing s ws with
  | nil => cases h; rfl
  | cons p pre ih =>
    simp only [List.cons_append, untilThrow] at h ⊢
    cases hg : (g s p).2 with
    | error e => simp only [hg, Prod.mk.injEq, reduceCtorEq, and_false] at h
    | ok s2 =>
      simp only [hg, Prod.mk.injEq] at h
      obtain ⟨rfl, h2⟩ := h
      have := ih (s := s2) (ws := (untilThrow g s2 pre).1) (by rw [← h2])
      simp only [this, List.append_assoc]

/-- A loop that stops at `p`: what the memory holds. -/
theorem loop_stopped {g : σ → P → Option α × Except ε σ} {s s1 : σ} {pre post : List P} {p : P} {ws : List (P × α)} {e : ε}
    {o : Option α} (h : untilThrow g s pre = (ws, .ok s1)) (hp : g s1 p = (o, .error e)) :
    untilThrow g s (pre ++ p :: post) = (ws ++ o.toList.map (fun v => (p, v)), .error e) := by
  rw [untilThrow_append h, untilThrow, hp]

/-- Before the exception, without state. -/
theorem untilThrow_pure {g : Unit → P → Option α × Except ε Unit} {pre : List P} (w : P → Option α)
    (h : ∀ q ∈ pre, g () q = (w q, .ok ())) :
    untilThrow g () pre = (pre.flatMap (fun q => (w q).toList.map fun v => (q, v)), .ok ()) := by
  induction pre with
  | nil => rfl
  | cons q pre ih =>
    rw [untilThrow, h q (by simp)]
    dsimp only
    rw [ih fun r hr => h r (by simp [hr])]
    rfl

/-- The whole run of an algorithm that stops at position `p`. -/
theorem run_stopped {c : Container} {m : Mem α} (hd : Distinct c) (hv : Valid c m) {shp : Shape} (hshp : shp = c.shape)
    (g : σ → List Int → Option α × Except ε σ) (step : List Int → σ × Mem α → Res (Except ε Unit × (σ × Mem α)))
    (hstep : ∀ p, InBox c.shape p → ∀ s m1, (∀ a, (∀ q, InBox c.shape q → q < p → c.addr q ≠ a) → m1 a = m a) →
      (∀ a, (m1 a).isSome = (m a).isSome) →
      ∃ s', step p (s, m1) = .ok ((g s p).2.map fun _ => (), (s', wr m1 (c.addr p) (g s p).1)) ∧ ∀ x, (g s p).2 = .ok x → s' = x)
    {s s1 : σ} {pre post : List (List Int)} {p : List Int} {ws : List (List Int × α)} {e : ε} {o : Option α}
    (hsplit : positions shp = pre ++ p :: post) (h : untilThrow g s pre = (ws, .ok s1)) (hp : g s1 p = (o, .error e)) :
    ∃ m', outcome (forEach (m := Code ε σ α) step shp (s, m)) = .ok (.error e, m') ∧
      (∀ w ∈ ws ++ o.toList.map (fun v => (p, v)), m' (c.addr w.1) = some w.2) ∧
      ∀ a, (∀ w ∈ ws ++ o.toList.map (fun v => (p, v)), c.addr w.1 ≠ a) → m' a = m a := by
  subst hshp
  have hpw := positions_addr_pairwise hd
  obtain ⟨s', hr⟩ := loop_until c.addr g step (positions c.shape) m (· < ·) (positions_sorted c.shape)
    (fun p hp s m1 h1 h2 => hstep p (mem_positions.1 hp) s m1
      (fun a ha => h1 a fun q hq hne => ha q (mem_positions.1 hq) hne) h2)
    (fun p hp => by
      obtain ⟨v, hv⟩ := hv p (mem_positions.1 hp)
      rw [get_ok_iff.1 hv]; rfl) s
  have htr := loop_stopped (post := post) h hp
  rw [← hsplit] at htr
  refine ⟨wrAll c.addr m (untilThrow g s (positions c.shape)).1, ?_, ?_, ?_⟩
  · rw [forEach_eq, hr, htr]; rfl
  · intro w hw
    exact wrAll_mem _ _ _ (untilThrow_pairwise _ hpw) (by rw [htr]; exact hw)
  · intro a ha
    exact wrAll_other _ _ _ (by rw [htr]; exact ha)

/-- Callbacks that throw nothing. -/
theorem forEach_lift (f : List Int → σ × Mem α → Res (σ × Mem α)) (f' : List Int → σ × Mem α → Res (Except ε Unit × (σ × Mem α)))
    (h : ∀ is sm, f' is sm = (f is sm).map fun sm => (.ok (), sm)) (shp : Shape) (s : σ) (m : Mem α) :
    outcome (forEach (m := Code ε σ α) f' shp (s, m)) = (loopState f shp (s, m)).map fun sm => (.ok (), sm.2) := by
  rw [loopState, forEach_eq, forEach_eq]
  generalize positions shp = l
  generalize (s, m) = sm
  induction l generalizing sm with
  | nil => rfl
  | cons p l ih =>
    have hrun : runAll (m := Code ε σ α) f' (p :: l) sm = (do
        let r ← f' p sm
        match r with
        | (.error e, sm) => pure (.error e, sm)
        | (.ok (), sm) => runAll (m := Code ε σ α) f' l sm) := by
      simp only [runAll]
      show (do
        let r ← f' p sm
        _) = _
      congr 1
      funext r
      obtain ⟨_ | _, sm⟩ := r <;> rfl
    rw [hrun, h]
    simp only [runAll]
    cases hf : f p sm with
    | error e => simp [bind, StateT.bind, Except.bind, hf, Except.map, outcome]
    | ok sm1 =>
      have := ih sm1
      simp only [bind, StateT.bind, Except.bind, hf, Except.map, pure, Except.pure, outcome] at this ⊢
      exact this

end Kwk
