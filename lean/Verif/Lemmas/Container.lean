import Verif.Lemmas.Loops
import Verif.Lemmas.Compress
import Verif.Spec.Layout
import Verif.Model.Algos

/-! # Helper lemmas about containers and element access -/

namespace Kwk
open Spec

variable {α β σ : Type}

theorem index_eq {c : Container} (h : c.WF) {p : List Int} (hl : p.length = c.shape.length) :
    c.index p = linearize c.strides p := by
  have hlen := h.len
  have hd := h.dflt
  unfold Container.index
  split
  · rfl
  · split
    · next e1 e2 => rw [hd e1, e2]; simp [asStride, linearize]
    · next e1 e2 =>
        rw [e2] at hlen
        match hst : c.strides, hlen with
        | [g], _ => simp [linearize, mul_comm]
    · next e1 e2 =>
        rw [hd e1, e2]
        simp [asStride, linearize, kumiFoldLeft]; ring
    · rfl

theorem stride_eq {c : Container} (h : c.WF) : c.stride = c.strides := by
  have hd := h.dflt
  unfold Container.stride
  split
  · rfl
  · split
    · next e1 e2 => rw [hd e1, e2]; rfl
    · next e1 e2 => rw [hd e1, e2]; simp [asStride, kumiFoldLeft]
    · rfl

theorem addr_eq {c : Container} (h : c.WF) {p : List Int} (hp : InBox c.shape p) :
    c.addr p = c.base.add (linearize c.strides p) := by
  rw [Container.addr, index_eq h hp.length.symm]

theorem addr_default {c : Container} (h : c.Default) {p : List Int} (hp : InBox c.shape p) :
    c.addr p = c.base.add (linearize (sfx c.shape) p) := by
  rw [addr_eq h.toWF hp, h.dflt h.nospec, asStride_eq_sfx]

theorem ofShape_default {b : Ptr} {s : Shape} (h : s ≠ []) : (Container.ofShape b s).Default where
  ne := h
  len := by simp [Container.ofShape, asStride_eq_sfx, sfx_length]
  dflt := fun _ => rfl
  nospec := rfl

theorem ofStrides_WF {b : Ptr} {s : Shape} {st : Strides} (h : s ≠ []) (hl : st.length = s.length) :
    (Container.ofStrides b s st).WF where
  ne := h
  len := hl
  dflt := by simp [Container.ofStrides]

theorem default_distinct {c : Container} (h : c.Default) : Distinct c := by
  intro p q hp hq e
  rw [addr_default h hp, addr_default h hq] at e
  simp only [Ptr.add, Ptr.mk.injEq, true_and] at e
  exact lin_inj hp hq (by omega)

theorem get_ok_iff {c : Container} {m : Mem α} {p : List Int} {v : α} :
    c.get m p = .ok v ↔ m (c.addr p) = some v := by
  unfold Container.get load
  cases m (c.addr p) <;> simp

theorem load_ok {m : Mem α} {a : Ptr} {v : α} (h : m a = some v) : load m a = .ok v := by
  simp [load, h]

theorem elems_mem {c : Container} {m : Mem α} {val : List Int → α} (h : Elems c m val)
    {p : List Int} (hp : p ∈ positions c.shape) : load m (c.addr p) = .ok (val p) :=
  h p (mem_positions.1 hp)

/-- A loop that only reads. -/
theorem foldlM_read (l : List (List Int)) (g : List Int → σ → σ)
    (step : σ × Mem α → List Int → Res (σ × Mem α)) (m : Mem α) (s : σ)
    (h : ∀ p ∈ l, ∀ s, step (s, m) p = .ok (g p s, m)) :
    l.foldlM step (s, m) = .ok (l.foldl (fun s p => g p s) s, m) := by
  induction l generalizing s with
  | nil => rfl
  | cons p l ih =>
    rw [List.foldlM_cons, h p (by simp)]
    exact ih _ fun q hq => h q (by simp [hq])

theorem reduceRun_eq {m : Mem α} {c : Container} {val : List Int → α} (f : β → α → β) (init : β)
    (h : Elems c m val) :
    reduceRun m c f init = .ok (((positions c.shape).map val).foldl f init, m) := by
  unfold reduceRun mapCtx
  rw [loopState_eq, foldlM_read _ (fun p a => f a (val p))]
  · rw [List.foldl_map]
  · intro p hp s
    simp only [elems_mem h hp]; rfl

theorem reduce_eq {m : Mem α} {c : Container} {val : List Int → α} (f : β → α → β) (init : β)
    (h : Elems c m val) :
    reduce m c f init = .ok (((positions c.shape).map val).foldl f init) := by
  unfold reduce; rw [reduceRun_eq f init h]; rfl

theorem foldl_and (l : List α) (f : α → Bool) (b : Bool) :
    l.foldl (fun a e => a && f e) b = (b && l.all f) := by
  induction l generalizing b with
  | nil => simp
  | cons x xs ih => simp [ih, Bool.and_assoc]

theorem foldl_or (l : List α) (f : α → Bool) (b : Bool) :
    l.foldl (fun a e => a || f e) b = (b || l.any f) := by
  induction l generalizing b with
  | nil => simp
  | cons x xs ih => simp [ih, Bool.or_assoc]

theorem foldl_count (l : List α) (f : α → Bool) (n : Nat) :
    l.foldl (fun a e => a + (if f e then 1 else 0)) n = n + l.countP f := by
  induction l generalizing n with
  | nil => simp
  | cons x xs ih =>
    simp only [List.foldl_cons, ih, List.countP_cons]; omega

theorem anyOf_eq {m : Mem α} {c : Container} {val : List Int → α} (f : α → Bool) (h : Elems c m val) :
    anyOf m c f = .ok ((positions c.shape).any fun p => f (val p)) := by
  rw [anyOf, reduce_eq _ _ h, foldl_or]; simp [List.any_map, Function.comp_def]

/-! ## find -/

theorem findIfM_runUntil {m : Type → Type} [Monad m] [LawfulMonad m] (rd : List Int → m α)
    (f : α → m Bool) (l : List (List Int)) (pos : List Int) :
    runUntil (m := StateT (List Int) m) (fun is => do
      let v ← rd is
      if (← f v) then
        set is
        pure true
      else pure false) l pos = (do
        match ← firstHit rd f l with
        | some p => pure (true, p)
        | none => pure (false, pos)) := by
  induction l with
  | nil => simp [runUntil, firstHit, pure, StateT.pure]
  | cons p l ih =>
    simp only [runUntil, firstHit, bind_assoc]
    simp only [bind, StateT.bind] at ih ⊢
    simp only [liftM, monadLift, MonadLift.monadLift, StateT.lift, bind_assoc, pure_bind]
    congr 1
    funext v
    congr 1
    funext b
    cases b
    · simp only [Bool.false_eq_true, if_false]
      rw [show (pure false : StateT (List Int) m Bool) pos = pure (false, pos) from rfl]
      simp only [pure_bind, Bool.false_eq_true, if_false]
      exact ih
    · simp [set, StateT.set, pure, StateT.pure, StateT.bind]

theorem findIfM_eq {m : Type → Type} [Monad m] [LawfulMonad m] (rd : List Int → m α)
    (f : α → m Bool) (shp : List Int) : findIfM rd f shp = firstHit rd f (positions shp) := by
  unfold findIfM
  rw [forUntil_eq, findIfM_runUntil]
  conv_rhs => rw [← bind_pure (firstHit rd f (positions shp))]
  rw [bind_assoc]
  congr 1
  funext r
  cases r <;> simp

theorem firstHit_pure (l : List (List Int)) (rd : List Int → Res α) (g : α → Res Bool)
    (val : List Int → α) (f : α → Bool) (h : ∀ p ∈ l, rd p = .ok (val p))
    (hg : ∀ p ∈ l, g (val p) = .ok (f (val p))) :
    firstHit rd g l = .ok (l.find? fun p => f (val p)) := by
  induction l with
  | nil => rfl
  | cons p l ih =>
    simp only [firstHit, h p (by simp), List.find?_cons]
    have ih := ih (fun q hq => h q (by simp [hq])) (fun q hq => hg q (by simp [hq]))
    simp only [bind, Except.bind, hg p (by simp)]
    cases hfp : f (val p)
    · simpa using ih
    · rfl

/-- `find?` on `positions` is the first position in lexicographic order. -/
theorem find?_positions (s : List Int) (P : List Int → Bool) :
    ((positions s).find? P = none ↔ ∀ p, InBox s p → P p = false) ∧
    ∀ p, (positions s).find? P = some p ↔
      (InBox s p ∧ P p = true ∧ ∀ q, InBox s q → q < p → P q = false) := by
  have key : ∀ l : List (List Int), l.Pairwise (· < ·) →
      ∀ p, l.find? P = some p ↔ (p ∈ l ∧ P p = true ∧ ∀ q ∈ l, q < p → P q = false) := by
    intro l hl p
    induction l with
    | nil => simp
    | cons x xs ih =>
      rw [List.pairwise_cons] at hl
      have ih := ih hl.2
      rw [List.find?_cons]
      cases hx : P x
      · simp only [ih, List.mem_cons]
        constructor
        · rintro ⟨h1, h2, h3⟩
          refine ⟨Or.inr h1, h2, ?_⟩
          rintro q (rfl | hq) hlt
          · exact hx
          · exact h3 q hq hlt
        · rintro ⟨rfl | h1, h2, h3⟩
          · rw [hx] at h2; cases h2
          · exact ⟨h1, h2, fun q hq => h3 q (Or.inr hq)⟩
      · simp only [Option.some.injEq, List.mem_cons]
        constructor
        · rintro rfl
          refine ⟨Or.inl rfl, hx, ?_⟩
          rintro q (rfl | hq) hlt
          · exact absurd hlt (List.lt_irrefl _)
          · exact absurd (List.lt_trans hlt (hl.1 q hq)) (List.lt_irrefl _)
        · rintro ⟨rfl | h1, h2, h3⟩
          · rfl
          · have := h3 x (Or.inl rfl) (hl.1 p h1)
            rw [hx] at this; cases this
  constructor
  · rw [List.find?_eq_none]
    simp only [mem_positions, Bool.not_eq_true]
  · intro p
    rw [key _ (positions_sorted s)]
    simp only [mem_positions]

theorem findIf_eq {m : Mem α} {c : Container} {val : List Int → α} (f : α → Bool) (h : Elems c m val) :
    findIf m c f = .ok ((positions c.shape).find? fun p => f (val p)) := by
  rw [findIf, findIfM_eq]
  exact firstHit_pure _ _ _ val f (fun p hp => h p (mem_positions.1 hp)) (fun _ _ => rfl)

end Kwk
