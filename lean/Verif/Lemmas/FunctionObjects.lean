import Verif.Spec.FunctionObjects
import Verif.Lemmas.Effects
import Verif.Lemmas.Container
import Verif.Props.Sequences

/-!
# Lemmas: function objects with state of their own
-/

namespace Kwk
open Spec

variable {α β σ : Type}

/-- A function object that always answers. -/
def answers {γ : Type} (call : σ → α → γ × σ) : α → StateT σ Res γ := fun x s => .ok (call s x)

theorem elemOf_ok {m : Mem α} {c : Container} {p : List Int} {x : α} (h : c.get m p = .ok x) (s : σ) :
    elemOf m c p s = .ok (x, s) := by
  unfold elemOf
  rw [h]
  rfl

theorem fold_obj {m : Mem α} {c : Container} {step : β → α → StateT σ Res β} (F : β → α → σ → β × σ)
    (hs : ∀ a x s, step a x s = .ok (F a x s)) {l : List (List Int)} {xs : List α} (h : l.map (fun p => c.get m p) = xs.map .ok) (a : β)
    (s : σ) :
    (l.foldlM (fun a p => do let v ← elemOf m c p; step a v) a : StateT σ Res β) s = .ok (xs.foldl (fun r x => F r.1 x r.2) (a, s)) := by
  induction l generalizing xs a s with
  | nil =>
    obtain rfl : xs = [] := by simpa using h.symm
    rfl
  | cons p l ih =>
    cases xs with
    | nil => simp at h
    | cons x xs =>
      obtain ⟨h1, h2⟩ := List.cons.inj h
      rw [List.foldlM_cons]
      show ((elemOf m c p s >>= fun r => step a r.1 r.2) >>= fun r => (List.foldlM _ r.1 l : StateT σ Res β) r.2) = _
      rw [elemOf_ok h1]
      show (step a x s >>= _) = _
      rw [hs]
      show (List.foldlM _ (F a x s).1 l : StateT σ Res β) _ = _
      rw [ih h2]
      rfl

theorem hit_obj {m : Mem α} {c : Container} {step : α → StateT σ Res Bool} (call : σ → α → Bool × σ)
    (hs : ∀ x s, step x s = .ok (call s x)) {l : List (List Int)} {xs : List α} (h : l.map (fun p => c.get m p) = xs.map .ok) (s : σ) :
    firstHit (elemOf m c) step l s = .ok (l[(firstYes call s xs).1]?, (firstYes call s xs).2) := by
  induction l generalizing xs s with
  | nil =>
    obtain rfl : xs = [] := by simpa using h.symm
    rfl
  | cons p l ih =>
    cases xs with
    | nil => simp at h
    | cons x xs =>
      obtain ⟨h1, h2⟩ := List.cons.inj h
      unfold firstHit
      show (elemOf m c p s >>= fun r => (step r.1 >>= fun b => if b = true then pure (some p) else firstHit (elemOf m c) step l) r.2) = _
      rw [elemOf_ok h1]
      show (step x s >>= fun r => (if r.1 = true then pure (some p) else firstHit (elemOf m c) step l : StateT σ Res _) r.2) = _
      rw [hs]
      show (if (call s x).1 = true then pure (some p) else firstHit (elemOf m c) step l : StateT σ Res _) (call s x).2 = _
      unfold firstYes
      cases hb : (call s x).1 with
      | true => rfl
      | false =>
        rw [if_neg (by simp), ih h2]
        rfl

theorem firstYes_le (call : σ → α → Bool × σ) (xs : List α) (s : σ) : (firstYes call s xs).1 ≤ xs.length := by
  induction xs generalizing s with
  | nil => exact Nat.le_refl _
  | cons x xs ih =>
    unfold firstYes
    split
    · exact Nat.zero_le _
    · exact Nat.succ_le_succ (ih _)

/-- An object whose calls do not change it. -/
theorem firstYes_const {call : σ → α → Bool × σ} (hc : ∀ s x, (call s x).2 = s) (xs : List α) (s : σ) :
    firstYes call s xs = (xs.findIdx fun x => (call s x).1, s) := by
  induction xs with
  | nil => rfl
  | cons x xs ih =>
    unfold firstYes
    rw [hc, ih, List.findIdx_cons]
    cases (call s x).1 <;> rfl

/-- Whatever its state, the second gives the answer of the first. -/
def SameAnswer (x : StateT Unit Res β) (y : StateT σ Res β) : Prop := ∀ r, x () = .ok (r, ()) → ∀ s, ∃ s', y s = .ok (r, s')

theorem alike_lift (x : Res β) : SameAnswer (x : StateT Unit Res β) (x : StateT σ Res β) := by
  intro r h s
  refine ⟨s, ?_⟩
  cases x with
  | error e => cases h
  | ok a =>
    cases h
    rfl

theorem alike_bind {γ : Type} {x : StateT Unit Res β} {y : StateT σ Res β} (h : SameAnswer x y) {f : β → StateT Unit Res γ}
    {g : β → StateT σ Res γ} (hf : ∀ a, SameAnswer (f a) (g a)) : SameAnswer (x >>= f) (y >>= g) := by
  intro r hr s
  change (x () >>= fun q => f q.1 q.2) = _ at hr
  cases hx : x () with
  | error e => rw [hx] at hr; cases hr
  | ok q =>
    rw [hx] at hr
    obtain ⟨s1, h1⟩ := h q.1 hx s
    obtain ⟨s2, h2⟩ := hf q.1 r hr s1
    refine ⟨s2, ?_⟩
    show (y s >>= fun q => g q.1 q.2) = _
    rw [h1]
    exact h2

theorem alike_pure (a : β) : SameAnswer (pure a) (pure a : StateT σ Res β) := fun r h s => ⟨s, by cases h; rfl⟩

theorem alike_call (call : σ → Bool × σ) (b : Bool) (h : ∀ s, (call s).1 = b) : SameAnswer (pure b) (fun s => .ok (call s)) := by
  intro r hr s
  cases hr
  exact ⟨(call s).2, congrArg Except.ok (Prod.ext (h s) rfl)⟩

theorem alike_loop (md : Mode) (m : Mem α) (c : Container) {f : α → StateT Unit Res Bool} {g : α → StateT σ Res Bool}
    (h : ∀ x, SameAnswer (f x) (g x)) (n : Nat) (v : SearchVars) : SameAnswer (searchLoop md m c f n v) (searchLoop md m c g n v) := by
  induction n generalizing v with
  | zero => intro r hr; cases hr
  | succ n ih =>
    unfold searchLoop
    split
    · refine alike_bind (alike_lift _) fun p => alike_bind (alike_lift _) fun x => alike_bind (h x) fun b => ?_
      split
      · exact ih _
      · exact ih _
    · exact alike_pure _

theorem alike_lower (md : Mode) (m : Mem α) (c : Container) (v : β) (call : σ → α → β → Bool × σ) (lt : α → β → Bool)
    (h : ∀ s x y, (call s x y).1 = lt x y) :
    SameAnswer (lowerBound md m c v fun x y => pure (lt x y)) (lowerBound md m c v fun x y s => .ok (call s x y)) := by
  unfold lowerBound
  split
  · exact alike_pure _
  · refine alike_bind (alike_loop md m c (fun x => alike_call _ _ fun s => h s x v) _ _) fun w => ?_
    split
    · exact alike_bind (alike_lift _) fun p => alike_pure _
    · exact alike_pure _

theorem alike_upper (md : Mode) (m : Mem α) (c : Container) (v : β) (call : σ → β → α → Bool × σ) (lt : β → α → Bool)
    (h : ∀ s x y, (call s x y).1 = lt x y) :
    SameAnswer (upperBound md m c v fun x y => pure (lt x y)) (upperBound md m c v fun x y s => .ok (call s x y)) := by
  unfold upperBound
  refine alike_bind (alike_loop md m c (fun x => alike_bind (alike_call (fun s => call s v x) _ fun s => h s v x) fun b => alike_pure _) _ _)
    fun w => ?_
  split
  · exact alike_bind (alike_lift _) fun p => alike_pure _
  · exact alike_pure _

/-- A loop that never changes its state is one without. -/
theorem fold_still {ι : Type} {F : ι → σ × Mem α → Res (σ × Mem α)} {G : ι → Unit × Mem α → Res (Unit × Mem α)} (s : σ)
    (h : ∀ p m, F p (s, m) = G p ((), m) >>= fun r => pure (s, r.2)) (l : List ι) (m : Mem α) :
    l.foldlM (fun x p => F p x) (s, m) = l.foldlM (fun x p => G p x) ((), m) >>= fun r => pure (s, r.2) := by
  induction l generalizing m with
  | nil => rfl
  | cons p l ih =>
    rw [List.foldlM_cons, List.foldlM_cons]
    show F p (s, m) >>= _ = (G p ((), m) >>= _) >>= _
    rw [h]
    cases hg : G p ((), m) with
    | error e => rfl
    | ok r => exact ih r.2

theorem map_still {F : Ptr → List Ptr → σ × Mem α → Res (σ × Mem α)} {G : Ptr → List Ptr → Unit × Mem α → Res (Unit × Mem α)} (s : σ)
    (h : ∀ o is m, F o is (s, m) = G o is ((), m) >>= fun r => pure (s, r.2)) (c : Container) (cs : List Container) (m : Mem α) :
    mapCtx F c cs s m = mapCtx G c cs () m >>= fun r => pure (s, r.2) := by
  unfold mapCtx
  rw [loopState_eq, loopState_eq]
  exact fold_still (F := fun p x => F (c.addr p) (cs.map fun c => c.addr p) x)
    (G := fun p x => G (c.addr p) (cs.map fun c => c.addr p) x) s (fun p m => h _ _ m) _ m

end Kwk
