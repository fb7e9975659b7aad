import Verif.Model.FunctionPairs
import Verif.Spec.FunctionPairs
import Verif.Props.Sequences
import Verif.Props.Effects
import Verif.Lemmas.Failures

/-!
# Lemmas: function objects of the numeric algorithms
-/

namespace Kwk
open Spec

variable {α β γ σ τ : Type}

/-- One step of a sum by two objects. -/
def addBy (f : σ → β → γ → β × σ) (g : τ → α → γ × τ) (r : β × σ × τ) (x : α) : β × σ × τ :=
  ((f r.2.1 r.1 (g r.2.2 x).1).1, (f r.2.1 r.1 (g r.2.2 x).1).2, (g r.2.2 x).2)

theorem runningSums_length (f : σ → β → γ → β × σ) (g : τ → α → γ × τ) (b : β) (s : σ) (t : τ) (xs : List α) :
    (runningSums f g b s t xs).length = xs.length + 1 := by
  induction xs generalizing b s t with
  | nil => rfl
  | cons x xs ih =>
    unfold runningSums
    rw [List.length_cons, ih, List.length_cons]

theorem runningSums_ne (f : σ → β → γ → β × σ) (g : τ → α → γ × τ) (b : β) (s : σ) (t : τ) (xs : List α) :
    runningSums f g b s t xs ≠ [] := by
  intro h
  have := runningSums_length f g b s t xs
  rw [h] at this
  simp at this

theorem runningSums_head (f : σ → β → γ → β × σ) (g : τ → α → γ × τ) (b : β) (s : σ) (t : τ) (xs : List α) :
    runningSums f g b s t xs = b :: (runningSums f g b s t xs).tail := by
  cases xs <;> rfl

theorem runningSums_last (f : σ → β → γ → β × σ) (g : τ → α → γ × τ) (b : β) (s : σ) (t : τ) (xs : List α) :
    (runningSums f g b s t xs).getLast? = some (xs.foldl (addBy f g) (b, s, t)).1 := by
  induction xs generalizing b s t with
  | nil => rfl
  | cons x xs ih =>
    unfold runningSums
    have h := ih (f s b (g t x).1).1 (f s b (g t x).1).2 (g t x).2
    rw [List.foldl_cons]
    show (b :: runningSums f g (f s b (g t x).1).1 (f s b (g t x).1).2 (g t x).2 xs).getLast? = _
    rw [List.getLast?_cons, h]
    rfl

theorem drawAll_inclusive {P : Type} (f : σ → β → γ → β × σ) (g : τ → α → γ × τ) (val : P → α) (r : β × σ × τ) (l : List P) :
    drawAll (fun r p => (.ok ((addBy f g r (val p)).1, addBy f g r (val p)) : Res (β × β × σ × τ))) r l =
      .ok ((runningSums f g r.1 r.2.1 r.2.2 (l.map val)).tail, (l.map val).foldl (addBy f g) r) := by
  induction l generalizing r with
  | nil => rfl
  | cons p l ih =>
    show (drawAll (fun r p => (.ok ((addBy f g r (val p)).1, addBy f g r (val p)) : Res (β × β × σ × τ))) (addBy f g r (val p)) l >>= _) = _
    rw [ih]
    exact congrArg (fun z => (Except.ok (z, (l.map val).foldl (addBy f g) (addBy f g r (val p))) : Res (List β × β × σ × τ)))
      (runningSums_head f g (addBy f g r (val p)).1 (addBy f g r (val p)).2.1 (addBy f g r (val p)).2.2 (l.map val)).symm

theorem drawAll_exclusive {P : Type} (f : σ → β → γ → β × σ) (g : τ → α → γ × τ) (val : P → α) (r : β × σ × τ) (l : List P) :
    drawAll (fun r p => (.ok (r.1, addBy f g r (val p)) : Res (β × β × σ × τ))) r l =
      .ok ((runningSums f g r.1 r.2.1 r.2.2 (l.map val)).dropLast, (l.map val).foldl (addBy f g) r) := by
  induction l generalizing r with
  | nil => rfl
  | cons p l ih =>
    show (drawAll (fun r p => (.ok (r.1, addBy f g r (val p)) : Res (β × β × σ × τ))) (addBy f g r (val p)) l >>= _) = _
    rw [ih]
    show Except.ok (_ :: _, _) = Except.ok ((_ :: runningSums f g _ _ _ (l.map val)).dropLast, _)
    rw [List.dropLast_cons_of_ne_nil (runningSums_ne f g _ _ _ _)]
    rfl

theorem lists_drawn {out : Container} {m' : Mem α} {vs : List α} (hl : vs.length = (positions out.shape).length)
    (h : ∀ (k : Nat) p, (positions out.shape)[k]? = some p → m' (out.addr p) = vs[k]?) : Lists out m' vs := by
  refine lists_of hl fun k p hk => ?_
  have hlt : k < vs.length := by rw [hl]; exact (List.getElem?_eq_some_iff.1 hk).1
  refine ⟨vs[k], List.getElem?_eq_getElem hlt, get_ok_iff.2 ?_⟩
  rw [h k p hk, List.getElem?_eq_getElem hlt]

theorem inclusive_loop {out inp : Container} {m : Mem α} (hs : out.shape = inp.shape) (hd : Distinct out) (hv : Valid out m)
    (hdis : ∀ p q, InBox out.shape p → InBox out.shape q → inp.addr p ≠ out.addr q) {val : List Int → α} (he : Elems inp m val) (init : α)
    (f : σ → α → γ → α × σ) (g : τ → α → γ × τ) (st : σ × τ) :
    ∃ m' st', inclusiveLoop m inp out init f g st = .ok (m', st') ∧
      Lists out m' (runningSums f g init st.1 st.2 ((positions inp.shape).map val)).tail ∧ SameOutside out m m' := by
  have hdom : ∀ p ∈ positions out.shape, (m (out.addr p)).isSome := fun p hp => by
    obtain ⟨v, h⟩ := hv p (mem_positions.1 hp)
    rw [get_ok_iff.1 h]; rfl
  have := foldlM_draw out.addr (fun r p => (.ok ((addBy f g r (val p)).1, addBy f g r (val p)) : Res (α × α × σ × τ)))
    (fun (x : (α × σ × τ) × Mem α) p => do
      let v ← load x.2 (inp.addr p)
      let d := g x.1.2.2 v
      let a := f x.1.2.1 x.1.1 d.1
      let m ← store x.2 (out.addr p) a.1
      pure ((a.1, a.2, d.2), m))
    (positions out.shape) m (fun p hp s m1 h _ => by
      have e : load m1 (inp.addr p) = .ok (val p) := load_ok (by
        rw [h _ fun q hq => (hdis p q (mem_positions.1 hp) (mem_positions.1 hq)).symm]
        exact get_ok_iff.1 (he p (hs ▸ mem_positions.1 hp)))
      show (load m1 (inp.addr p) >>= _) = _
      rw [e]
      rfl) hdom (positions out.shape) (fun _ h => h)
    (positions_addr_pairwise hd) (init, st) m (fun _ _ => rfl) (fun _ => rfl)
  rw [drawAll_inclusive] at this
  obtain ⟨m', h1, h2, h3, h4⟩ := this
  refine ⟨m', (((positions out.shape).map val).foldl (addBy f g) (init, st)).2, ?_, ?_, fun a ha => h4 a fun p hp => ha p (mem_positions.1 hp)⟩
  rotate_left
  · rw [← hs]
    exact lists_drawn h2 h3
  · unfold inclusiveLoop mapCtx
    rw [loopState_eq, ← hs]
    exact congrArg (fun x => x >>= fun r : (α × σ × τ) × Mem α => (pure (r.2, r.1.2) : Res (Mem α × σ × τ))) h1

theorem exclusive_loop {out inp : Container} {m : Mem α} (hs : out.shape = inp.shape) (hd : Distinct out) (hv : Valid out m)
    (hdis : ∀ p q, InBox out.shape p → InBox out.shape q → inp.addr p ≠ out.addr q) {val : List Int → α} (he : Elems inp m val) (init : α)
    (f : σ → α → γ → α × σ) (g : τ → α → γ × τ) (st : σ × τ) :
    ∃ m' st', exclusiveLoop m inp out init f g st = .ok (m', st') ∧
      Lists out m' (runningSums f g init st.1 st.2 ((positions inp.shape).map val)).dropLast ∧ SameOutside out m m' := by
  have hdom : ∀ p ∈ positions out.shape, (m (out.addr p)).isSome := fun p hp => by
    obtain ⟨v, h⟩ := hv p (mem_positions.1 hp)
    rw [get_ok_iff.1 h]; rfl
  have := foldlM_draw out.addr (fun r p => (.ok (r.1, addBy f g r (val p)) : Res (α × α × σ × τ)))
    (fun (x : (α × σ × τ) × Mem α) p => do
      let m ← store x.2 (out.addr p) x.1.1
      let v ← load m (inp.addr p)
      let d := g x.1.2.2 v
      let a := f x.1.2.1 x.1.1 d.1
      pure ((a.1, a.2, d.2), m))
    (positions out.shape) m (fun p hp s m1 h _ => by
      show (store m1 (out.addr p) s.1 >>= _) = (store m1 (out.addr p) s.1 >>= _)
      cases hst : store m1 (out.addr p) s.1 with
      | error e => rfl
      | ok m2 =>
        have e : load m2 (inp.addr p) = .ok (val p) := load_ok (by
          rw [store_other hst (hdis p p (mem_positions.1 hp) (mem_positions.1 hp)),
            h _ fun q hq => (hdis p q (mem_positions.1 hp) (mem_positions.1 hq)).symm]
          exact get_ok_iff.1 (he p (hs ▸ mem_positions.1 hp)))
        show (load m2 (inp.addr p) >>= _) = _
        rw [e]
        rfl) hdom (positions out.shape) (fun _ h => h)
    (positions_addr_pairwise hd) (init, st) m (fun _ _ => rfl) (fun _ => rfl)
  rw [drawAll_exclusive] at this
  obtain ⟨m', h1, h2, h3, h4⟩ := this
  refine ⟨m', (((positions out.shape).map val).foldl (addBy f g) (init, st)).2, ?_, ?_, fun a ha => h4 a fun p hp => ha p (mem_positions.1 hp)⟩
  rotate_left
  · rw [← hs]
    exact lists_drawn h2 h3
  · unfold exclusiveLoop mapCtx
    rw [loopState_eq, ← hs]
    exact congrArg (fun x => x >>= fun r : (α × σ × τ) × Mem α => (pure (r.2, r.1.2) : Res (Mem α × σ × τ))) h1

end Kwk
