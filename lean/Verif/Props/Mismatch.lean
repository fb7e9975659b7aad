import Verif.Props.Writing
import Verif.Model.Effects

/-!
# Property C41: `for_each` over containers of different shapes
-/

namespace Kwk
open Spec

variable {α φ : Type}

/-- A function that reads all the elements that it is given. -/
def readsAll (g : φ → List α → φ) (f : φ) (ps : List Ptr) (m : Mem α) : Res (φ × Mem α) := do
  let vs ← ps.mapM (load m)
  pure (g f vs, m)

private theorem mapM_load_ok {m : Mem α} {ps : List Ptr} : (∃ vs, ps.mapM (load m) = .ok vs) ↔ ∀ a ∈ ps, (m a).isSome := by
  induction ps with
  | nil => exact ⟨fun _ a ha => (by cases ha), fun _ => ⟨[], rfl⟩⟩
  | cons a ps ih =>
    rw [List.mapM_cons]
    constructor
    · rintro ⟨vs, h⟩
      cases h1 : load m a with
      | error e => rw [h1] at h; cases h
      | ok v =>
        cases h2 : ps.mapM (load m) with
        | error e => rw [h1, h2] at h; cases h
        | ok w =>
          intro b hb
          rcases List.mem_cons.1 hb with rfl | hb
          · exact load_inv h1
          · exact ih.1 ⟨w, h2⟩ b hb
    · intro h
      obtain ⟨v, hv⟩ := load_isSome (h a (by simp))
      obtain ⟨w, hw⟩ := ih.2 fun b hb => h b (by simp [hb])
      exact ⟨v :: w, by rw [hv, hw]; rfl⟩

private theorem forEach_reads {g : φ → List α → φ} {m : Mem α} {c0 : Container} {cs : List Container} (f : φ) :
    (∃ r, forEachElems (readsAll g) f c0 cs m = .ok r) ↔
      ∀ p, InBox c0.shape p → ∀ c ∈ c0 :: cs, (m (c.addr p)).isSome := by
  unfold forEachElems
  rw [loopState_eq]
  have key : ∀ (ps : List (List Int)) (s : φ), (∃ r, ps.foldlM (fun (s : φ × Mem α) p =>
      (fun is (fm : φ × Mem α) => readsAll g fm.1 (c0.addr is :: cs.map fun c => c.addr is) fm.2) p s) (s, m) = .ok r) ↔
      ∀ p ∈ ps, ∀ c ∈ c0 :: cs, (m (c.addr p)).isSome := by
    intro ps
    induction ps with
    | nil => intro s; exact ⟨fun _ p hp => (by cases hp), fun _ => ⟨_, rfl⟩⟩
    | cons p ps ih =>
      intro s
      rw [List.foldlM_cons]
      have hm : (∃ vs, (c0.addr p :: cs.map fun c => c.addr p).mapM (load m) = .ok vs) ↔ ∀ c ∈ c0 :: cs, (m (c.addr p)).isSome := by
        rw [mapM_load_ok, ← List.map_cons (f := fun c : Container => c.addr p), List.forall_mem_map]
      cases h : (c0.addr p :: cs.map fun c => c.addr p).mapM (load m) with
      | error e =>
        refine ⟨fun ⟨r, hr⟩ => ?_, fun hr => ?_⟩
        · simp only [readsAll, h, bind, Except.bind] at hr; cases hr
        · obtain ⟨vs, hv⟩ := hm.2 (hr p (by simp))
          rw [h] at hv; cases hv
      | ok vs =>
        have hp := hm.1 ⟨vs, h⟩
        simp only [readsAll, h, bind, Except.bind, pure, Except.pure]
        rw [List.forall_mem_cons]
        refine Iff.trans ?_ (and_iff_right hp).symm
        have := ih (g s vs)
        simpa only [readsAll, bind, Except.bind, pure, Except.pure] using this
  have := key (positions c0.shape) f
  simp only [mem_positions] at this
  rw [← this]
  cases (positions c0.shape).foldlM (fun (s : φ × Mem α) p =>
      (fun is (fm : φ × Mem α) => readsAll g fm.1 (c0.addr is :: cs.map fun c => c.addr is) fm.2) p s) (f, m) with
  | error e => exact ⟨fun ⟨r, hr⟩ => (by cases hr), fun ⟨r, hr⟩ => (by cases hr)⟩
  | ok r => exact ⟨fun _ => ⟨_, rfl⟩, fun _ => ⟨_, rfl⟩⟩

/-- **C41** (exact, partial) `for_each` over any number of containers, with a function that reads its arguments, stays inside the
containers in every memory if and only if every position of the first container is stored, in the layout of each other one, in a
cell of one of the containers.  Missing: other lists of containers, for which the claim is false. -/
theorem C41_for_each_partial [Inhabited α] (g : φ → List α → φ) (f : φ) (c0 : Container) (cs : List Container) :
    (∀ m : Mem α, (∀ c ∈ c0 :: cs, Valid c m) → ∃ r, forEachElems (readsAll g) f c0 cs m = .ok r) ↔
      ∀ c ∈ cs, ∀ p, InBox c0.shape p → ∃ c' ∈ c0 :: cs, ∃ q, InBox c'.shape q ∧ c.addr p = c'.addr q := by
  classical
  constructor
  · intro h c hc p hp
    let cell : Ptr → Prop := fun a => ∃ c' ∈ c0 :: cs, ∃ q, InBox c'.shape q ∧ a = c'.addr q
    let m0 : Mem α := fun a => if cell a then some default else none
    have hm0 : ∀ a, (m0 a).isSome ↔ cell a := by
      intro a
      show (if cell a then some default else none : Option α).isSome ↔ _
      split <;> simp_all
    have := (forEach_reads f).1 (h m0 fun c' hc' q hq => load_isSome ((hm0 _).2 ⟨c', hc', q, hq, rfl⟩)) p hp c (by simp [hc])
    exact (hm0 _).1 this
  · intro h m hv
    refine (forEach_reads f).2 fun p hp c hc => ?_
    have : ∃ c' ∈ c0 :: cs, ∃ q, InBox c'.shape q ∧ c.addr p = c'.addr q := by
      rcases List.mem_cons.1 hc with rfl | hc
      · exact ⟨c, by simp, p, hp, rfl⟩
      · exact h c hc p hp
    obtain ⟨c', hc', q, hq, e⟩ := this
    obtain ⟨v, hv⟩ := hv c' hc' q hq
    rw [e]
    exact load_inv hv

/-- `for_each` over a 2x2 and a 2x3 container stays inside. -/
example : ∀ c ∈ [Container.ofShape ⟨1, 0⟩ [2, 3]], ∀ p, InBox (Container.ofShape ⟨0, 0⟩ [2, 2]).shape p →
    ∃ c' ∈ [Container.ofShape ⟨0, 0⟩ [2, 2], Container.ofShape ⟨1, 0⟩ [2, 3]], ∃ q, InBox c'.shape q ∧ c.addr p = c'.addr q := by
  intro c hc p hp
  simp at hc
  subst hc
  refine ⟨_, by simp, p, ?_, rfl⟩
  obtain ⟨i, p, rfl, hi, hp⟩ := inBox_cons_left hp
  obtain ⟨j, p, rfl, hj, hp⟩ := inBox_cons_left hp
  rw [inBox_nil] at hp
  subst hp
  exact inBox_cons.2 ⟨hi, inBox_cons.2 ⟨by omega, .nil⟩⟩

/-- **C41** (negation) `for_each` over a vector of three and a vector of two elements reads outside of the second one. -/
theorem C41_for_each_reads_outside :
    let m : Mem Int := fun p => match oneBlock 0 [1, 2, 3] p with
      | some v => some v
      | none => oneBlock 1 [0, 0] p
    (forEachElems (readsAll fun (s : Int) vs => s + vs.sum) 0 (.ofShape ⟨0, 0⟩ [3]) [.ofShape ⟨1, 0⟩ [2]] m).isOk = false ∧
    (forEachElems (readsAll fun (s : Int) vs => s + vs.sum) 0 (.ofShape ⟨1, 0⟩ [2]) [.ofShape ⟨0, 0⟩ [3]] m).isOk = true := by
  decide

end Kwk
