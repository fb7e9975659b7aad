import Verif.Lemmas.Writing
import Verif.Props.Reading
import Mathlib.Algebra.Group.Nat.Even
import Mathlib.Data.Nat.Cast.Basic
import Mathlib.Logic.Function.Iterate

/-!
# Lemmas for `Props/Writing.lean`
-/

namespace Kwk
open Spec

variable {α β σ : Type}

/-- Helper: run a loop over the positions of `c` that writes the cells of `c`. -/
theorem run_write {c : Container} {m : Mem α} {s0 : σ} (hd : Distinct c) (hv : Valid c m)
    (step : List Int → σ × Mem α → Res (σ × Mem α)) (new : List Int → σ → σ × Option α)
    (hstep : ∀ p, InBox c.shape p → ∀ s m1,
      (∀ a, (∀ q, InBox c.shape q → q < p → c.addr q ≠ a) → m1 a = m a) →
      (∀ a, (m1 a).isSome = (m a).isSome) →
      step p (s, m1) = .ok ((new p s).1, wr m1 (c.addr p) (new p s).2)) :
    ∃ s' m', loopState step c.shape (s0, m) = .ok (s', m') ∧ SameOutside c m m' ∧
      (∀ k p, (positions c.shape)[k]? = some p →
        m' (c.addr p) = match (new p (((positions c.shape).take k).foldl
            (fun s p => (new p s).1) s0)).2 with
          | some v => some v
          | none => m (c.addr p)) := by
  obtain ⟨m', h1, h2, _, h4⟩ := loop_write c.shape c.addr new (fun sm p => step p sm) m s0 hd
    (fun p hp => by obtain ⟨v, hv⟩ := hv p hp; exact isSome_of_get hv) hstep
  exact ⟨_, m', by rw [loopState_eq]; exact h1, h2, h4⟩

theorem own_cell {c : Container} {m m1 : Mem α} {p : List Int} (hd : Distinct c)
    (hp : InBox c.shape p)
    (h : ∀ a, (∀ q, InBox c.shape q → q < p → c.addr q ≠ a) → m1 a = m a) :
    m1 (c.addr p) = m (c.addr p) := by
  apply h
  intro q hq hlt e
  rw [hd q p hq hp e] at hlt
  exact List.lt_irrefl _ hlt

theorem valid_isSome {c : Container} {m m1 : Mem α} {p : List Int} (hv : Valid c m)
    (hp : InBox c.shape p) (h : ∀ a, (m1 a).isSome = (m a).isSome) : (m1 (c.addr p)).isSome := by
  obtain ⟨v, hv⟩ := hv p hp
  rw [h]; exact isSome_of_get hv

theorem exDistinct : Distinct exView := by
  intro p q hp hq
  have hall : ∀ p ∈ positions exView.shape, ∀ q ∈ positions exView.shape,
      exView.addr p = exView.addr q → p = q := by decide
  exact hall p (mem_positions.2 hp) q (mem_positions.2 hq)

theorem exValid : Valid exView exMem := fun p hp => ⟨_, exElems p hp⟩

theorem iterate_foldl (incr : β → β) (l : List P) (v : β) :
    l.foldl (fun s _ => incr s) v = incr^[l.length] v := by
  induction l generalizing v with
  | nil => rfl
  | cons x xs ih => simp [ih]

theorem take_rank_length {s p : List Int} (hp : InBox s p) :
    ((positions s).take (linearize (sfx s) p).toNat).length = (linearize (sfx s) p).toNat := by
  rw [List.length_take]
  have := (List.getElem?_eq_some_iff.1 (getElem?_rank hp)).1
  omega

theorem noClobber_self {c : Container} (hd : Distinct c) : NoClobber c c := by
  intro p q hp hq hlt e
  rw [hd q p hq hp e] at hlt
  exact List.lt_irrefl _ hlt

/-- Containers in different blocks never overlap. -/
theorem noClobber_blocks {out inp : Container} (h : out.base.blk ≠ inp.base.blk) : NoClobber out inp := by
  intro p q _ _ _ e
  have := congrArg Ptr.blk e
  simp only [Container.addr, Ptr.add] at this
  exact h this

theorem mapM_load_congr {m m1 : Mem α} (ins : List Container) (p : List Int) (vs : List α)
    (h : ∀ c ∈ ins, m1 (c.addr p) = m (c.addr p))
    (hvs : ins.mapM (fun c => c.get m p) = .ok vs) :
    (ins.map fun c => c.addr p).mapM (fun i => load m1 i) = .ok vs := by
  induction ins generalizing vs with
  | nil => exact hvs
  | cons c ins ih =>
    rw [List.mapM_cons] at hvs
    rw [List.map_cons, List.mapM_cons]
    have e : load m1 (c.addr p) = c.get m p := by
      unfold Container.get load; rw [h c (by simp)]
    rw [e]
    cases hc : c.get m p with
    | error x => rw [hc] at hvs; cases hvs
    | ok v =>
      rw [hc] at hvs
      simp only [bind, Except.bind] at hvs ih ⊢
      cases hr : List.mapM (fun c : Container => c.get m p) ins with
      | error x => rw [hr] at hvs; cases hvs
      | ok ws =>
        rw [hr] at hvs
        rw [ih ws (fun c hc => h c (by simp [hc])) hr]
        exact hvs

/-- Helper: a loop step that reads cells that exist and optionally writes the cell of `out`. -/
theorem safe_loop {out : Container} {m : Mem α} {s0 : σ} (shp : List Int) (hshp : out.shape = shp)
    (step : List Int → σ × Mem α → Res (σ × Mem α))
    (hstep : ∀ p, InBox shp p → ∀ s m1, (∀ a, (m1 a).isSome = (m a).isSome) →
      ∃ s' w, step p (s, m1) = .ok (s', wr m1 (out.addr p) w) ∧ (m (out.addr p)).isSome) :
    ∃ s' m', loopState step shp (s0, m) = .ok (s', m') ∧ SameOutside out m m' ∧
      (∀ a, (m' a).isSome = (m a).isSome) := by
  obtain ⟨s', m', h1, h2, h3⟩ := foldlM_safe (positions shp)
    (fun a => ∃ p, InBox out.shape p ∧ out.addr p = a) (fun sm p => step p sm) m s0 (by
      intro p hp s m1 ha hs
      have hp := mem_positions.1 hp
      obtain ⟨s', w, e, hd⟩ := hstep p hp s m1 hs
      have hd1 : (m1 (out.addr p)).isSome := by rw [hs]; exact hd
      refine ⟨s', _, e, ?_, ?_⟩
      · intro a hna
        rw [wr_other _ _ fun e => hna ⟨p, hshp ▸ hp, e⟩, ha a hna]
      · intro a; rw [wr_isSome _ _ hd1, hs])
  refine ⟨s', m', by rw [loopState_eq]; exact h1, ?_, h3⟩
  intro a hna
  exact h2 a fun ⟨p, hp, e⟩ => hna p hp e

theorem load_isSome {m : Mem α} {a : Ptr} (h : (m a).isSome) : ∃ v, load m a = .ok v := by
  unfold load; cases hm : m a
  · simp [hm] at h
  · exact ⟨_, rfl⟩

/-- If a loop succeeds, each of its steps does, from a state in which an invariant of the steps holds. -/
theorem foldlM_steps_ok {τ : Type} {l : List (List Int)} {step : List Int → τ → Res τ} (Q : τ → Prop)
    (hQ : ∀ p s s', Q s → step p s = .ok s' → Q s') {s0 s' : τ}
    (h : l.foldlM (fun s p => step p s) s0 = .ok s') (h0 : Q s0) : ∀ p ∈ l, ∃ s s', Q s ∧ step p s = .ok s' := by
  induction l generalizing s0 with
  | nil => intro p hp; cases hp
  | cons a l ih =>
    rw [List.foldlM_cons] at h
    cases hs : step a s0 with
    | error e => rw [hs] at h; cases h
    | ok s1 =>
      rw [hs] at h
      intro p hp
      rcases List.mem_cons.1 hp with rfl | hp
      · exact ⟨s0, s1, h0, hs⟩
      · exact ih h (hQ _ _ _ h0 hs) p hp

theorem store_inv {m m' : Mem α} {a : Ptr} {v : α} (h : store m a v = .ok m') : ∀ b, (m' b).isSome = (m b).isSome := by
  unfold store at h
  cases hm : m a with
  | none => rw [hm] at h; cases h
  | some w =>
    rw [hm] at h
    cases h
    intro b
    by_cases hb : b = a
    · subst hb; simp [hm]
    · simp [hb]

theorem load_inv {m : Mem α} {a : Ptr} {v : α} (h : load m a = .ok v) : (m a).isSome := by
  unfold load at h
  cases hm : m a with
  | none => rw [hm] at h; cases h
  | some w => rfl

end Kwk
