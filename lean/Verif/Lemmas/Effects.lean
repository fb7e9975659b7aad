import Verif.Model.Effects
import Verif.Lemmas.Writing

/-! # Lemmas: loops with effects, and loops that draw values -/

namespace Kwk
open Spec

variable {α β φ : Type}

theorem reduceM_eq {m : Type → Type} [Monad m] [LawfulMonad m] (rd : List Int → m α) (f : β → α → m β)
    (init : β) (shp : Shape) :
    reduceM rd f init shp = (positions shp).foldlM (fun a p => do let v ← rd p; f a v) init := by
  rw [reduceM, forEach_eq]
  generalize positions shp = l
  induction l generalizing init with
  | nil => simp [runAll, pure, StateT.pure]
  | cons p l ih =>
    rw [List.foldlM_cons]
    simp only [runAll]
    simp only [bind, StateT.bind] at ih ⊢
    simp only [bind_assoc, pure_bind] at ih ⊢
    congr 1; funext v
    congr 1; funext b
    exact ih b

theorem foldlM_stopped {m : Type → Type} [Monad m] [LawfulMonad m] (rd : List Int → m α) (g : β → α → m β)
    (b : β) (hb : ∀ v, g b v = pure b) (l : List (List Int)) :
    l.foldlM (fun a p => do let v ← rd p; g a v) b =
      (do runAll (fun p => do let _ ← rd p; pure ()) l; pure b) := by
  induction l with
  | nil => simp [runAll]
  | cons p l ih =>
    rw [List.foldlM_cons]
    simp only [runAll, hb, bind_assoc, pure_bind]
    congr 1; funext v
    rw [ih]

/-- A loop that draws one value per position and writes it. -/
theorem foldlM_draw {P : Type} (addr : P → Ptr) (g : φ → P → Res (α × φ)) (step : φ × Mem α → P → Res (φ × Mem α))
    (L : List P) (m0 : Mem α)
    (hstep : ∀ p ∈ L, ∀ s m1, (∀ a, (∀ q ∈ L, addr q ≠ a) → m1 a = m0 a) → (∀ a, (m1 a).isSome = (m0 a).isSome) →
      step (s, m1) p = (do let r ← g s p; let m2 ← store m1 (addr p) r.1; pure (r.2, m2)))
    (hdom : ∀ p ∈ L, (m0 (addr p)).isSome)
    (l : List P) (hl : ∀ p ∈ l, p ∈ L) (hinj : l.Pairwise fun p q => addr p ≠ addr q) (s : φ) (m : Mem α)
    (hm : ∀ a, (∀ q ∈ L, addr q ≠ a) → m a = m0 a) (hd : ∀ a, (m a).isSome = (m0 a).isSome) :
    match drawAll g s l with
    | .error e => l.foldlM step (s, m) = .error e
    | .ok (vs, s') => ∃ m', l.foldlM step (s, m) = .ok (s', m') ∧ vs.length = l.length ∧
        (∀ (k : Nat) p, l[k]? = some p → m' (addr p) = vs[k]?) ∧ ∀ a, (∀ p ∈ l, addr p ≠ a) → m' a = m a := by
  induction l generalizing s m with
  | nil => exact ⟨m, rfl, rfl, by simp, fun _ _ => rfl⟩
  | cons p l ih =>
    rw [List.pairwise_cons] at hinj
    have hst := hstep p (hl p (by simp)) s m hm hd
    rw [List.foldlM_cons, hst, drawAll]
    cases hg : g s p with
    | error e => rfl
    | ok r =>
      have hsome : (m (addr p)).isSome := by rw [hd]; exact hdom p (hl p (by simp))
      have hm1 : ∀ a, (∀ q ∈ L, addr q ≠ a) → wr m (addr p) (some r.1) a = m0 a := fun a ha => by
        rw [wr_other _ _ (ha p (hl p (by simp)))]; exact hm a ha
      have hd1 : ∀ a, (wr m (addr p) (some r.1) a).isSome = (m0 a).isSome := fun a => by
        rw [wr_isSome _ _ hsome, hd]
      have := ih (fun q hq => hl q (by simp [hq])) hinj.2 r.2 (wr m (addr p) (some r.1)) hm1 hd1
      simp only [bind, Except.bind, store_ok hsome, pure, Except.pure]
      cases hr : drawAll g r.2 l with
      | error e => rw [hr] at this; exact this
      | ok t =>
        rw [hr] at this
        obtain ⟨m', h1, h2, h3, h4⟩ := this
        refine ⟨m', h1, by simp [h2], ?_, ?_⟩
        · intro k q hk
          cases k with
          | zero =>
            simp only [List.getElem?_cons_zero, Option.some.injEq] at hk ⊢
            subst hk
            rw [h4 _ (fun q hq => (hinj.1 q hq).symm), wr_self]
          | succ k => simpa using h3 k q (by simpa using hk)
        · intro a ha
          rw [h4 a (fun q hq => ha q (by simp [hq])), wr_other _ _ (ha p (by simp))]

theorem positions_addr_pairwise {c : Container} (hd : Distinct c) :
    (positions c.shape).Pairwise fun p q => c.addr p ≠ c.addr q := by
  refine List.Pairwise.imp_of_mem ?_ (positions_nodup c.shape)
  intro p q hp hq hne e
  exact hne (hd p q (mem_positions.1 hp) (mem_positions.1 hq) e)

theorem mapM_load {m1 m : Mem α} {vals : Container → List Int → α} {p : List Int} (ins : List Container)
    (h : ∀ c ∈ ins, m1 (c.addr p) = m (c.addr p)) (he : ∀ c ∈ ins, c.get m p = .ok (vals c p)) :
    (ins.map fun c => c.addr p).mapM (fun i => load m1 i) = .ok (ins.map fun c => vals c p) := by
  induction ins with
  | nil => rfl
  | cons c ins ih =>
    have hl : load m1 (c.addr p) = .ok (vals c p) :=
      load_ok (by rw [h c (by simp)]; exact get_ok_iff.1 (he c (by simp)))
    rw [List.map_cons, List.mapM_cons, hl, ih (fun d hd => h d (by simp [hd])) (fun d hd => he d (by simp [hd]))]
    rfl

end Kwk
