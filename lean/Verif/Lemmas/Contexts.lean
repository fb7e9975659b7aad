import Verif.Lemmas.AuxWriting
import Verif.Lemmas.Writing
import Verif.Lemmas.Container
import Verif.Lemmas.Print
import Verif.Spec.Contexts
import Mathlib.Data.List.Perm.Basic
import Mathlib.Data.List.Perm.Subperm

/-!
# Lemmas: loops of contexts
-/

namespace Kwk
open Spec

variable {α β σ : Type}

theorem order_perm {ctx : Ctx} (h : VisitsAll ctx) (s : Shape) : (ctx.order s).Perm (positions s) :=
  (List.perm_ext_iff_of_nodup (h s).1 (positions_nodup s)).2 fun p => ((h s).2 p).trans mem_positions.symm

theorem visitsAll_iff {ctx : Ctx} : VisitsAll ctx ↔ ∀ s, (ctx.order s).Perm (positions s) :=
  ⟨fun h s => order_perm h s, fun h s => ⟨(h s).nodup_iff.2 (positions_nodup s), fun _ => (h s).mem_iff.trans mem_positions⟩⟩

/-- A loop in any order in which the step at `p` optionally writes the cell of `p`. -/
theorem order_write {c : Container} {m : Mem α} {s0 : σ} {l : List (List Int)} (hl : l.Nodup) (hm : ∀ p, p ∈ l ↔ InBox c.shape p)
    (hd : Distinct c) (hv : Valid c m)
    (step : σ × Mem α → List Int → Res (σ × Mem α)) (new : List Int → σ → σ × Option α)
    (hstep : ∀ p, InBox c.shape p → ∀ s m1,
      (∀ a, (∀ q, InBox c.shape q → q ≠ p → c.addr q ≠ a) → m1 a = m a) →
      (∀ a, (m1 a).isSome = (m a).isSome) →
      step (s, m1) p = .ok ((new p s).1, wr m1 (c.addr p) (new p s).2)) :
    ∃ m', l.foldlM step (s0, m) = .ok (l.foldl (fun s p => (new p s).1) s0, m') ∧ SameOutside c m m' ∧
      ∀ l1 p l2, l = l1 ++ p :: l2 →
        m' (c.addr p) = match (new p (l1.foldl (fun s p => (new p s).1) s0)).2 with
          | some v => some v
          | none => m (c.addr p) := by
  obtain ⟨m', h1, h2, _, h4⟩ := foldlM_write l c.addr new step m s0
    (hl.imp_of_mem fun hp hq hne e => hne (hd _ _ ((hm _).1 hp) ((hm _).1 hq) e))
    (fun p hp => by obtain ⟨v, hv⟩ := hv p ((hm p).1 hp); exact isSome_of_get hv)
    (by
      intro l1 p l2 e s m1 ha hs
      have hp : p ∈ l := by rw [e]; simp
      refine hstep p ((hm p).1 hp) s m1 ?_ hs
      intro a hq
      refine ha a fun q hql => hq q ((hm q).1 (by rw [e]; simp [hql])) ?_
      rintro rfl
      rw [e, List.nodup_append] at hl
      exact hl.2.2 q hql q (by simp) rfl)
  exact ⟨m', h1, fun a ha => h2 a fun p hp => ha p ((hm p).1 hp), h4⟩

/-- The same without state: the new value of each position. -/
theorem order_each {c : Container} {m : Mem α} {l : List (List Int)} (hl : l.Nodup) (hm : ∀ p, p ∈ l ↔ InBox c.shape p)
    (hd : Distinct c) (hv : Valid c m)
    (step : Unit × Mem α → List Int → Res (Unit × Mem α)) (new : List Int → Option α)
    (hstep : ∀ p, InBox c.shape p → ∀ m1,
      (∀ a, (∀ q, InBox c.shape q → q ≠ p → c.addr q ≠ a) → m1 a = m a) →
      (∀ a, (m1 a).isSome = (m a).isSome) →
      step ((), m1) p = .ok ((), wr m1 (c.addr p) (new p))) :
    ∃ m', l.foldlM step ((), m) = .ok ((), m') ∧ SameOutside c m m' ∧
      ∀ p, InBox c.shape p → m' (c.addr p) = match new p with
          | some v => some v
          | none => m (c.addr p) := by
  obtain ⟨m', h1, h2, h3⟩ := order_write (s0 := ()) hl hm hd hv step (fun p _ => ((), new p)) (by
    intro p hp s m1 ha hs
    exact hstep p hp m1 ha hs)
  refine ⟨m', h1, h2, ?_⟩
  intro p hp
  obtain ⟨l1, l2, e⟩ := List.append_of_mem ((hm p).2 hp)
  exact h3 l1 p l2 e

theorem own_cell' {c : Container} {m m1 : Mem α} {p : List Int} (hd : Distinct c) (hp : InBox c.shape p)
    (h : ∀ a, (∀ q, InBox c.shape q → q ≠ p → c.addr q ≠ a) → m1 a = m a) : m1 (c.addr p) = m (c.addr p) :=
  h _ fun q hq hne e => hne (hd q p hq hp e)

/-- A reading loop in any order. -/
theorem reduceC_eq {ctx : Ctx} (hc : VisitsAll ctx) {m : Mem α} {c : Container} {val : List Int → α} (f : β → α → β) (init : β)
    (h : Elems c m val) : reduceC ctx m c f init = .ok (((ctx.order c.shape).map val).foldl f init) := by
  unfold reduceC Ctx.map
  rw [foldlM_read _ (fun p a => f a (val p))]
  · rw [List.foldl_map]; rfl
  · intro p hp s
    have : load m (c.addr p) = .ok (val p) := h p (((hc _).2 p).1 hp)
    simp only [this]; rfl

/-- Folding a permutation, when arguments may be exchanged after every reachable value. -/
theorem foldl_perm {f : β → α → β} {init : β}
    (h : ∀ (l : List α) x y, f (f (l.foldl f init) x) y = f (f (l.foldl f init) y) x) {l1 l2 : List α} (hp : l1.Perm l2) :
    l1.foldl f init = l2.foldl f init := by
  suffices H : ∀ pre : List α, l1.foldl f (pre.foldl f init) = l2.foldl f (pre.foldl f init) from H []
  induction hp with
  | nil => intro; rfl
  | cons x _ ih =>
    intro pre
    have := ih (pre ++ [x])
    simpa using this
  | swap x y l => intro pre; simp only [List.foldl_cons]; rw [h]
  | trans _ _ ih1 ih2 => intro pre; exact (ih1 pre).trans (ih2 pre)

theorem positions_line (n : Nat) : positions [(n : Int)] = (List.range n).map fun k : Nat => [(k : Int)] := by
  rw [positions_one, upTo, List.map_map]
  rfl

/-- A context that visits the positions from the last to the first. -/
def backwards : Ctx := ⟨fun s => (positions s).reverse⟩

theorem backwards_visits : VisitsAll backwards := visitsAll_iff.2 fun _ => List.reverse_perm _

/-- A context that visits the positions of the shape `s` in the order `l`. -/
def visiting (s : Shape) (l : List (List Int)) : Ctx := ⟨fun t => if t = s then l else positions t⟩

theorem visiting_visits {s : Shape} {l : List (List Int)} (h : l.Perm (positions s)) : VisitsAll (visiting s l) := by
  refine visitsAll_iff.2 fun t => ?_
  unfold visiting
  by_cases e : t = s
  · subst e; simpa using h
  · simp [e]

theorem firstTwo_perm {s : Shape} {p q : List Int} (hp : InBox s p) (hq : InBox s q) (hne : p ≠ q) :
    (p :: q :: ((positions s).erase p).erase q).Perm (positions s) := by
  have h1 : q ∈ (positions s).erase p := (List.mem_erase_of_ne hne.symm).2 (mem_positions.2 hq)
  exact ((List.perm_cons_erase (mem_positions.2 hp)).trans ((List.perm_cons_erase h1).cons p)).symm

/-- A context that visits each position as its row-major number visits in row-major order. -/
theorem order_of_rank {ctx : Ctx} (hc : VisitsAll ctx) {s : Shape}
    (h : ∀ (k : Nat) p, (ctx.order s)[k]? = some p → (positions s)[k]? = some p) : ctx.order s = positions s := by
  refine List.ext_getElem? fun k => ?_
  cases hk : (ctx.order s)[k]? with
  | some p => rw [h k p hk]
  | none =>
    rw [List.getElem?_eq_none_iff] at hk
    exact (List.getElem?_eq_none_iff.2 (by rw [← (order_perm hc s).length_eq]; exact hk)).symm

theorem sum_indicator {P : Type} [DecidableEq P] {l : List P} (h : l.Nodup) {q : P} :
    (l.map fun r => if r = q then (1 : Int) else 0).sum = if q ∈ l then 1 else 0 := by
  induction l with
  | nil => rfl
  | cons x l ih =>
    rw [List.nodup_cons] at h
    rw [List.map_cons, List.sum_cons, ih h.2]
    by_cases e : x = q
    · subst e; simp [h.1]
    · simp [e, show ¬ q = x from fun e' => e e'.symm]

end Kwk
