import Verif.Spec.Programs
import Verif.Lemmas.Values
import Verif.Lemmas.Writing
import Verif.Lemmas.Slice
import Verif.Lemmas.AuxWriting

/-!
# Helper lemmas for programs with tables and algorithms
-/

namespace Kwk

open Spec

variable {α : Type}

theorem container_get {w : World α} {t : Table} {p : List Int} {v : α} (h : w.read t p = .ok v) :
    (w.container t).get w.mem p = .ok v := by
  unfold World.read at h
  cases hd : t.data with
  | none => rw [hd] at h; cases h
  | some b =>
    rw [hd] at h
    unfold World.container Table.ptr
    rw [hd]
    exact h

theorem read_container {w : World α} {t : Table} {m : Mem α} {p : List Int} {v : α}
    (hd : ∃ b, t.data = some b) (h : (w.container t).get m p = .ok v) : ({ w with mem := m } : World α).read t p = .ok v := by
  obtain ⟨b, hb⟩ := hd
  unfold World.read
  unfold World.container Table.ptr at h
  rw [hb] at h ⊢
  exact h

/-- A table object with the shape and the elements that were announced. -/
structure Ready (w : World α) (t : Table) : Prop where
  ne : t.shape ≠ []
  nn : NonNeg t.shape
  rd : ∀ p, InBox t.shape p → ∃ v, w.read t p = .ok v

theorem shaped_ready {ext : Mem α} {base : Nat} {w : World α} {a : Values α} (h : Sim ext base w a) {x : Nat} {s : Shape}
    (hx : Shaped (a x) s) : ∃ t, w.tables x = some t ∧ t.shape = s ∧ Ready w t := by
  have := h.good x
  rcases hx with e | ⟨f, e⟩
  · rw [e] at this
    obtain ⟨h1, h2, t, h3, rfl, h4⟩ := this
    exact ⟨t, h3, rfl, h1, h2, h4⟩
  · rw [e] at this
    obtain ⟨h1, h2, t, h3, rfl, h4⟩ := this
    exact ⟨t, h3, rfl, h1, h2, fun p hp => ⟨_, h4 p hp⟩⟩

theorem value_ready {ext : Mem α} {base : Nat} {w : World α} {a : Values α} (h : Sim ext base w a) {x : Nat} {s : Shape}
    {f : List Int → α} (hx : a x = .value s f) :
    ∃ t, w.tables x = some t ∧ t.shape = s ∧ Ready w t ∧ Elems (w.container t) w.mem f := by
  have := h.good x
  rw [hx] at this
  obtain ⟨h1, h2, t, h3, rfl, h4⟩ := this
  exact ⟨t, h3, rfl, ⟨h1, h2, fun p hp => ⟨_, h4 p hp⟩⟩, fun p hp => container_get (h4 p hp)⟩

theorem Ready.default {w : World α} {t : Table} (h : Ready w t) : (w.container t).Default := ofShape_default h.ne

theorem Ready.distinct {w : World α} {t : Table} (h : Ready w t) : Distinct (w.container t) := default_distinct h.default

theorem Ready.valid {w : World α} {t : Table} (h : Ready w t) : Valid (w.container t) w.mem := by
  intro p hp
  obtain ⟨v, hv⟩ := h.rd p hp
  exact ⟨v, container_get hv⟩

theorem Ready.data {w : World α} {t : Table} (h : Ready w t) {p : List Int} (hp : InBox t.shape p) :
    ∃ b, t.data = some b ∧ (w.container t).addr p = ⟨b, linearize (sfx t.shape) p⟩ := by
  obtain ⟨v, hv⟩ := h.rd p hp
  obtain ⟨b, hb, -⟩ := read_cell h.ne hp hv
  refine ⟨b, hb, ?_⟩
  rw [addr_default h.default hp]
  simp [World.container, Container.ofShape, Table.ptr, hb, Ptr.add]

/-- An algorithm that writes the table `x` only. -/
theorem Sim.wrote {ext : Mem α} {base : Nat} {w : World α} {a : Values α} (h : Sim ext base w a) {x : Nat} {t : Table}
    (ht : w.tables x = some t) (hr : Ready w t) {m : Mem α} (ho : SameOutside (w.container t) w.mem m) {f : List Int → α}
    (hf : ∀ p, InBox t.shape p → (w.container t).get m p = .ok (f p)) :
    Sim ext base { w with mem := m } (a.set x (.value t.shape f)) := by
  have hout : ∀ q : Ptr, (∀ b, t.data = some b → q.blk ≠ b) → m q = w.mem q := by
    intro q hq
    refine ho q fun p hp e => ?_
    obtain ⟨b, hb, hadr⟩ := hr.data hp
    rw [hadr] at e
    exact hq b hb (by rw [← e])
  have hother : ∀ y u b k, y ≠ x → w.tables y = some u → u.data = some b → m ⟨b, k⟩ = w.mem ⟨b, k⟩ := by
    intro y u b k hy hu hb
    refine hout _ fun b' hb' e => ?_
    subst e
    exact hy (h.inv.excl y x u t _ hu ht hb hb')
  refine ⟨⟨h.inv.excl, h.inv.lv, h.inv.own, h.inv.lt, ?_, ?_⟩, ?_, ?_, h.next, h.blk⟩
  · intro y u b hy hb k k0 k1
    by_cases e : y = x
    · subst e
      have : u = t := by rw [ht] at hy; cases hy; rfl
      subst this
      rw [numel_eq_prod hr.ne] at k1
      obtain ⟨p, hp, rfl⟩ := lin_surj hr.nn k0 k1
      obtain ⟨b', hb', hadr⟩ := hr.data hp
      rw [hb] at hb'; cases hb'
      have := isSome_of_get (hf p hp)
      rwa [hadr] at this
    · show (m ⟨b, k⟩).isSome
      rw [hother y u b k e hy hb]
      exact h.inv.cells y u b hy hb k k0 k1
  · intro q hq
    show m q = none
    rw [hout q fun b hb e => ?_]
    · exact h.inv.old q hq
    · have := block_lt h.inv ht hb
      change w.next ≤ q.blk at hq
      omega
  · intro y
    by_cases e : y = x
    · subst e
      rw [set_self]
      refine ⟨hr.ne, hr.nn, t, ht, rfl, fun p hp => read_container ?_ (hf p hp)⟩
      obtain ⟨b, hb, -⟩ := hr.data hp
      exact ⟨b, hb⟩
    · rw [set_ne _ _ e]
      exact (h.good y).frame rfl fun u b k hu hb => hother y u b k e hu hb
  · intro q hq
    show m q = _
    rw [hout q fun b hb e => ?_]
    · exact h.ext q hq
    · have := h.blk x t b ht hb
      omega

/-- Elements of different tables are in different cells. -/
theorem apart {w : World α} (h : WInv w) {x y : Nat} {t u : Table} (hx : w.tables x = some t) (hy : w.tables y = some u)
    (hrt : Ready w t) (hru : Ready w u) (hxy : x ≠ y) {p q : List Int} (hp : InBox t.shape p) (hq : InBox u.shape q) :
    (w.container t).addr p ≠ (w.container u).addr q := by
  obtain ⟨b, hb, e1⟩ := hrt.data hp
  obtain ⟨c, hc, e2⟩ := hru.data hq
  rw [e1, e2]
  intro e
  simp only [Ptr.mk.injEq] at e
  rw [← e.1] at hc
  exact hxy (h.excl x y t u b hx hy hb hc)

theorem noClobber_tables {w : World α} (h : WInv w) {x y : Nat} {t u : Table} (hx : w.tables x = some t)
    (hy : w.tables y = some u) (hrt : Ready w t) (hru : Ready w u) (hs : u.shape = t.shape) :
    NoClobber (w.container t) (w.container u) := by
  by_cases e : x = y
  · subst e
    rw [hx] at hy; cases hy
    exact noClobber_self hrt.distinct
  · intro p q hp hq _
    exact apart h hx hy hrt hru e hq (hs ▸ hp)

theorem lookAll_ok {ext : Mem α} {base : Nat} {w : World α} {a : Values α} (h : Sim ext base w a) {s : Shape} {ys : List Nat}
    {fs : List (List Int → α)} (hy : List.Forall₂ (fun y f => a y = .value s f) ys fs) :
    ∃ us, w.lookAll ys = some us ∧
      (∀ u ∈ us, ∃ y, w.tables y = some u ∧ u.shape = s ∧ Ready w u) ∧
      ∀ p, InBox s p → (us.map w.container).mapM (fun c => c.get w.mem p) = .ok (fs.map fun f => f p) := by
  induction hy with
  | nil => exact ⟨[], rfl, by simp, fun _ _ => rfl⟩
  | @cons y f ys fs hy _ ih =>
    obtain ⟨us, h1, h2, h3⟩ := ih
    obtain ⟨u, g1, g2, g3, g4⟩ := value_ready h hy
    refine ⟨u :: us, ?_, ?_, ?_⟩
    · unfold World.lookAll at h1 ⊢
      simp [g1, h1]
    · intro v hv
      rcases List.mem_cons.1 hv with rfl | hv
      · exact ⟨y, g1, g2, g3⟩
      · exact h2 v hv
    · intro p hp
      have e1 := g4 p (show InBox u.shape p from g2 ▸ hp)
      have e2 := h3 p hp
      simp only [List.map_cons, List.mapM_cons, e1, e2, bind, Except.bind, pure, Except.pure]

end Kwk
