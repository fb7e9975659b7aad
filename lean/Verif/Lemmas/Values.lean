import Verif.Spec.Values
import Verif.Lemmas.Ownership

/-!
# Lemmas: tables as values
-/

namespace Kwk

open Spec

variable {α : Type}

theorem build_next {w w1 : World α} {a : AllocId} {s : Shape} {src : Option (Option Ptr)} {t : Table}
    (h : w.build a s src = .ok (t, w1)) : w.next ≤ w1.next := by
  have h0 : w.next ≤ (w.allocate a (numel s).toNat).2.next := by
    unfold World.allocate
    split
    · exact le_refl _
    · exact Nat.le_succ _
  unfold World.build at h
  dsimp only at h
  split at h
  · cases h; exact h0
  · split at h
    · cases h; exact h0
    · split at h
      · simp only [bind, Except.bind] at h
        split at h
        · cases h
        · cases h; exact h0
      · cases h

/-- A table keeps its value if the object and the cells of its block do not change. -/
theorem holds_frame {w w' : World α} {y : Nat} {s : Shape} {f : List Int → α} (h : Holds w y s f)
    (ht : w'.tables y = w.tables y)
    (hm : ∀ t b k, w.tables y = some t → t.data = some b → w'.mem ⟨b, k⟩ = w.mem ⟨b, k⟩) :
    Holds w' y s f := by
  obtain ⟨t, hy, hs, hr⟩ := h
  refine ⟨t, by rw [ht]; exact hy, hs, fun p hp => ?_⟩
  rw [← hr p hp]
  exact read_congr p fun b k hb => hm t b k hy hb

/-- The block of a table is an old one. -/
theorem block_lt {w : World α} (h : WInv w) {y : Nat} {t : Table} {b : Nat} (hy : w.tables y = some t)
    (hb : t.data = some b) : b < w.next := by
  obtain ⟨a, -, hl⟩ := h.lv y t b hy hb
  exact h.lt b a hl

/-- Object `x` is as described by `o`. -/
def Good (w : World α) (x : Nat) : Obj α → Prop
  | .absent => w.tables x = none
  | .unspecified => w.tables x ≠ none
  | .raw s => s ≠ [] ∧ NonNeg s ∧ ∃ t, w.tables x = some t ∧ t.shape = s ∧ ∀ p, InBox s p → ∃ v, w.read t p = .ok v
  | .value s f => s ≠ [] ∧ NonNeg s ∧ Holds w x s f

theorem Good.exists {w : World α} {x : Nat} {o : Obj α} (h : Good w x o) (ho : o ≠ .absent) :
    ∃ t, w.tables x = some t := by
  cases o with
  | absent => exact absurd rfl ho
  | unspecified => exact Option.ne_none_iff_exists'.1 h
  | raw s => exact ⟨h.2.2.choose, h.2.2.choose_spec.1⟩
  | value s f => exact ⟨h.2.2.choose, h.2.2.choose_spec.1⟩

/-- `Good` only depends on the table object and the cells of its block. -/
theorem Good.frame {w w' : World α} {x y : Nat} {o : Obj α} (h : Good w y o)
    (ht : w'.tables x = w.tables y)
    (hm : ∀ t b k, w.tables y = some t → t.data = some b → w'.mem ⟨b, k⟩ = w.mem ⟨b, k⟩) :
    Good w' x o := by
  cases o with
  | absent => exact ht.trans h
  | unspecified => intro e; exact h (ht.symm.trans e)
  | raw s =>
    obtain ⟨t, hy, hs, hr⟩ := h.2.2
    refine ⟨h.1, h.2.1, t, by rw [ht]; exact hy, hs, fun p hp => ?_⟩
    obtain ⟨v, hv⟩ := hr p hp
    refine ⟨v, ?_⟩
    rw [← hv]
    exact read_congr p fun b k hb => hm t b k hy hb
  | value s f =>
    obtain ⟨t, hy, hs, hr⟩ := h.2.2
    refine ⟨h.1, h.2.1, t, by rw [ht]; exact hy, hs, fun p hp => ?_⟩
    rw [← hr p hp]
    exact read_congr p fun b k hb => hm t b k hy hb

/-- Invariant of the simulation: `base` separates the memory of the rest of the program from the tables. -/
structure Sim (ext : Mem α) (base : Nat) (w : World α) (a : Values α) : Prop where
  inv : WInv w
  good : ∀ x, Good w x (a x)
  ext : ∀ p : Ptr, p.blk < base → w.mem p = ext p
  next : base ≤ w.next
  blk : ∀ x t b, w.tables x = some t → t.data = some b → base ≤ b

theorem step_det {w w' : World α} (h : WInv w) {op : Op α} (e : w.step op = .ok w') : WInv w' := by
  rcases step_inv h op with ⟨w1, e1, h1⟩ | ⟨e1, he, -⟩
  · rw [e] at e1; cases e1; exact h1
  · rw [e] at he; cases he

theorem set_self (a : Values α) (x : Nat) (o : Obj α) : a.set x o x = o := by simp [Values.set]

theorem set_ne (a : Values α) {x y : Nat} (o : Obj α) (h : y ≠ x) : a.set x o y = a y := by
  simp [Values.set, h]

/-- A new table under a new name. -/
theorem Sim.create {ext : Mem α} {base : Nat} {w w1 w' : World α} {a : Values α} (h : Sim ext base w a)
    {x : Nat} {t : Table} {o : Obj α} {op : Op α} (e : w.step op = .ok w')
    (htab : w'.tables = upd w.tables x (some t)) (hmem : w'.mem = w1.mem) (hnext : w'.next = w1.next)
    (hx : w.tables x = none)
    (hm : ∀ q : Ptr, q.blk ≠ w.next → w1.mem q = w.mem q) (hn : w.next ≤ w1.next)
    (hd : ∀ b, t.data = some b → b = w.next) (hg : Good w' x o) : Sim ext base w' (a.set x o) where
  inv := step_det h.inv e
  good := by
    intro y
    by_cases hy : y = x
    · subst hy; rw [set_self]; exact hg
    · rw [set_ne _ _ hy]
      refine (h.good y).frame (by rw [htab, upd_ne _ _ hy]) fun u b k hu hb => ?_
      rw [hmem]
      exact hm _ (by have := block_lt h.inv hu hb; show b ≠ _; omega)
  ext := by
    intro p hp
    rw [hmem, hm p (by have := h.next; omega)]; exact h.ext p hp
  next := by rw [hnext]; exact le_trans h.next hn
  blk := by
    intro y u b hy hb
    by_cases e : y = x
    · subst e; rw [htab, upd_self] at hy; cases hy
      rw [hd b hb]; exact h.next
    · rw [htab, upd_ne _ _ e] at hy; exact h.blk y u b hy hb

/-- `build` without a source only touches the new block. -/
theorem build_blank (w : World α) (al : AllocId) (s : Shape) (hne : s ≠ []) :
    ∃ t w1, w.build al s none = .ok (t, w1) ∧ w1.tables = w.tables ∧ w.next ≤ w1.next ∧
      (∀ q : Ptr, q.blk ≠ w.next → w1.mem q = w.mem q) ∧ (∀ b, t.data = some b → b = w.next) ∧ t.shape = s ∧
      (∀ w' : World α, w'.mem = w1.mem → ∀ p, InBox s p → ∃ v, w'.read t p = .ok v) := by
  refine ⟨⟨(w.allocate al (numel s).toNat).1, some al, s⟩, (w.allocate al (numel s).toNat).2, rfl, ?_⟩
  unfold World.allocate
  split
  · next h0 =>
    refine ⟨rfl, le_refl _, fun _ _ => rfl, by simp, rfl, fun w' _ p hp => ?_⟩
    rw [numel_eq_prod hne] at h0
    have := lin_bounds hp
    omega
  · refine ⟨rfl, Nat.le_succ _, fun q hq => ?_, ?_, rfl, fun w' hw p hp => ?_⟩
    · simp [hq]
    · intro b hb; cases hb; rfl
    · refine ⟨w.junk ⟨w.next, linearize (sfx s) p⟩, ?_⟩
      rw [read_eq (b := w.next) rfl hne hp]
      apply load_ok
      rw [hw]
      have := lin_bounds hp
      have h1 : (0 : Int) ≤ linearize (sfx s) p ∧ linearize (sfx s) p < ((numel s).toNat : Int) := by
        rw [numel_eq_prod hne]; omega
      dsimp only
      rw [if_pos rfl, if_pos h1]

theorem value_cells {w : World α} {t : Table} {f : List Int → α} (hne : t.shape ≠ [])
    (hr : ∀ p, InBox t.shape p → w.read t p = .ok (f p)) (p : List Int) (hp : InBox t.shape p) :
    ∃ q, t.ptr = some q ∧ w.mem (q.add (linearize (sfx t.shape) p)) = some (f p) := by
  obtain ⟨b, hb, hc⟩ := read_cell hne hp (hr p hp)
  exact ⟨⟨b, 0⟩, by simp [Table.ptr, hb], by simpa [Ptr.add] using hc⟩

/-- Writing one element of a table that holds `f`. -/
theorem write_holds {w : World α} {x : Nat} {s : Shape} {f : List Int → α}
    (hx : Holds w x s f) (hne : s ≠ []) {p : List Int} (hp : InBox s p) (v : α) :
    ∃ w' b, w.step (.write x p v) = .ok w' ∧ Owns w x b ∧ w'.tables = w.tables ∧ w'.next = w.next ∧
      (∀ q : Ptr, q.blk ≠ b → w'.mem q = w.mem q) ∧ Holds w' x s (replaceAt f p v) := by
  obtain ⟨t, ht, rfl, hr⟩ := hx
  obtain ⟨b, hb, hc⟩ := read_cell hne hp (hr p hp)
  have ha : ∀ q, InBox t.shape q →
      (Container.ofShape ⟨b, 0⟩ t.shape).addr q = ⟨b, linearize (sfx t.shape) q⟩ := by
    intro q hq
    rw [addr_default (ofShape_default hne) hq]
    simp [Container.ofShape, Ptr.add]
  have hst : store w.mem ⟨b, linearize (sfx t.shape) p⟩ v = .ok
      (fun q => if q = ⟨b, linearize (sfx t.shape) p⟩ then some v else w.mem q) := by
    unfold store; rw [hc]
  refine ⟨{ w with mem := fun q => if q = ⟨b, linearize (sfx t.shape) p⟩ then some v else w.mem q }, b, ?_,
    ⟨t, ht, hb⟩, ?_⟩
  · simp only [World.step, ht, hb, ha p hp, hst]; rfl
  refine ⟨rfl, rfl, fun q hq => ?_, t, ht, rfl, fun q hq => ?_⟩
  · show (if _ then _ else _) = _
    rw [if_neg]; rintro rfl; exact hq rfl
  · rw [read_eq hb hne hq]
    apply load_ok
    show (if _ then _ else _) = _
    unfold replaceAt
    by_cases e : q = p
    · subst e; simp
    · rw [if_neg e, if_neg]
      · obtain ⟨b', hb', hc'⟩ := read_cell hne hq (hr q hq)
        rw [hb] at hb'; cases hb'; exact hc'
      · intro e2
        simp only [Ptr.mk.injEq, true_and] at e2
        exact e (lin_inj hq hp e2)

/-- An existing table gets a new block. -/
theorem Sim.reassign {ext : Mem α} {base : Nat} {w w1 w2 : World α} {a : Values α} (h : Sim ext base w a)
    {x : Nat} {t tx : Table} {o : Obj α} (hi : WInv w2)
    (htab : w2.tables = upd w.tables x (some t)) (hnext : w.next ≤ w2.next) (hx : w.tables x = some tx)
    (hm2 : ∀ q : Ptr, some q.blk ≠ tx.data → w2.mem q = w1.mem q)
    (hm1 : ∀ q : Ptr, q.blk ≠ w.next → w1.mem q = w.mem q)
    (hd : ∀ b, t.data = some b → base ≤ b) (hg : Good w2 x o) : Sim ext base w2 (a.set x o) where
  inv := hi
  good := by
    intro y
    by_cases hy : y = x
    · subst hy; rw [set_self]; exact hg
    · rw [set_ne _ _ hy]
      refine (h.good y).frame (by rw [htab, upd_ne _ _ hy]) fun u b k hu hb => ?_
      rw [hm2, hm1]
      · have := block_lt h.inv hu hb; show b ≠ _; omega
      · intro e
        exact hy (h.inv.excl y x u tx b hu hx hb e.symm)
  ext := by
    intro p hp
    rw [hm2, hm1 p (by have := h.next; omega)]
    · exact h.ext p hp
    · intro e
      have := h.blk x tx p.blk hx e.symm
      omega
  next := le_trans h.next hnext
  blk := by
    intro y u b hy hb
    by_cases e : y = x
    · subst e; rw [htab, upd_self] at hy; cases hy; exact hd b hb
    · rw [htab, upd_ne _ _ e] at hy; exact h.blk y u b hy hb

theorem assign_next {w w1 w2 : World α} {x : Nat} {tx : Table} {s : Shape} {src : Option Ptr} {t : Table}
    (hb : w.build heapAlloc s (some src) = .ok (t, w1)) (e : w.assign x tx s src = .ok w2) :
    w.next ≤ w2.next := by
  have h1 := build_next hb
  simp only [World.assign, hb, bind, Except.bind, World.release] at e
  split at e
  · cases e; exact h1
  · unfold World.free at e
    split at e
    · cases e
    · split at e
      · cases e; exact h1
      · cases e

/-- One operation. -/
theorem sim_step {ext : Mem α} {base : Nat} {w : World α} {a a' : Values α} {op : Op α}
    (hold : ∀ p : Ptr, base ≤ p.blk → ext p = none) (h : Sim ext base w a) (hs : Means ext a op a') :
    ∃ w', w.step op = .ok w' ∧ Sim ext base w' a' := by
  cases hs with
  | @dflt x axes f hx hn =>
    have hx' : w.tables x = none := by have := h.good x; rw [hx] at this; exact this
    let t : Table := ⟨none, some heapAlloc, axes.map fun e => ((e.getD 0 : Nat) : Int)⟩
    have e : w.step (.dflt x axes) = .ok { w with tables := upd w.tables x (some t) } := by
      simp only [World.step, hx', if_pos hn]; rfl
    refine ⟨_, e, h.create (w1 := w) (t := t) e rfl rfl rfl hx' (fun _ _ => rfl) (le_refl _)
      (by simp [t]) ⟨?_, ?_, t, upd_self _ _ _, ?_, ?_⟩⟩
    · intro e0
      rw [List.map_eq_nil_iff] at e0
      rw [e0] at hn; cases hn
    · intro d hd
      obtain ⟨o, -, rfl⟩ := List.mem_map.1 hd
      cases o <;> simp
    · show axes.map _ = _
      apply List.map_congr_left
      intro o _
      cases o <;> rfl
    · intro p hp
      have := hp.pos 0 (List.mem_map.2 ⟨none, hn, rfl⟩)
      omega
  | @blank x al s hx hne hnn =>
    have hx' : w.tables x = none := by have := h.good x; rw [hx] at this; exact this
    obtain ⟨t, w1, eb, ht, hn, hm, hd, hsh, hr⟩ := build_blank w al s hne
    have e : w.step (.make x al s none) = .ok { w1 with tables := upd w1.tables x (some t) } := by
      simp only [World.step, hx', eb]; rfl
    refine ⟨_, e, h.create (w1 := w1) (t := t) e (by rw [← ht]) rfl rfl hx' hm hn hd ?_⟩
    exact ⟨hne, hnn, t, upd_self _ _ _, hsh, hr _ rfl⟩
  | @fill x al s src f hx hne hnn hf =>
    have hx' : w.tables x = none := by have := h.good x; rw [hx] at this; exact this
    have hsrc : ∀ p, InBox s p → w.mem (src.add (linearize (sfx s) p)) = some (f p) := by
      intro p hp
      have := hf _ p (positions_getElem? hp)
      rw [Int.toNat_of_nonneg (lin_bounds hp).1] at this
      rw [h.ext _ _, this]
      by_contra hb
      rw [hold _ (by omega)] at this
      cases this
    obtain ⟨t, w1, eb, ht, hm, hd, hr⟩ := build_holds h.inv al hne hnn (some src) f
      (fun p hp => ⟨src, rfl, hsrc p hp⟩)
    obtain ⟨-, htab, -⟩ := build_inv h.inv eb
    have e : w.step (.make x al s (some (some src))) = .ok { w1 with tables := upd w1.tables x (some t) } := by
      simp only [World.step, hx', eb]; rfl
    refine ⟨_, e, h.create (w1 := w1) (t := t) e (by rw [← htab]) rfl rfl hx' hm (build_next eb) hd ?_⟩
    exact ⟨hne, hnn, t, upd_self _ _ _, ht, hr _ fun _ => rfl⟩
  | @copy x y s f hx hy =>
    have hx' : w.tables x = none := by have := h.good x; rw [hx] at this; exact this
    have hy' := h.good y
    rw [hy] at hy'
    obtain ⟨hne, hnn, ty, hty, rfl, hr⟩ := hy'
    obtain ⟨t, w1, eb, ht, hm, hd, hr1⟩ := build_holds h.inv heapAlloc hne hnn ty.ptr f
      (value_cells hne hr)
    obtain ⟨-, htab, -⟩ := build_inv h.inv eb
    have e : w.step (.copy x y) = .ok { w1 with tables := upd w1.tables x (some t) } := by
      simp only [World.step, hx', hty, World.copyOf, eb]; rfl
    refine ⟨_, e, h.create (w1 := w1) (t := t) e (by rw [← htab]) rfl rfl hx' hm (build_next eb) hd ?_⟩
    exact ⟨hne, hnn, t, upd_self _ _ _, ht, hr1 _ fun _ => rfl⟩
  | @move x y hx hy =>
    have hx' : w.tables x = none := by have := h.good x; rw [hx] at this; exact this
    obtain ⟨ty, hty⟩ := (h.good y).exists hy
    have hxy : y ≠ x := by rintro rfl; rw [hx'] at hty; cases hty
    have e : w.step (.move x y) = .ok
        { w with tables := upd (upd w.tables y (some ⟨none, none, ty.shape⟩)) x (some ty) } := by
      simp only [World.step, hx', hty]
    refine ⟨_, e, step_det h.inv e, ?_, h.ext, h.next, ?_⟩
    · intro z
      by_cases hzx : z = x
      · subst hzx; rw [set_self]
        exact (h.good y).frame (by rw [hty]; exact upd_self _ _ _) fun _ _ _ _ _ => rfl
      · rw [set_ne _ _ hzx]
        by_cases hzy : z = y
        · subst hzy; rw [set_self]
          show upd _ _ _ _ ≠ none
          rw [upd_ne _ _ hzx, upd_self]; simp
        · rw [set_ne _ _ hzy]
          exact (h.good z).frame (by show upd _ _ _ _ = _; rw [upd_ne _ _ hzx, upd_ne _ _ hzy])
            fun _ _ _ _ _ => rfl
    · intro z u b hz hb
      change upd _ _ _ _ = _ at hz
      by_cases hzx : z = x
      · subst hzx; rw [upd_self] at hz; cases hz; exact h.blk y _ b hty hb
      · rw [upd_ne _ _ hzx] at hz
        by_cases hzy : z = y
        · subst hzy; rw [upd_self] at hz; cases hz; cases hb
        · rw [upd_ne _ _ hzy] at hz; exact h.blk z u b hz hb
  | @copyAssign x y s f hx hy =>
    obtain ⟨tx, htx⟩ := (h.good x).exists hx
    have hy' := h.good y
    rw [hy] at hy'
    obtain ⟨hne, hnn, ty, hty, rfl, hr⟩ := hy'
    obtain ⟨t, w1, eb, ht, hm, hd, hr1⟩ := build_holds h.inv heapAlloc hne hnn ty.ptr f
      (value_cells hne hr)
    obtain ⟨w2, e2, hi2, htab, hmem⟩ := assign_inv h.inv htx eb
    have e : w.step (.copyAssign x y) = .ok w2 := by
      simp only [World.step, htx, hty]; exact e2
    refine ⟨_, e, h.reassign hi2 htab (assign_next eb e2) htx hmem hm ?_ ?_⟩
    · intro b hb; rw [hd b hb]; exact h.next
    · refine ⟨hne, hnn, t, by rw [htab, upd_self], ht, hr1 w2 fun k => hmem _ ?_⟩
      intro e
      have := block_lt h.inv htx e.symm
      simp at this
  | @moveAssign x y hx hy =>
    obtain ⟨tx, htx⟩ := (h.good x).exists hx
    obtain ⟨ty, hty⟩ := (h.good y).exists hy
    by_cases hxy : x = y
    · subst hxy
      refine ⟨w, moveAssign_self htx, ?_⟩
      have : (a.set x .unspecified).set x (a x) = a := by
        funext z; by_cases e : z = x
        · subst e; rw [set_self]
        · rw [set_ne _ _ e, set_ne _ _ e]
      rw [this]; exact h
    obtain ⟨w1, e1, et, en, -, em, -⟩ := release_inv h.inv htx
    have e : w.step (.moveAssign x y) = .ok
        { w1 with tables := upd (upd w.tables y (some ⟨none, none, ty.shape⟩)) x (some ty) } := by
      rw [moveAssign_eq hxy htx hty, e1]; rfl
    have hfr : ∀ z u b k, z ≠ x → w.tables z = some u → u.data = some b → w1.mem ⟨b, k⟩ = w.mem ⟨b, k⟩ := by
      intro z u b k hz hu hb
      apply em
      intro e
      exact hz (h.inv.excl z x u tx b hu htx hb e.symm)
    refine ⟨_, e, step_det h.inv e, ?_, ?_, ?_, ?_⟩
    · intro z
      by_cases hzx : z = x
      · subst hzx; rw [set_self]
        exact (h.good y).frame (by rw [hty]; exact upd_self _ _ _)
          fun u b k hu hb => hfr y u b k (Ne.symm hxy) hu hb
      · rw [set_ne _ _ hzx]
        by_cases hzy : z = y
        · subst hzy; rw [set_self]
          show upd _ _ _ _ ≠ none
          rw [upd_ne _ _ hzx, upd_self]; simp
        · rw [set_ne _ _ hzy]
          exact (h.good z).frame (by show upd _ _ _ _ = _; rw [upd_ne _ _ hzx, upd_ne _ _ hzy])
            fun u b k hu hb => hfr z u b k hzx hu hb
    · intro p hp
      show w1.mem p = _
      rw [em, h.ext p hp]
      intro e
      have := h.blk x tx p.blk htx e.symm
      omega
    · show _ ≤ w1.next
      rw [en]; exact h.next
    · intro z u b hz hb
      change upd _ _ _ _ = _ at hz
      by_cases hzx : z = x
      · subst hzx; rw [upd_self] at hz; cases hz; exact h.blk y _ b hty hb
      · rw [upd_ne _ _ hzx] at hz
        by_cases hzy : z = y
        · subst hzy; rw [upd_self] at hz; cases hz; cases hb
        · rw [upd_ne _ _ hzy] at hz; exact h.blk z u b hz hb
  | @swap x y hx hy =>
    obtain ⟨tx, htx⟩ := (h.good x).exists hx
    obtain ⟨ty, hty⟩ := (h.good y).exists hy
    have e : w.step (.swap x y) = .ok
        { w with tables := upd (upd w.tables x (some ty)) y (some tx) } := by
      simp only [World.step, htx, hty]
    refine ⟨_, e, step_det h.inv e, ?_, h.ext, h.next, ?_⟩
    · intro z
      by_cases hzy : z = y
      · subst hzy; rw [set_self]
        exact (h.good x).frame (by rw [htx]; exact upd_self _ _ _) fun _ _ _ _ _ => rfl
      · rw [set_ne _ _ hzy]
        by_cases hzx : z = x
        · subst hzx; rw [set_self]
          exact (h.good y).frame (by rw [hty]; show upd _ _ _ _ = _; rw [upd_ne _ _ hzy, upd_self])
            fun _ _ _ _ _ => rfl
        · rw [set_ne _ _ hzx]
          exact (h.good z).frame (by show upd _ _ _ _ = _; rw [upd_ne _ _ hzy, upd_ne _ _ hzx])
            fun _ _ _ _ _ => rfl
    · intro z u b hz hb
      change upd _ _ _ _ = _ at hz
      by_cases hzy : z = y
      · subst hzy; rw [upd_self] at hz; cases hz; exact h.blk x _ b htx hb
      · rw [upd_ne _ _ hzy] at hz
        by_cases hzx : z = x
        · subst hzx; rw [upd_self] at hz; cases hz; exact h.blk y _ b hty hb
        · rw [upd_ne _ _ hzx] at hz; exact h.blk z u b hz hb
  | @destroy x hx =>
    obtain ⟨tx, htx⟩ := (h.good x).exists hx
    have hw : ∀ w1, w.release tx = .ok w1 →
        ({ w with tables := upd w.tables x none } : World α).release tx
          = .ok { w1 with tables := upd w.tables x none } := by
      intro w1 e1
      unfold World.release World.free at *
      cases hd : tx.data with
      | none => rw [hd] at e1; cases e1; rfl
      | some b =>
        rw [hd] at e1
        dsimp only at e1 ⊢
        split at e1
        · cases e1
        · split at e1
          · next hl => cases e1; rw [if_pos hl]
          · cases e1
    obtain ⟨w1, e1, et, en, -, em, -⟩ := release_inv h.inv htx
    have e : w.step (.destroy x) = .ok { w1 with tables := upd w.tables x none } := by
      simp only [World.step, htx]; exact hw w1 e1
    refine ⟨_, e, step_det h.inv e, ?_, ?_, ?_, ?_⟩
    · intro z
      by_cases hzx : z = x
      · subst hzx; rw [set_self]; exact upd_self _ _ _
      · rw [set_ne _ _ hzx]
        refine (h.good z).frame (by show upd _ _ _ _ = _; rw [upd_ne _ _ hzx]) fun u b k hu hb => ?_
        apply em
        intro e
        exact hzx (h.inv.excl z x u tx b hu htx hb e.symm)
    · intro p hp
      show w1.mem p = _
      rw [em, h.ext p hp]
      intro e
      have := h.blk x tx p.blk htx e.symm
      omega
    · show _ ≤ w1.next
      rw [en]; exact h.next
    · intro z u b hz hb
      change upd _ _ _ _ = _ at hz
      by_cases hzx : z = x
      · subst hzx; rw [upd_self] at hz; cases hz
      · rw [upd_ne _ _ hzx] at hz; exact h.blk z u b hz hb
  | @write x s f p v hx hp =>
    have hx' := h.good x
    rw [hx] at hx'
    obtain ⟨hne, hnn, hh⟩ := hx'
    obtain ⟨w', b0, e, ⟨tx, htx, hb0⟩, et, en, em, hw⟩ := write_holds hh hne hp v
    refine ⟨w', e, step_det h.inv e, ?_, ?_, ?_, ?_⟩
    · intro z
      by_cases hzx : z = x
      · subst hzx; rw [set_self]; exact ⟨hne, hnn, hw⟩
      · rw [set_ne _ _ hzx]
        refine (h.good z).frame (by rw [et]) fun u b k hu hb => ?_
        apply em
        rintro rfl
        exact hzx (h.inv.excl z x u tx _ hu htx hb hb0)
    · intro q hq
      rw [em, h.ext q hq]
      rintro rfl
      have := h.blk x tx q.blk htx hb0
      omega
    · rw [en]; exact h.next
    · rw [et]; exact h.blk

/-- A whole program. -/
theorem sim_run {ext : Mem α} {base : Nat} {a a' : Values α} {ops : List (Op α)}
    (hold : ∀ p : Ptr, base ≤ p.blk → ext p = none) (hs : MeansAll ext a ops a') {w : World α}
    (h : Sim ext base w a) : ∃ w', w.run ops = .ok w' ∧ Sim ext base w' a' := by
  induction hs generalizing w with
  | nil => exact ⟨w, rfl, h⟩
  | cons h1 _ ih =>
    obtain ⟨w1, e1, hw1⟩ := sim_step hold h h1
    obtain ⟨w2, e2, hw2⟩ := ih hw1
    refine ⟨w2, ?_, hw2⟩
    rw [← e2]
    simp [World.run, e1, bind, Except.bind]

theorem Sim.shows {ext : Mem α} {base : Nat} {w : World α} {a : Values α} (h : Sim ext base w a) :
    Shows w a := by
  intro x
  have := h.good x
  cases hx : a x with
  | absent => rw [hx] at this; exact this
  | unspecified => rw [hx] at this; exact this
  | raw s =>
    rw [hx] at this
    obtain ⟨-, -, t, h1, h2, -⟩ := this
    exact ⟨t, h1, h2⟩
  | value s f => rw [hx] at this; exact this.2.2

theorem fresh_sim {w : World α} (h : Fresh w) : Sim w.mem w.next w (fun _ => .absent) where
  inv := fresh_inv h
  good := fun x => h.noTable x
  ext := fun _ _ => rfl
  next := le_refl _
  blk := by intro x t b hx; rw [h.noTable] at hx; cases hx

end Kwk
