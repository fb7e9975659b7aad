import Verif.Lemmas.Contiguous
import Verif.Spec.Owned

/-! # Helper lemmas about tables and the memory they own -/

namespace Kwk
open Spec

variable {α : Type} {ι κ : Type}

/-- Invariant of the heap for a family of tables (named objects and temporaries). -/
structure HeapInv (tabs : ι → Option Table) (mem : Mem α) (live : Nat → Option AllocId) (next : Nat) :
    Prop where
  excl : ∀ x y t u b, tabs x = some t → tabs y = some u → t.data = some b → u.data = some b → x = y
  lv : ∀ x t b, tabs x = some t → t.data = some b → ∃ a, t.alloc = some a ∧ live b = some a
  own : ∀ b a, live b = some a → ∃ x t, tabs x = some t ∧ t.data = some b
  lt : ∀ b a, live b = some a → b < next
  cells : ∀ x t b, tabs x = some t → t.data = some b → ∀ k : Int, 0 ≤ k → k < numel t.shape →
    (mem ⟨b, k⟩).isSome
  old : ∀ p : Ptr, next ≤ p.blk → mem p = none

/-- The tables of the world and a temporary one. -/
def withLocal (tabs : Nat → Option Table) (t : Table) : Option Nat → Option Table
  | none => some t
  | some x => tabs x

/-- The invariant of a state. -/
abbrev WInv (w : World α) : Prop := HeapInv w.tables w.mem w.live w.next

theorem upd_self {β : Type} (f : Nat → β) (x : Nat) (v : β) : upd f x v x = v := by simp [upd]

theorem upd_ne {β : Type} (f : Nat → β) {x y : Nat} (v : β) (h : y ≠ x) : upd f x v y = f y := by
  simp [upd, h]

theorem store_isSome {m m' : Mem α} {a : Ptr} {v : α} (h : store m a v = .ok m') (p : Ptr) :
    (m' p).isSome = (m p).isSome := by
  unfold store at h
  split at h
  · next e =>
    cases h
    dsimp only
    split
    · next e2 => rw [e2, e]; rfl
    · rfl
  · cases h

theorem copyCells_isSome {m m' : Mem α} {src dst : Ptr} {n : Nat} (h : copyCells m src dst n = .ok m')
    (p : Ptr) : (m' p).isSome = (m p).isSome := by
  induction n generalizing m' with
  | zero => cases h; rfl
  | succ n ih =>
    simp only [copyCells, bind, Except.bind] at h
    split at h
    · cases h
    · next m1 e1 =>
      split at h
      · cases h
      · rw [store_isSome h, ih e1]

theorem load_error {m : Mem α} {a : Ptr} {e : Fault} (h : load m a = .error e) : e = .outOfBounds := by
  unfold load at h; split at h <;> cases h; rfl

theorem store_error {m : Mem α} {a : Ptr} {v : α} {e : Fault} (h : store m a v = .error e) :
    e = .outOfBounds := by
  unfold store at h; split at h <;> cases h; rfl

theorem copyCells_error {m : Mem α} {src dst : Ptr} {n : Nat} {e : Fault}
    (h : copyCells m src dst n = .error e) : e = .outOfBounds := by
  induction n with
  | zero => cases h
  | succ n ih =>
    simp only [copyCells, bind, Except.bind] at h
    split at h
    · next e1 => cases h; exact ih e1
    · split at h
      · next e2 => cases h; exact load_error e2
      · exact store_error h

/-- Renaming and forgetting tables that own nothing. -/
theorem HeapInv.relocate {tabs : ι → Option Table} {mem : Mem α} {live : Nat → Option AllocId}
    {next : Nat} (h : HeapInv tabs mem live next) (tabs' : κ → Option Table) (σ : κ → ι)
    (h1 : ∀ x t b, tabs' x = some t → t.data = some b →
      ∃ t0, tabs (σ x) = some t0 ∧ t0.data = t.data ∧ t0.alloc = t.alloc ∧ t0.shape = t.shape)
    (h2 : ∀ x y t u b, tabs' x = some t → tabs' y = some u → t.data = some b → u.data = some b →
      σ x = σ y → x = y)
    (h3 : ∀ y t b, tabs y = some t → t.data = some b → ∃ x t', tabs' x = some t' ∧ t'.data = some b) :
    HeapInv tabs' mem live next where
  excl := by
    intro x y t u b hx hy ht hu
    obtain ⟨t0, e1, d1, -, -⟩ := h1 x t b hx ht
    obtain ⟨u0, e2, d2, -, -⟩ := h1 y u b hy hu
    exact h2 x y t u b hx hy ht hu (h.excl _ _ _ _ b e1 e2 (d1.trans ht) (d2.trans hu))
  lv := by
    intro x t b hx ht
    obtain ⟨t0, e1, d1, a1, -⟩ := h1 x t b hx ht
    rw [← a1]; exact h.lv _ _ b e1 (d1.trans ht)
  own := by
    intro b a hb
    obtain ⟨y, t, hy, ht⟩ := h.own b a hb
    exact h3 y t b hy ht
  lt := h.lt
  cells := by
    intro x t b hx ht
    obtain ⟨t0, e1, d1, -, s1⟩ := h1 x t b hx ht
    rw [← s1]; exact h.cells _ _ b e1 (d1.trans ht)
  old := h.old

/-- Changing the contents of cells. -/
theorem HeapInv.setMem {tabs : ι → Option Table} {mem mem' : Mem α} {live : Nat → Option AllocId}
    {next : Nat} (h : HeapInv tabs mem live next) (hm : ∀ p, (mem' p).isSome = (mem p).isSome) :
    HeapInv tabs mem' live next :=
  { h with
    cells := fun x t b hx ht k h0 hk => by rw [hm]; exact h.cells x t b hx ht k h0 hk
    old := fun p hp => by
      have := hm p
      rw [h.old p hp] at this
      simpa using this }

/-- Allocation gives a temporary table that owns a new block. -/
theorem allocate_inv {w : World α} (h : WInv w) (a : AllocId) (s : Shape) :
    HeapInv (withLocal w.tables ⟨(w.allocate a (numel s).toNat).1, some a, s⟩)
      (w.allocate a (numel s).toNat).2.mem (w.allocate a (numel s).toNat).2.live
      (w.allocate a (numel s).toNat).2.next ∧
    (w.allocate a (numel s).toNat).2.tables = w.tables := by
  unfold World.allocate
  by_cases hn : (numel s).toNat = 0
  · rw [if_pos hn]
    refine ⟨h.relocate _ (fun o => o.getD 0) ?_ ?_ ?_, rfl⟩
    · rintro (_ | x) t b hx ht
      · cases hx; cases ht
      · exact ⟨t, hx, rfl, rfl, rfl⟩
    · rintro (_ | x) (_ | y) t u b hx hy ht hu e
      · rfl
      · cases hx; cases ht
      · cases hy; cases hu
      · exact congrArg some e
    · intro y t b hy ht
      exact ⟨some y, t, hy, ht⟩
  · rw [if_neg hn]
    refine ⟨?_, rfl⟩
    have hne : ∀ x t b, w.tables x = some t → t.data = some b → b ≠ w.next := by
      intro x t b hx ht e
      obtain ⟨a, -, hl⟩ := h.lv x t b hx ht
      have := h.lt b a hl
      omega
    constructor
    · rintro (_ | x) (_ | y) t u b hx hy ht hu
      · rfl
      · cases hx; cases ht; exact absurd rfl (hne _ _ _ hy hu)
      · cases hy; cases hu; exact absurd rfl (hne _ _ _ hx ht)
      · exact congrArg some (h.excl x y t u b hx hy ht hu)
    · rintro (_ | x) t b hx ht
      · cases hx; cases ht; exact ⟨a, rfl, upd_self _ _ _⟩
      · obtain ⟨a', e1, e2⟩ := h.lv x t b hx ht
        exact ⟨a', e1, by dsimp only; rw [upd_ne _ _ (hne x t b hx ht)]; exact e2⟩
    · intro b a' hb
      dsimp only at hb
      by_cases hbn : b = w.next
      · subst hbn; exact ⟨none, _, rfl, rfl⟩
      · rw [upd_ne _ _ hbn] at hb
        obtain ⟨x, t, hx, ht⟩ := h.own b a' hb
        exact ⟨some x, t, hx, ht⟩
    · intro b a' hb
      dsimp only at hb ⊢
      by_cases hbn : b = w.next
      · omega
      · rw [upd_ne _ _ hbn] at hb
        have := h.lt b a' hb; omega
    · rintro (_ | x) t b hx ht k h0 hk
      · cases hx; cases ht
        dsimp only at hk ⊢
        rw [if_pos rfl, if_pos ⟨h0, by omega⟩]; rfl
      · dsimp only
        rw [if_neg (hne x t b hx ht)]
        exact h.cells x t b hx ht k h0 hk
    · intro p hp
      dsimp only at hp ⊢
      rw [if_neg (by omega)]
      exact h.old p (by omega)

/-- Construction: the new table is a temporary. -/
theorem build_inv {w w1 : World α} (h : WInv w) {a : AllocId} {s : Shape} {src : Option (Option Ptr)}
    {t : Table} (hb : w.build a s src = .ok (t, w1)) :
    HeapInv (withLocal w.tables t) w1.mem w1.live w1.next ∧ w1.tables = w.tables ∧ t.shape = s := by
  obtain ⟨h1, h2⟩ := allocate_inv h a s
  unfold World.build at hb
  dsimp only at hb
  split at hb
  · cases hb; exact ⟨h1, h2, rfl⟩
  · split at hb
    · cases hb; exact ⟨h1, h2, rfl⟩
    · split at hb
      · simp only [bind, Except.bind] at hb
        split at hb
        · cases hb
        · next e => cases hb; exact ⟨h1.setMem (copyCells_isSome e), h2, rfl⟩
      · cases hb

theorem build_error {w : World α} {a : AllocId} {s : Shape} {src : Option (Option Ptr)} {e : Fault}
    (hb : w.build a s src = .error e) : src ≠ none ∧ (e = .outOfBounds ∨ e = .nullDeref) := by
  unfold World.build at hb
  dsimp only at hb
  split at hb
  · cases hb
  · refine ⟨by simp, ?_⟩
    split at hb
    · cases hb
    · split at hb
      · simp only [bind, Except.bind] at hb
        split at hb
        · next e => cases hb; exact .inl (copyCells_error e)
        · cases hb
      · cases hb; exact .inr rfl

/-- Release of the block of one table of a family. -/
theorem release_inv {tabs : ι → Option Table} {w : World α}
    (h : HeapInv tabs w.mem w.live w.next) {z : ι} {t : Table} (hz : tabs z = some t) :
    ∃ w1, w.release t = .ok w1 ∧ w1.tables = w.tables ∧ w1.next = w.next ∧ w1.junk = w.junk ∧
      (∀ p : Ptr, some p.blk ≠ t.data → w1.mem p = w.mem p) ∧
      (∀ tabs' : ι → Option Table, (∀ x, x ≠ z → tabs' x = tabs x) →
        (∀ u, tabs' z = some u → u.data = none) → HeapInv tabs' w1.mem w1.live w1.next) := by
  cases hd : t.data with
  | none =>
    refine ⟨w, by simp [World.release, hd], rfl, rfl, rfl, fun _ _ => rfl, ?_⟩
    intro tabs' h1 h2
    have hne : ∀ x t b, tabs' x = some t → t.data = some b → x ≠ z := by
      rintro x t b hx ht rfl
      rw [h2 t hx] at ht; cases ht
    refine h.relocate _ id ?_ ?_ ?_
    · intro x t b hx ht
      refine ⟨t, ?_, rfl, rfl, rfl⟩
      rw [id, ← h1 x (hne x t b hx ht)]; exact hx
    · intro x y _ _ _ _ _ _ _ e; exact e
    · intro y u b hy hu
      have : y ≠ z := by
        rintro rfl
        rw [hz] at hy; cases hy; rw [hd] at hu; cases hu
      exact ⟨y, u, by rw [h1 y this]; exact hy, hu⟩
  | some b =>
    obtain ⟨a, ha, hl⟩ := h.lv z t b hz hd
    refine ⟨{ w with mem := fun p => if p.blk = b then none else w.mem p, live := upd w.live b none },
      by simp only [World.release, hd, World.free, ha, if_pos hl], rfl, rfl, rfl, ?_, ?_⟩
    · intro p hp
      dsimp only
      rw [if_neg (by rintro rfl; exact hp rfl)]
    · intro tabs' h1 h2
      have hne : ∀ x u c, tabs' x = some u → u.data = some c → x ≠ z ∧ tabs x = some u ∧ c ≠ b := by
        intro x u c hx hu
        have hxz : x ≠ z := by
          rintro rfl
          rw [h2 u hx] at hu; cases hu
        refine ⟨hxz, by rw [← h1 x hxz]; exact hx, ?_⟩
        rintro rfl
        exact hxz (h.excl x z u t c (by rw [← h1 x hxz]; exact hx) hz hu hd)
      constructor
      · intro x y u v c hx hy hu hv
        exact h.excl x y u v c (hne x u c hx hu).2.1 (hne y v c hy hv).2.1 hu hv
      · intro x u c hx hu
        obtain ⟨-, e1, e2⟩ := hne x u c hx hu
        obtain ⟨a', q1, q2⟩ := h.lv x u c e1 hu
        exact ⟨a', q1, by try dsimp only; rw [upd_ne _ _ e2]; exact q2⟩
      · intro c a' hc
        try dsimp only at hc
        by_cases hcb : c = b
        · subst hcb; rw [upd_self] at hc; cases hc
        · rw [upd_ne _ _ hcb] at hc
          obtain ⟨x, u, hx, hu⟩ := h.own c a' hc
          have : x ≠ z := by
            rintro rfl
            rw [hz] at hx; cases hx; rw [hd] at hu; cases hu; exact hcb rfl
          exact ⟨x, u, by rw [h1 x this]; exact hx, hu⟩
      · intro c a' hc
        try dsimp only at hc
        by_cases hcb : c = b
        · subst hcb; rw [upd_self] at hc; cases hc
        · rw [upd_ne _ _ hcb] at hc; exact h.lt c a' hc
      · intro x u c hx hu k h0 hk
        obtain ⟨-, e1, e2⟩ := hne x u c hx hu
        try dsimp only
        rw [if_neg e2]
        exact h.cells x u c e1 hu k h0 hk
      · intro p hp
        try dsimp only
        split
        · rfl
        · exact h.old p hp

/-- A temporary becomes the named object `x`, which did not exist. -/
theorem name_inv {tabs : Nat → Option Table} {mem : Mem α} {live : Nat → Option AllocId} {next : Nat}
    {t : Table} (h : HeapInv (withLocal tabs t) mem live next) {x : Nat}
    (hx : ∀ u, tabs x = some u → u.data = none) : HeapInv (upd tabs x (some t)) mem live next := by
  refine h.relocate _ (fun y => if y = x then none else some y) ?_ ?_ ?_
  · intro y u b hy hu
    try dsimp only
    split
    · next e => subst e; rw [upd_self] at hy; cases hy; exact ⟨t, rfl, rfl, rfl, rfl⟩
    · next e => rw [upd_ne _ _ e] at hy; exact ⟨u, hy, rfl, rfl, rfl⟩
  · intro y z _ _ _ _ _ _ _ e
    try dsimp only at e
    split at e <;> split at e
    · next e1 e2 => rw [e1, e2]
    · cases e
    · cases e
    · cases e; rfl
  · rintro (_ | y) u b hy hu
    · cases hy; exact ⟨x, t, upd_self _ _ _, hu⟩
    · refine ⟨y, u, ?_, hu⟩
      have : y ≠ x := by rintro rfl; rw [hx u hy] at hu; cases hu
      rw [upd_ne _ _ this]; exact hy

/-- Assignment: the local copy is swapped in and the old contents are released. -/
theorem assign_inv {w : World α} (h : WInv w) {x : Nat} {tx : Table} (hx : w.tables x = some tx)
    {s : Shape} {src : Option Ptr} {t : Table} {w1 : World α}
    (hb : w.build heapAlloc s (some src) = .ok (t, w1)) :
    ∃ w2, w.assign x tx s src = .ok w2 ∧ WInv w2 ∧ w2.tables = upd w.tables x (some t) ∧
      (∀ p : Ptr, some p.blk ≠ tx.data → w2.mem p = w1.mem p) := by
  obtain ⟨h1, h2, -⟩ := build_inv h hb
  -- after the swap
  have h3 : HeapInv (withLocal (upd w.tables x (some t)) tx) w1.mem w1.live w1.next := by
    refine h1.relocate _ (fun y => if y = some x then none else if y = none then some x else y)
      ?_ ?_ ?_
    · rintro (_ | y) u b hy hu
      · cases hy; exact ⟨tx, by simpa [withLocal] using hx, rfl, rfl, rfl⟩
      · by_cases e : y = x
        · subst e
          simp only [withLocal, upd_self] at hy; cases hy
          exact ⟨t, by simp [withLocal], rfl, rfl, rfl⟩
        · simp only [withLocal, upd_ne _ _ e] at hy
          exact ⟨u, by simpa [withLocal, e] using hy, rfl, rfl, rfl⟩
    · rintro (_ | y) (_ | z) _ _ _ _ _ _ _ e
      · rfl
      · by_cases ez : z = x
        · simp [ez] at e
        · simp [ez] at e; exact absurd e.symm ez
      · by_cases ey : y = x
        · simp [ey] at e
        · simp [ey] at e
      · by_cases ey : y = x <;> by_cases ez : z = x
        · rw [ey, ez]
        · simp [ey, ez] at e
        · simp [ey, ez] at e
        · simpa [ey, ez] using e
    · rintro (_ | y) u b hy hu
      · cases hy; exact ⟨some x, t, by simp [withLocal, upd_self], hu⟩
      · by_cases e : y = x
        · subst e
          simp only [withLocal] at hy
          rw [hx] at hy; cases hy
          exact ⟨none, tx, rfl, hu⟩
        · exact ⟨some y, u, by simpa [withLocal, upd_ne _ _ e] using hy, hu⟩
  obtain ⟨w2, e2, et, en, -, em, hi⟩ :=
    release_inv (w := { w1 with tables := upd w1.tables x (some t) }) h3 (z := none) rfl
  have htab : w2.tables = upd w.tables x (some t) := by rw [et, h2]
  refine ⟨w2, ?_, ?_, htab, em⟩
  · unfold World.assign
    simp only [bind, Except.bind, hb]
    exact e2
  · have := hi (fun o => o.bind w2.tables)
      (by rintro (_ | y) hy
          · exact absurd rfl hy
          · simp [withLocal, htab])
      (by simp)
    refine this.relocate _ some ?_ ?_ ?_
    · intro y u b hy hu; exact ⟨u, hy, rfl, rfl, rfl⟩
    · intro y z _ _ _ _ _ _ _ e; exact Option.some.inj e
    · rintro (_ | y) u b hy hu
      · cases hy
      · exact ⟨y, u, hy, hu⟩

/-- A construction followed by naming the object. -/
theorem make_inv {w w1 : World α} (h : WInv w) {x : Nat} (hx : w.tables x = none) {a : AllocId}
    {s : Shape} {src : Option (Option Ptr)} {t : Table} (hb : w.build a s src = .ok (t, w1)) :
    WInv { w1 with tables := upd w1.tables x (some t) } := by
  obtain ⟨h1, h2, -⟩ := build_inv h hb
  show HeapInv (upd w1.tables x (some t)) w1.mem w1.live w1.next
  rw [h2]
  exact name_inv h1 (by simp [hx])

/-- Move assignment between different objects. -/
theorem moveAssign_eq {w : World α} {x y : Nat} {tx ty : Table} (hne : x ≠ y)
    (hx : w.tables x = some tx) (hy : w.tables y = some ty) :
    w.step (.moveAssign x y) = (do
      let w1 ← w.release tx
      return { w1 with tables := upd (upd w.tables y (some ⟨none, none, ty.shape⟩)) x (some ty) }) := by
  simp only [World.step, hx, hy, upd_ne _ _ hne]
  have hrel : ∀ tabs : Nat → Option Table, ({ w with tables := tabs } : World α).release tx =
      (do let w1 ← w.release tx; return { w1 with tables := tabs }) := by
    intro tabs
    unfold World.release
    split
    · rfl
    · unfold World.free
      split
      · rfl
      · dsimp only; split <;> rfl
  rw [hrel]
  cases w.release tx with
  | error e => rfl
  | ok w1 =>
    simp only [bind, Except.bind, pure, Except.pure]
    congr 2
    funext z
    simp only [upd, hne, hne.symm, if_true, if_false]
    by_cases e1 : z = x
    · simp [e1]
    · by_cases e2 : z = y <;> simp [e1, e2, hne.symm]

theorem moveAssign_self {w : World α} {x : Nat} {tx : Table} (hx : w.tables x = some tx) :
    w.step (.moveAssign x x) = .ok w := by
  have ht : ∀ f : Nat → Option Table, f x = some tx → upd f x (some tx) = f := by
    intro f hf; funext z; by_cases e : z = x <;> simp [upd, e, hf]
  simp only [World.step, hx, upd_self, World.release, bind, Except.bind, pure, Except.pure]
  congr 1
  obtain ⟨mem, live, next, junk, tables⟩ := w
  simp only [World.mk.injEq, true_and]
  funext z
  by_cases e : z = x
  · subst e; simp only [upd, if_true, Option.bind]; exact hx.symm
  · simp [upd, e]

/-- Every operation keeps the invariant and never releases a block wrongly. -/
theorem step_inv {w : World α} (h : WInv w) (op : Op α) :
    (∃ w', w.step op = .ok w' ∧ WInv w') ∨
    ∃ e, w.step op = .error e ∧ (e = .outOfBounds ∨ e = .nullDeref) := by
  cases op with
  | dflt x axes =>
    left
    simp only [World.step]
    split
    · exact ⟨w, rfl, h⟩
    · next hx =>
      split
      · refine ⟨_, rfl, ?_⟩
        refine h.relocate _ id ?_ (fun y z _ _ _ _ _ _ _ e => e) ?_
        · intro y u b hy hu
          dsimp only at hy
          by_cases e : y = x
          · subst e; rw [upd_self] at hy; cases hy; cases hu
          · rw [upd_ne _ _ e] at hy; exact ⟨u, hy, rfl, rfl, rfl⟩
        · intro y u b hy hu
          refine ⟨y, u, ?_, hu⟩
          have : y ≠ x := by rintro rfl; rw [hx] at hy; cases hy
          dsimp only
          rw [upd_ne _ _ this]; exact hy
      · exact ⟨w, rfl, h⟩
  | make x a s src =>
    simp only [World.step]
    split
    · exact .inl ⟨w, rfl, h⟩
    · next hx =>
      cases hb : w.build a s src with
      | error e => exact .inr ⟨e, rfl, (build_error hb).2⟩
      | ok r => exact .inl ⟨_, rfl, make_inv h hx hb⟩
  | copy x y =>
    simp only [World.step]
    split
    · next hx hy =>
      simp only [World.copyOf]
      cases hb : w.build heapAlloc _ _ with
      | error e => exact .inr ⟨e, rfl, (build_error hb).2⟩
      | ok r => exact .inl ⟨_, rfl, make_inv h hx hb⟩
    · exact .inl ⟨w, rfl, h⟩
  | copyFrom x c =>
    simp only [World.step]
    split
    · exact .inl ⟨w, rfl, h⟩
    · next hx =>
      cases hb : w.build heapAlloc _ _ with
      | error e => exact .inr ⟨e, rfl, (build_error hb).2⟩
      | ok r => exact .inl ⟨_, rfl, make_inv h hx hb⟩
  | move x y =>
    left
    simp only [World.step]
    split
    · next ty hx hy =>
      refine ⟨_, rfl, ?_⟩
      have hxy : x ≠ y := by rintro rfl; rw [hx] at hy; cases hy
      refine h.relocate _ (fun z => if z = x then y else z) ?_ ?_ ?_
      · intro z u b hz hu
        dsimp only at hz
        by_cases e : z = x
        · subst e; rw [upd_self] at hz; cases hz
          exact ⟨_, by simpa using hy, rfl, rfl, rfl⟩
        · rw [upd_ne _ _ e] at hz
          by_cases e2 : z = y
          · subst e2; rw [upd_self] at hz; cases hz; cases hu
          · rw [upd_ne _ _ e2] at hz
            exact ⟨u, by simpa [e] using hz, rfl, rfl, rfl⟩
      · intro z z' u u' b hz hz' hu hu' e
        have key : ∀ z u, upd (upd w.tables y (some ⟨none, none, ty.shape⟩)) x (some ty) z = some u →
            u.data = some b → z ≠ y := by
          rintro z u hz hu rfl
          rw [upd_ne _ _ hxy.symm, upd_self] at hz; cases hz; cases hu
        have k1 := key z u hz hu
        have k2 := key z' u' hz' hu'
        try dsimp only at e
        split at e <;> split at e <;> simp_all
      · intro z u b hz hu
        by_cases e : z = y
        · subst e; rw [hy] at hz; cases hz
          exact ⟨x, _, upd_self _ _ _, hu⟩
        · have : z ≠ x := by rintro rfl; rw [hx] at hz; cases hz
          exact ⟨z, u, by dsimp only; rw [upd_ne _ _ this, upd_ne _ _ e]; exact hz, hu⟩
    · exact ⟨w, rfl, h⟩
  | copyAssign x y =>
    simp only [World.step]
    split
    · next tx ty hx hy =>
      cases hb : w.build heapAlloc ty.shape (some ty.ptr) with
      | error e =>
        exact .inr ⟨e, by simp [World.assign, hb, bind, Except.bind], (build_error hb).2⟩
      | ok r =>
        obtain ⟨w2, e2, hw2, -⟩ := assign_inv h hx hb
        exact .inl ⟨w2, e2, hw2⟩
    · exact .inl ⟨w, rfl, h⟩
  | assignFrom x c =>
    simp only [World.step]
    split
    · next tx hx =>
      cases hb : w.build heapAlloc c.settings.size (some (some c.settings.source)) with
      | error e =>
        exact .inr ⟨e, by simp [World.assign, hb, bind, Except.bind], (build_error hb).2⟩
      | ok r =>
        obtain ⟨w2, e2, hw2, -⟩ := assign_inv h hx hb
        exact .inl ⟨w2, e2, hw2⟩
    · exact .inl ⟨w, rfl, h⟩
  | moveAssign x y =>
    left
    cases hx : w.tables x with
    | none => exact ⟨w, by simp [World.step, hx], h⟩
    | some tx =>
      cases hy : w.tables y with
      | none => exact ⟨w, by simp [World.step, hx, hy], h⟩
      | some ty =>
        by_cases hxy : x = y
        · subst hxy; exact ⟨w, moveAssign_self hx, h⟩
        · rw [moveAssign_eq hxy hx hy]
          obtain ⟨w1, e1, et, en, -, em, hi⟩ := release_inv h hx
          refine ⟨_, by rw [e1]; rfl, ?_⟩
          have h1 := hi (upd w.tables x (some ⟨none, none, ty.shape⟩))
            (fun z hz => upd_ne _ _ hz) (by intro u hu; rw [upd_self] at hu; cases hu; rfl)
          refine h1.relocate _ (fun z => if z = x then y else if z = y then x else z) ?_ ?_ ?_
          · intro z u b hz hu
            dsimp only at hz
            by_cases e : z = x
            · subst e; rw [upd_self] at hz; cases hz
              refine ⟨_, ?_, rfl, rfl, rfl⟩
              simp only [if_true]
              rw [upd_ne _ _ (Ne.symm hxy)]; exact hy
            · rw [upd_ne _ _ e] at hz
              by_cases e2 : z = y
              · subst e2; rw [upd_self] at hz; cases hz; cases hu
              · rw [upd_ne _ _ e2] at hz
                refine ⟨u, ?_, rfl, rfl, rfl⟩
                simp only [e, e2, if_false]
                rw [upd_ne _ _ e]; exact hz
          · intro z z' u u' b hz hz' hu hu' e
            try dsimp only at e
            split at e <;> split at e <;> (try split at e) <;> (try split at e) <;> simp_all
          · intro z u b hz hu
            by_cases e : z = x
            · subst e; rw [upd_self] at hz; cases hz; cases hu
            · rw [upd_ne _ _ e] at hz
              by_cases e2 : z = y
              · subst e2; rw [hy] at hz; cases hz
                exact ⟨x, _, upd_self _ _ _, hu⟩
              · exact ⟨z, u, by dsimp only; rw [upd_ne _ _ e, upd_ne _ _ e2]; exact hz, hu⟩
  | swap x y =>
    left
    simp only [World.step]
    split
    · next tx ty hx hy =>
      refine ⟨_, rfl, ?_⟩
      refine h.relocate _ (fun z => if z = y then x else if z = x then y else z) ?_ ?_ ?_
      · intro z u b hz hu
        dsimp only at hz
        by_cases e : z = y
        · subst e; rw [upd_self] at hz; cases hz
          exact ⟨_, by simpa using hx, rfl, rfl, rfl⟩
        · rw [upd_ne _ _ e] at hz
          by_cases e2 : z = x
          · subst e2; rw [upd_self] at hz; cases hz
            exact ⟨_, by simpa [e] using hy, rfl, rfl, rfl⟩
          · rw [upd_ne _ _ e2] at hz
            exact ⟨u, by simpa [e, e2] using hz, rfl, rfl, rfl⟩
      · intro z z' u u' b hz hz' hu hu' e
        try dsimp only at e
        split at e <;> split at e <;> (try split at e) <;> (try split at e) <;> simp_all
      · intro z u b hz hu
        by_cases e : z = x
        · subst e; rw [hx] at hz; cases hz
          exact ⟨y, _, upd_self _ _ _, hu⟩
        · by_cases e2 : z = y
          · subst e2; rw [hy] at hz; cases hz
            exact ⟨x, _, by dsimp only; rw [upd_ne _ _ (Ne.symm e), upd_self], hu⟩
          · exact ⟨z, u, by dsimp only; rw [upd_ne _ _ e2, upd_ne _ _ e]; exact hz, hu⟩
    · exact ⟨w, rfl, h⟩
  | destroy x =>
    left
    simp only [World.step]
    split
    · next tx hx =>
      obtain ⟨w1, e1, et, en, -, em, hi⟩ :=
        release_inv (w := { w with tables := upd w.tables x none }) h hx
      refine ⟨w1, e1, ?_⟩
      refine hi _ ?_ ?_
      · intro z hz; rw [et]; exact upd_ne _ _ hz
      · intro u hu; rw [et, show (({ w with tables := upd w.tables x none } : World α).tables x)
          = none from upd_self _ _ _] at hu; cases hu
    · exact ⟨w, rfl, h⟩
  | write x is v =>
    simp only [World.step]
    split
    · exact .inl ⟨w, rfl, h⟩
    · split
      · exact .inr ⟨_, rfl, .inr rfl⟩
      · simp only [bind, Except.bind]
        split
        · next e => exact .inr ⟨_, rfl, .inl (store_error e)⟩
        · next e => exact .inl ⟨_, rfl, h.setMem (store_isSome e)⟩

theorem run_inv {w : World α} (h : WInv w) (ops : List (Op α)) :
    (∃ w', w.run ops = .ok w' ∧ WInv w') ∨
    ∃ e, w.run ops = .error e ∧ (e = .outOfBounds ∨ e = .nullDeref) := by
  induction ops generalizing w with
  | nil => exact .inl ⟨w, rfl, h⟩
  | cons op ops ih =>
    rcases step_inv h op with ⟨w1, e1, h1⟩ | ⟨e, e1, he⟩
    · have : w.run (op :: ops) = w1.run ops := by simp [World.run, e1, bind, Except.bind]
      rw [this]; exact ih h1
    · exact .inr ⟨e, by simp [World.run, e1, bind, Except.bind], he⟩

theorem fresh_inv {w : World α} (h : Fresh w) : WInv w where
  excl := by intro x y t u b hx; rw [h.noTable] at hx; cases hx
  lv := by intro x t b hx; rw [h.noTable] at hx; cases hx
  own := by intro b a hb; rw [h.noBlock] at hb; cases hb
  lt := by intro b a hb; rw [h.noBlock] at hb; cases hb
  cells := by intro x t b hx; rw [h.noTable] at hx; cases hx
  old := h.old

theorem inv_owned {w : World α} (h : WInv w) : Owned w where
  owner := by
    intro b a hb
    obtain ⟨x, t, hx, ht⟩ := h.own b a hb
    refine ⟨x, ⟨t, hx, ht⟩, ?_⟩
    rintro y ⟨u, hy, hu⟩
    exact h.excl y x u t b hy hx hu ht
  live := h.lv

/-! ## Contents of copies -/

theorem reachable_inv {w : World α} (h : Reachable w) : WInv w := by
  obtain ⟨w0, ops, hf, hr⟩ := h
  rcases run_inv (fresh_inv hf) ops with ⟨w', e, hw⟩ | ⟨e, he, -⟩
  · rw [hr] at e; cases e; exact hw
  · rw [hr] at he; cases he

/-- Copy between different blocks. -/
theorem copyCells_ok (m : Mem α) (src dst : Ptr) (hb : src.blk ≠ dst.blk) (n : Nat)
    (hs : ∀ k : Nat, k < n → (m (src.add k)).isSome) (hd : ∀ k : Nat, k < n → (m (dst.add k)).isSome) :
    ∃ m', copyCells m src dst n = .ok m' ∧
      (∀ k : Nat, k < n → m' (dst.add k) = m (src.add k)) ∧
      ∀ p, (∀ k : Nat, k < n → p ≠ dst.add k) → m' p = m p := by
  induction n with
  | zero => exact ⟨m, rfl, fun k hk => absurd hk (by omega), fun _ _ => rfl⟩
  | succ n ih =>
    obtain ⟨m1, e1, h1, h2⟩ := ih (fun k hk => hs k (by omega)) (fun k hk => hd k (by omega))
    have hsrc : m1 (src.add n) = m (src.add n) := by
      apply h2
      intro k _ e
      exact hb (by simpa [Ptr.add] using congrArg Ptr.blk e)
    obtain ⟨v, hv⟩ := Option.isSome_iff_exists.1 (hs n (by omega))
    have hdst : (m1 (dst.add n)).isSome := by
      rw [copyCells_isSome e1]; exact hd n (by omega)
    refine ⟨wr m1 (dst.add n) (some v), ?_, ?_, ?_⟩
    · simp only [copyCells, bind, Except.bind, e1, load, hsrc, hv]
      exact store_ok hdst
    · intro k hk
      by_cases e : k = n
      · subst e; rw [wr_self, hv]
      · rw [wr_other, h1 k (by omega)]
        intro he
        have := congrArg Ptr.off he
        simp only [Ptr.add] at this
        omega
    · intro p hp
      rw [wr_other _ _ (Ne.symm (hp n (by omega)))]
      exact h2 p fun k hk => hp k (by omega)

/-- Construction of a table from `numel` cells that exist. -/
theorem build_copy {w : World α} (h : WInv w) (a : AllocId) {s : Shape} (hne : s ≠ []) (hs : NonNeg s)
    (src : Option Ptr)
    (hsrc : 0 < s.prod → ∃ p, src = some p ∧
      ∀ k : Int, 0 ≤ k → k < s.prod → (w.mem (p.add k)).isSome) :
    ∃ t w1, w.build a s (some src) = .ok (t, w1) ∧ t.shape = s ∧
      (∀ q : Ptr, q.blk ≠ w.next → w1.mem q = w.mem q) ∧
      (∀ b, t.data = some b → b = w.next) ∧
      (∀ k : Int, 0 ≤ k → k < s.prod → t.data = some w.next ∧
        ∀ p, src = some p → w1.mem ⟨w.next, k⟩ = w.mem (p.add k)) := by
  have hnum : numel s = s.prod := numel_eq_prod hne
  have hnn := prod_nonneg' hs
  by_cases h0 : (numel s).toNat = 0
  · refine ⟨⟨none, some a, s⟩, w, ?_, rfl, fun _ _ => rfl, by simp, ?_⟩
    · simp [World.build, World.allocate, h0]
    · intro k h1 h2; omega
  · obtain ⟨p, rfl, hp⟩ := hsrc (by omega)
    have hpb : p.blk ≠ w.next := by
      intro e
      have := hp 0 (le_refl _) (by omega)
      rw [h.old _ (by simp [Ptr.add, e])] at this
      cases this
    let w1 := (w.allocate a (numel s).toNat).2
    have e1 : w.allocate a (numel s).toNat = (some w.next, w1) := by
      simp [w1, World.allocate, h0]
    have hmem : ∀ q : Ptr, q.blk ≠ w.next → w1.mem q = w.mem q := by
      intro q hq
      simp [w1, World.allocate, h0, hq]
    have hnew : ∀ k : Int, 0 ≤ k → k < s.prod → (w1.mem ⟨w.next, k⟩).isSome := by
      intro k k0 k1
      have hk : k < (((numel s).toNat : Nat) : Int) := by omega
      have : w1.mem ⟨w.next, k⟩ = some (w.junk ⟨w.next, k⟩) := by
        simp only [w1, World.allocate, h0, if_false, if_true]
        rw [if_pos ⟨k0, hk⟩]
      rw [this]; rfl
    have hpa : ∀ k, p.add k = ⟨p.blk, p.off + k⟩ := fun _ => rfl
    obtain ⟨m', em, hm1, hm2⟩ := copyCells_ok w1.mem p ⟨w.next, 0⟩ hpb (numel s).toNat
      (fun k hk => by rw [hmem (p.add k) hpb]; exact hp k (by omega) (by omega))
      (fun k hk => by
        have := hnew k (by omega) (by omega)
        simpa [Ptr.add] using this)
    refine ⟨⟨some w.next, some a, s⟩, { w1 with mem := m' }, ?_, rfl, ?_, ?_, ?_⟩
    · unfold World.build
      dsimp only
      rw [e1]
      simp only [if_neg h0, em, bind, Except.bind]
      rfl
    · intro q hq
      show m' q = _
      rw [hm2 q, hmem q hq]
      rintro k _ rfl
      exact hq rfl
    · intro b hb; cases hb; rfl
    · intro k k0 k1
      refine ⟨rfl, fun q hq => ?_⟩
      cases hq
      show m' _ = _
      have := hm1 k.toNat (by omega)
      rw [Int.toNat_of_nonneg k0] at this
      simp only [Ptr.add, Int.zero_add] at this
      rw [this]
      exact hmem _ hpb

/-- Reading a table whose block holds the elements of a default-layout container in order. -/
theorem read_eq {w : World α} {t : Table} {b : Nat} (hd : t.data = some b) (hne : t.shape ≠ [])
    {p : List Int} (hp : InBox t.shape p) :
    w.read t p = load w.mem ⟨b, linearize (sfx t.shape) p⟩ := by
  unfold World.read
  rw [hd]
  show Container.get _ _ _ = _
  rw [Container.get, addr_default (ofShape_default hne) hp]
  simp [Container.ofShape, Ptr.add]

/-- A table built from cells that hold `val` in row-major order holds `val`. -/
theorem build_holds {w : World α} (h : WInv w) (a : AllocId) {s : Shape} (hne : s ≠ []) (hs : NonNeg s)
    (src : Option Ptr) (val : List Int → α)
    (hsrc : ∀ p, InBox s p → ∃ q, src = some q ∧ w.mem (q.add (linearize (sfx s) p)) = some (val p)) :
    ∃ t w1, w.build a s (some src) = .ok (t, w1) ∧ t.shape = s ∧
      (∀ q : Ptr, q.blk ≠ w.next → w1.mem q = w.mem q) ∧
      (∀ b, t.data = some b → b = w.next) ∧
      (∀ w' : World α, (∀ k, w'.mem ⟨w.next, k⟩ = w1.mem ⟨w.next, k⟩) →
        ∀ p, InBox s p → w'.read t p = .ok (val p)) := by
  obtain ⟨t, w1, e, ht, h1, h2, h3⟩ := build_copy h a hne hs src (by
    intro h0
    obtain ⟨p0, hp0, -⟩ := lin_surj hs (le_refl 0) h0
    obtain ⟨q, rfl, -⟩ := hsrc p0 hp0
    refine ⟨q, rfl, fun k k0 k1 => ?_⟩
    obtain ⟨p, hp, rfl⟩ := lin_surj hs k0 k1
    obtain ⟨q', e, hq⟩ := hsrc p hp
    cases e
    rw [hq]; rfl)
  refine ⟨t, w1, e, ht, h1, h2, ?_⟩
  intro w' hw' p hp
  obtain ⟨q, rfl, hq⟩ := hsrc p hp
  obtain ⟨b0, b1⟩ := lin_bounds hp
  obtain ⟨hd, hm⟩ := h3 _ b0 b1
  subst ht
  rw [read_eq hd hne hp]
  apply load_ok
  rw [hw', hm q rfl]
  exact hq

theorem elems_cell {c : Container} {m : Mem α} {val : List Int → α} (h : c.WF)
    (hrm : RowMajorStrides c.shape c.strides) (he : Elems c m val) {p : List Int} (hp : InBox c.shape p) :
    m (c.base.add (linearize (sfx c.shape) p)) = some (val p) := by
  rw [← (addr_rank_iff h hp.pos).2 hrm p hp]; exact get_ok_iff.1 (he p hp)

theorem read_cell {w : World α} {t : Table} {v : α} {p : List Int} (hne : t.shape ≠ [])
    (hp : InBox t.shape p) (h : w.read t p = .ok v) :
    ∃ b, t.data = some b ∧ w.mem ⟨b, linearize (sfx t.shape) p⟩ = some v := by
  cases hd : t.data with
  | none => simp [World.read, hd] at h
  | some b =>
    rw [read_eq hd hne hp] at h
    refine ⟨b, rfl, ?_⟩
    unfold load at h
    split at h
    · next e => cases h; exact e
    · cases h

theorem read_congr {w w' : World α} {t : Table} (p : List Int)
    (h : ∀ b k, t.data = some b → w'.mem ⟨b, k⟩ = w.mem ⟨b, k⟩) : w'.read t p = w.read t p := by
  unfold World.read
  split
  · rfl
  · next b hb =>
    unfold Container.get load
    rw [show w'.mem ((Container.ofShape ⟨b, 0⟩ t.shape).addr p)
      = w.mem ((Container.ofShape ⟨b, 0⟩ t.shape).addr p) from h b _ hb]

end Kwk
