import Verif.Lemmas.Ownership
import Verif.Lemmas.TableWitnesses

/-!
# Properties C52, C53, C55, C64: tables and the memory they own

`Reachable w` (Spec/Owned.lean): some sequence of operations on tables leads to the state `w`.
-/

namespace Kwk
open Spec

variable {α : Type}

/-! ## C53: ownership -/

/-- **C53** After any sequence of operations, every allocated block belongs to exactly one table, and
tables only point to allocated blocks which they release with the allocator that gave them. -/
theorem C53_ownership (w0 w : World α) (ops : List (Op α)) (h0 : Fresh w0) (hr : w0.run ops = .ok w) :
    Owned w := inv_owned (reachable_inv ⟨w0, ops, h0, hr⟩)

example : Owned exTables := C53_ownership exWorld exTables exMade exWorld_fresh exTables_run

/-- **C53** No sequence of operations releases a block that is not allocated, or releases it with
another allocator.  The only faults are reads of a bad source and accesses through an empty or
out-of-range table. -/
theorem C53_no_bad_free (w0 : World α) (ops : List (Op α)) (h0 : Fresh w0) (e : Fault)
    (hr : w0.run ops = .error e) : e ≠ .badFree ∧ (e = .outOfBounds ∨ e = .nullDeref) := by
  rcases run_inv (fresh_inv h0) ops with ⟨w', e', -⟩ | ⟨e', he, hc⟩
  · rw [hr] at e'; cases e'
  · rw [hr] at he; cases he
    refine ⟨?_, hc⟩
    rcases hc with rfl | rfl <;> simp

example := C53_no_bad_free exWorld [.make 0 7 [2, 2] none, .write 0 [2, 0] 9] exWorld_fresh .outOfBounds (by rfl)

/-- **C53** No use after release: a table that points to memory can read all its positions. -/
theorem C53_no_use_after_free (w : World α) (h : Reachable w) (x : Nat) (t : Table) (b : Nat)
    (hx : w.tables x = some t) (hb : t.data = some b) (p : List Int) (hp : InBox t.shape p)
    (hne : t.shape ≠ []) : ∃ v, w.read t p = .ok v := by
  have hi := reachable_inv h
  obtain ⟨b0, b1⟩ := lin_bounds hp
  obtain ⟨v, hv⟩ := Option.isSome_iff_exists.1
    (hi.cells x t b hx hb _ b0 (by rw [numel_eq_prod hne]; exact b1))
  exact ⟨v, by rw [read_eq hb hne hp]; exact load_ok hv⟩

example := C53_no_use_after_free exTables exTables_reachable 1 _ 2 exTables_one rfl [1, 0] (by decide) (by decide)

/-- **C53** Different tables never share memory. -/
theorem C53_no_sharing (w : World α) (h : Reachable w) (x y b : Nat) (hx : Owns w x b)
    (hy : Owns w y b) : x = y := by
  obtain ⟨t, h1, h2⟩ := hx
  obtain ⟨u, h3, h4⟩ := hy
  exact (reachable_inv h).excl x y t u b h1 h3 h2 h4

example (x : Nat) (h : Owns exTables x 2) : x = 1 := C53_no_sharing exTables exTables_reachable x 1 2 h ⟨_, exTables_one, rfl⟩

/-- **C53** Default construction, construction without source, moves, swaps and destructions never
fail. -/
theorem C53_ops_succeed (w : World α) (h : Reachable w) (op : Op α)
    (hop : (∃ x axes, op = .dflt x axes) ∨ (∃ x a s, op = .make x a s none) ∨ (∃ x y, op = .move x y) ∨
      (∃ x y, op = .moveAssign x y) ∨ (∃ x y, op = .swap x y) ∨ ∃ x, op = .destroy x) :
    ∃ w', w.step op = .ok w' ∧ Reachable w' := by
  have hi := reachable_inv h
  have hok : ∃ w', w.step op = .ok w' := by
    rcases step_inv hi op with ⟨w', e, -⟩ | ⟨e, he, -⟩
    · exact ⟨w', e⟩
    · exfalso
      rcases hop with ⟨x, axes, rfl⟩ | ⟨x, a, s, rfl⟩ | ⟨x, y, rfl⟩ | ⟨x, y, rfl⟩ | ⟨x, y, rfl⟩ | ⟨x, rfl⟩
      · simp only [World.step] at he
        split at he
        · cases he
        · split at he <;> cases he
      · simp only [World.step] at he
        split at he
        · cases he
        · cases hb : w.build a s none with
          | error e' => exact (build_error hb).1 rfl
          | ok r => rw [hb] at he; cases he
      · simp only [World.step] at he
        split at he <;> cases he
      · cases hx : w.tables x with
        | none => simp [World.step, hx] at he
        | some tx =>
          cases hy : w.tables y with
          | none => simp [World.step, hx, hy] at he
          | some ty =>
            by_cases hxy : x = y
            · subst hxy; rw [moveAssign_self hx] at he; cases he
            · rw [moveAssign_eq hxy hx hy] at he
              obtain ⟨w1, e1, -⟩ := release_inv hi hx
              rw [e1] at he; cases he
      · simp only [World.step] at he
        split at he <;> cases he
      · simp only [World.step] at he
        split at he
        · next tx hx =>
          obtain ⟨w1, e1, -⟩ := release_inv (w := { w with tables := upd w.tables x none }) hi hx
          rw [e1] at he; cases he
        · cases he
  obtain ⟨w', e⟩ := hok
  obtain ⟨w0, ops, hf, hr⟩ := h
  refine ⟨w', e, w0, ops ++ [op], hf, ?_⟩
  have : w0.run (ops ++ [op]) = (do let w ← w0.run ops; w.step op) := by
    simp [World.run, List.foldlM_append]
  rw [this, hr]; exact e

example := C53_ops_succeed exTables exTables_reachable (.moveAssign 1 0) (.inr (.inr (.inr (.inl ⟨1, 0, rfl⟩))))

/-- The effect of `destroy` on the names. -/
theorem destroy_tables {w : World α} (hi : WInv w) (x : Nat) :
    ∃ w', w.step (.destroy x) = .ok w' ∧ WInv w' ∧ w'.tables = upd w.tables x none := by
  rcases step_inv hi (.destroy x) with ⟨w', e, hw⟩ | ⟨e, he, -⟩
  · refine ⟨w', e, hw, ?_⟩
    simp only [World.step] at e
    split at e
    · next tx hx =>
      obtain ⟨w1, e1, et, -⟩ := release_inv (w := { w with tables := upd w.tables x none }) hi hx
      rw [e1] at e; cases e; exact et
    · next hx =>
      cases e
      funext z
      by_cases ez : z = x
      · rw [ez, upd_self, hx]
      · rw [upd_ne _ _ ez]
  · exfalso
    simp only [World.step] at he
    split at he
    · next tx hx =>
      obtain ⟨w1, e1, -⟩ := release_inv (w := { w with tables := upd w.tables x none }) hi hx
      rw [e1] at he; cases he
    · cases he

/-- **C53** Destroying all tables, in any order, succeeds and leaves no block allocated. -/
theorem C53_destroy_all (w : World α) (h : Reachable w) (xs : List Nat)
    (hall : ∀ x t, w.tables x = some t → x ∈ xs) :
    ∃ w', w.run (xs.map .destroy) = .ok w' ∧ (∀ x, w'.tables x = none) ∧ ∀ b, w'.live b = none := by
  have hi := reachable_inv h
  clear h
  suffices H : ∃ w', w.run (xs.map .destroy) = .ok w' ∧ (∀ x, w'.tables x = none) ∧ WInv w' by
    obtain ⟨w', e, ht, hw⟩ := H
    refine ⟨w', e, ht, fun b => ?_⟩
    cases hb : w'.live b with
    | none => rfl
    | some a =>
      obtain ⟨x, t, hx, -⟩ := hw.own b a hb
      rw [ht] at hx; cases hx
  induction xs generalizing w with
  | nil =>
    refine ⟨w, rfl, fun x => ?_, hi⟩
    cases hx : w.tables x with
    | none => rfl
    | some t => exact absurd (hall x t hx) (by simp)
  | cons x xs ih =>
    obtain ⟨w1, e1, hi1, ht1⟩ := destroy_tables hi x
    obtain ⟨w', e, hr⟩ := ih w1 (by
      intro y t hy
      rw [ht1] at hy
      by_cases e : y = x
      · rw [e, upd_self] at hy; cases hy
      · rw [upd_ne _ _ e] at hy
        have := hall y t hy
        simpa [e] using this) hi1
    refine ⟨w', ?_, hr⟩
    rw [← e]
    simp [World.run, e1, bind, Except.bind]

/-- A program with a copy, a move, a self assignment, a move assignment and a swap. -/
def exOps : List (Op Int) :=
  [.make 0 7 [2, 3] (some (some ⟨0, 0⟩)), .copy 1 0, .move 2 0, .dflt 0 [none, some 3],
   .copyAssign 1 1, .moveAssign 0 2, .write 0 [1, 1] 50, .swap 0 1, .copyAssign 2 0, .destroy 1]

/-- What the example checks: the tables left, and which blocks are allocated. -/
def exResult : Res (List (Option Table) × List (Option AllocId)) := do
  let w ← exWorld.run exOps
  return ((List.range 3).map w.tables, (List.range 6).map w.live)

example : exResult = .ok ([some ⟨some 3, some 0, [2, 3]⟩, none, some ⟨some 4, some 0, [2, 3]⟩],
    [none, none, none, some 0, some 0, none]) := by decide

/-! ## C52: copies -/

/-- Full statement of **C52** for the construction of a table from a container of any layout. -/
def C52_statement : Prop :=
  ∀ (w : World Int) (x : Nat) (c : Container) (val : List Int → Int), Reachable w →
    w.tables x = none → c.WF → NonNeg c.shape → Elems c w.mem val →
    ∃ w', w.step (.copyFrom x c) = .ok w' ∧ Holds w' x c.shape val

/-- **C52**, partial: copying any container with row-major strides on its axes of more than one position (every
default layout: `Container.Default.rowMajor`) into a new table.
The copy has the shape and the elements of the source; the source, all other tables and all other
memory are as before; and the copy is independent: writes to it do not change the source, and
writes to the source's memory do not change it.
Missing: other strides, for which it is false (`C52_strided_false`). -/
theorem C52_copy_partial (w : World α) (x : Nat) (c : Container) (val : List Int → α)
    (hr : Reachable w) (hx : w.tables x = none) (hc : c.WF)
    (hrm : RowMajorStrides c.shape c.strides) (hn : NonNeg c.shape) (he : Elems c w.mem val) :
    ∃ w', w.step (.copyFrom x c) = .ok w' ∧ Holds w' x c.shape val ∧
      (∀ y, y ≠ x → w'.tables y = w.tables y) ∧
      Elems c w'.mem val ∧
      (∀ is v w'', w'.step (.write x is v) = .ok w'' → Elems c w''.mem val) ∧
      (∀ (p : List Int) (v : α) (m : Mem α), InBox c.shape p → store w'.mem (c.addr p) v = .ok m →
        Holds { w' with mem := m } x c.shape val) := by
  have hi := reachable_inv hr
  obtain ⟨t, w1, e, ht, h1, h2, h3⟩ := build_holds hi heapAlloc hc.ne hn (some c.base) val
    (fun p hp => ⟨c.base, rfl, elems_cell hc hrm he hp⟩)
  obtain ⟨-, htab, -⟩ := build_inv hi e
  have hblk : ∀ p, InBox c.shape p → (c.addr p).blk ≠ w.next := by
    intro p hp e
    have := get_ok_iff.1 (he p hp)
    rw [hi.old _ (by omega)] at this
    cases this
  have hel : ∀ m : Mem α, (∀ q : Ptr, q.blk ≠ w.next → m q = w1.mem q) → Elems c m val := by
    intro m hm p hp
    rw [get_ok_iff, hm _ (hblk p hp), h1 _ (hblk p hp)]
    exact get_ok_iff.1 (he p hp)
  refine ⟨{ w1 with tables := upd w1.tables x (some t) }, ?_, ?_, ?_, ?_, ?_, ?_⟩
  · simp only [World.step, hx]
    show (do let (t, w1) ← w.build heapAlloc c.shape (some (some c.base)); _) = _
    rw [e]; rfl
  · exact ⟨t, upd_self _ _ _, ht, fun p hp => h3 _ (fun _ => rfl) p hp⟩
  · intro y hy
    show upd w1.tables x (some t) y = _
    rw [upd_ne _ _ hy, htab]
  · exact hel _ fun _ _ => rfl
  · intro is v w'' hw
    simp only [World.step, upd_self] at hw
    split at hw
    · cases hw
    · next b hb =>
      have hbn : b = w.next := h2 b hb
      simp only [bind, Except.bind] at hw
      split at hw
      · cases hw
      · next m hm =>
        cases hw
        apply hel
        intro q hq
        unfold store at hm
        split at hm
        · cases hm
          dsimp only
          rw [if_neg]
          rintro rfl
          exact hq hbn
        · cases hm
  · intro p v m hp hm
    refine ⟨t, upd_self _ _ _, ht, fun q hq => ?_⟩
    apply h3 _ _ q hq
    intro k
    show m _ = _
    unfold store at hm
    split at hm
    · cases hm
      dsimp only
      rw [if_neg]
      intro e
      exact hblk p hp (by rw [← e])
    · cases hm

example := C52_copy_partial exWorld 0 (.ofShape ⟨0, 0⟩ [2, 2]) exInVal exWorld_reachable rfl (ofShape_default (by decide)).toWF
  (Container.Default.rowMajor (ofShape_default (by decide))) (by decide) fun p hp =>
    (by decide : ∀ p ∈ positions [2, 2], (Container.ofShape ⟨0, 0⟩ [2, 2]).get exWorld.mem p = .ok (exInVal p)) p (mem_positions.2 hp)

/-- **C52** (exactly when) For a well-formed non-empty container, copying it into a table gives its elements in every state
if and only if its strides are row-major on the axes of more than one position. -/
theorem C52_copy_exact_partial (c : Container) (hc : c.WF) (hpos : ∀ d ∈ c.shape, 0 < d) :
    (∀ (w : World Ptr) (x : Nat) (val : List Int → Ptr), Reachable w → w.tables x = none → Elems c w.mem val →
      ∃ w', w.step (.copyFrom x c) = .ok w' ∧ Holds w' x c.shape val) ↔
    RowMajorStrides c.shape c.strides := by
  have hn : NonNeg c.shape := fun d hd => (hpos d hd).le
  constructor
  · intro h
    -- a state where every cell of the blocks up to the one of `c` holds its own address
    let w : World Ptr := ⟨fun p => if p.blk ≤ c.base.blk then some p else none, fun _ => none, c.base.blk + 1,
      fun p => p, fun _ => none⟩
    have hf : Fresh w := ⟨fun _ => rfl, fun _ => rfl, fun p hp => by
      show (if p.blk ≤ c.base.blk then some p else none) = none
      rw [if_neg (by show ¬ p.blk ≤ c.base.blk; have : c.base.blk + 1 ≤ p.blk := hp; omega)]⟩
    have hmem : ∀ k, w.mem (c.base.add k) = some (c.base.add k) := fun k => if_pos (le_refl _)
    have he : Elems c w.mem c.addr := fun p _ => get_ok_iff.2 (hmem _)
    obtain ⟨w', e1, t1, ht1, -, hv1⟩ := h w 0 c.addr ⟨w, [], hf, rfl⟩ rfl he
    obtain ⟨t, w1, e, ht, -, -, h3⟩ := build_holds (fresh_inv hf) heapAlloc hc.ne hn (some c.base)
      (fun p => c.base.add (linearize (sfx c.shape) p)) (fun p _ => ⟨c.base, rfl, hmem _⟩)
    have e2 : w.step (.copyFrom 0 c) = .ok { w1 with tables := upd w1.tables 0 (some t) } := by
      show (do let (t, w1) ← w.build heapAlloc c.shape (some (some c.base)); _) = _
      rw [e]; rfl
    rw [e2] at e1
    cases e1
    have ht1 : upd w1.tables 0 (some t) 0 = some t1 := ht1
    rw [upd_self] at ht1
    cases ht1
    rw [← addr_rank_iff hc hpos]
    intro p hp
    have := (hv1 p hp).symm.trans (h3 _ (fun _ => rfl) p hp)
    exact Except.ok.inj this
  · intro hrm w x val hr hx he
    obtain ⟨w', h1, h2, -⟩ := C52_copy_partial w x c val hr hx hc hrm hn he
    exact ⟨w', h1, h2⟩

example := (C52_copy_exact_partial exIn exIn_default.toWF (by decide)).2 exIn_default.rowMajor

/-- **C52** Copy construction of a table from a table. -/
theorem C52_copy_table (w : World α) (x y : Nat) (s : Shape) (val : List Int → α) (hr : Reachable w)
    (hx : w.tables x = none) (hne : s ≠ []) (hn : NonNeg s) (hy : Holds w y s val) :
    ∃ w', w.step (.copy x y) = .ok w' ∧ Holds w' x s val ∧ Holds w' y s val := by
  have hi := reachable_inv hr
  obtain ⟨ty, hty, rfl, hrd⟩ := hy
  obtain ⟨t, w1, e, ht, h1, h2, h3⟩ := build_holds hi heapAlloc hne hn ty.ptr val (by
    intro p hp
    obtain ⟨b, hb, hc⟩ := read_cell hne hp (hrd p hp)
    exact ⟨⟨b, 0⟩, by simp [Table.ptr, hb], by simpa [Ptr.add] using hc⟩)
  obtain ⟨-, htab, -⟩ := build_inv hi e
  have hxy : y ≠ x := by rintro rfl; rw [hx] at hty; cases hty
  refine ⟨{ w1 with tables := upd w1.tables x (some t) }, ?_, ?_, ?_⟩
  · simp only [World.step, hx, hty, World.copyOf, e]; rfl
  · exact ⟨t, upd_self _ _ _, ht, fun p hp => h3 _ (fun _ => rfl) p hp⟩
  · refine ⟨ty, ?_, rfl, fun p hp => ?_⟩
    · show upd w1.tables x (some t) y = _
      rw [upd_ne _ _ hxy, htab]; exact hty
    · rw [← hrd p hp]
      apply read_congr
      intro b k hb
      apply h1
      intro e
      obtain ⟨a, -, hl⟩ := hi.lv y ty b hty hb
      have := hi.lt b a hl
      simp at e; omega

example := C52_copy_table exTables 2 0 [2, 2] exInVal exTables_reachable (by decide +kernel) (by decide) (by decide) exTables_holds

/-- **C52** Copy assignment between tables, including self assignment: the target holds the elements
of the source, and the source still does. -/
theorem C52_assign_table (w : World α) (x y : Nat) (s : Shape) (val : List Int → α) (hr : Reachable w)
    (tx : Table) (hx : w.tables x = some tx) (hne : s ≠ []) (hn : NonNeg s) (hy : Holds w y s val) :
    ∃ w', w.step (.copyAssign x y) = .ok w' ∧ Holds w' x s val ∧ Holds w' y s val := by
  have hi := reachable_inv hr
  obtain ⟨ty, hty, rfl, hrd⟩ := hy
  obtain ⟨t, w1, e, ht, h1, h2, h3⟩ := build_holds hi heapAlloc hne hn ty.ptr val (by
    intro p hp
    obtain ⟨b, hb, hc⟩ := read_cell hne hp (hrd p hp)
    exact ⟨⟨b, 0⟩, by simp [Table.ptr, hb], by simpa [Ptr.add] using hc⟩)
  obtain ⟨w2, e2, hi2, htab, hmem⟩ := assign_inv hi hx e
  have hlt : ∀ z u b, w.tables z = some u → u.data = some b → b ≠ w.next := by
    intro z u b hz hu e
    obtain ⟨a, -, hl⟩ := hi.lv z u b hz hu
    have := hi.lt b a hl
    omega
  have hxs : Holds w2 x ty.shape val := by
    refine ⟨t, by rw [htab, upd_self], ht, h3 w2 fun k => hmem _ ?_⟩
    intro e
    exact hlt x tx w.next hx e.symm rfl
  refine ⟨w2, ?_, hxs, ?_⟩
  · simp only [World.step, hx, hty]; exact e2
  · by_cases hxy : y = x
    · rw [hxy]; exact hxs
    · refine ⟨ty, by rw [htab, upd_ne _ _ hxy]; exact hty, rfl, fun p hp => ?_⟩
      rw [← hrd p hp]
      apply read_congr
      intro b k hb
      rw [hmem, h1]
      · exact hlt y ty b hty hb
      · intro e
        exact hxy (hi.excl y x ty tx b hty hx hb e.symm)

example := C52_assign_table exTables 1 0 [2, 2] exInVal exTables_reachable _ exTables_one (by decide) (by decide) exTables_holds

/-- **C52**, partial: assignment of a container with row-major strides to a table, even when the container
shows the table's own memory.  Missing: strided sources. -/
theorem C52_assign_partial (w : World α) (x : Nat) (c : Container) (val : List Int → α)
    (hr : Reachable w) (tx : Table) (hx : w.tables x = some tx) (hc : c.WF)
    (hrm : RowMajorStrides c.shape c.strides) (hn : NonNeg c.shape) (he : Elems c w.mem val) :
    ∃ w', w.step (.assignFrom x c) = .ok w' ∧ Holds w' x c.shape val ∧
      ∀ y, y ≠ x → w'.tables y = w.tables y := by
  have hi := reachable_inv hr
  obtain ⟨t, w1, e, ht, h1, h2, h3⟩ := build_holds hi heapAlloc hc.ne hn (some c.base) val
    (fun p hp => ⟨c.base, rfl, elems_cell hc hrm he hp⟩)
  obtain ⟨w2, e2, hi2, htab, hmem⟩ := assign_inv hi hx e
  refine ⟨w2, ?_, ⟨t, by rw [htab, upd_self], ht, h3 w2 fun k => hmem _ ?_⟩, ?_⟩
  · simp only [World.step, hx]; exact e2
  · intro e
    obtain ⟨a, -, hl⟩ := hi.lv x tx w.next hx e.symm
    have := hi.lt _ a hl
    omega
  · intro y hy
    rw [htab, upd_ne _ _ hy]

/-- Reads all elements of table `x` after a program. -/
def readAll (w : World Int) (ops : List (Op Int)) (x : Nat) (ps : List (List Int)) :
    Res (List (Res Int)) := do
  let w' ← w.run ops
  match w'.tables x with
  | none => throw .nullDeref
  | some t => return ps.map (w'.read t)

example : readAll exWorld [.copyFrom 0 (Container.ofShape ⟨0, 0⟩ [2, 3])] 0 (positions [2, 3])
    = .ok [.ok 1, .ok 2, .ok 3, .ok 4, .ok 5, .ok 6] := by decide

example : readAll exWorld [.copyFrom 0 (Container.ofShape ⟨0, 0⟩ [2, 2]), .copy 1 0,
    .write 0 [1, 1] 9, .copyAssign 0 0] 1 (positions [2, 2]) = .ok [.ok 1, .ok 2, .ok 3, .ok 4] := by
  decide

/-- **C52** is false for strided sources: a table built from the left 2x2 part of a 2x3 array (1 2 /
4 5) holds 1 2 / 3 4. -/
theorem C52_strided_false : ¬ C52_statement := by
  intro h
  obtain ⟨w', e, t, ht, hs, hrd⟩ := h exWorld 0 (Container.ofStrides ⟨0, 0⟩ [2, 2] [3, 1])
    (fun p => 1 + 3 * p.headD 0 + p.tail.headD 0) exWorld_reachable rfl (ofStrides_WF (by simp) rfl)
    (by decide) (by
      intro p hp
      have : p ∈ positions [2, 2] := mem_positions.2 hp
      have hall : ∀ p ∈ positions [2, 2],
          (Container.ofStrides ⟨0, 0⟩ [2, 2] [3, 1]).get exWorld.mem p
          = .ok (1 + 3 * p.headD 0 + p.tail.headD 0) := by decide
      exact hall p this)
  have h1 := hrd [1, 0] (mem_positions.1 (by decide))
  have h2 : readAll exWorld [.copyFrom 0 (Container.ofStrides ⟨0, 0⟩ [2, 2] [3, 1])] 0 [[1, 0]]
      = .ok [.ok 3] := by decide
  simp only [readAll, World.run, List.foldlM_cons, List.foldlM_nil, bind, Except.bind, e, pure,
    Except.pure, ht, List.map_cons, List.map_nil, h1] at h2
  revert h2; decide

/-! ## C55: moved-from tables -/

/-- **C55** Moving gives the elements to the target: it reads as the source did, without copying. -/
theorem C55_move_target (w : World α) (x y : Nat) (s : Shape) (val : List Int → α)
    (hx : w.tables x = none) (hy : Holds w y s val) :
    ∃ w', w.step (.move x y) = .ok w' ∧ Holds w' x s val ∧ w'.mem = w.mem := by
  obtain ⟨ty, hty, hs, hrd⟩ := hy
  refine ⟨{ w with tables := upd (upd w.tables y (some ⟨none, none, ty.shape⟩)) x (some ty) },
    by simp only [World.step, hx, hty], ⟨ty, upd_self _ _ _, hs, ?_⟩, rfl⟩
  intro p hp
  rw [← hrd p hp]
  exact read_congr p fun _ _ _ => rfl

example := C55_move_target exTables 2 0 [2, 2] exInVal (by decide +kernel) exTables_holds

/-- **C55** Move assignment gives the elements to the target, including self move assignment. -/
theorem C55_move_assign_target (w : World α) (hr : Reachable w) (x y : Nat) (s : Shape)
    (val : List Int → α) (tx : Table) (hx : w.tables x = some tx) (hy : Holds w y s val) :
    ∃ w', w.step (.moveAssign x y) = .ok w' ∧ Holds w' x s val := by
  have hi := reachable_inv hr
  by_cases hxy : x = y
  · subst hxy; exact ⟨w, moveAssign_self hx, hy⟩
  obtain ⟨ty, hty, hs, hrd⟩ := hy
  rw [moveAssign_eq hxy hx hty]
  obtain ⟨w1, e1, et, -, -, em, -⟩ := release_inv hi hx
  refine ⟨_, by rw [e1]; rfl, ty, upd_self _ _ _, hs, ?_⟩
  intro p hp
  rw [← hrd p hp]
  apply read_congr
  intro b k hb
  apply em
  intro e
  exact hxy (hi.excl x y tx ty b hx hty e.symm hb)

example := C55_move_assign_target exTables exTables_reachable 1 0 [2, 2] exInVal _ exTables_one exTables_holds

/-- Full statement of **C55**: after `table x(std::move(y))`, every position within the shape that
`y` reports can be read. -/
def C55_statement : Prop :=
  ∀ (w w' : World Int) (x y : Nat) (t : Table), Reachable w → x ≠ y → w.tables x = none →
    w.step (.move x y) = .ok w' → w'.tables y = some t → ∀ p, InBox t.shape p → ∃ v, w'.read t p = .ok v

/-- **C55**, partial: the moved-from table can be assigned to, moved to, and destroyed; after an
assignment it holds the assigned elements.  Missing: reading its positions before that, which is
false (`C55_moved_from_false`) unless the shape is empty. -/
theorem C55_moved_from_partial (w : World α) (x y z : Nat) (s sz : Shape) (val valz : List Int → α)
    (hr : Reachable w) (hx : w.tables x = none) (hy : Holds w y s val) (hne : sz ≠ []) (hn : NonNeg sz)
    (hz : Holds w z sz valz) (hzy : z ≠ y) :
    ∃ w', w.step (.move x y) = .ok w' ∧
      (∃ w'', w'.step (.copyAssign y z) = .ok w'' ∧ Holds w'' y sz valz) ∧
      (∃ w'', w'.step (.moveAssign y z) = .ok w'' ∧ Holds w'' y sz valz) ∧
      (∃ w'', w'.step (.destroy y) = .ok w'' ∧ Owned w'') := by
  obtain ⟨w', e, hw'⟩ := C53_ops_succeed w hr (.move x y) (by simp)
  obtain ⟨ty, hty, hs, hrd⟩ := hy
  have hw : w' = { w with tables := upd (upd w.tables y (some ⟨none, none, ty.shape⟩)) x (some ty) } := by
    simp only [World.step, hx, hty] at e; cases e; rfl
  have hxy : y ≠ x := by rintro rfl; rw [hx] at hty; cases hty
  have hty' : w'.tables y = some ⟨none, none, ty.shape⟩ := by
    rw [hw]; show upd _ _ _ _ = _
    rw [upd_ne _ _ hxy, upd_self]
  have hz' : Holds w' z sz valz := by
    obtain ⟨tz, htz, hsz, hrz⟩ := hz
    have hzx : z ≠ x := by rintro rfl; rw [hx] at htz; cases htz
    refine ⟨tz, ?_, hsz, fun p hp => ?_⟩
    · rw [hw]; show upd _ _ _ _ = _
      rw [upd_ne _ _ hzx, upd_ne _ _ hzy]; exact htz
    · rw [← hrz p hp, hw]
      exact read_congr p fun _ _ _ => rfl
  refine ⟨w', e, ?_, ?_, ?_⟩
  · obtain ⟨w'', e1, h1, -⟩ := C52_assign_table w' y z sz valz hw' _ hty' hne hn hz'
    exact ⟨w'', e1, h1⟩
  · obtain ⟨w'', e1, h1⟩ := C55_move_assign_target w' hw' y z sz valz _ hty' hz'
    exact ⟨w'', e1, h1⟩
  · obtain ⟨w'', e1, h1⟩ := C53_ops_succeed w' hw' (.destroy y) (by simp)
    exact ⟨w'', e1, inv_owned (reachable_inv h1)⟩

example : readAll exWorld [.copyFrom 0 (Container.ofShape ⟨0, 0⟩ [2]), .move 1 0,
    .copyFrom 2 (Container.ofShape ⟨0, 1⟩ [3]), .copyAssign 0 2] 0 (positions [3])
    = .ok [.ok 2, .ok 3, .ok 4] := by decide

/-- **C55** is false: a moved-from table of two elements still reports shape `[2]`, and reading its
first element dereferences a null pointer. -/
theorem C55_moved_from_false : ¬ C55_statement := by
  intro h
  obtain ⟨w1, e1, hw1⟩ : ∃ w1, exWorld.run [.make 0 0 [2] none] = .ok w1 ∧ Reachable w1 := by
    obtain ⟨w1, e, hw⟩ := C53_ops_succeed exWorld exWorld_reachable (.make 0 0 [2] none) (by simp)
    exact ⟨w1, by simp [World.run, e, bind, Except.bind]; rfl, hw⟩
  have ht : w1.tables = upd (fun _ => none) 0 (some ⟨some 1, some 0, [2]⟩) := by
    cases e1; rfl
  obtain ⟨v, hv⟩ := h w1 _ 1 0 ⟨none, none, [2]⟩ hw1 (by simp) (by rw [ht]; rfl)
    (by simp only [World.step, ht, upd]; rfl) (by rfl) [0] (mem_positions.1 (by decide))
  simp [World.read] at hv

/-! ## C64: memory of tables with explicit strides -/

/-- Full statement of **C64**: after building a table of shape `s`, every position is a cell of its
memory, whatever the strides. -/
def C64_statement : Prop :=
  ∀ (w w1 : World Int) (a : AllocId) (s : Shape) (st : Strides) (t : Table) (b : Nat), Reachable w →
    s ≠ [] → NonNeg s → st.length = s.length → w.build a s none = .ok (t, w1) → t.data = some b →
    Valid (Container.ofStrides ⟨b, 0⟩ s st) w1.mem

/-- The cells of a new block. -/
theorem build_cells {w w1 : World α} {a : AllocId} {s : Shape} {t : Table} {b : Nat}
    (hne : s ≠ []) (hb : w.build a s none = .ok (t, w1)) (hd : t.data = some b) (k : Int) :
    (w1.mem ⟨b, k⟩).isSome ↔ 0 ≤ k ∧ k < s.prod := by
  simp only [World.build, World.allocate] at hb
  by_cases h0 : (numel s).toNat = 0
  · rw [if_pos h0] at hb; cases hb; cases hd
  · rw [if_neg h0] at hb; cases hb; cases hd
    rw [← numel_eq_prod hne]
    dsimp only
    rw [if_pos rfl]
    split
    · next h => simp only [Option.isSome_some, true_iff]; omega
    · next h => simp only [Option.isSome_none, Bool.false_eq_true, false_iff]; omega

/-- **C64**, partial: exactly the tables whose strides keep all indices below `numel` are covered by
their memory.  Missing: nothing enforces that (`C64_strides_false`). -/
theorem C64_strides_partial (w w1 : World α) (a : AllocId) (s : Shape) (st : Strides) (t : Table)
    (b : Nat) (hne : s ≠ []) (hl : st.length = s.length) (hb : w.build a s none = .ok (t, w1))
    (hd : t.data = some b) :
    Valid (Container.ofStrides ⟨b, 0⟩ s st) w1.mem ↔
      ∀ p, InBox s p → 0 ≤ linearize st p ∧ linearize st p < s.prod := by
  refine forall_congr' fun p => ?_
  show (InBox s p → _) ↔ _
  refine imp_congr_right fun hp => ?_
  rw [← build_cells hne hb hd]
  have ha : (Container.ofStrides ⟨b, 0⟩ s st).addr p = ⟨b, linearize st p⟩ := by
    rw [addr_eq (ofStrides_WF hne hl) hp]; simp [Container.ofStrides, Ptr.add]
  simp only [get_ok_iff, ha, Option.isSome_iff_exists]

example := C64_strides_partial exWorld _ 7 [2, 2] [1, 2] _ _ (by decide) rfl (by rfl) rfl

/-- **C64**, partial: without explicit strides every position is covered. -/
theorem C64_default_partial (w w1 : World α) (a : AllocId) (s : Shape) (t : Table) (b : Nat)
    (hne : s ≠ []) (hb : w.build a s none = .ok (t, w1)) (hd : t.data = some b) :
    Valid (Container.ofShape ⟨b, 0⟩ s) w1.mem := by
  intro p hp
  have hb' := (build_cells hne hb hd (linearize (sfx s) p)).2 (lin_bounds hp)
  obtain ⟨v, hv⟩ := Option.isSome_iff_exists.1 hb'
  refine ⟨v, ?_⟩
  rw [get_ok_iff, addr_default (ofShape_default hne) hp]
  simpa [Container.ofShape, Ptr.add] using hv

example : ∀ p ∈ positions [2, 3], 0 ≤ linearize [1, 2] p ∧ linearize [1, 2] p < [2, 3].prod := by decide

/-- **C64** is false: a 2x4 table with strides `(8, 1)` has memory for 8 elements, and its element at
`(1, 0)` is at index 8. -/
theorem C64_strides_false : ¬ C64_statement := by
  intro h
  have hb : exWorld.build 0 [2, 4] none = .ok (⟨some 1, some 0, [2, 4]⟩, (exWorld.allocate 0 8).2) := rfl
  have := h exWorld _ 0 [2, 4] [8, 1] _ 1 exWorld_reachable (by simp) (by decide) rfl hb rfl
  have h2 := (C64_strides_partial exWorld _ 0 [2, 4] [8, 1] _ 1 (by simp) rfl hb rfl).1 this [1, 0]
    (mem_positions.1 (by decide))
  revert h2; decide

end Kwk
