import Verif.Lemmas.Stays
import Verif.Props.Slicing
import Verif.Props.Views
import Verif.Props.Ownership

/-!
# C145: how long views of a table show its elements
-/

namespace Kwk
open Spec

variable {α : Type}

theorem reached_inv {md : Mode} {w : World α} (h : Reached md w) : WInv w := by
  obtain ⟨w0, acts, h0, h1⟩ := h
  exact runActs_inv h1 (fresh_inv h0)

theorem container_data {w : World α} {t : Table} {b : Nat} (h : t.data = some b) :
    w.container t = Container.ofShape ⟨b, 0⟩ t.shape := by
  simp [World.container, Table.ptr, h]

/-- **C145** A view of a table shows the elements of the table. -/
theorem C145_view (w : World α) (z : Nat) (t : Table) (hz : w.tables z = some t) (hd : t.data.isSome) (hs : t.shape ≠ []) :
    Looks w (viewOf (w.container t)) z fun p => p := by
  obtain ⟨b, hb⟩ := Option.isSome_iff_exists.1 hd
  refine ⟨t, b, hz, hb, hs, ?_⟩
  rw [container_data hb]
  exact fun p hp => ⟨hp, (C63_view_partial (α := α) _ (ofShape_default hs)).2.1 p hp⟩

/-- **C145** A slice of a table shows the selected elements of the table. -/
theorem C145_slice (md : Mode) (w : World α) (z : Nat) (t : Table) (hz : w.tables z = some t) (hd : t.data.isSome) (hs : t.shape ≠ [])
    {sl : List Slicer} {ls : List (List Int)} (hp : PicksAll t.shape sl ls) (hmd : md = .checked → ∀ l ∈ ls, l ≠ []) :
    ∃ c, (w.container t).slice md sl = .ok c ∧ c.shape = pickShape ls ∧ Looks w c z (pickAt ls) := by
  obtain ⟨b, hb⟩ := Option.isSome_iff_exists.1 hd
  rw [container_data hb]
  obtain ⟨c, h1, h2, h3⟩ := C42_slice_elements (α := α) md (ofShape_default (b := ⟨b, 0⟩) hs) hp hmd
  exact ⟨c, h1, h2, t, b, hz, hb, hs, fun p hp => ⟨(h3 p hp).1, (h3 p hp).2.1⟩⟩

/-- **C145** A container that shows elements of a view or slice shows elements of the table. -/
theorem C145_through (w : World α) (z : Nat) (c c' : Container) (f g : List Int → List Int) (h : Looks w c z f)
    (hc : ∀ p, InBox c'.shape p → InBox c.shape (g p) ∧ c'.addr p = c.addr (g p)) : Looks w c' z fun p => f (g p) := by
  obtain ⟨t, b, hz, hb, hs, h⟩ := h
  exact ⟨t, b, hz, hb, hs, fun p hp => ⟨(h _ (hc p hp).1).1, by rw [(hc p hp).2, (h _ (hc p hp).1).2]⟩⟩

/-- **C145** Every program that runs either keeps the elements of a table, in one table, or ends them. -/
theorem C145_fate (md : Mode) (w w' : World α) (acts : List (Act α)) (z : Nat) (h : w.runActs md acts = .ok w') :
    ∃! r, ElementsGo md w acts z w' r := by
  induction acts generalizing w z with
  | nil =>
    cases h
    exact ⟨some z, .nil, fun r hr => by cases hr; rfl⟩
  | cons a acts ih =>
    obtain ⟨w1, e1, e2⟩ := runActs_cons.1 h
    cases hg : actGoesTo w a z with
    | none =>
      refine ⟨none, .ended e1 hg e2, fun r hr => ?_⟩
      cases hr with
      | on _ hg' _ => rw [hg] at hg'; cases hg'
      | ended => rfl
    | some z1 =>
      obtain ⟨r, h1, h2⟩ := ih w1 z1 e2
      refine ⟨r, .on e1 hg h1, fun r' hr => ?_⟩
      cases hr with
      | on e1' hg' h' =>
        rw [hg] at hg'; cases hg'
        rw [e1] at e1'; cases e1'
        exact h2 r' h'
      | ended _ hg' _ => rw [hg] at hg'; cases hg'

/-- **C145** As long as the elements of the table are not ended, a view shows them, wherever moves and swaps took them: the view reads
what the table that has them reads, and what is written through the view is read from the table. -/
theorem C145_stays (md : Mode) (w w' : World α) (hw : Reached md w) (acts : List (Act α)) (z z' : Nat)
    (hf : ElementsGo md w acts z w' (some z')) (c : Container) (f : List Int → List Int) (h : Looks w c z f) :
    Looks w' c z' f ∧ ∃ t, w'.tables z' = some t ∧ ∀ p, InBox c.shape p →
      (∃ v, c.get w'.mem p = .ok v ∧ w'.read t (f p) = .ok v) ∧
      ∀ v, ∃ m, store w'.mem (c.addr p) v = .ok m ∧ ({ w' with mem := m } : World α).read t (f p) = .ok v := by
  have hl : Looks w' c z' f ∧ WInv w' := by
    have hw := reached_inv hw
    clear * - hf h hw
    generalize hr : some z' = r at hf
    induction hf with
    | nil => cases hr; exact ⟨h, hw⟩
    | ended => cases hr
    | on e1 hg _ ih =>
      obtain ⟨t, b, hz, hb, hs, h⟩ := h
      obtain ⟨t', h1, h2, h3⟩ := act_goes e1 hz hb hg
      exact ih ⟨t', b, h1, h2, by rw [h3]; exact hs, by rw [h3]; exact h⟩ (act_inv hw e1) hr
  refine ⟨hl.1, ?_⟩
  obtain ⟨⟨t, b, hz, hb, hs, h⟩, hw⟩ := hl
  refine ⟨t, hz, fun p hp => ?_⟩
  obtain ⟨h1, h2⟩ := h p hp
  have hcell : (w'.mem (c.addr p)).isSome := by
    rw [h2, addr_default (ofShape_default hs) h1]
    obtain ⟨k1, k2⟩ := lin_bounds h1
    have := hw.cells z' t b hz hb _ k1 (by rw [numel_eq_prod hs]; exact k2)
    simpa [Container.ofShape, Ptr.add] using this
  obtain ⟨v, hv⟩ := load_isSome hcell
  refine ⟨⟨v, hv, ?_⟩, fun v => ⟨_, store_ok hcell, ?_⟩⟩
  · simp only [World.read, hb, Container.get, ← h2]; exact hv
  · simp only [World.read, hb, Container.get, ← h2]
    simp [load, wr]

/-- **C145** Once the elements of the table are ended, every access through a view of them is an error, whatever happens later. -/
theorem C145_ended (md : Mode) (w w' : World α) (hw : Reached md w) (acts : List (Act α)) (z : Nat) (hf : ElementsGo md w acts z w' none)
    (c : Container) (f : List Int → List Int) (h : Looks w c z f) (p : List Int) (hp : InBox c.shape p) :
    c.get w'.mem p = .error .outOfBounds ∧ ∀ v, store w'.mem (c.addr p) v = .error .outOfBounds := by
  have hg : GoneCell w' (c.addr p) := by
    have hw := reached_inv hw
    clear * - hf h hw hp
    generalize hr : (none : Option Nat) = r at hf
    induction hf with
    | nil => cases hr
    | on e1 hg _ ih =>
      obtain ⟨t, b, hz, hb, hs, h⟩ := h
      obtain ⟨t', h1, h2, h3⟩ := act_goes e1 hz hb hg
      exact ih ⟨t', b, h1, h2, by rw [h3]; exact hs, by rw [h3]; exact h⟩ (act_inv hw e1) hr
    | ended e1 hg e2 =>
      obtain ⟨t, b, hz, hb, hs, h⟩ := h
      exact runActs_gone e2 (act_ends hw e1 hz hb hg (by rw [(h p hp).2]; rfl))
  refine ⟨?_, fun v => ?_⟩
  · simp [Container.get, load, hg.1]
  · simp [store, hg.1]

/-- **C145** The values that a view shows change only by assignments to elements of the table that has them: no copy, move, swap or destruction and
no algorithm on another table changes them. -/
theorem C145_values (md : Mode) (w w' : World α) (hw : Reached md w) (act : Act α) (z z' : Nat) (ha : w.act md act = .ok w')
    (hg : actGoesTo w act z = some z') (hn : ¬ ActWrites act z) (c : Container) (f : List Int → List Int) (h : Looks w c z f)
    (p : List Int) (hp : InBox c.shape p) : c.get w'.mem p = c.get w.mem p := by
  obtain ⟨t, b, hz, hb, hs, h⟩ := h
  have := act_outside (reached_inv hw) ha hz hb hg hn (p := c.addr p) (by rw [(h p hp).2]; rfl)
  simp only [Container.get, load, this]

/-- **C145** An assignment to one element of the table is seen by every view of it, at the positions where the view shows that element
and nowhere else. -/
theorem C145_written (md : Mode) (w : World α) (hw : Reached md w) (z : Nat) (t : Table) (hz : w.tables z = some t) (q : List Int)
    (hq : InBox t.shape q) (v : α) (c : Container) (f : List Int → List Int) (h : Looks w c z f) :
    ∃ w', w.act md (.op (.write z q v)) = .ok w' ∧
      ∀ p, InBox c.shape p → c.get w'.mem p = if f p = q then .ok v else c.get w.mem p := by
  obtain ⟨t', b, hz', hb, hs, h⟩ := h
  obtain rfl : t = t' := Option.some.inj (hz.symm.trans hz')
  have hd := ofShape_default (b := ⟨b, 0⟩) hs
  have hcell : (w.mem ((Container.ofShape ⟨b, 0⟩ t.shape).addr q)).isSome := by
    rw [addr_default hd hq]
    obtain ⟨k1, k2⟩ := lin_bounds hq
    have := (reached_inv hw).cells z t b hz hb _ k1 (by rw [numel_eq_prod hs]; exact k2)
    simpa [Container.ofShape, Ptr.add] using this
  refine ⟨{ w with mem := wr w.mem ((Container.ofShape ⟨b, 0⟩ t.shape).addr q) v }, ?_, fun p hp => ?_⟩
  · simp only [World.act, World.step, hz, hb, store_ok hcell]
    rfl
  · obtain ⟨h1, h2⟩ := h p hp
    simp only [Container.get, h2, load, wr]
    by_cases e : f p = q
    · simp [e]
    · rw [if_neg e, if_neg]
      rw [addr_default hd h1, addr_default hd hq]
      intro e'
      refine e (lin_inj h1 hq ?_)
      simpa [Ptr.add, Container.ofShape] using e'

/-! ## Examples -/

/-- Makes a 2×3 table 0 that holds 10, …, 15, and a copy of it, table 1. -/
def exStart : List (Act Int) := [.op (.make 0 5 [2, 3] none), .iota 0 (· + 1) 10, .op (.copy 1 0)]

/-- Moves table 0 into a new table 2, exchanges it with 1, writes to it and to the other one. -/
def exTravel : List (Act Int) := [.op (.move 2 0), .op (.swap 1 2), .op (.write 1 [1, 0] 50), .fill 2 0]

/-- Assigns to the table that has the elements, then builds other tables. -/
def exEnd : List (Act Int) := [.op (.copyAssign 1 2), .op (.make 4 5 [2, 3] none)]

/-- What the slice `t(1, _)` of table 0, taken after `exStart`, reads after further actions. -/
def exSeen (acts : List (Act Int)) : Res (List (Res Int)) := do
  let w ← exWorld.runActs .checked exStart
  match w.tables 0 with
  | none => throw .nullDeref
  | some t =>
    let c ← (w.container t).slice .checked [.index 1, .joker]
    let w' ← w.runActs .checked acts
    return (positions c.shape).map (c.get w'.mem)

example : exSeen [] = .ok [.ok 13, .ok 14, .ok 15] := by decide +kernel

example : exSeen exTravel = .ok [.ok 50, .ok 14, .ok 15] := by decide +kernel

example : exSeen (exTravel ++ exEnd) = .ok [.error .outOfBounds, .error .outOfBounds, .error .outOfBounds] := by decide +kernel

/-- Runs actions and says where the elements of table `z` are afterwards. -/
def exFollow (md : Mode) : World Int → List (Act Int) → Nat → Res (World Int × Option Nat)
  | w, [], z => .ok (w, some z)
  | w, a :: acts, z => do
    let w1 ← w.act md a
    match actGoesTo w a z with
    | some z1 => exFollow md w1 acts z1
    | none => do let w' ← w1.runActs md acts; .ok (w', none)

theorem exFollow_follows {md : Mode} {w : World Int} {acts : List (Act Int)} {z : Nat} {r : World Int × Option Nat}
    (h : exFollow md w acts z = .ok r) : ElementsGo md w acts z r.1 r.2 := by
  induction acts generalizing w z with
  | nil => cases h; exact .nil
  | cons a acts ih =>
    obtain ⟨w1, h1, h⟩ := resBind_ok h
    cases hg : actGoesTo w a z with
    | some z1 => rw [hg] at h; exact .on h1 hg (ih h)
    | none =>
      rw [hg] at h
      obtain ⟨w', h2, h⟩ := resBind_ok h
      cases h
      exact .ended h1 hg h2

/-- The state after `exStart`. -/
def exStarted : World Int :=
  match exWorld.runActs .checked exStart with
  | .ok w => w
  | .error _ => exWorld

theorem exStarted_reached : Reached .checked exStarted := by
  refine ⟨exWorld, exStart, exWorld_fresh, ?_⟩
  have h : (match exWorld.runActs .checked exStart with | .ok _ => true | .error _ => false) = true := by decide +kernel
  unfold exStarted
  cases e : exWorld.runActs .checked exStart with
  | ok w => rfl
  | error e' => rw [e] at h; cases h

theorem exStarted_table : exStarted.tables 0 = some ⟨some 1, some 5, [2, 3]⟩ := by decide +kernel

theorem exFollows (acts : List (Act Int)) (r : Option Nat) (h : (exFollow .checked exStarted acts 0).map (·.2) = .ok r) :
    ∃ w', ElementsGo .checked exStarted acts 0 w' r := by
  cases e : exFollow .checked exStarted acts 0 with
  | error e' => rw [e] at h; cases h
  | ok x =>
    rw [e] at h
    cases h
    exact ⟨x.1, exFollow_follows e⟩

/-- The hypotheses of C145 hold for these programs: the elements of table 0 go to table 2, then to table 1, and end. -/
example : ∃ w1 w2 c, Looks exStarted c 0 (pickAt [[1], [0, 1, 2]]) ∧ InBox c.shape [0, 2] ∧
    ElementsGo .checked exStarted exTravel 0 w1 (some 1) ∧ ElementsGo .checked exStarted (exTravel ++ exEnd) 0 w2 none := by
  obtain ⟨w1, h1⟩ := exFollows exTravel (some 1) (by decide +kernel)
  obtain ⟨w2, h2⟩ := exFollows (exTravel ++ exEnd) none (by decide +kernel)
  obtain ⟨c, -, hs, hc⟩ := C145_slice .checked exStarted 0 _ exStarted_table rfl (by decide)
    (sl := [.index 1, .joker]) (ls := [[1], [0, 1, 2]])
    (.cons (.index (by decide) (by decide)) (.cons (show Picks 3 _ (upTo 3) from .joker (by decide)) .nil))
    (fun _ => by decide)
  exact ⟨w1, w2, c, hc, by rw [hs]; decide, h1, h2⟩

theorem exStarted_looks : Looks exStarted (viewOf (exStarted.container ⟨some 1, some 5, [2, 3]⟩)) 0 fun p => p :=
  C145_view exStarted 0 _ exStarted_table rfl (by decide)

example := C145_through exStarted 0 _ (viewOf (exStarted.container ⟨some 1, some 5, [2, 3]⟩)) _ (fun p => p) exStarted_looks
  fun _ hp => ⟨hp, rfl⟩

example : ∃ w', ∃! r, ElementsGo .checked exStarted exTravel 0 w' r := by
  obtain ⟨w1, h1⟩ := exFollows exTravel (some 1) (by decide +kernel)
  cases e : exStarted.runActs .checked exTravel with
  | error e' =>
    have : (match exStarted.runActs .checked exTravel with | .ok _ => true | .error _ => false) = true := by decide +kernel
    rw [e] at this
    cases this
  | ok w' => exact ⟨w', C145_fate .checked exStarted w' exTravel 0 e⟩

/-- The view of table 0 shows 50 in table 1 after `exTravel`, and is not to be used after `exEnd`. -/
example : (∃ w1 : World Int, Looks w1 (viewOf (exStarted.container ⟨some 1, some 5, [2, 3]⟩)) 1 fun p => p) ∧
    ∃ w2 : World Int, (viewOf (exStarted.container ⟨some 1, some 5, [2, 3]⟩)).get w2.mem [1, 2] = .error .outOfBounds := by
  obtain ⟨w1, h1⟩ := exFollows exTravel (some 1) (by decide +kernel)
  obtain ⟨w2, h2⟩ := exFollows (exTravel ++ exEnd) none (by decide +kernel)
  exact ⟨⟨w1, (C145_stays .checked _ _ exStarted_reached _ _ _ h1 _ _ exStarted_looks).1⟩,
    w2, (C145_ended .checked _ _ exStarted_reached _ _ h2 _ _ exStarted_looks [1, 2] (by decide)).1⟩

/-- A move does not write, and takes the elements along. -/
example : actGoesTo exStarted (.op (.move 2 0)) 0 = some 2 ∧ ¬ ActWrites (.op (.move 2 0) : Act Int) 0 ∧
    ActWrites (.fill 0 0 : Act Int) 0 := by
  refine ⟨by decide +kernel, ?_, rfl⟩
  simp [ActWrites]

example (w' : World Int) (h : exStarted.act .checked (.op (.move 2 0)) = .ok w') :=
  C145_values .checked _ w' exStarted_reached _ 0 2 h (by decide +kernel) (by simp [ActWrites]) _ _ exStarted_looks [1, 2] (by decide)

end Kwk
