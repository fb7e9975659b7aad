import Verif.Lemmas.Values
import Mathlib.Algebra.BigOperators.Ring.List
import Verif.Props.Ownership

/-!
# Tables behave as values (C89, C90, C91)
-/

namespace Kwk

open Spec

variable {α : Type}

/-- **C89** `x(p...) = v` on a table that holds `f`: it succeeds, `x` then holds `f` with the element at `p`
replaced and nothing else changed, every other table keeps its value, and so does all memory that `x` does not own. -/
theorem C89_write_one_element (w : World α) (hr : Reachable w) (x : Nat) (s : Shape) (f : List Int → α)
    (hne : s ≠ []) (hx : Holds w x s f) (p : List Int) (hp : InBox s p) (v : α) :
    ∃ w', w.step (.write x p v) = .ok w' ∧
      Holds w' x s (fun q => if q = p then v else f q) ∧
      (∀ y t g, y ≠ x → Holds w y t g → Holds w' y t g) ∧
      (∀ q : Ptr, ¬ Owns w x q.blk → w'.mem q = w.mem q) := by
  have hi := reachable_inv hr
  obtain ⟨w', b0, e, ⟨tx, htx, hb0⟩, et, -, em, hw⟩ := write_holds hx hne hp v
  refine ⟨w', e, hw, ?_, ?_⟩
  · intro y t g hy hg
    refine holds_frame hg (by rw [et]) fun u b k hu hb => ?_
    apply em
    rintro rfl
    exact hy (hi.excl y x u tx _ hu htx hb hb0)
  · intro q hq
    apply em
    rintro rfl
    exact hq ⟨tx, htx, hb0⟩

example : readAll exWorld [.copyFrom 0 (Container.ofShape ⟨0, 0⟩ [2, 3]), .copy 1 0, .write 0 [0, 1] 9] 0
    (positions [2, 3]) = .ok [.ok 1, .ok 9, .ok 3, .ok 4, .ok 5, .ok 6] := by decide

example : readAll exWorld [.copyFrom 0 (Container.ofShape ⟨0, 0⟩ [2, 3]), .copy 1 0, .write 0 [0, 1] 9] 1
    (positions [2, 3]) = .ok [.ok 1, .ok 2, .ok 3, .ok 4, .ok 5, .ok 6] := by decide

/-- **C90** Programs on tables mean what they mean for plain values.  If a program is meaningful when tables are
thought of as values, then it runs without fault, at the end the objects are exactly those that the program
makes of values, and the memory of the rest of the program is as before. -/
theorem C90_value_semantics (w : World α) (hw : Fresh w) (ops : List (Op α)) (a : Values α)
    (h : MeansAll w.mem (fun _ => .absent) ops a) :
    ∃ w', w.run ops = .ok w' ∧ Shows w' a ∧ (∀ p : Ptr, p.blk < w.next → w'.mem p = w.mem p) ∧
      Owned w' := by
  obtain ⟨w', e, hs⟩ := sim_run hw.old h (fresh_sim hw)
  exact ⟨w', e, hs.shows, hs.ext, inv_owned hs.inv⟩

/-- **C90** The same from the middle of a program: what a further operation does to objects whose values are known
does not depend on how the program got there. -/
theorem C90_value_semantics_step (w : World α) (hw : Fresh w) (ops : List (Op α)) (a : Values α)
    (h : MeansAll w.mem (fun _ => .absent) ops a) (op : Op α) (a' : Values α) (h' : Means w.mem a op a') :
    ∃ w1 w2, w.run ops = .ok w1 ∧ w1.step op = .ok w2 ∧ Shows w1 a ∧ Shows w2 a' := by
  obtain ⟨w1, e1, hs⟩ := sim_run hw.old h (fresh_sim hw)
  obtain ⟨w2, e2, hs2⟩ := sim_step hw.old hs h'
  exact ⟨w1, w2, e1, e2, hs.shows, hs2.shows⟩

/-- Two tables: 0 is made from the array 1 2 3, copied to 1, then 0 is changed and 1 is moved to 2. -/
def exValueOps : List (Op Int) :=
  [.make 0 5 [3] (some (some ⟨0, 0⟩)), .copy 1 0, .write 0 [2] 7, .move 2 1, .copyAssign 1 0, .swap 0 2,
   .moveAssign 0 0, .destroy 2]

/-- What the program does to values: at the end 0 holds 1 2 3 and 1 holds 1 2 7. -/
def exValues : Values Int :=
  let f : List Int → Int := fun p => 1 + p.headD 0
  let g := replaceAt f [2] 7
  let a1 : Values Int := Values.set (fun _ => .absent) 0 (.value [3] f)
  let a2 := ((a1.set 1 (.value [3] f)).set 0 (.value [3] g))
  let a3 := ((a2.set 1 .unspecified).set 2 (a2 1)).set 1 (.value [3] g)
  let a4 := (a3.set 0 (a3 2)).set 2 (a3 0)
  (((a4.set 0 .unspecified).set 0 (a4 0))).set 2 .absent

/-- The program is meaningful. -/
theorem exValueOps_means : MeansAll exWorld.mem (fun _ => .absent) exValueOps exValues := by
  refine .cons (.fill (f := fun p => 1 + p.headD 0) rfl (by simp) (by decide) ?_) ?_
  · intro k p hk
    have hlt : k < 3 := (List.getElem?_eq_some_iff.1 hk).1
    have : ∀ k : Nat, k < 3 → ∀ p ∈ positions [3], (positions [3])[k]? = some p →
        exWorld.mem ((⟨0, 0⟩ : Ptr).add k) = some (1 + p.headD 0) := by decide
    exact this k hlt p (List.mem_of_getElem? hk) hk
  refine .cons (.copy rfl rfl) ?_
  refine .cons (.write rfl (mem_positions.1 (by decide))) ?_
  refine .cons (.move rfl (by simp [Values.set])) ?_
  refine .cons (.copyAssign (by simp [Values.set]) rfl) ?_
  refine .cons (.swap (by simp [Values.set]) (by simp [Values.set])) ?_
  refine .cons (.moveAssign (by simp [Values.set]) (by simp [Values.set])) ?_
  exact .cons (.destroy (by simp [Values.set])) .nil

example : ∃ f g, exValues 0 = .value [3] f ∧ (positions [3]).map f = [1, 2, 3] ∧
    exValues 1 = .value [3] g ∧ (positions [3]).map g = [1, 2, 7] ∧ exValues 2 = .absent :=
  ⟨_, _, rfl, by decide, rfl, by decide, rfl⟩

example : ∃ w', exWorld.run exValueOps = .ok w' ∧ Owned w' := by
  obtain ⟨w', e, -, -, ho⟩ := C90_value_semantics exWorld exWorld_fresh exValueOps _ exValueOps_means
  exact ⟨w', e, ho⟩

example : readAll exWorld exValueOps 1 (positions [3]) = .ok [.ok 1, .ok 2, .ok 7] := by decide

/-! ## C91: default construction -/

/-- **C91** A default-constructed table with a run-time axis has the extents of its type, 0 on the run-time axes, no
element and no memory; nothing is allocated and no other object is touched. -/
theorem C91_default_table_empty (w : World α) (x : Nat) (hx : w.tables x = none) (axes : List (Option Nat))
    (hn : none ∈ axes) :
    ∃ w' t, w.step (.dflt x axes) = .ok w' ∧ w'.tables x = some t ∧ t.shape.length = axes.length ∧
      (∀ (i : Nat) n, axes[i]? = some (some n) → t.shape[i]? = some (n : Int)) ∧
      (∀ i : Nat, axes[i]? = some none → t.shape[i]? = some 0) ∧
      numel t.shape = 0 ∧ (∀ p, ¬ InBox t.shape p) ∧ t.data = none ∧
      w'.mem = w.mem ∧ w'.live = w.live ∧ ∀ y, y ≠ x → w'.tables y = w.tables y := by
  let t : Table := ⟨none, some heapAlloc, axes.map fun e => ((e.getD 0 : Nat) : Int)⟩
  have h0 : (0 : Int) ∈ t.shape := List.mem_map.2 ⟨none, hn, rfl⟩
  have hne : t.shape ≠ [] := by intro e; rw [e] at h0; cases h0
  refine ⟨{ w with tables := upd w.tables x (some t) }, t, by simp only [World.step, hx, if_pos hn]; rfl,
    upd_self _ _ _, by simp [t], ?_, ?_, ?_, ?_, rfl, rfl, rfl, fun y hy => upd_ne _ _ hy⟩
  · intro i n hi; simp [t, hi]
  · intro i hi; simp [t, hi]
  · rw [numel_eq_prod hne]
    exact List.prod_eq_zero_iff.2 h0
  · intro p hp
    have := hp.pos 0 h0
    omega

example : ((exWorld.run [.dflt 3 [some 2, none]]).toOption.bind fun w => w.tables 3) =
    some ⟨none, some heapAlloc, [2, 0]⟩ := by decide

end Kwk
