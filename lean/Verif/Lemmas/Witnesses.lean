import Verif.Lemmas.Container
import Verif.Spec.Contexts
import Verif.Spec.Parallel

/-! # Objects for the examples: two containers of 2x2 elements in the same memory -/

namespace Kwk

open Spec

variable {σ α : Type}

/-- Two arrays of 2x2 elements: 1 2 3 4, and 0 0 0 0. -/
def exTwo : Mem Int := oneBlock 0 [1, 2, 3, 4, 0, 0, 0, 0]

/-- The input of the examples. -/
def exIn : Container := Container.ofShape ⟨0, 0⟩ [2, 2]

/-- The output of the examples. -/
def exOut : Container := Container.ofShape ⟨0, 4⟩ [2, 2]

/-- The elements of the input. -/
def exInVal : List Int → Int := fun p => 2 * p.headD 0 + p.tail.headD 0 + 1

theorem exIn_elems : Elems exIn exTwo exInVal := fun p hp =>
  (by decide : ∀ p ∈ positions exIn.shape, exIn.get exTwo p = .ok (exInVal p)) p (mem_positions.2 hp)

theorem exOut_elems : Elems exOut exTwo fun _ => 0 := fun p hp =>
  (by decide : ∀ p ∈ positions exOut.shape, exOut.get exTwo p = .ok 0) p (mem_positions.2 hp)

theorem ex_all {P : List Int → Prop} (h : ∀ p ∈ positions [2, 2], P p) : ∀ p, InBox [2, 2] p → P p := fun p hp =>
  h p (mem_positions.2 hp)

theorem ex_upTo {P : Nat → Prop} (h : ∀ k < 5, P k) : ∀ k ≤ (positions [2, 2]).length, P k := fun k hk =>
  h k (Nat.lt_succ_of_le hk)

theorem exIn_distinct : Distinct exIn := fun p q hp hq =>
  (by decide : ∀ p ∈ positions exIn.shape, ∀ q ∈ positions exIn.shape, exIn.addr p = exIn.addr q → p = q) p (mem_positions.2 hp) q
    (mem_positions.2 hq)

theorem exOut_distinct : Distinct exOut := fun p q hp hq =>
  (by decide : ∀ p ∈ positions exOut.shape, ∀ q ∈ positions exOut.shape, exOut.addr p = exOut.addr q → p = q) p (mem_positions.2 hp) q
    (mem_positions.2 hq)

theorem exIn_valid : Valid exIn exTwo := fun p hp => ⟨_, exIn_elems p hp⟩

theorem exOut_valid : Valid exOut exTwo := fun p hp => ⟨_, exOut_elems p hp⟩

theorem ex_disjoint : Disjoint exOut exIn := fun p q hp hq =>
  (by decide : ∀ p ∈ positions exOut.shape, ∀ q ∈ positions exOut.shape, exOut.addr p ≠ exIn.addr q) p (mem_positions.2 hp) q
    (mem_positions.2 hq)

theorem ex_apart : Apart exOut exIn := fun p q hp hq _ => ex_disjoint p q hp hq

theorem ex_noClobber : NoClobber exOut exIn := fun p q hp hq _ => ex_disjoint q p hq hp

theorem exIn_noClobber : NoClobber exIn exIn := fun p q hp hq h e => by
  rw [exIn_distinct q p hq hp e] at h
  exact List.lt_irrefl _ h

theorem exIn_default : exIn.Default := ofShape_default (by decide)

theorem exOut_default : exOut.Default := ofShape_default (by decide)

theorem ex_split : positions [2, 2] = [[0, 0], [0, 1]] ++ [1, 0] :: [[1, 1]] := by decide

/-- Throws for 3. -/
def notThree (x : Int) : Except String Int := if x = 3 then .error "three" else .ok (10 * x)

/-- `<`, throws for 3 on the left. -/
def lessNotThree (a b : Int) : Except String Bool := if a = 3 then .error "three" else .ok (a < b)

theorem lessNotThree_sound : ∀ a b r, lessNotThree a b = .ok r → decide (a < b) = r := by
  intro a b r h
  unfold lessNotThree at h
  split at h
  · cases h
  · cases h; rfl

/-- Throws at the third call; writes 7 through the pointers before. -/
def thirdCall (n : Nat) (ps : List Ptr) (m : Mem Int) : Res (Except String Unit × (Nat × Mem Int)) :=
  if n = 2 then pure (.error "third", (n, m))
  else do
    let m ← ps.foldlM (fun m p => store m p 7) m
    pure (.ok (), (n + 1, m))

theorem exInVal_sorted : ∀ p q, InBox exIn.shape p → InBox exIn.shape q → p < q → exInVal p < exInVal q := fun p q hp hq =>
  (by decide : ∀ p ∈ positions exIn.shape, ∀ q ∈ positions exIn.shape, p < q → exInVal p < exInVal q) p (mem_positions.2 hp) q
    (mem_positions.2 hq)

/-- Some accesses of each call, those of different calls mixed, then enough for each call to end. -/
def exSchedule : List (List Int) := [[1, 1], [0, 0], [0, 1], [1, 1]] ++ (positions [2, 2]).flatMap fun p => [p, p, p, p, p]

theorem exSchedule_schedules : Schedules [2, 2] exSchedule := by intro p hp; revert p; decide

/-- The calls have ended. -/
def ended (r : Res (PState σ α)) : Bool := match r with
  | .ok st => (positions [2, 2]).all fun p => match st.todo p with | .done => true | _ => false
  | .error _ => false

theorem exists_of_ended {r : Res (PState σ α)} (h : ended r = true) : ∃ st, r = .ok st ∧ Finished [2, 2] st := by
  unfold ended at h
  cases r with
  | error e => simp at h
  | ok st =>
    refine ⟨st, rfl, fun p hp => ?_⟩
    have := List.all_eq_true.1 h p (mem_positions.2 hp)
    cases e : st.todo p <;> simp_all

theorem ex_two_positions : ∃ p q, InBox [2, 2] p ∧ InBox [2, 2] q ∧ p ≠ q := ⟨[0, 0], [1, 0], by decide, by decide, by decide⟩

end Kwk
