import Verif.Lemmas.Witnesses
import Verif.Spec.Owned

/-! # Objects for the examples: tables -/

namespace Kwk

open Spec

/-- The initial state of the examples: one array of six elements, no table. -/
def exWorld : World Int :=
  { mem := oneBlock 0 [1, 2, 3, 4, 5, 6], live := fun _ => none, next := 1, junk := fun _ => 0,
    tables := fun _ => none }

theorem exWorld_fresh : Fresh exWorld where
  noTable := fun _ => rfl
  noBlock := fun _ => rfl
  old := by
    intro p hp
    simp only [exWorld, oneBlock] at hp ⊢
    rw [if_neg (by omega)]

theorem exWorld_reachable : Reachable exWorld := ⟨exWorld, [], exWorld_fresh, rfl⟩

/-- Makes table 0 of the elements 1 2 3 4 of an array, copies it to table 1, and writes to the copy. -/
def exMade : List (Op Int) := [.make 0 7 [2, 2] (some (some ⟨0, 0⟩)), .copy 1 0, .write 1 [0, 0] 9]

/-- The state after `exMade`. -/
def exTables : World Int := match exWorld.run exMade with
  | .ok w => w
  | .error _ => exWorld

theorem exTables_run : exWorld.run exMade = .ok exTables := by
  have h : (match exWorld.run exMade with | .ok _ => true | .error _ => false) = true := by decide +kernel
  unfold exTables
  cases e : exWorld.run exMade with
  | ok w => rfl
  | error e' => rw [e] at h; cases h

theorem exTables_reachable : Reachable exTables := ⟨exWorld, exMade, exWorld_fresh, exTables_run⟩

/-- Table 0. -/
theorem exTables_zero : exTables.tables 0 = some ⟨some 1, some 7, [2, 2]⟩ := by decide +kernel

/-- Table 1. -/
theorem exTables_one : exTables.tables 1 = some ⟨some 2, some 0, [2, 2]⟩ := by decide +kernel

/-- The elements of table 1. -/
def exCopyVal (p : List Int) : Int := if p = [0, 0] then 9 else exInVal p

theorem exTables_holds : Holds exTables 0 [2, 2] exInVal := ⟨_, exTables_zero, rfl, fun p hp =>
  (by decide +kernel : ∀ p ∈ positions [2, 2], exTables.read ⟨some 1, some 7, [2, 2]⟩ p = .ok (exInVal p)) p (mem_positions.2 hp)⟩

theorem exTables_holds_copy : Holds exTables 1 [2, 2] exCopyVal := ⟨_, exTables_one, rfl, fun p hp =>
  (by decide +kernel : ∀ p ∈ positions [2, 2], exTables.read ⟨some 2, some 0, [2, 2]⟩ p = .ok (exCopyVal p)) p (mem_positions.2 hp)⟩

end Kwk
