import Verif.Spec.Reader

/-!
# Specification: what a message about a failed assertion has to tell

The condition, the place, the names and the numbers involved.
-/

namespace Kwk.Spec

/-- What has to be told: the condition, its place, names, and numbers: those of the library (`before` and `after`) and those the program gave. -/
structure Failure (τ : Type) where
  cond : String
  file : String
  line : Nat
  names : List String
  before : List (Int × Bool)
  given : List τ
  after : List (Int × Bool)

/-- The numbers to be shown, in order. -/
def Failure.shown {τ : Type} (value : τ → Int × Bool) (f : Failure τ) : List (Int × Bool) :=
  f.before ++ f.given.map value ++ f.after

/-- A text tells the names and the numbers. -/
def Tells {τ : Type} (value : τ → Int × Bool) (f : Failure τ) (d : String) : Prop :=
  (∀ w ∈ f.names, w.toList <:+: d.toList) ∧ numbersIn d = f.shown value

example : Tells (τ := Int) (fun i => (i, false)) ⟨"c", "f", 3, ["along<1>"], [(1, false), (4, false)], [5], []⟩
    "axis along<1>[4] as 5" := by
  refine ⟨?_, by decide +kernel⟩
  intro w hw
  rw [List.mem_singleton.1 hw]
  exact ⟨"axis ".toList, "[4] as 5".toList, by decide +kernel⟩

end Kwk.Spec
