import Verif.Spec.Slice
import Verif.Model.Custom

/-!
# Specification: what a slicer of the user selects

A type says where its selection starts, how many indexes it has and how far they are apart.
-/

namespace Kwk.Spec

/-- The slicer `s`, asked about axis `n` of a container of shape `shp` and strides `st`, says that the selection starts at index `b` and
consists of `k` indexes at distance `d`. What it does not say: one index, at distance 1. -/
structure Says (shp : Shape) (st : Strides) (n : Nat) (s : CustomSlicer) (b k d : Int) : Prop where
  /-- the start is given by the member function or, without it, by the conversion -/
  start : (∃ f, s.reindex = some f ∧ f shp n = b) ∨ (s.reindex = none ∧ s.value = some b)
  /-- the number of indexes -/
  count : (∃ f, s.reshape = some f ∧ f shp n = k) ∨ (s.reshape = none ∧ k = 1)
  /-- the distance -/
  distance : ∃ g, st[n]? = some g ∧ ((∃ f, s.restride = some f ∧ f st n = d * g) ∨ (s.restride = none ∧ d = 1))

/-- Along axis `n` of a container of shape `shp` and strides `st`, the slicer selects the indexes `l`, in this order. -/
inductive Chooses (shp : Shape) (st : Strides) (n : Nat) : AnySlicer → List Int → Prop where
  | library {s : Slicer} {d : Int} {l : List Int} : shp[n]? = some d → Picks d s l → Chooses shp st n (.library s) l
  | custom {s : CustomSlicer} {b k d e : Int} : Says shp st n s b k d → shp[n]? = some e → 0 ≤ k →
      (∀ j, 0 ≤ j → j < k → 0 ≤ b + j * d ∧ b + j * d < e) →
      Chooses shp st n (.custom s) ((upTo k).map fun j => b + j * d)

/-- One slicer per axis. -/
def ChoosesAll (shp : Shape) (st : Strides) (sl : List AnySlicer) (ls : List (List Int)) : Prop :=
  sl.length = shp.length ∧ ls.length = shp.length ∧
    ∀ (n : Nat) (s : AnySlicer) (l : List Int), sl[n]? = some s → ls[n]? = some l → Chooses shp st n s l

end Kwk.Spec
