import Verif.Spec.Values
import Verif.Spec.Slice
import Verif.Model.Programs

/-!
# Specification: what programs with tables and algorithms mean for values

Continues `Spec/Values.lean`: no memory, no addresses.
-/

namespace Kwk.Spec

variable {α : Type}

/-- The object has shape `s`, whether or not its elements were written. -/
def Shaped (o : Obj α) (s : Shape) : Prop := o = .raw s ∨ ∃ f, o = .value s f

/-- `MeansAct md ext a act a'`: the action is meaningful on the objects `a` and makes them `a'`. -/
inductive MeansAct (md : Mode) (ext : Mem α) : Values α → Act α → Values α → Prop where
  /-- operations on the objects -/
  | op {a a' o} : Means ext a o a' → MeansAct md ext a (.op o) a'
  /-- every element becomes `v` -/
  | fill {a x s v} : Shaped (a x) s → MeansAct md ext a (.fill x v) (a.set x (.value s fun _ => v))
  /-- the element at `p` becomes `g p` -/
  | generate {a x s g} : Shaped (a x) s → MeansAct md ext a (.generate x g) (a.set x (.value s g))
  /-- the elements become `v`, `incr v`, `incr (incr v)`, … in row-major order -/
  | iota {a x s incr v f} : Shaped (a x) s → (∀ k p, (positions s)[k]? = some p → f p = incr^[k] v) →
      MeansAct md ext a (.iota x incr v) (a.set x (.value s f))
  /-- matching elements become `v` -/
  | replaceIf {a x s f c v} : a x = .value s f →
      MeansAct md ext a (.replaceIf x c v) (a.set x (.value s fun p => if c (f p) then v else f p))
  /-- element by element, tables of the same shape; the target can be one of the arguments -/
  | transform {a x s g ys fs} : Shaped (a x) s → List.Forall₂ (fun y f => a y = .value s f) ys fs →
      MeansAct md ext a (.transform x g ys) (a.set x (.value s fun p => g (fs.map fun f => f p)))
  /-- the value of the other table -/
  | copy {a x y s f} : Shaped (a x) s → a y = .value s f → MeansAct md ext a (.copy x y) (a.set x (.value s f))
  /-- the matching elements of the other table -/
  | copyIf {a x y s f g c} : a x = .value s g → a y = .value s f →
      MeansAct md ext a (.copyIf x c y) (a.set x (.value s fun p => if c (f p) then f p else g p))
  /-- the folds of the elements up to each position; in place or not -/
  | inclusiveScan {a x y s f g h init} : Shaped (a x) s → a y = .value s f →
      (∀ k p, (positions s)[k]? = some p → h p = (((positions s).take (k + 1)).map f).foldl g init) →
      MeansAct md ext a (.inclusiveScan y x init g) (a.set x (.value s h))
  /-- the folds of the elements before each position; not in place -/
  | exclusiveScan {a x y s f g h init} : x ≠ y → Shaped (a x) s → a y = .value s f →
      (∀ k p, (positions s)[k]? = some p → h p = (((positions s).take k).map f).foldl g init) →
      MeansAct md ext a (.exclusiveScan y x init g) (a.set x (.value s h))
  /-- the selected elements become `v` -/
  | fillAt {a x s f g sl ls v} : a x = .value s f → PicksAll s sl ls → (md = .checked → ∀ l ∈ ls, l ≠ []) →
      (∀ p, Selected ls p → g p = v) → (∀ p, ¬ Selected ls p → g p = f p) →
      MeansAct md ext a (.fillAt x sl v) (a.set x (.value s g))
  /-- the selected elements of one table become those selected in another one, in order -/
  | copyAt {a x y s t f g h sl sl' ls ls'} : x ≠ y → a x = .value s f → a y = .value t h → PicksAll s sl ls →
      PicksAll t sl' ls' → (md = .checked → ∀ l ∈ ls, l ≠ []) → (md = .checked → ∀ l ∈ ls', l ≠ []) →
      ls.map (·.length) = ls'.map (·.length) →
      (∀ i, InBox (pickShape ls) i → g (pickAt ls i) = h (pickAt ls' i)) → (∀ p, ¬ Selected ls p → g p = f p) →
      MeansAct md ext a (.copyAt x sl y sl') (a.set x (.value s g))

/-- A whole program. -/
inductive MeansActs (md : Mode) (ext : Mem α) : Values α → List (Act α) → Values α → Prop where
  /-- nothing to do -/
  | nil {a} : MeansActs md ext a [] a
  /-- one action, then the others -/
  | cons {a b c act acts} : MeansAct md ext a act b → MeansActs md ext b acts c → MeansActs md ext a (act :: acts) c

end Kwk.Spec
