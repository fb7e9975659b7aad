import Verif.Spec.Owned

/-!
# Specification: tables as plain values

What a program on tables means when tables are thought of as values: no memory, no pointers, no
allocators.  Each object is absent, or has some unspecified content, or has a shape and elements that were never written, or is a
shape with one value per position.
-/

namespace Kwk.Spec

variable {α : Type}

/-- A table object seen as a value. -/
inductive Obj (α : Type) where
  /-- no such object -/
  | absent
  /-- an object of which nothing is specified (moved from) -/
  | unspecified
  /-- an object of shape `s` with elements that were never written -/
  | raw (s : Shape)
  /-- an object of shape `s` with element `f p` at position `p` -/
  | value (s : Shape) (f : List Int → α)

/-- The objects of a program by name. -/
abbrev Values (α : Type) := Nat → Obj α

/-- `set a x o`: the objects `a`, except that `x` is `o`. -/
def Values.set (a : Values α) (x : Nat) (o : Obj α) : Values α := fun y => if y = x then o else a y

/-- The value `f` with the element at position `p` replaced. -/
def replaceAt (f : List Int → α) (p : List Int) (v : α) : List Int → α := fun q => if q = p then v else f q

/-- `Means ext a op a'`: the operation is meaningful on the objects `a` and makes them `a'`.  `ext` is the
memory of the rest of the program, where initial values come from. -/
inductive Means (ext : Mem α) : Values α → Op α → Values α → Prop where
  /-- default construction with at least one run-time axis, which gets extent 0: there is no element -/
  | dflt {a x axes f} : a x = .absent → none ∈ axes →
      Means ext a (.dflt x axes) (a.set x (.value (axes.map fun e => e.elim 0 fun n => (n : Int)) f))
  /-- construction without a source -/
  | blank {a x al s} : a x = .absent → s ≠ [] → NonNeg s → Means ext a (.make x al s none) (a.set x (.raw s))
  /-- construction from an array outside of the tables that holds the elements in row-major order -/
  | fill {a x al s src f} : a x = .absent → s ≠ [] → NonNeg s →
      (∀ (k : Nat) p, (positions s)[k]? = some p → ext (src.add k) = some (f p)) →
      Means ext a (.make x al s (some (some src))) (a.set x (.value s f))
  /-- copy construction -/
  | copy {a x y s f} : a x = .absent → a y = .value s f →
      Means ext a (.copy x y) (a.set x (.value s f))
  /-- move construction -/
  | move {a x y} : a x = .absent → a y ≠ .absent →
      Means ext a (.move x y) ((a.set y .unspecified).set x (a y))
  /-- copy assignment, self assignment included -/
  | copyAssign {a x y s f} : a x ≠ .absent → a y = .value s f →
      Means ext a (.copyAssign x y) (a.set x (.value s f))
  /-- move assignment; the order of the two updates makes self move assignment keep the value -/
  | moveAssign {a x y} : a x ≠ .absent → a y ≠ .absent →
      Means ext a (.moveAssign x y) ((a.set y .unspecified).set x (a y))
  /-- exchange -/
  | swap {a x y} : a x ≠ .absent → a y ≠ .absent → Means ext a (.swap x y) ((a.set x (a y)).set y (a x))
  /-- end of life -/
  | destroy {a x} : a x ≠ .absent → Means ext a (.destroy x) (a.set x .absent)
  /-- writing one element -/
  | write {a x s f p v} : a x = .value s f → InBox s p →
      Means ext a (.write x p v) (a.set x (.value s (replaceAt f p v)))

/-- A whole program. -/
inductive MeansAll (ext : Mem α) : Values α → List (Op α) → Values α → Prop where
  /-- nothing to do -/
  | nil {a} : MeansAll ext a [] a
  /-- one operation, then the others -/
  | cons {a b c op ops} : Means ext a op b → MeansAll ext b ops c → MeansAll ext a (op :: ops) c

/-- The objects of the machine are as described: absent ones do not exist, the others exist, those with a shape have it, and
those with a value read as that value at every position. -/
def Shows (w : World α) (a : Values α) : Prop :=
  ∀ x, match a x with
    | .absent => w.tables x = none
    | .unspecified => w.tables x ≠ none
    | .raw s => ∃ t, w.tables x = some t ∧ t.shape = s
    | .value s f => Holds w x s f

end Kwk.Spec
