import Verif.Model.Lifetimes

/-!
# Specification: lifetimes of objects

The rules of the language, not of the library: an object is used between its construction and its destruction, and what was constructed is
destroyed before its storage is given back.
-/

namespace Kwk.Spec

/-- A place where an element can be. -/
inductive Slot where
  /-- no storage -/
  | gone
  /-- storage without an object -/
  | raw
  /-- an object -/
  | alive
  deriving DecidableEq, Repr

/-- `implicit`: the objects of the type begin to live when their storage is obtained, and nothing has to be done at their end (numbers,
pointers, structures of them; not strings nor vectors). -/
structure ElemType where
  /-- begins and ends without a constructor and a destructor -/
  implicit : Bool
  deriving DecidableEq, Repr

/-- All places. -/
abbrev Slots := Ptr → Slot

/-- `p` is one of the `n` places of block `b`. -/
def InBlock (b n : Nat) (p : Ptr) : Prop := p.blk = b ∧ 0 ≤ p.off ∧ p.off < n

instance (b n : Nat) (p : Ptr) : Decidable (InBlock b n p) := by unfold InBlock; infer_instance

/-- `Happens ty s e s'`: the event is allowed by the language in state `s`, which it changes into `s'`. -/
inductive Happens (ty : ElemType) : Slots → Event → Slots → Prop where
  /-- new storage -/
  | allocate {s b n} : (∀ p, p.blk = b → s p = .gone) →
      Happens ty s (.allocate b n) (fun p => if InBlock b n p then (if ty.implicit then .alive else .raw) else s p)
  /-- a place without object, unless nothing is lost -/
  | construct {s p} : s p = .raw ∨ (ty.implicit ∧ s p = .alive) → Happens ty s (.construct p) (fun q => if q = p then .alive else s q)
  /-- on an object -/
  | assign {s p} : s p = .alive → Happens ty s (.assign p) s
  /-- an object -/
  | read {s p} : s p = .alive → Happens ty s (.read p) s
  /-- an object -/
  | destroy {s p} : s p = .alive → Happens ty s (.destroy p) (fun q => if q = p then .raw else s q)
  /-- no object is left, unless nothing has to be done at their end -/
  | release {s b} : (∀ p, p.blk = b → s p = .alive → ty.implicit) →
      Happens ty s (.release b) (fun p => if p.blk = b then .gone else s p)

/-- All events are allowed, in order, from `s` to `s'`. -/
inductive Respects (ty : ElemType) : Slots → List Event → Slots → Prop where
  /-- nothing happens -/
  | nil {s} : Respects ty s [] s
  /-- one event, then the others -/
  | cons {s s' s'' e es} : Happens ty s e s' → Respects ty s' es s'' → Respects ty s (e :: es) s''

end Kwk.Spec

namespace Kwk.Spec

/-- Memory of which every cell holds an object. -/
def AliveCells {α : Type} (m : Mem α) : Slots := fun p => if (m p).isSome then .alive else .gone

/-- The element is in one of the table objects. -/
def Frame.Has (f : Frame) (p : Ptr) : Prop := ∃ x o, f.objs x = some o ∧ InBlock o.blk o.count p

open Classical in
/-- The objects are those of `ext`, outside the tables, and every element of every table. -/
noncomputable def AllElements (ext : Ptr → Prop) (f : Frame) : Slots := fun p => if ext p ∨ Frame.Has f p then .alive else .gone

/-- Before any table exists. -/
structure EmptyFrame (ext : Ptr → Prop) (f : Frame) : Prop where
  /-- no table -/
  noTable : ∀ x, f.objs x = none
  /-- the rest of the program uses old storage only -/
  old : ∀ p, ext p → p.blk < f.next

/-- The sources of the operations are objects when they are used: outside the tables or elements of tables. -/
def SourcesAlive (ext : Ptr → Prop) : Frame → List StackOp → Prop
  | _, [] => True
  | f, op :: ops =>
    (match op with
      | .make _ n (some src) => ∀ k : Nat, k < n → ext (src.add k) ∨ Frame.Has f (src.add k)
      | .assignFrom x src => ∀ o, f.objs x = some o → ∀ k : Nat, k < o.count → ext (src.add k) ∨ Frame.Has f (src.add k)
      | _ => True) ∧ SourcesAlive ext (f.step op).2 ops

end Kwk.Spec

namespace Kwk.Spec

/-- The operation gives a value to an element of a run-time shaped table: a table that is not empty is made from values, or an element is
written. -/
def GivesValues {α : Type} (w : World α) : Op α → Prop
  | .make x _ s (some _) => w.tables x = none ∧ 0 < numel s
  | .copy x y => w.tables x = none ∧ ∃ t, w.tables y = some t ∧ 0 < numel t.shape
  | .copyFrom x c => w.tables x = none ∧ 0 < numel c.shape
  | .copyAssign x y => (∃ t, w.tables x = some t) ∧ ∃ t, w.tables y = some t ∧ 0 < numel t.shape
  | .assignFrom x c => (∃ t, w.tables x = some t) ∧ 0 < numel c.shape
  | .write x _ _ => ∃ t, w.tables x = some t
  | _ => False

/-- An operation of the program gives a value to an element of a table. -/
def SomeValue {α : Type} (w : World α) (ops : List (Op α)) : Prop :=
  ∃ ops1 op ops2 w1, ops = ops1 ++ op :: ops2 ∧ w.run ops1 = .ok w1 ∧ GivesValues w1 op

end Kwk.Spec
