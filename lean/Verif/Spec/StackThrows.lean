import Verif.Model.StackThrows
import Verif.Spec.Lifetimes

/-!
# Specification: operations on fully static tables whose elements throw

The tables as named lists of elements.
-/

namespace Kwk.Spec

variable {α : Type}

/-- None of the `n` calls from number `c` on throws. -/
def Quiet (throws : Nat → Bool) (c n : Nat) : Prop := ∀ i, i < n → throws (c + i) = false

/-- The elements of each table. -/
def contents (f : Frame) (v : Ptr → α) : Nat → Option (List α) := fun x =>
  (f.objs x).map fun o => (List.range o.count).map fun (k : Nat) => v ⟨o.blk, k⟩

/-- The values at `n` places from `p` on. -/
def valuesAt (v : Ptr → α) (p : Ptr) (n : Nat) : List α := (List.range n).map fun (k : Nat) => v (p.add k)

/-- What an operation does to the tables if nothing throws.  `v`: the values, where the sources are found. -/
def effect (K : ElemKind α) (v : Ptr → α) (A : Nat → Option (List α)) : ThrowOp α → Nat → Option (List α)
  | .dflt x n | .make x n none => match A x with
    | none => upd A x (some (List.replicate n K.dflt))
    | some _ => A
  | .make x n (some p) => match A x with
    | none => upd A x (some (valuesAt v p n))
    | some _ => A
  | .copy x y => match A x, A y with
    | none, some l => upd A x (some l)
    | _, _ => A
  | .move x y => match A x, A y with
    | none, some l => upd (upd A x (some l)) y (some (l.map K.moved))
    | _, _ => A
  | .copyAssign x y => match A x, A y with
    | some l, some l' => if l.length = l'.length then upd A x (some l') else A
    | _, _ => A
  | .assignFrom x p => match A x with
    | some l => upd A x (some (valuesAt v p l.length))
    | none => A
  | .moveAssign x y => match A x, A y with
    | some l, some l' => if l.length = l'.length then upd (upd A x (some l')) y (some (l'.map K.moved)) else A
    | _, _ => A
  | .swap x y => match A x, A y with
    | some l, some l' => if l.length = l'.length then upd (upd A x (some l')) y (some l) else A
    | _, _ => A
  | .destroy x => upd A x none
  | .write x k a => match A x with
    | some l => if k < l.length then upd A x (some (l.set k a)) else A
    | none => A

/-- What a move that throws after `k` elements does to the tables: the elements that were moved stay moved.  All other operations do
nothing. -/
def partEffect (K : ElemKind α) (A : Nat → Option (List α)) (k : Nat) : ThrowOp α → Nat → Option (List α)
  | .move x y => match A x, A y with
    | none, some l => upd A y (some ((l.take k).map K.moved ++ l.drop k))
    | _, _ => A
  | .moveAssign x y => match A x, A y with
    | some l, some l' =>
      if l.length = l'.length then
        upd (upd A x (some (l'.take k ++ l.drop k))) y (some ((l'.take k).map K.moved ++ l'.drop k))
      else A
    | _, _ => A
  | _ => A

/-- Calls of constructors and assignment operators whose exceptions can reach the caller. -/
def callsOutside (A : Nat → Option (List α)) : ThrowOp α → Nat
  | .make x n src => match A x with
    | none => if src.isSome then 2 * n else n
    | some _ => 0
  | .copy x y => match A x, A y with
    | none, some l => 2 * l.length
    | _, _ => 0
  | .move x y => match A x, A y with
    | none, some l => l.length
    | _, _ => 0
  | .copyAssign x y => match A x, A y with
    | some l, some l' => if l.length = l'.length then 2 * l.length else 0
    | _, _ => 0
  | .assignFrom x _ => match A x with
    | some l => 2 * l.length
    | none => 0
  | .moveAssign x y => match A x, A y with
    | some l, some l' => if l.length = l'.length then l.length else 0
    | _, _ => 0
  | .write x k _ => match A x with
    | some l => if k < l.length then 1 else 0
    | none => 0
  | _ => 0

/-- Calls of constructors and assignment operators inside functions that are declared `noexcept`. -/
def callsInside (A : Nat → Option (List α)) : ThrowOp α → Nat
  | .dflt x n => match A x with
    | none => n
    | some _ => 0
  | .copyAssign x y | .swap x y => match A x, A y with
    | some l, some l' => if l.length = l'.length then 3 * l.length else 0
    | _, _ => 0
  | .assignFrom x _ => match A x with
    | some l => 3 * l.length
    | none => 0
  | _ => 0

/-- The source of the operation is alive: outside the tables or elements of tables. -/
def SourceAlive (ext : Ptr → Prop) (f : Frame) : ThrowOp α → Prop
  | .make _ n (some src) => ∀ k : Nat, k < n → ext (src.add k) ∨ Frame.Has f (src.add k)
  | .assignFrom x src => ∀ o, f.objs x = some o → ∀ k : Nat, k < o.count → ext (src.add k) ∨ Frame.Has f (src.add k)
  | _ => True

/-- The sources are alive whenever they are used by a program that catches exceptions. -/
def SourcesAliveE (ext : Ptr → Prop) (K : ElemKind α) (throws : Nat → Bool) : Frame → List (ThrowOp α) → Elems α → Prop
  | _, [], _ => True
  | f, op :: ops, s => SourceAlive ext f op ∧ match stepE K throws f op s with
    | (.ok f', s') => SourcesAliveE ext K throws f' ops s'
    | (.error .exception, s') => SourcesAliveE ext K throws f ops s'
    | (.error .terminate, _) => True

end Kwk.Spec
