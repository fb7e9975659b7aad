import Verif.Model.Copies
import Verif.Spec.Axes
import Mathlib.Data.List.Forall2

/-!
# Spec: copies and exchanges of containers

What a container shows, and conditions on its type.
-/

namespace Kwk.Spec

/-- An extent that is a constant. -/
def IsConstant : Extent → Prop
  | .int _ => True
  | .axis _ (some (.static _)) => True
  | _ => False

/-- All extents and all given strides are constants. -/
def AllConstant (t : CType) : Prop := (∀ e ∈ t.shape, IsConstant e) ∧ ∀ l, t.strides = some l → ∀ e ∈ l, IsConstant e

/-- Everything that a container shows: label, elements, shape and strides. -/
structure Appearance (δ : Type) where
  label : String
  data : δ
  shape : List Int
  strides : List Int
  deriving DecidableEq

/-- What an object shows. -/
def shown {δ : Type} (t : CType) (o : Obj δ) : Appearance δ := ⟨t.labelOf o, o.data_, t.shapeOf o, t.strideOf o⟩

/-- The two values in the other order. -/
def Exchanged {α : Type} (a b a' b' : α) : Prop := a' = b ∧ b' = a

/-- The types of containers that can be exchanged: the extents are constants, or there are at least three, or there are two and no
strides were given. -/
def Exchangeable (t : CType) : Prop :=
  (∀ e ∈ t.shape, IsConstant e) ∨ 3 ≤ t.shape.length ∨ (t.shape.length = 2 ∧ t.strides = none)

/-- The axis that an extent stands for, `k` others follow. -/
def axisOf (k : Nat) : Extent → AxisId
  | .axis id _ => id
  | _ => .implicit k

/-- The constant or the type of an extent. -/
def contentOf : Extent → Content
  | .joker => .dynamic .i32
  | .int v => .static v
  | .type t => .dynamic t
  | .axis _ none => .dynamic .i32
  | .axis _ (some c) => c

/-- The product of some extents: a constant if all are, else a value of their common type with `int`. -/
def productOf : List Extent → Content
  | [] => .static 1
  | e :: l =>
    match contentOf e, productOf l with
    | .static v, .static w => .static (v * w)
    | .static _, .dynamic t => .dynamic (IntType.common .i32 t)
    | .dynamic t, .static _ => .dynamic (t.common .i32)
    | .dynamic t, .dynamic u => .dynamic (t.common u)

/-- The type of the row-major strides: for each axis the product of the later extents. -/
def rowMajorType : List Extent → List Extent
  | [] => []
  | e :: l => .axis (axisOf l.length e) (some (productOf l)) :: rowMajorType l

/-- The tables that can be copied: without label, and without given strides, or all is constant, or the given strides have the type of
the row-major ones. -/
def Copyable (t : CType) : Prop :=
  t.label = false ∧ (t.strides = none ∨ AllConstant t ∨ t.strides = some (rowMajorType t.shape))

/-- The constants of `es` are those of `fs`. -/
def AcceptedFor (es fs : List Extent) : Prop :=
  List.Forall₂ (fun e f => ∀ x, writtenSize e = some x → writtenSize f = some x) es fs

/-- A container of type `t` can be made of one of type `u`: there is no label, and all is constant, or the axes have the same names and
either no more than two and no given strides, or strides of the type of the row-major ones of `u`. -/
def MadeOf (t u : CType) : Prop :=
  t.label = false ∧
    (AllConstant t ∨
      (t.shape.map writtenName = u.shape.map writtenName ∧
        ((t.strides = none ∧ t.shape.length ≤ 2) ∨ t.strides.getD (rowMajorType t.shape) = rowMajorType u.shape)))

/-- The products of the later extents. -/
def laterProducts : List Int → List Int
  | [] => []
  | _ :: s => s.prod :: laterProducts s

/-- An object of type `t` shows the constants of its type. -/
def ShowsConstants {δ : Type} (t : CType) (o : Obj δ) : Prop :=
  List.Forall₂ (fun e x => ∀ v, writtenSize e = some v → x = v) t.shape (shown t o).shape

/-- The strides of a container of type `t` that was made of a shape: the given ones if all is constant, else the row-major ones. -/
def madeStrides (t : CType) (shape st : List Int) : Prop :=
  (∀ l, AllConstant t → t.strides = some l → l.map writtenSize = st.map some) ∧
  (¬ AllConstant t ∨ t.strides = none → st = laterProducts shape)

end Kwk.Spec
