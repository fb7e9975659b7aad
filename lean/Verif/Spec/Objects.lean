import Verif.Model.Prefilled

/-!
# Spec: room taken by data

The bytes of the run-time values of a shape, and of records of values.
-/

namespace Kwk.Spec

/-- The types of the run-time extents. -/
def runtimeTypes (d : Desc) : List IntType :=
  d.filterMap fun a => match a.content with
    | .dynamic t => some t
    | .static _ => none

/-- The types of C++ extents. -/
def UsualType (t : IntType) : Prop := t.bits = 8 ∨ t.bits = 16 ∨ t.bits = 32 ∨ t.bits = 64

/-- All run-time extents have usual types. -/
def UsualTypes (d : Desc) : Prop := ∀ t ∈ runtimeTypes d, UsualType t

/-- The first multiple of `a` from `n` on. -/
def firstFit (n a : Nat) : Nat := if n % a = 0 then n else n + (a - n % a)

/-- End of the last of some fields (size, alignment) placed from byte `n` on. -/
def fieldsEnd (n : Nat) : List (Nat × Nat) → Nat
  | [] => n
  | (s, a) :: fs => fieldsEnd (firstFit n a + s) fs

/-- The largest alignment. -/
def strictest : List (Nat × Nat) → Nat
  | [] => 1
  | (_, a) :: fs => max a (strictest fs)

/-- A record: no room if there are no fields. -/
def record (fs : List (Nat × Nat)) : List (Nat × Nat) :=
  if fs = [] then [] else [(firstFit (fieldsEnd 0 fs) (strictest fs), strictest fs)]

/-- A record of integers of the given sizes. -/
def integers (zs : List Nat) : List (Nat × Nat) := record (zs.map fun z => (z, z))

/-- Sizes of the run-time extents. -/
def extentBytes (d : Desc) : List Nat := (runtimeTypes d).map fun t => t.bits / 8

/-- Size of the product of some extents, at least that of `int`; none if it is known at compile time. -/
def productBytes (d : Desc) : Option Nat :=
  if extentBytes d = [] then none else some ((extentBytes d).foldr max 4)

/-- Sizes of the run-time products of the extents from each axis on. -/
def suffixBytes : Desc → List Nat
  | [] => []
  | a :: d => (productBytes (a :: d)).toList ++ suffixBytes d

/-- Sizes of the run-time strides: the stride of an axis is the product of the later extents. -/
def strideBytes (d : Desc) : List Nat := suffixBytes d.tail

/-- The data that a row-major container of this shape needs besides its label and elements: the run-time extents, and from order 3
on the run-time strides. -/
def layoutRecord (d : Desc) : List (Nat × Nat) :=
  record (integers (extentBytes d) ++ if d.length ≤ 2 then [] else integers (strideBytes d))

/-- Size of a record, `0` if there are no fields. -/
def recordSize (fs : List (Nat × Nat)) : Nat := ((record fs).map Prod.fst).sum

/-- The label of a container. -/
def labelField (label : Bool) : List (Nat × Nat) := if label then [(8, 8)] else []

end Kwk.Spec
