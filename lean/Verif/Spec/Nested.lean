import Verif.Model.Sources

/-! # Specification vocabulary for nested arrays and decimal numbers -/

namespace Kwk.Spec

/-- The extents of a nested array type, outermost first: `a[i][j]` has `i < N` for the outer `N`. -/
def dims : Nest → List Int
  | .elem => []
  | .stdArray n t => n :: dims t
  | .cArray n t => n :: dims t

/-- Number of elements. -/
def arrCount : Nest → Int
  | .elem => 1
  | .stdArray n t => n * arrCount t
  | .cArray n t => n * arrCount t

/-- Place of `a[i][j]...` in the array object: subarrays are stored one after the other. -/
def offset : Nest → List Int → Int
  | .stdArray _ t, i :: is => i * arrCount t + offset t is
  | .cArray _ t, i :: is => i * arrCount t + offset t is
  | _, _ => 0

/-- The number written with the given decimal digits, most significant first. -/
def decimal : List Nat → Nat
  | ds => ds.foldl (fun v d => v * 10 + d) 0

/-- The extents of the C arrays of a nested array, outermost first. -/
def cExtents : Nest → List Int
  | .elem => []
  | .stdArray _ t => cExtents t
  | .cArray n t => n :: cExtents t

/-- The extents of the `std::array`s of a nested array, outermost first. -/
def stdExtents : Nest → List Int
  | .elem => []
  | .stdArray n t => n :: stdExtents t
  | .cArray _ t => stdExtents t

/-- C arrays of any depth whose elements are scalars or a `std::array` of scalars, with extents that
literals keep. -/
inductive PlainNest : Nest → Prop
  | elem : PlainNest .elem
  | flat (n : Nat) (h : n < 2 ^ 16 ∨ 2 ^ 19 ≤ n) : PlainNest (.stdArray n .elem)
  | cArray (n : Nat) (t : Nest) (h : n < 2 ^ 16 ∨ 2 ^ 19 ≤ n) (ht : PlainNest t) : PlainNest (.cArray n t)

end Kwk.Spec
