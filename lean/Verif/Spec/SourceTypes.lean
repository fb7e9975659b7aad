import Verif.Model.SourceTypes
import Verif.Model.Sources

/-! # Specification vocabulary for sources -/

namespace Kwk.Spec

/-- Arrays, contiguous ranges and pointers. -/
def Contiguous (x : ObjType) : Prop :=
  (∃ n t c, x = .stdArray n t c) ∨ (∃ n t, x = .cArray n t) ∨ (∃ t c, x = .vector t c) ∨ (∃ t c, x = .span t c) ∨
  ∃ t c, x = .pointer t c

/-- The type of the object made const: a C array is const by its elements. -/
def asConst : ObjType → ObjType
  | .scalar k _ => .scalar k true
  | .vector t _ => .vector t true
  | .span t _ => .span t true
  | .list t _ => .list t true
  | .pointer t _ => .pointer t true
  | .stdArray n t _ => .stdArray n t true
  | .cArray n t => .cArray n (asConst t)

/-- The type of `a[0]...[0]` with as many subscripts as possible: elements of const arrays are const. -/
def innermost : ObjType → ObjType
  | .stdArray _ t c => if c then asConst (innermost t) else innermost t
  | .cArray _ t => innermost t
  | t => t

/-- The extents of a nested array, outermost first. -/
def arrayExtents : ObjType → List Nat
  | .stdArray n t _ => n :: arrayExtents t
  | .cArray n t => n :: arrayExtents t
  | _ => []

/-- An array. -/
def IsArray (x : ObjType) : Prop := (∃ n t c, x = .stdArray n t c) ∨ ∃ n t, x = .cArray n t

/-- No `std::array` is const, at any level. -/
def NoConstArray : ObjType → Prop
  | .stdArray _ t c => c = false ∧ NoConstArray t
  | .cArray _ t => NoConstArray t
  | _ => True

/-- What a pointer to the first element of an array leads to is an lvalue: the array is one, or a `std::array` that is not const comes
before the elements and before any const `std::array`. -/
def FirstIsLvalue (lv : Bool) : ObjType → Prop
  | .stdArray _ _ c => lv = true ∨ c = false
  | .cArray _ t => FirstIsLvalue lv t
  | _ => lv = true

/-- A nested array, without regard to constness. -/
def nestOf : ObjType → Nest
  | .stdArray n t _ => .stdArray n (nestOf t)
  | .cArray n t => .cArray n (nestOf t)
  | _ => .elem

/-- The type through which the elements of a contiguous range or behind a pointer are seen: those of a range that owns them are const
if the range is const or an rvalue. -/
inductive SeenAs : ObjType → Bool → ObjType → Prop
  | own {t} : SeenAs (.vector t false) true t
  | ownConst {t c lv} (h : c = true ∨ lv = false) : SeenAs (.vector t c) lv (asConst t)
  | span {t c lv} : SeenAs (.span t c) lv t
  | pointer {t c lv} : SeenAs (.pointer t c) lv t

/-- The number of elements known from a range or, as none are known, from a pointer. -/
def defaultLength : ObjType → Nat → Int
  | .pointer .., _ => 0
  | _, len => len

end Kwk.Spec
