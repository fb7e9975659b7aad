import Verif.Model.Fixed

/-!
# Model: which objects can be the source of a container

`source = x` inspects the type of `x`.  What the container is then built from is the type of the elements, a pointer, and a
default shape.  Types other than those below (`volatile` objects, functions, ranges whose `size()` is signed) are left out.
-/

namespace Kwk

/-- The types of objects, as far as `source = x` tells them apart; the last argument of a constructor is `true` for const
objects.  A C array is const if its elements are; `include/kwk/concepts/range.hpp:18-41`, `include/kwk/detail/range.hpp:18-43`. -/
inductive ObjType where
  /-- an object of any other type -/
  | scalar (k : Nat) (c : Bool)
  /-- `std::array<T, N>` -/
  | stdArray (n : Nat) (t : ObjType) (c : Bool)
  /-- `T[N]` -/
  | cArray (n : Nat) (t : ObjType)
  /-- a contiguous range that owns its elements, such as `std::vector<T>`, `std::string` -/
  | vector (t : ObjType) (c : Bool)
  /-- a contiguous range that does not own its elements, such as `std::span<T>` -/
  | span (t : ObjType) (c : Bool)
  /-- a range without `data()`, such as `std::list<T>`, `std::deque<T>`, `std::vector<bool>` -/
  | list (t : ObjType) (c : Bool)
  /-- `T*` -/
  | pointer (t : ObjType) (c : Bool)
  deriving DecidableEq, Repr

/-- `T const`, where `(T[N]) const` is `(T const)[N]`; C++ [basic.type.qualifier], as `std::data` gives it to
`include/kwk/settings/source.hpp:35-38`. -/
def ObjType.addConst : ObjType → ObjType
  | .scalar k _ => .scalar k true
  | .stdArray n t _ => .stdArray n t true
  | .cArray n t => .cArray n t.addConst
  | .vector t _ => .vector t true
  | .span t _ => .span t true
  | .list t _ => .list t true
  | .pointer t _ => .pointer t true

/-- `concepts::contiguous_range`: `std::begin`, `std::end`, `std::size` and `std::data` can be called;
`include/kwk/concepts/range.hpp:18-30`. -/
def ObjType.isContiguousRange : ObjType → Bool
  | .stdArray .. | .cArray .. | .vector .. | .span .. => true
  | .scalar .. | .list .. | .pointer .. => false

/-- `concepts::has_static_size`: const and references are removed first; `include/kwk/concepts/range.hpp:37-38`. -/
def ObjType.hasStaticSize : ObjType → Bool
  | .stdArray .. | .cArray .. => true
  | _ => false

/-- `concepts::contiguous_static_range`; `include/kwk/concepts/range.hpp:40-41`. -/
def ObjType.isContiguousStaticRange (x : ObjType) : Bool := x.isContiguousRange && x.hasStaticSize

/-- `concepts::pointer`; `include/kwk/concepts/range.hpp:32-33`. -/
def ObjType.isPointer : ObjType → Bool
  | .pointer .. => true
  | _ => false

/-- `array_traits<A>::value_type`: the specialisations are for `std::array<T, N>` and `T[N]`; any other type, and so
`std::array<T, N> const`, is taken as an element; `include/kwk/detail/range.hpp:18-43`. -/
def ObjType.traitsValue : ObjType → ObjType
  | .stdArray _ t false => t.traitsValue
  | .cArray _ t => t.traitsValue
  | x => x

/-- `array_traits<A>::sizes`; `include/kwk/detail/range.hpp:22, 31, 40`. -/
def ObjType.traitsSizes : ObjType → List Coord
  | .stdArray n t false => t.traitsSizes ++ [clamp n]
  | .cArray n t => clamp n :: t.traitsSizes
  | _ => []

/-- `array_traits<A>::data(a)`: the subscripts of the object whose address is taken.  `lv`: the expression `a` is an lvalue.  A
subscript of an rvalue C array is an rvalue, one of a `std::array` an lvalue, and the address of an rvalue cannot be taken: `none`
does not compile.  The element 0 of an array without elements must not be named;
`include/kwk/detail/range.hpp:23, 32, 41`. -/
def ObjType.traitsData : ObjType → Bool → Option (Res (List Nat))
  | .stdArray n t false, _ =>
    (t.traitsData true).map fun r => if n = 0 then .error .outOfBounds else r.map (0 :: ·)
  | .cArray n t, lv =>
    (t.traitsData lv).map fun r => if n = 0 then .error .outOfBounds else r.map (0 :: ·)
  | _, lv => if lv then some (.ok []) else none

/-- What a source hands to the container: `array_source`, `range_source`, `ptr_source`;
`include/kwk/settings/source/array_source.hpp:15-36`, `include/kwk/settings/source/range_source.hpp:15-37`,
`include/kwk/settings/source/ptr_source.hpp:15-43`. -/
structure SourceInfo where
  /-- `source_traits<S>::value_type` -/
  elem : ObjType
  /-- the subscripts, within the object, of the element that `storage(src)` points to -/
  start : List Nat
  /-- `default_shape(src)` -/
  extents : List Coord
  /-- the extents are compile-time constants -/
  static : Bool
  deriving DecidableEq, Repr

/-- `std::data(r)` for a contiguous range: a pointer to these elements.  An rvalue is passed by reference to const;
C++ [iterator.range], used at `include/kwk/settings/source.hpp:35-38`. -/
def ObjType.rangeElement : ObjType → Bool → ObjType
  | .vector t c, lv => if lv && !c then t else t.addConst
  | .span t _, _ => t
  | .stdArray _ t c, lv => if lv && !c then t else t.addConst
  | .cArray _ t, lv => if lv then t else t.addConst
  | x, _ => x

/-- The pointee; `include/kwk/settings/source/ptr_source.hpp:27`. -/
def ObjType.pointee : ObjType → ObjType
  | .pointer t _ => t
  | x => x

/-- `source = x`, for an expression `x` of the given type that is an lvalue or not, with `len` elements if it is a range without a
static size; `none`: does not compile.  The operator for arrays is more constrained than the one for ranges;
`include/kwk/settings/source.hpp:25-44`, `include/kwk/settings/source/array_source.hpp:33-34`,
`include/kwk/settings/source/range_source.hpp:33-37`, `include/kwk/settings/source/ptr_source.hpp:42-43`. -/
def sourceOf (x : ObjType) (lv : Bool) (len : Nat) : Option (Res SourceInfo) :=
  if x.isContiguousStaticRange then
    (x.traitsData lv).map fun r => r.map fun p => ⟨x.traitsValue, p, x.traitsSizes, true⟩
  else if x.isContiguousRange then some (.ok ⟨x.rangeElement lv, [0], [⟨.u64, len⟩], false⟩)
  else if x.isPointer then some (.ok ⟨x.pointee, [0], [⟨.i32, 0⟩], false⟩)
  else none

/-- `sizeof` of an object that is stored in place, in units of the objects that are not arrays; the unit of the pointer arithmetic in
`include/kwk/container/container.hpp:128-138` and of the copies in `include/kwk/detail/memory/heap_block.hpp:60-63`. -/
def ObjType.places : ObjType → Nat
  | .stdArray n t _ => n * t.places
  | .cArray n t => n * t.places
  | _ => 1

/-- The places, within the array `x`, that reading the element number `i` of a container over `source = x` reads: `data_[i]`, with
`data_` a pointer to `elem`.  Beyond the array the behaviour is undefined; `include/kwk/container/container.hpp:128-138`,
`include/kwk/detail/memory/shallow_block.hpp:23-32`. -/
def readElement (x : ObjType) (s : SourceInfo) (i : Nat) : Res (List Nat) :=
  if (i + 1) * s.elem.places ≤ x.places then .ok ((List.range s.elem.places).map (i * s.elem.places + ·))
  else .error .outOfBounds

end Kwk
