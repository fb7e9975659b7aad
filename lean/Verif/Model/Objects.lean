import Verif.Model.Build
import Verif.Model.Fixed

/-!
# Model: how large shapes, strides and containers are

The layout of objects on the usual 64-bit platforms (Itanium C++ ABI): members and non-empty bases one after the other, each at a
multiple of its alignment; an empty base takes no room, an empty member takes one byte.  Assumptions on libraries: a `kumi::tuple`
is laid out as its elements in order, a `std::unique_ptr` as its pointer and its deleter.  Labels are `char const*`.
-/

namespace Kwk

/-- Size and alignment of a type in bytes.  Used for `include/kwk/detail/sequence/prefilled.hpp:32-56`. -/
structure ObjSize where
  size : Nat
  align : Nat
  deriving DecidableEq, Repr

/-- `sizeof` and `alignof` of an integral type; the types of `include/kwk/detail/sequence/helpers.hpp:116-120`. -/
def IntType.obj (t : IntType) : ObjSize := ⟨t.bits / 8, t.bits / 8⟩

/-- The next multiple of `a`.  Itanium C++ ABI 2.4, for the classes of `include/kwk/container/container.hpp:19-21`. -/
def alignUp (n a : Nat) : Nat := (n + a - 1) / a * a

/-- Members one after the other: the first free byte and the largest alignment.
Itanium C++ ABI 2.4, for the classes of `include/kwk/container/container.hpp:19-21`. -/
def place (ms : List ObjSize) : ObjSize :=
  ms.foldl (fun s m => ⟨alignUp s.size m.align + m.size, max s.align m.align⟩) ⟨0, 1⟩

/-- `sizeof` and `alignof` of a class with these members and non-empty bases.
Itanium C++ ABI 2.4, for the classes of `include/kwk/container/container.hpp:19-21`. -/
def classSize (ms : List ObjSize) : ObjSize :=
  if ms = [] then ⟨1, 1⟩ else ⟨alignUp (place ms).size (place ms).align, (place ms).align⟩

/-- The types of the storage of `prefilled<D...>`, empty for `empty_tuple`;
`include/kwk/detail/sequence/prefilled.hpp:32-49`. -/
def storageTypes (d : Desc) : List IntType := (List.range (dynamicSize d)).map (cellType d)

/-- `sizeof(shape<D...>)` and `sizeof(stride<D...>)`; `include/kwk/detail/sequence/prefilled.hpp:32-56`,
`include/kwk/utility/container/shape.hpp:77`, `include/kwk/utility/container/stride.hpp:66`. -/
def descSize (d : Desc) : ObjSize := classSize ((storageTypes d).map IntType.obj)

/-- `is_fully_static`; `include/kwk/detail/sequence/prefilled.hpp:66`. -/
def fullyStatic (d : Desc) : Bool := dynamicSize d == 0

/-- Content of a product of extents: a constant if both are; constants compute as `int`.  Simplification: constants that are not of
type `int` or smaller are not distinguished; `include/kwk/utility/fixed.hpp:89-97`. -/
def Content.mul : Content → Content → Content
  | .static v, .static w => .static (v * w)
  | .static _, .dynamic t => .dynamic (IntType.common .i32 t)
  | .dynamic t, .static _ => .dynamic (t.common .i32)
  | .dynamic t, .dynamic u => .dynamic (t.common u)

/-- The type of `as_stride(shape)`; `include/kwk/utility/container/stride.hpp:171-189`. -/
def strideDesc (d : Desc) : Desc :=
  if d.length = 1 then d.map fun a => ⟨a.id, .static 1⟩
  else
    let cs := kumiFoldLeft (fun a m => Content.mul m (a.headD (.static 1)) :: a) (d.tail.map (·.content)) [.static 1]
    List.zipWith (fun a c => ⟨a.id, c⟩) d cs

/-- The members of `accessor<Shape, Stride, useSpecificStrides>`; `include/kwk/detail/container/accessor.hpp:19-46, 51-68, 73-95,
100-128, 133-155, 160-189`. -/
def accessorMembers (shape stride : Desc) (specific : Bool) : List ObjSize :=
  if fullyStatic shape && fullyStatic stride then []
  else if !fullyStatic shape && (shape.length == 1 || shape.length == 2) && !specific then [descSize shape]
  else [descSize shape, descSize stride]

/-- The blocks of memory in containers: a pointer, elements, or a pointer and an allocator that is a pointer;
`include/kwk/detail/memory/shallow_block.hpp:22`, `include/kwk/detail/memory/stack_block.hpp:26`,
`include/kwk/detail/memory/heap_block.hpp:25-35`, `include/kwk/utility/memory/any_allocator.hpp:97`. -/
inductive BlockLayout where
  | shallow
  | stack (n : Nat) (elem : ObjSize)
  | heap
  deriving DecidableEq, Repr

/-- `sizeof` of a block of memory; `include/kwk/detail/memory/block.hpp:17-39`. -/
def BlockLayout.obj : BlockLayout → ObjSize
  | .shallow => ⟨8, 8⟩
  | .stack n e => ⟨n * e.size, e.align⟩
  | .heap => ⟨16, 8⟩

/-- `sizeof` of a container: metadata, memory and accessor are its bases; `include/kwk/container/container.hpp:19-21`,
`include/kwk/detail/container/metadata.hpp:17-46`. -/
def containerSize (label : Bool) (b : BlockLayout) (shape stride : Desc) (specific : Bool) : Nat :=
  let meta_ : List ObjSize := if label then [⟨8, 8⟩] else []
  let acc := accessorMembers shape stride specific
  (classSize (meta_ ++ [b.obj] ++ (if acc = [] then [] else [classSize acc]))).size

/-- `sizeof(view{source = ..., of_size(...)})`; `include/kwk/container/view.hpp:57-66`. -/
def viewSize (label : Bool) (shape : Desc) : Nat := containerSize label .shallow shape (strideDesc shape) false

/-- `sizeof(table{source = ..., of_size(...)})` for `n` elements; `include/kwk/container/table.hpp:57-66`,
`include/kwk/detail/memory/block.hpp:29-33`. -/
def tableSize (label : Bool) (n : Nat) (elem : ObjSize) (shape : Desc) : Nat :=
  containerSize label (if fullyStatic shape then .stack n elem else .heap) shape (strideDesc shape) false

end Kwk
