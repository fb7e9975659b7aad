import Verif.Model.Objects

/-!
# Model: which containers can be copied, assigned and exchanged

Copies of tables and assignments of containers go through `settings()`, which hold the address of the elements and the
shape only, and through `swap`.  Whether the code compiles depends on the type of the container: its template arguments
for shape and strides, whether strides were given, whether it has a label.  `none` is: does not compile.

Simplifications: constants of different integral types are not distinguished in the types of strides (as in `strideDesc`);
the types of the elements agree.  The elements themselves are followed in `Model/Ownership.lean` and
`Model/StackTable.lean`; here `δ` is what the memory block holds.
-/

namespace Kwk

/-- The type of a container: the template arguments of its shape, those of the strides if the option was given, and whether
there is a label; `include/kwk/detail/container/builder.hpp:19-39`. -/
structure CType where
  /-- arguments of `shape<...>` -/
  shape : List Extent
  /-- arguments of `stride<...>`, if `contains(strides)` -/
  strides : Option (List Extent)
  /-- `has_label` -/
  label : Bool
  deriving DecidableEq, Repr

/-- The template arguments of the type of `as_stride(shape)`: `stride{ (axis = value)... }`, whose descriptors are axes with a
content; `include/kwk/utility/container/stride.hpp:151-153, 171-189`, `include/kwk/utility/traits/to_descriptor.hpp:91-106`. -/
def asStrideArgs (shape : List Extent) : List Extent :=
  (strideDesc (normalizeExtents shape)).map fun a => .axis a.id (some a.content)

/-- The arguments of `stride_type`; `include/kwk/detail/container/builder.hpp:29`,
`include/kwk/container/settings/strides.hpp:18-23`. -/
def CType.strideArgs (t : CType) : List Extent := t.strides.getD (asStrideArgs t.shape)

/-- The variants of `accessor`; `include/kwk/detail/container/accessor.hpp:19, 51, 73, 99, 131, 159`. -/
inductive AccessorKind where
  | general | static | line | lineStrided | plane | planeStrided
  deriving DecidableEq, Repr

/-- The variant chosen for a container; `include/kwk/detail/container/accessor.hpp:51-53, 73-75, 99-101, 131-133, 159-161`. -/
def CType.accessor (t : CType) : AccessorKind :=
  let s := fullyStatic (normalizeExtents t.shape)
  if s && fullyStatic (normalizeExtents t.strideArgs) then .static
  else if !s && t.shape.length == 1 then (if t.strides.isSome then .lineStrided else .line)
  else if !s && t.shape.length == 2 then (if t.strides.isSome then .planeStrided else .plane)
  else .general

/-- What a container holds; members that a variant of `accessor` or `metadata` does not have are ignored;
`include/kwk/container/container.hpp:19-24`, `include/kwk/detail/container/accessor.hpp:44-45, 93, 124-125, 153, 186-187`,
`include/kwk/detail/container/metadata.hpp:32`. -/
structure Obj (δ : Type) where
  /-- `label_` -/
  label_ : String
  /-- `data_` -/
  data_ : δ
  /-- `shape_` -/
  shape_ : Shape
  /-- `stride_` -/
  stride_ : Strides
  deriving DecidableEq, Repr

variable {δ : Type}

/-- The values of a shape or stride of which all extents are compile-time ones; a run-time one starts as `0`;
`include/kwk/detail/sequence/prefilled.hpp:77, 212-217`. -/
def constants (d : Desc) : List Int :=
  d.map fun a => match a.content with
    | .static v => v
    | .dynamic _ => 0

/-- `label()`; `include/kwk/detail/container/metadata.hpp:29, 43`. -/
def CType.labelOf (t : CType) (o : Obj δ) : String := if t.label then o.label_ else ""

/-- `shape()`; `include/kwk/detail/container/accessor.hpp:26, 60, 87, 114, 145, 174`. -/
def CType.shapeOf (t : CType) (o : Obj δ) : Shape :=
  match t.accessor with
  | .static => constants (normalizeExtents t.shape)
  | _ => o.shape_

/-- `stride()`; `include/kwk/detail/container/accessor.hpp:27, 61, 88, 115, 146, 175`. -/
def CType.strideOf (t : CType) (o : Obj δ) : Strides :=
  match t.accessor with
  | .static | .line => constants (normalizeExtents t.strideArgs)
  | .plane => [o.shape_.getD 1 0, 1]
  | _ => o.stride_

/-- The members that are exchanged by `accessor::swap`, and how: by `std::swap`, or by a member function `swap` of the shape or
stride; `include/kwk/detail/container/accessor.hpp:38-42, 65, 91, 118-122, 151, 180-184`. -/
inductive SwapCall where
  | stdShape | stdStride | memberShape | memberStride
  deriving DecidableEq, Repr

/-- `accessor::swap`; `include/kwk/detail/container/accessor.hpp:38-42, 65, 91, 118-122, 151, 180-184`. -/
def AccessorKind.swapCalls : AccessorKind → List SwapCall
  | .general => [.stdShape, .stdStride]
  | .static => []
  | .line => [.memberShape]
  | .lineStrided => [.memberShape, .memberStride]
  | .plane => [.stdShape]
  | .planeStrided => [.memberShape, .memberStride]

/-- One exchange.  Neither `shape` and `stride` nor their bases `prefilled`, `kumi::tuple` and `empty_tuple` have a member
`swap`; `include/kwk/utility/container/shape.hpp:70-328`, `include/kwk/utility/container/stride.hpp:66-149`,
`include/kwk/detail/sequence/prefilled.hpp:19-23, 54-440`. -/
def SwapCall.run (x : Obj δ × Obj δ) : SwapCall → Option (Obj δ × Obj δ)
  | .stdShape => some ({ x.1 with shape_ := x.2.shape_ }, { x.2 with shape_ := x.1.shape_ })
  | .stdStride => some ({ x.1 with stride_ := x.2.stride_ }, { x.2 with stride_ := x.1.stride_ })
  | .memberShape | .memberStride => none

/-- `metadata::swap`; `include/kwk/detail/container/metadata.hpp:31, 44`. -/
def swapLabels (t : CType) (x : Obj δ × Obj δ) : Obj δ × Obj δ :=
  if t.label then ({ x.1 with label_ := x.2.label_ }, { x.2 with label_ := x.1.label_ }) else x

/-- `swap` of the memory blocks; `include/kwk/detail/memory/heap_block.hpp:54`,
`include/kwk/detail/memory/shallow_block.hpp:30`, `include/kwk/detail/memory/stack_block.hpp:45-49`. -/
def swapData (x : Obj δ × Obj δ) : Obj δ × Obj δ := ({ x.1 with data_ := x.2.data_ }, { x.2 with data_ := x.1.data_ })

/-- `a.swap(b)`; `include/kwk/container/container.hpp:56-63`. -/
def swapObjs (t : CType) (a b : Obj δ) : Option (Obj δ × Obj δ) :=
  t.accessor.swapCalls.foldlM SwapCall.run (swapData (swapLabels t (a, b)))

/-- `shape_( pick(kwk::size, opts) )`: the copy constructor for the same type, or the converting one;
`include/kwk/utility/container/shape.hpp:176-199`. -/
def shapeFrom (dst src : List Extent) : Bool :=
  decide (dst = src) || isConstructibleFrom (normalizeExtents dst) (normalizeExtents src)

/-- Construction from the settings of a container whose shape has the arguments `src` and the values `dims` (which are not changed
by a conversion of shapes; narrowing is left out here): there is no label among these, so that `label_` would be made of an
`unknown_key`, and the strides are those of `as_stride`, of which only `stride_type` itself can be made.  The variant without
members looks at nothing; `include/kwk/container/container.hpp:45-47, 75-78`, `include/kwk/detail/container/metadata.hpp:25-27, 41`,
`include/kwk/container/settings/label.hpp:16-20`, `include/kwk/container/settings/strides.hpp:18-23`,
`include/kwk/detail/container/accessor.hpp:31-34, 64, 82-84, 108-111, 140-142, 168-171`,
`include/kwk/utility/container/stride.hpp:94-107`. -/
def ofSettings (t : CType) (src : List Extent) (dims : Shape) (d : δ) : Option (Obj δ) :=
  if t.label then none
  else
    match t.accessor with
    | .static => some ⟨"", d, [], []⟩
    | .line | .plane => if shapeFrom t.shape src then some ⟨"", d, dims, []⟩ else none
    | .general | .lineStrided | .planeStrided =>
      if shapeFrom t.shape src && decide (t.strideArgs = asStrideArgs src) then some ⟨"", d, dims, asStride dims⟩ else none

/-- `table(table const& other)`: `table(other.settings())`; `include/kwk/container/table.hpp:75-77`.
The block of the copy is made of `d`, the elements of `other`. -/
def copyTable (t : CType) (o : Obj δ) (d : δ) : Option (Obj δ) := ofSettings t t.shape (t.shapeOf o) d

/-- `table(other)` and `view(other)` for a container of another type; `include/kwk/container/table.hpp:79-82`,
`include/kwk/container/view.hpp:68-71`. -/
def ofContainer (t : CType) (u : CType) (o : Obj δ) (d : δ) : Option (Obj δ) :=
  if isSimilar (normalizeExtents t.shape) (normalizeExtents u.shape) then ofSettings t u.shape (u.shapeOf o) d else none

/-- The type of `table{other}` for a view `other`, and of `view{other}` for a table: `archetype` keeps the shape type only (and the type of the
elements, without `const`; elements are not `const` here).  For a container of the same kind, the type is that of `other`, which is then
copied; `include/kwk/container/container.hpp:65-73`, `include/kwk/container/table.hpp:119-121`,
`include/kwk/container/view.hpp:102-104`. -/
def CType.archetype (u : CType) : CType := ⟨u.shape, none, false⟩

/-- `table{other}` for a view `other`, and `view{other}` for a table; `include/kwk/container/table.hpp:79-82, 119-121`,
`include/kwk/container/view.hpp:68-71, 102-104`. -/
def deduced (u : CType) (o : Obj δ) (d : δ) : Option (Obj δ) := ofContainer u.archetype u o d

/-- `x = other` for a table of the same type; `include/kwk/container/table.hpp:84-90`. -/
def assignTable (t : CType) (x o : Obj δ) (d : δ) : Option (Obj δ) := do
  let local_ ← copyTable t o d
  let r ← swapObjs t x local_
  pure r.1

/-- `x = other` for a container of another type; `include/kwk/container/table.hpp:92-98`,
`include/kwk/container/view.hpp:73-79`. -/
def assignContainer (t : CType) (u : CType) (x o : Obj δ) (d : δ) : Option (Obj δ) := do
  let local_ ← ofContainer t u o d
  let r ← swapObjs t x local_
  pure r.1

end Kwk
