import Verif.Model.Loops

/-!
# Model: memory, containers and element access
-/

namespace Kwk

/-- An address: a block (allocation) and an element offset in it.  Pointer arithmetic stays in the
block.  Offsets are counted in elements.
Data pointers of blocks: `include/kwk/detail/memory/heap_block.hpp:57-58`. -/
structure Ptr where
  /-- allocation -/
  blk : Nat
  /-- element offset -/
  off : Int
  deriving DecidableEq, Repr

/-- Pointer plus integer. Used at `include/kwk/container/container.hpp:131, 137, 148`. -/
def Ptr.add (p : Ptr) (k : Int) : Ptr := ⟨p.blk, p.off + k⟩

/-- Memory: the cells that exist and their contents.  `none` means that there is no cell at this
address.  All element types are merged in one type `α` (simplification).
Storage of `include/kwk/detail/memory/heap_block.hpp:16-64`, `include/kwk/detail/memory/shallow_block.hpp`. -/
abbrev Mem (α : Type) := Ptr → Option α

/-- Read of one element through a pointer. `include/kwk/container/container.hpp:128-138`. -/
def load {α : Type} (m : Mem α) (p : Ptr) : Res α :=
  match m p with
  | some v => .ok v
  | none => .error .outOfBounds

/-- Write of one element through a pointer. `include/kwk/container/container.hpp:134-138`. -/
def store {α : Type} (m : Mem α) (p : Ptr) (v : α) : Res (Mem α) :=
  match m p with
  | some _ => .ok fun q => if q = p then some v else m q
  | none => .error .outOfBounds

/-- A container (view or table) seen through its accessor and data block:
`include/kwk/container/container.hpp:20-155`, `include/kwk/detail/container/accessor.hpp:19-188`.
`specific` is the builder's `useSpecificStrides` (`include/kwk/detail/container/builder.hpp:19-39`), `static`
tells that shape and strides are known at compile time, `reach` is `preserve_reachability`. -/
structure Container where
  /-- `get_data()` -/
  base : Ptr
  /-- `shape()` -/
  shape : Shape
  /-- stored strides -/
  strides : Strides
  /-- explicit strides were given -/
  specific : Bool
  /-- shape and strides are fully static -/
  static : Bool := false
  /-- `preserve_reachability` -/
  reach : Bool := true
  /-- label, if any (`include/kwk/detail/container/metadata.hpp:17-46`) -/
  label : Option String := none
  deriving DecidableEq, Repr

/-- `accessor::stride()`: the reported strides; `include/kwk/detail/container/accessor.hpp:27, 61, 88, 115, 146, 175`. -/
def Container.stride (c : Container) : Strides :=
  if c.static then c.strides
  else match c.specific, c.shape with
    | false, [_] => [1]
    | false, [_, d1] => [d1, 1]
    | _, _ => c.strides

/-- `accessor::index(is...)`; the specialisation is chosen as in
`include/kwk/detail/container/accessor.hpp:19-46` (general), `51-68` (static), `73-94` (1D default),
`99-126` (1D strided), `131-154` (2D default), `159-188` (2D strided). -/
def Container.index (c : Container) (is : List Int) : Int :=
  if c.static then linearize c.strides is
  else match c.specific, c.shape, is with
    | false, [_], [i] => i
    | true, [_], [i0] => i0 * c.strides.headD 0
    | false, [_, d1], [i1, i0] => i0 + i1 * d1
    | _, _, _ => linearize c.strides is

/-- Address of the element at position `is`; `include/kwk/container/container.hpp:128-138`. -/
def Container.addr (c : Container) (is : List Int) : Ptr := c.base.add (c.index is)

/-- `c(is...)` read as a value; `include/kwk/container/container.hpp:128-138`. -/
def Container.get {α : Type} (c : Container) (m : Mem α) (is : List Int) : Res α := load m (c.addr is)

/-- `container::numel`; `include/kwk/container/container.hpp:51`. -/
def Container.numel (c : Container) : Int := Kwk.numel c.shape

/-- `accessor::size()`: `get<0>` of a run-time 1D shape, `numel` otherwise;
`include/kwk/detail/container/accessor.hpp:25, 59, 86, 113, 144, 173`. -/
def Container.size (c : Container) : Int :=
  match c.static, c.shape with
  | false, [d] => d
  | _, s => Kwk.numel s

/-- `container::empty`; `include/kwk/container/container.hpp:52`. -/
def Container.empty (c : Container) : Bool := c.size == 0

/-- `dim<I>(c)`; `include/kwk/container/container.hpp:157-162`. -/
def Container.dim (c : Container) (i : Nat) : Int := c.shape.getD i 1

/-- A view or table built without explicit strides: strides are `as_stride(shape)`;
`include/kwk/detail/container/builder.hpp:19-39`. -/
def Container.ofShape (base : Ptr) (s : Shape) : Container :=
  { base := base, shape := s, strides := asStride s, specific := false }

/-- A view or table built with explicit strides; `include/kwk/detail/container/builder.hpp:19-39`. -/
def Container.ofStrides (base : Ptr) (s : Shape) (st : Strides) : Container :=
  { base := base, shape := s, strides := st, specific := true }

end Kwk
