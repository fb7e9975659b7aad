import Verif.Model.Base

/-!
# Model: who may write the elements of a container

Constness is a matter of types: `c(i...) = v` compiles or does not.  A container expression is described by its memory
block, by whether its element type was given as `T const`, and by whether the expression itself is const.
-/

namespace Kwk

/-- The memory blocks; `include/kwk/detail/memory/block.hpp:17-36`. -/
inductive BlockKind where
  /-- views -/
  | shallow
  /-- tables with a run-time extent -/
  | heap
  /-- tables whose extents are all known at compile time -/
  | stack
  deriving DecidableEq, Repr

/-- A container expression; `include/kwk/container/container.hpp:19-30`. -/
structure Handle where
  /-- the memory block -/
  block : BlockKind
  /-- `base_type` is `T const` -/
  elem : Bool
  /-- the expression is const -/
  const : Bool
  deriving DecidableEq, Repr

/-- `get_data()` is a pointer to const: `pointer` for a shallow block, `value_type*` from the `unique_ptr` for a heap block, and
the address of a member for a stack block; `include/kwk/detail/memory/shallow_block.hpp:18-32`,
`include/kwk/detail/memory/heap_block.hpp:19-58`, `include/kwk/detail/memory/stack_block.hpp:19-38`,
`include/kwk/container/container.hpp:153-154`. -/
def Handle.pointsToConst (h : Handle) : Bool :=
  match h.block with
  | .shallow => h.elem
  | .heap => false
  | .stack => h.const

/-- `c(i...) = v` compiles: both overloads return `data(block)[index]`; `include/kwk/container/container.hpp:128-138`. -/
def Handle.writable (h : Handle) : Bool := !h.pointsToConst

/-- Ways to get a container on the elements of another one. -/
inductive Access where
  /-- `auto const& d = c` -/
  | asConst
  /-- `c(slicers...)`; `include/kwk/container/container.hpp:140-151` -/
  | slice
  /-- `reverse(c)`; `include/kwk/algorithm/views/reverse.hpp:12-23` -/
  | reverse
  /-- `view{source = c.get_data(), ...}`; `include/kwk/settings/source.hpp:45-49` -/
  | source
  /-- a view made from `c`, or assigned from it, with elements `T const` (`true`) or `T` (`false`);
  `include/kwk/container/view.hpp:68-79, 103-105` -/
  | view (k : Bool)
  deriving DecidableEq, Repr

/-- The container obtained; `none`: does not compile.  Slices are taken by a const member function, `reverse` takes a reference to
const, and a view is made from `settings()`, where `pointer(get_data())` is a cast to `base_type*` that removes const;
`include/kwk/container/container.hpp:75-78, 140-151`, `include/kwk/algorithm/views/reverse.hpp:12-23`,
`include/kwk/container/view.hpp:68-79`. -/
def Handle.step (h : Handle) : Access → Option Handle
  | .asConst => some { h with const := true }
  | .slice => some ⟨.shallow, ({ h with const := true } : Handle).pointsToConst, false⟩
  | .reverse => some ⟨.shallow, ({ h with const := true } : Handle).pointsToConst, false⟩
  | .source => some ⟨.shallow, h.pointsToConst, false⟩
  | .view k => if h.elem && !k then none else some ⟨.shallow, k, false⟩

/-- A chain of accesses; the members used are those of `include/kwk/container/container.hpp:75-151`. -/
def Handle.run (h : Handle) (p : List Access) : Option Handle := p.foldlM Handle.step h

end Kwk
