import Verif.Spec.Box
import Verif.Model.Container

/-!
# Specification vocabulary for containers

Stated with the element access `Container.get` and `Container.addr` only.
-/

namespace Kwk

variable {α : Type}

/-- A container as the library builds it: one stride per axis, at least one axis, and the row-major
strides when none were given explicitly. -/
structure Container.WF (c : Container) : Prop where
  /-- at least one axis -/
  ne : c.shape ≠ []
  /-- one stride per axis -/
  len : c.strides.length = c.shape.length
  /-- default strides -/
  dflt : c.specific = false → c.strides = asStride c.shape

/-- Default layout: a well-formed container without explicit strides. -/
structure Container.Default (c : Container) : Prop extends c.WF where
  /-- no explicit strides -/
  nospec : c.specific = false

namespace Spec

/-- In memory `m`, the element of `c` at each of its positions `p` can be read and is `val p`. -/
def Elems (c : Container) (m : Mem α) (val : List Int → α) : Prop :=
  ∀ p, InBox c.shape p → c.get m p = .ok (val p)

/-- Different positions of `c` are stored in different cells. -/
def Distinct (c : Container) : Prop :=
  ∀ p q, InBox c.shape p → InBox c.shape q → c.addr p = c.addr q → p = q

/-- Every position of `c` is a cell of `m`. -/
def Valid (c : Container) (m : Mem α) : Prop := ∀ p, InBox c.shape p → ∃ v, c.get m p = .ok v

/-- `m'` and `m` agree on every cell that is not the cell of a position of `c`. -/
def SameOutside (c : Container) (m m' : Mem α) : Prop :=
  ∀ a, (∀ p, InBox c.shape p → c.addr p ≠ a) → m' a = m a

/-- The strides are the row-major ones on every axis that has more than one position: the stride is the product of the
later extents. -/
def RowMajorStrides (s st : List Int) : Prop :=
  ∀ i, 1 < s.getD i 1 → st.getD i 0 = (s.drop (i + 1)).prod

/-- The cells of a container, listed in row-major order of the positions. -/
def cells (c : Container) : List Ptr := (positions c.shape).map c.addr

/-- A memory block: the cells of block `b` are `b[0], …, b[l.length-1]` with contents `l`, and there
is no other cell. Used for concrete examples. -/
def oneBlock (b : Nat) (l : List α) : Mem α := fun p =>
  if p.blk = b ∧ 0 ≤ p.off then l[p.off.toNat]? else none

/-- No element of `inp` is overwritten through `out` before the loop over `out` reaches its
position.  True for disjoint memory, and for `inp = out`. -/
def NoClobber (out inp : Container) : Prop :=
  ∀ p q, InBox out.shape p → InBox out.shape q → q < p → out.addr q ≠ inp.addr p

/-- The row-major sequence of elements of a container, as read from memory. -/
def rowMajor (c : Container) (m : Mem α) : List (Res α) := (positions c.shape).map (c.get m)

end Spec
end Kwk
