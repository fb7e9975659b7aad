import Verif.Spec.Walk
import Verif.Model.DataWalk

/-!
# Specification: containers as arrays

What the algorithms do to the cells of memory, without shapes and strides.
-/

namespace Kwk.Spec

variable {α : Type}

/-- From `p` on, memory holds the values `xs`. -/
def ArrayAt (m : Mem α) (p : Ptr) (xs : List α) : Prop := ∀ (k : Nat) (h : k < xs.length), m ⟨p.blk, p.off + k⟩ = some xs[k]

/-- Only the `n` cells from `p` on may differ. -/
def SameBut (p : Ptr) (n : Int) (m m' : Mem α) : Prop :=
  ∀ q : Ptr, ¬(q.blk = p.blk ∧ p.off ≤ q.off ∧ q.off < p.off + n) → m' q = m q

/-- The `n` cells from `p` on and the `n` cells from `q` on have none in common. -/
def ApartFrom (p q : Ptr) (n : Int) : Prop := p.blk ≠ q.blk ∨ p.off + n ≤ q.off ∨ q.off + n ≤ p.off

/-- A container in default layout: row-major strides, for extents that their types represent; either there are less than `2^31`
elements, or all extents have 64 bits and there are less than `2^63` elements. -/
def DefaultD (c : DataT) : Prop :=
  c.shape ≠ [] ∧ asStrideT c.shape = .ok c.strides ∧ (∀ d ∈ c.shape, 0 ≤ d.value ∧ d.type.Fits d.value) ∧
  ((c.shape.map (·.value)).prod < 2 ^ 31 ∨ (∀ d ∈ c.shape, 64 ≤ d.type.bits) ∧ (c.shape.map (·.value)).prod < 2 ^ 63)

/-- A default-layout container whose elements are the values `xs`, one after the other. -/
def HoldsD (c : DataT) (m : Mem α) (xs : List α) : Prop :=
  DefaultD c ∧ (xs.length : Int) = (c.shape.map (·.value)).prod ∧ ArrayAt m c.base xs

/-- The numbers `p` as numbers of the types of the extents `s`. -/
def counters (s : List Coord) (p : List Int) : List Coord := (s.zip p).map fun x => ⟨x.1.type, x.2⟩

/-- What remains of the numbers of a position if they are stored in `int`s. -/
def asInts (p : List Int) : List Int := p.map fun i => (i + 2 ^ 31) % 2 ^ 32 - 2 ^ 31

end Kwk.Spec
