import Mathlib.Algebra.BigOperators.Group.List.Basic
import Mathlib.Data.List.Forall2

/-!
# Specification: index boxes

Independent vocabulary used to state the properties.  Nothing here refers to the model.
-/

namespace Kwk.Spec

/-- `p` is a valid position of an index space of extents `s`: same length, and each
coordinate lies in `[0, extent)`. -/
def InBox (s p : List Int) : Prop := List.Forall₂ (fun d i => 0 ≤ i ∧ i < d) s p

/-- Decidability of box membership (used by the concrete examples). -/
instance decInBox : ∀ s p : List Int, Decidable (InBox s p)
  | [], [] => isTrue .nil
  | [], _ :: _ => isFalse (by intro h; cases h)
  | _ :: _, [] => isFalse (by intro h; cases h)
  | d :: s, i :: p =>
    match decInBox s p, (inferInstance : Decidable (0 ≤ i ∧ i < d)) with
    | isTrue h₁, isTrue h₂ => isTrue (.cons h₂ h₁)
    | isFalse h₁, _ => isFalse (by intro h; cases h; contradiction)
    | _, isFalse h₂ => isFalse (by intro h; cases h; contradiction)

/-- All extents are non-negative. -/
def NonNeg (s : List Int) : Prop := ∀ d ∈ s, 0 ≤ d

instance (s : List Int) : Decidable (NonNeg s) := by unfold NonNeg; infer_instance

/-- The integers `0, 1, …, d-1` (empty if `d ≤ 0`). -/
def upTo (d : Int) : List Int := (List.range d.toNat).map Int.ofNat

/-- All positions of the box, in lexicographic order. `Props/Index.lean` proves that this list is
strictly increasing for the lexicographic order and contains exactly the positions of the box. -/
def positions : List Int → List (List Int)
  | [] => [[]]
  | d :: ds => (upTo d).flatMap fun i => (positions ds).map fun p => i :: p

/-- The distances of row-major order: along each axis, the number of positions of the axes to its right, which is the product
of their extents. -/
def distances : List Int → List Int
  | [] => []
  | _ :: ds => ds.prod :: distances ds

/-- The place of position `p` in the row-major order of the box: each coordinate jumps over all the positions of the axes to its
right. `C05_row_place` proves that this is the number of positions before `p`. -/
def rowPlace : List Int → List Int → Int
  | _ :: ds, i :: is => i * ds.prod + rowPlace ds is
  | _, _ => 0

/-- The position obtained from `p` by adding `1` to coordinate `k`. -/
def bump (p : List Int) (k : Nat) : List Int := p.modify k (· + 1)

end Kwk.Spec
