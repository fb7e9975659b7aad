import Verif.Model.MixedInterp
import Verif.Spec.FloatInterp
import Verif.Spec.Walk

/-!
# Specification: points with coordinates of any arithmetic types, and where they are in a container
-/

namespace Kwk.Spec

/-- `rnd p` is a rounding of the binary floating-point format with `p` significant bits: its results are numbers of the format, these
numbers are kept, and the relative error is at most `2^-p`. -/
structure Formats (rnd : ℕ → ℚ → ℚ) : Prop where
  result : ∀ p x, 0 < p → Representable p (rnd p x)
  keeps : ∀ p x, Representable p x → rnd p x = x
  error : ∀ p, RelError ((1 / 2) ^ p) (rnd p)

end Kwk.Spec

namespace Kwk

/-- The number that a coordinate is. -/
def PointCoord.number : PointCoord → ℚ
  | .int c => (c.value : ℚ)
  | .flt _ v => v

/-- The coordinate is a number of its type; floating-point types are at least as precise as `float`. -/
def PointCoord.Valid : PointCoord → Prop
  | .int c => c.type.Fits c.value
  | .flt p v => 24 ≤ p ∧ Spec.Representable p v

end Kwk

namespace Kwk.Spec

/-- The point is within the extents. -/
def PointInside (shape : List Int) (ps : List ℚ) : Prop := List.Forall₂ (fun (d : Int) (v : ℚ) => 0 ≤ v ∧ v < (d : ℚ)) shape ps

/-- The elements of the container, one after the other from the first, are the values of the positions in row-major order. -/
def HasElements {β : Type} (m : Int → Res β) (c : ContainerT) (val : List Int → β) : Prop :=
  ∀ (k : ℕ) p, (positions (c.shape.map (·.value)))[k]? = some p → m (c.start + k) = .ok (val p)

end Kwk.Spec
