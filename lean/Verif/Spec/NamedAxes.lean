import Verif.Spec.Axes
import Mathlib.Data.List.Forall2

/-! # Specification vocabulary for shapes built from some of their named axes -/

namespace Kwk.Spec

/-- The extents are given by name: once each, for axes of the shape, with values that the axes can hold. -/
structure NamedCall (d : Desc) (dflt : Int) (vs : List (AxisId × Arg)) : Prop where
  axes : (d.map (·.id)).Nodup
  once : (vs.map (·.1)).Nodup
  known : ∀ a ∈ vs.map (·.1), a ∈ d.map (·.id)
  fits : ∀ a ∈ d, ∀ v, (a.id, v) ∈ vs → Storable dflt a v

/-- No value contradicts a compile-time extent. -/
def AllConsistent (d : Desc) (vs : List (AxisId × Arg)) : Prop := ∀ a ∈ d, ∀ v, (a.id, v) ∈ vs → Consistent a v

/-- What the documentation says of the extent of an axis: its compile-time value, the value given for it (the default for a joker), or
`1` if none is given. -/
inductive DocumentedExtent (dflt : Int) (vs : List (AxisId × Arg)) (a : Axis) : Int → Prop
  | static {x} (h : a.content = .static x) : DocumentedExtent dflt vs a x
  | given {t w} (h : a.content = .dynamic t) (hv : (a.id, .val w) ∈ vs) : DocumentedExtent dflt vs a w
  | joker {t} (h : a.content = .dynamic t) (hv : (a.id, .joker) ∈ vs) : DocumentedExtent dflt vs a dflt
  | missing {t} (h : a.content = .dynamic t) (hn : ∀ v, (a.id, v) ∉ vs) : DocumentedExtent dflt vs a 1

/-- A value is given for every axis without compile-time value. -/
def AllGiven (d : Desc) (vs : List (AxisId × Arg)) : Prop := ∀ a ∈ d, ∀ t, a.content = .dynamic t → ∃ v, (a.id, v) ∈ vs

end Kwk.Spec
