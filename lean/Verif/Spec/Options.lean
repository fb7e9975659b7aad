import Verif.Model.Options
import Verif.Spec.Nested
import Verif.Spec.Layout

/-!
# Specification vocabulary for options

What a caller expects of a list of options, in terms of which options are in the list.
-/

namespace Kwk.Spec

variable {τ : Type}

/-- Two options set the same thing. -/
def sameSetting : Opt τ → Opt τ → Bool
  | .category _, .category _ => true
  | .source _, .source _ => true
  | .size _, .size _ => true
  | .strides _, .strides _ => true
  | .type _, .type _ => true
  | .label _, .label _ => true
  | .allocator _, .allocator _ => true
  | .unreachable, .unreachable => true
  | _, _ => false

/-- Nothing is set twice. -/
def NoRepeat (opts : List (Opt τ)) : Prop := opts.Pairwise fun o o' => sameSetting o o' = false

/-- There is a `source` option. -/
def HasSource (opts : List (Opt τ)) : Prop := ∃ s, Opt.source s ∈ opts

/-- There is a `value_type` option. -/
def HasType (opts : List (Opt τ)) : Prop := ∃ t, Opt.type t ∈ opts

/-- The shape, strides, label and reachability of a container made with the given options. -/
structure Follows (opts : List (Opt τ)) (b : Built τ) : Prop where
  /-- the given shape -/
  size : ∀ s, Opt.size s ∈ opts → b.shape = s.dims
  /-- no shape, a range: its number of elements -/
  range : (∀ s, Opt.size s ∉ opts) → ∀ src n, Opt.source src ∈ opts → src.kind = .range n → b.shape = [(n : Int)]
  /-- no shape, an array: its extents -/
  array : (∀ s, Opt.size s ∉ opts) → ∀ src t, Opt.source src ∈ opts → src.kind = .array t → PlainNest t →
    b.shape = dims t
  /-- no shape, a pointer: empty -/
  ptr : (∀ s, Opt.size s ∉ opts) → ∀ src, Opt.source src ∈ opts → src.kind = .ptr → b.shape = [0]
  /-- no shape, no source: empty -/
  none : (∀ s, Opt.size s ∉ opts) → ¬ HasSource opts → b.shape = [0]
  /-- the given strides -/
  strides : ∀ s, Opt.strides s ∈ opts → b.strides = s.dims ∧ b.specific = true
  /-- no strides: row-major ones -/
  rowMajor : (∀ s, Opt.strides s ∉ opts) → b.specific = false ∧ b.strides.length = b.shape.length ∧
    ∀ i : Nat, i < b.shape.length → b.strides[i]? = some (b.shape.drop (i + 1)).prod
  /-- the given label, and no other -/
  label : ∀ l, b.label = some l ↔ Opt.label l ∈ opts
  /-- reachable unless told otherwise -/
  reach : b.reach = true ↔ Opt.unreachable ∉ opts

/-- From `p` on there are exactly `n` cells, which hold `val 0`, ..., `val (n-1)`. -/
def CellsFrom {α : Type} (m : Mem α) (p : Ptr) (n : Nat) (val : Nat → α) : Prop :=
  (∀ k : Nat, k < n → m (p.add k) = some (val k)) ∧ ∀ k : Nat, n ≤ k → m (p.add k) = .none

/-- The largest index that positions of shape `s` reach with strides `st`. -/
def lastIndex : List Int → List Int → Int
  | d :: s, g :: st => (d - 1) * g + lastIndex s st
  | _, _ => 0

end Kwk.Spec
