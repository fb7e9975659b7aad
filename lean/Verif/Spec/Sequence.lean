import Verif.Spec.Layout

/-!
# Specification: containers seen as sequences
-/

namespace Kwk.Spec

variable {α : Type}

/-- In memory `m`, the elements of `c` in row-major order are `xs`; all of them can be read. -/
def Lists (c : Container) (m : Mem α) (xs : List α) : Prop := rowMajor c m = xs.map .ok

/-- Position number `k` of the box `s` in row-major order; none past the end. -/
def place (s : List Int) (k : Nat) : Option (List Int) := (positions s)[k]?

end Kwk.Spec
