import Verif.Model.Identity
import Verif.Spec.Sequence

/-!
# Specification: containers as sequences of addresses and values
-/

namespace Kwk.Spec

variable {α : Type}

/-- In memory `m`, the elements of `c` in row-major order have these addresses and values. -/
def Entries (c : Container) (m : Mem α) (es : List (Ptr × α)) : Prop :=
  (positions c.shape).map (fun p => (c.addr p, c.get m p)) = es.map fun e => (e.1, .ok e.2)

/-- What `f` says of an element. -/
def ofElem {β : Type} (f : Given → α → β) (e : Ptr × α) : β := f (.elem e.1) e.2

/-- What `f` says of a copy of an element. -/
def ofCopy {β : Type} (f : Given → α → β) (e : Ptr × α) : β := f (.temp e.1) e.2

/-- The entries up to the first one that satisfies `g`, that one included; all if there is none. -/
def through (g : Ptr × α → Bool) : List (Ptr × α) → List (Ptr × α)
  | [] => []
  | e :: es => if g e then [e] else e :: through g es

end Kwk.Spec
