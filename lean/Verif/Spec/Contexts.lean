import Verif.Model.Contexts
import Verif.Spec.Layout

/-!
# Specification: contexts
-/

namespace Kwk.Spec

/-- The context visits every position of a shape exactly once, in some order. -/
def VisitsAll (ctx : Ctx) : Prop := ∀ s, (ctx.order s).Nodup ∧ ∀ p, p ∈ ctx.order s ↔ InBox s p

/-- No element of `inp` is stored where another element of `out` is. -/
def Apart (out inp : Container) : Prop :=
  ∀ p q, InBox out.shape p → InBox out.shape q → p ≠ q → out.addr p ≠ inp.addr q

/-- The two containers of the same shape share no cell. -/
def Disjoint (out inp : Container) : Prop :=
  ∀ p q, InBox out.shape p → InBox out.shape q → out.addr p ≠ inp.addr q

end Kwk.Spec
