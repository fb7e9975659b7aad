import Verif.Model.Bindings

/-!
# Specification: structured bindings

What the declaration `auto [a1, ..., an] = s;` should give for an object `s` with extents: the names stand for the extents, in order.
-/

namespace Kwk.Spec

/-- The declaration would be accepted for any single variable: `auto& e` needs an object that can be referred to, `auto const&& e` a
temporary one. -/
def Declarable (d : BindDecl) (x : InitExpr) : Prop :=
  (d.ref = .lref → d.isConst = false → x.lvalue = true ∨ x.isConst = true) ∧
  (d.ref = .rref → d.isConst = true → x.lvalue = false)

/-- The names are read only: `const` is written, or the names refer to a `const` object. -/
def ReadOnly (d : BindDecl) (x : InitExpr) : Prop := d.isConst = true ∨ (d.ref ≠ .none ∧ x.isConst = true)

end Kwk.Spec
