import Verif.Model.Customised
import Verif.Spec.Calls

/-!
# Specification: when the algorithm written by the user is used

What the overload of the user should be used for, and the calls for which the library does not use it.
-/

namespace Kwk.Spec

open Kwk.Calls

/-- The parameter of the user's template can be initialised with the context. -/
def Takes (form : Form) (c : Cat) : Prop := form = .lref → c = .named

/-- Overload resolution prefers it to the template of the library for each context of this category: not `my_context const&` if the
context is a named object that is not `const`, which `Context&` fits better. -/
def Preferred (form : Form) (c : Cat) : Prop := Takes form c ∧ ¬ (form = .clref ∧ c = .named)

/-- The call is one of the template that does the work, with all its arguments. -/
def Direct (f : CallForm) : Prop := f.name = f.runs ∧ f.things = (List.range f.roles.length).map fun i => .user (i + 1)

/-- The calls that the library passes on by a qualified call. -/
def PassedQualified (f : CallForm) : Prop :=
  f.name = .copy ∨ f.name = .forEachIndex ∨ (f.name = .reduce ∧ f.roles.length < 3)

instance (form : Form) (c : Cat) : Decidable (Takes form c) := by unfold Takes; infer_instance
instance (form : Form) (c : Cat) : Decidable (Preferred form c) := by unfold Preferred; infer_instance
instance (f : CallForm) : Decidable (Direct f) := by unfold Direct; infer_instance
instance (f : CallForm) : Decidable (PassedQualified f) := by unfold PassedQualified; infer_instance

end Kwk.Spec
