import Verif.Model.Build
import Verif.Spec.Axes

/-!
# Specification: what a caller expects from `of_size` and `with_strides`

Each argument has a name or not, a value, and is known at compile time or not; no mention of descriptors or storage.
-/

namespace Kwk.Spec

/-- The name of the axis described by an argument. -/
def argName : BuildArg → Option AxisId
  | .int _ _ => none
  | .const _ => none
  | .joker => none
  | .axis a => some a
  | .axisSize a _ _ => some a
  | .named a _ => some a

/-- The size asked for, `dflt` if none is. -/
def argSize (dflt : Int) : BuildArg → Int
  | .int _ v => v
  | .const v => v
  | .joker => dflt
  | .axis _ => dflt
  | .axisSize _ _ v => v
  | .named _ (.int _ v) => v
  | .named _ (.const v) => v
  | .named _ .joker => dflt

/-- The size asked for is a compile-time constant. -/
def argConst : BuildArg → Bool
  | .const _ => true
  | .named _ (.const _) => true
  | _ => false

/-- An integer of a C++ type has a value of that type. -/
def ArgTyped : BuildArg → Prop
  | .int t v => t.Fits v
  | .axisSize _ t v => t.Fits v
  | .named _ (.int t v) => t.Fits v
  | _ => True

/-- The arguments name distinct axes, with names a user can write. -/
def ProperArgs (args : List BuildArg) : Prop :=
  (args.filterMap argName).Nodup ∧ ∀ a ∈ args.filterMap argName, ∀ n, a ≠ .implicit n

/-- An argument such as `width`: an axis alone. -/
def IsBareAxis (b : BuildArg) : Prop := ∃ a, b = .axis a

/-- An argument such as `width[3]`. -/
def IsSizedAxis (b : BuildArg) : Prop := ∃ a t v, b = .axisSize a t v

/-- An argument such as `width = 3`. -/
def IsNamed (b : BuildArg) : Prop := ∃ a v, b = .named a v

end Kwk.Spec
