/-!
# Specification: strict weak orders
-/

namespace Kwk

variable {α : Type}

/-- A strict weak order, as the library documents for its comparison arguments. -/
structure StrictWeak (lt : α → α → Bool) : Prop where
  /-- irreflexive -/
  irrefl : ∀ a, lt a a = false
  /-- transitive -/
  trans : ∀ a b c, lt a b = true → lt b c = true → lt a c = true
  /-- being unordered is transitive -/
  incomp : ∀ a b c, lt a b = false → lt b a = false → lt b c = false → lt c b = false →
    lt a c = false ∧ lt c a = false

end Kwk
