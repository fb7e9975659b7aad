import Verif.Spec.FunctionCopies
import Verif.Lemmas.ComparedValues

/-!
# Lemmas: copies of functions
-/

namespace Kwk
open Spec

variable {ρ : Type}

theorem via_context {f : GivenAs → Copying ρ} {r : ρ} {k : Nat} (h : ∀ g n, f g n = .ok (r, n + ofCaller g + k)) (ctx : Bool) (g : GivenAs)
    (n : Nat) : viaContext ctx f g n = .ok (r, n + ofCaller g + k + if ctx then 0 else 1) := by
  cases ctx with
  | true => exact h g n
  | false =>
    show (takeValue g >>= fun _ => f .lvalue : Copying ρ) n = _
    rw [takeValue_then, h]
    show Except.ok (r, n + ofCaller g + 1 + k) = Except.ok (r, n + ofCaller g + k + 1)
    congr 2
    omega

theorem take_then {k : Copying ρ} {r : ρ} {j : Nat} (h : ∀ n, k n = .ok (r, n + j)) (g : GivenAs) (n : Nat) :
    (takeValue g >>= fun _ => k : Copying ρ) n = .ok (r, n + ofCaller g + j) := by
  rw [takeValue_then, h]

theorem take_twice {r : Res ρ} {x : ρ} (h : r = .ok x) (g : GivenAs) (n : Nat) :
    (takeValue g >>= fun _ => (takeValue .lvalue >>= fun _ => noCopies r : Copying ρ) : Copying ρ) n = .ok (x, n + ofCaller g + 1) := by
  rw [takeValue_then, takeValue_then, noCopies_ok h]
  rfl

theorem take_both {r : Res ρ} {x : ρ} (h : r = .ok x) (g : GivenAs) (n : Nat) :
    (takeValue g >>= fun _ => (takeValue g >>= fun _ => noCopies r : Copying ρ) : Copying ρ) n = .ok (x, n + 2 * ofCaller g) := by
  rw [takeValue_then, takeValue_then, noCopies_ok h]
  congr 2
  omega

theorem via_context_two {f : GivenAs → Copying ρ} {r : ρ} (h : ∀ g n, f g n = .ok (r, n + 2 * ofCaller g)) (ctx : Bool) (g : GivenAs)
    (n : Nat) : viaContextTwo ctx f g n = .ok (r, n + 2 * ofCaller g + if ctx then 0 else 2) := by
  cases ctx with
  | true => exact h g n
  | false =>
    show (takeValue g >>= fun _ => (takeValue g >>= fun _ => f .lvalue : Copying ρ) : Copying ρ) n = _
    rw [takeValue_then, takeValue_then, h]
    show Except.ok (r, n + ofCaller g + ofCaller g + 2) = Except.ok (r, n + 2 * ofCaller g + 2)
    congr 2
    omega

end Kwk
