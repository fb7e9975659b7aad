import Verif.Spec.StoredValues
import Verif.Lemmas.FunctionCopies
import Verif.Lemmas.Loops
import Verif.Lemmas.Writing

/-!
# Lemmas: copies of values that are stored or accumulated
-/

namespace Kwk
open Spec

variable {α β ρ σ τ : Type}

theorem foldl_reference (f : β → ρ → β) (l : List ρ) (a : β) (n : Nat) : l.foldl (accByReference f) (a, n) = (l.foldl f a, n) := by
  induction l generalizing a with
  | nil => rfl
  | cons x l ih => exact ih (f a x)

theorem foldl_value (f : β → ρ → β) (l : List ρ) (a : β) (n : Nat) : l.foldl (accByValue f) (a, n) = (l.foldl f a, n + l.length) := by
  induction l generalizing a n with
  | nil => rfl
  | cons x l ih =>
    refine (ih (f a x) (n + 1)).trans ?_
    rw [List.length_cons, List.foldl_cons]
    congr 1
    omega

theorem count_loop (pair : σ → Nat → τ) {f : List Int → σ × Mem α → Res (σ × Mem α)} {f' : List Int → τ × Mem α → Res (τ × Mem α)} {k : Nat}
    (hf : ∀ p s n m, f' p (pair s n, m) = f p (s, m) >>= fun r => pure (pair r.1 (n + k), r.2)) {shp : List Int} {s s' : σ} {m m' : Mem α}
    (h : loopState f shp (s, m) = .ok (s', m')) (n : Nat) :
    loopState f' shp (pair s n, m) = .ok (pair s' (n + k * (positions shp).length), m') := by
  rw [loopState_eq] at h ⊢
  generalize positions shp = ps at h ⊢
  induction ps generalizing s m n with
  | nil =>
    cases h
    rfl
  | cons p ps ih =>
    rw [List.foldlM_cons] at h ⊢
    rw [hf]
    cases hp : f p (s, m) with
    | error e => rw [hp] at h; cases h
    | ok r =>
      rw [hp] at h
      refine (ih (s := r.1) (m := r.2) (n + k) h).trans ?_
      congr 3
      rw [List.length_cons, Nat.mul_succ]
      omega

theorem via_context_count {f : GivenAs → Copying ρ} {r : ρ} {k : Nat} (h : ∀ g n, f g n = .ok (r, n + ofCaller g + k)) (g : GivenAs) (n : Nat) :
    (takeValue g >>= fun _ => f .lvalue : Copying ρ) n = .ok (r, n + ofCaller g + (1 + k)) := by
  rw [takeValue_then, h, ← Nat.add_assoc]
  rfl

end Kwk
