import Mathlib.Tactic.NormNum
import Verif.Lemmas.Container
import Verif.Lemmas.Prefilled
import Verif.Spec.Nested

/-!
# Lemmas for `Props/Fixed.lean`
-/

namespace Kwk
open Spec

theorem bitWidth_le (n k : Nat) : bitWidth n ≤ k ↔ n < 2 ^ k := by
  unfold bitWidth
  split
  · next h => subst h; simp
  · next h => rw [Nat.add_one_le_iff, Nat.log2_lt h]

theorem unsigned_wrap {b : Nat} {n : Int} (h0 : 0 ≤ n) (h : n < 2 ^ b) :
    (⟨b, false⟩ : IntType).wrap n = n := by
  simp only [IntType.wrap, Bool.false_eq_true, false_and, if_false]
  exact Int.emod_eq_of_lt h0 h

/-- The value that `clamp` keeps. -/
theorem clamp_value (n : Nat) :
    (clamp n).value = if 2 ^ 16 ≤ n ∧ n < 2 ^ 19 then (n : Int) % 2 ^ 16 else (n : Int) := by
  unfold clamp
  simp only [bitWidth_le]
  have cast : ∀ k, n < 2 ^ k → (n : Int) < 2 ^ k := fun k h => by exact_mod_cast h
  by_cases h8 : n < 2 ^ 8
  · rw [if_pos h8, if_neg (by omega)]
    exact unsigned_wrap (by omega) (cast 8 h8)
  rw [if_neg h8]
  by_cases h19 : n < 2 ^ 19
  · rw [if_pos h19]
    by_cases h16 : 2 ^ 16 ≤ n
    · rw [if_pos ⟨h16, h19⟩]; rfl
    · rw [if_neg (by tauto)]
      exact unsigned_wrap (by omega) (cast 16 (by omega))
  rw [if_neg h19]
  rw [if_neg (c := 2 ^ 16 ≤ n ∧ n < 2 ^ 19) (by tauto)]
  by_cases h32 : n < 2 ^ 32
  · rw [if_pos h32]
    exact unsigned_wrap (by omega) (cast 32 h32)
  · rw [if_neg h32]

theorem decimal_mono (ds : List Nat) (v : Nat) : v ≤ ds.foldl (fun v d => v * 10 + d) v := by
  induction ds generalizing v with
  | nil => simp
  | cons d ds ih => exact le_trans (by simp only; omega) (ih _)

theorem b10_aux (ds : List Nat) (v : Nat)
    (h : ds.foldl (fun v d => v * 10 + d) v < 2 ^ 64) :
    (ds.map (· + 48)).foldl (fun (v : Int) (c : Nat) => IntType.u64.wrap (v * 10 + ((c : Int) - 48))) v
      = ((ds.foldl (fun v d => v * 10 + d) v : Nat) : Int) := by
  induction ds generalizing v with
  | nil => rfl
  | cons d ds ih =>
    simp only [List.map_cons, List.foldl_cons] at h ⊢
    have hm := decimal_mono ds (v * 10 + d)
    have e : IntType.u64.wrap ((v : Int) * 10 + (((d + 48 : Nat) : Int) - 48)) = ((v * 10 + d : Nat) : Int) := by
      rw [show (v : Int) * 10 + (((d + 48 : Nat) : Int) - 48) = ((v * 10 + d : Nat) : Int) by
        push_cast; ring]
      exact unsigned_wrap (by omega) (by exact_mod_cast lt_of_le_of_lt hm h)
    rw [e]
    exact ih _ h

theorem clamp_kept {n : Nat} (hr : n < 2 ^ 16 ∨ 2 ^ 19 ≤ n) : (clamp n).value = n := by
  rw [clamp_value, if_neg (by omega)]

theorem plain_sizes {t : Nest} (h : PlainNest t) : t.sizes = dims t := by
  induction h with
  | elem => rfl
  | flat n h => simp [Nest.sizes, dims, clamp_kept h]
  | cArray n t h _ ih => simp [Nest.sizes, dims, clamp_kept h, ih]

theorem count_eq (t : Nest) : arrCount t = (dims t).prod := by
  induction t with
  | elem => rfl
  | stdArray n t ih => simp [arrCount, dims, ih]
  | cArray n t ih => simp [arrCount, dims, ih]

theorem offset_eq (t : Nest) (p : List Int) (hp : InBox (dims t) p) :
    offset t p = linearize (sfx (dims t)) p := by
  induction t generalizing p with
  | elem => cases hp; rfl
  | stdArray n t ih =>
    cases hp with
    | cons _ h => simp only [offset, dims, linearize_sfx_cons, ih _ h, count_eq]; ring
  | cArray n t ih =>
    cases hp with
    | cons _ h => simp only [offset, dims, linearize_sfx_cons, ih _ h, count_eq]; ring

/-- A type narrower than `int` is converted to `int` without loss. -/
theorem narrow_fits {t : IntType} (ht : t.bits ≤ 16) {v : Int} (h : t.Fits v) : IntType.i32.Fits v := by
  have hp : (2 : Int) ^ t.bits ≤ 2 ^ 16 := pow_le_pow_right₀ (by norm_num) ht
  have hp0 : (0 : Int) < 2 ^ t.bits := by positivity
  obtain ⟨h1, h2⟩ := h
  unfold IntType.lo at h1
  unfold IntType.hi at h2
  constructor
  · show -(2 ^ 32 / 2) ≤ v
    split at h1 <;> omega
  · show v < 2 ^ 32 / 2
    split at h2 <;> omega

theorem op_exact {t : IntType} {v r : Int} (h : t.Fits v) (e : t.op v = .ok r) : r = v := by
  unfold IntType.op at e
  by_cases hs : t.signed = true
  · rw [if_pos hs, if_pos h] at e; cases e; rfl
  · rw [if_neg hs, IntType.wrap_fits h] at e; cases e; rfl

theorem op_signed {t : IntType} (ht : t.signed = true) {v r : Int} (e : t.op v = .ok r) : r = v := by
  unfold IntType.op at e
  rw [if_pos ht] at e
  split at e
  · cases e; rfl
  · cases e

theorem common_narrow {t u : IntType} (ht : t.bits ≤ 16) (hu : u.bits ≤ 16) : t.common u = .i32 := by
  have h1 : t.promote = .i32 := if_pos (by omega)
  have h2 : u.promote = .i32 := if_pos (by omega)
  simp [IntType.common, h1, h2, IntType.i32]

theorem constOp_value {f : Int → Int → Int} {a b r : Coord} (h : constOp f a b = .ok r) :
    (a.type.common b.type).op (f ((a.type.common b.type).wrap a.value) ((a.type.common b.type).wrap b.value))
      = .ok r.value := by
  simp only [constOp, bind, Except.bind] at h
  split at h
  · cases h
  · next e => cases h; exact e

end Kwk
