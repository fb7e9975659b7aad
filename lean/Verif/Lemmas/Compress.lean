import Verif.Lemmas.Positions
import Verif.Model.Convert

/-! # Helper lemmas about compression and conversion -/

namespace Kwk
open Spec

theorem foldl_mul (l : List Int) (a : Int) : l.foldl (fun x y => x * y) a = a * l.prod := by
  induction l generalizing a with
  | nil => simp
  | cons x xs ih => simp [ih, mul_assoc]

/-- Closed form: the leading axes are multiplied together. -/
theorem compress_eq {n : Nat} {s : List Int} (h0 : 0 < n) (h : n ≤ s.length) :
    compress n s = (s.take (s.length - n + 1)).prod :: s.drop (s.length - n + 1) := by
  unfold compress
  cases s with
  | nil => simp at h; omega
  | cons d ds =>
    split
    · next h => subst h; simp
    · simp [kumiFoldRight, foldl_mul]

theorem compress_length {n : Nat} {s : List Int} (h0 : 0 < n) (h : n ≤ s.length) :
    (compress n s).length = n := by
  rw [compress_eq h0 h]; simp; omega

theorem compress_prod {n : Nat} {s : List Int} (h0 : 0 < n) (h : n ≤ s.length) :
    (compress n s).prod = s.prod := by
  rw [compress_eq h0 h, List.prod_cons, List.prod_take_mul_prod_drop]

theorem compress_self (s : List Int) : compress s.length s = s := by simp [compress]

theorem compress_compress {n k : Nat} {s : List Int} (h0 : 0 < k) (hk : k ≤ n) (hn : n ≤ s.length) :
    compress k (compress n s) = compress k s := by
  have hn0 : 0 < n := by omega
  rw [compress_eq h0 (by rw [compress_length hn0 hn]; exact hk), compress_length hn0 hn,
    compress_eq h0 (by omega), compress_eq hn0 hn]
  rw [List.take_succ_cons, List.drop_succ_cons, List.prod_cons, List.drop_drop]
  congr 1
  · rw [List.take_drop, ← List.prod_take_mul_prod_drop
      (s.take (s.length - k + 1)) (s.length - n + 1), List.take_take]
    congr 2
    · congr 1; omega
    · congr 2; omega
  · congr 1; omega

theorem sfx_append (a b : List Int) : sfx (a ++ b) = (sfx a).map (b.prod * ·) ++ sfx b := by
  induction a with
  | nil => simp [sfx]
  | cons x xs ih => simp [sfx, ih, mul_comm]

theorem linearize_map_mul (c : Int) (st p : List Int) :
    linearize (st.map (c * ·)) p = c * linearize st p := by
  induction st generalizing p with
  | nil => simp [linearize]
  | cons g gs ih =>
    cases p with
    | nil => simp [linearize]
    | cons i is => rw [List.map_cons, linearize_cons, linearize_cons, ih]; ring

theorem linearize_append {a b p q : List Int} (h : a.length = p.length) :
    linearize (a ++ b) (p ++ q) = linearize a p + linearize b q := by
  induction a generalizing p with
  | nil => cases p with
    | nil => simp [linearize]
    | cons => simp at h
  | cons x xs ih => cases p with
    | nil => simp at h
    | cons i is =>
      simp only [List.cons_append, linearize_cons]
      rw [ih (by simpa using h)]; ring

/-- Linear index of a concatenated position. -/
theorem lin_append {a b p q : List Int} (h : a.length = p.length) :
    linearize (sfx (a ++ b)) (p ++ q) = b.prod * linearize (sfx a) p + linearize (sfx b) q := by
  rw [sfx_append, linearize_append (by simp [sfx_length, h]), linearize_map_mul]

theorem inBox_append {a b p q : List Int} (h : a.length = p.length) :
    InBox (a ++ b) (p ++ q) ↔ InBox a p ∧ InBox b q := by
  induction a generalizing p with
  | nil => cases p with
    | nil => simp [inBox_nil]
    | cons => simp at h
  | cons x xs ih => cases p with
    | nil => simp at h
    | cons i is =>
      simp only [List.cons_append, inBox_cons, ih (p := is) (by simpa using h), and_assoc]

theorem InBox_take {s p : List Int} (h : InBox s p) (k : Nat) : InBox (s.take k) (p.take k) :=
  List.forall₂_take k h

theorem InBox_drop {s p : List Int} (h : InBox s p) (k : Nat) : InBox (s.drop k) (p.drop k) :=
  List.forall₂_drop k h

/-- Merging the leading coordinates of a position into their linear index. -/
theorem lin_compress {n : Nat} {s p : List Int} (h0 : 0 < n) (h : n ≤ s.length) (hp : InBox s p) :
    let k := s.length - n + 1
    let q := linearize (sfx (s.take k)) (p.take k) :: p.drop k
    InBox (compress n s) q ∧ linearize (sfx (compress n s)) q = linearize (sfx s) p := by
  intro k q
  rw [compress_eq h0 h]
  constructor
  · exact inBox_cons.2 ⟨lin_bounds (InBox_take hp k), InBox_drop hp k⟩
  · have e := lin_append (a := s.take k) (b := s.drop k) (p := p.take k) (q := p.drop k)
      (by simp [hp.length])
    rw [List.take_append_drop, List.take_append_drop] at e
    rw [linearize_sfx_cons, e]

theorem shapeEq_iff {a b : List Int} :
    shapeEq a b = true ↔ ∀ x ∈ (compress (min a.length b.length) a).zip
      (compress (min a.length b.length) b), x.1 = x.2 := by
  have key : ∀ (l : List (Int × Int)) (r : Bool),
      l.foldl (fun result ab => result && (ab.1 == ab.2)) r = (r && l.all fun ab => ab.1 == ab.2) := by
    intro l
    induction l with
    | nil => simp
    | cons x xs ih => intro r; simp [ih, Bool.and_assoc]
  simp only [shapeEq]
  rw [key]
  simp

theorem zip_eq_iff {a b : List Int} (h : a.length = b.length) :
    (∀ x ∈ a.zip b, x.1 = x.2) ↔ a = b := by
  induction a generalizing b with
  | nil => cases b with
    | nil => simp
    | cons => simp at h
  | cons x xs ih => cases b with
    | nil => simp at h
    | cons y ys =>
      simp only [List.zip_cons_cons, List.forall_mem_cons, ih (b := ys) (by simpa using h),
        List.cons.injEq]

/-- Equality compares the shapes compressed to the smaller order. -/
theorem shapeEq_compress {a b : List Int} (ha : a ≠ []) (hb : b ≠ []) :
    shapeEq a b = true ↔
      compress (min a.length b.length) a = compress (min a.length b.length) b := by
  have la := List.length_pos_iff.2 ha
  have lb := List.length_pos_iff.2 hb
  rw [shapeEq_iff, zip_eq_iff]
  rw [compress_length (by omega) (by omega), compress_length (by omega) (by omega)]

theorem prod_replicate_one (k : Nat) : (List.replicate k (1 : Int)).prod = 1 := by simp

theorem inBox_replicate_one (k : Nat) {p : List Int} :
    InBox (List.replicate k 1) p ↔ p = List.replicate k 0 := by
  induction k generalizing p with
  | zero => simp [inBox_nil]
  | succ k ih =>
    rw [List.replicate_succ, List.replicate_succ]
    constructor
    · intro h
      obtain ⟨i, q, rfl, hi, hq⟩ := inBox_cons_left h
      rw [ih.1 hq]; congr 1; omega
    · rintro rfl; exact inBox_cons.2 ⟨⟨by omega, by omega⟩, ih.2 rfl⟩

theorem linearize_zeros (st : List Int) (k : Nat) : linearize st (List.replicate k 0) = 0 := by
  induction st generalizing k with
  | nil => simp [linearize]
  | cons g gs ih => cases k with
    | zero => simp [linearize]
    | succ k => rw [List.replicate_succ, linearize_cons, ih]; ring

end Kwk
