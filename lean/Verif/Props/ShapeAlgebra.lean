import Verif.Lemmas.Compress
import Mathlib.Algebra.BigOperators.Ring.List
import Mathlib.Data.List.TakeWhile

/-!
# Properties C10-C14: compression, equality, conversion, number of dimensions
-/

namespace Kwk
open Spec

/-- **C10** (shape) Compression to order `n` gives order `n`, keeps the `n-1` innermost extents and
the number of elements. -/
theorem C10_compress_shape (n : Nat) (s : List Int) (h0 : 0 < n) (h : n ≤ s.length) :
    (compress n s).length = n ∧
    (compress n s).tail = s.drop (s.length - (n - 1)) ∧
    numel (compress n s) = numel s := by
  refine ⟨compress_length h0 h, ?_, ?_⟩
  · rw [compress_eq h0 h, List.tail_cons]; congr 1; omega
  · have : compress n s ≠ [] := by
      intro e; have := compress_length h0 h; rw [e] at this; simp at this; omega
    rw [numel_eq_prod this, numel_eq_prod (by rintro rfl; simp at h; omega), compress_prod h0 h]

example : compress 2 [2, 3, 4, 5] = [24, 5] ∧ compress 4 [2, 3, 4, 5] = [2, 3, 4, 5] := by decide

/-- **C10** (addressing) The element at `p` is found in the compressed shape at the position whose
first coordinate is the linear index of the merged coordinates: that position is valid and has the
same overall linear index.  `k` is the number of merged axes. -/
theorem C10_compress_addressing (md : Mode) (n k : Nat) (s p : List Int) (h0 : 0 < n)
    (hk : n + k = s.length + 1) (h : n ≤ s.length) (hp : InBox s p) (lead : Int)
    (hlead : linearIndex md (s.take k) (p.take k) = .ok lead) :
    InBox (compress n s) (lead :: p.drop k) ∧
    linearIndex md (compress n s) (lead :: p.drop k) = linearIndex md s p := by
  have e : k = s.length - n + 1 := by omega
  subst e
  rw [linearIndex_ok md (InBox_take hp _)] at hlead
  cases hlead
  have := lin_compress h0 h hp
  refine ⟨this.1, ?_⟩
  rw [linearIndex_ok md this.1, linearIndex_ok md hp, this.2]

example : InBox [2, 3, 4] [1, 2, 3] ∧ linearIndex .checked [2, 3] [1, 2] = .ok 5 ∧
    linearIndex .checked (compress 2 [2, 3, 4]) [5, 3] = .ok 23 := by decide

/-- **C11** Compressing in two steps is compressing once. -/
theorem C11_compress_compose (n k : Nat) (s : List Int) (h0 : 0 < k) (hk : k ≤ n)
    (hn : n ≤ s.length) : compress k (compress n s) = compress k s :=
  compress_compress h0 hk hn

example : compress 2 (compress 3 [2, 3, 4, 5]) = [24, 5] := by decide

/-! ## Equality

The full property ("`==` is an equivalence") is false: see `C12_shape_eq_not_transitive`. -/

/-- **C12** (reflexive). -/
theorem C12_shape_eq_refl (a : List Int) : shapeEq a a = true := by
  rw [shapeEq_iff]
  intro x hx
  simp only [min_self] at hx
  exact (zip_eq_iff (b := compress a.length a) rfl).2 rfl x hx

/-- **C12** (symmetric). -/
theorem C12_shape_eq_symm (a b : List Int) (ha : a ≠ []) (hb : b ≠ []) :
    shapeEq a b = shapeEq b a := by
  rw [Bool.eq_iff_iff, shapeEq_compress ha hb, shapeEq_compress hb ha, min_comm]
  exact eq_comm

example := C12_shape_eq_symm [1, 2, 3] [2, 3] (by decide) (by decide)

/-- **C12** (same order) On shapes of the same order equality is equality of all extents. -/
theorem C12_shape_eq_same_order (a b : List Int) (h : a.length = b.length) :
    shapeEq a b = true ↔ a = b := by
  rw [shapeEq_iff, ← h, min_self, compress_self]
  rw [show compress a.length b = b by rw [h, compress_self]]
  exact zip_eq_iff h

example : shapeEq [2, 3] [3, 2] = false := eq_false_of_ne_true (mt (C12_shape_eq_same_order [2, 3] [3, 2] rfl).1 (by decide))

/-- **C12** (numel) Equal shapes have the same number of elements. -/
theorem C12_shape_eq_numel (a b : List Int) (ha : a ≠ []) (hb : b ≠ []) (h : shapeEq a b = true) :
    numel a = numel b := by
  rw [shapeEq_compress ha hb] at h
  have la := List.length_pos_iff.2 ha
  have lb := List.length_pos_iff.2 hb
  rw [numel_eq_prod ha, numel_eq_prod hb,
    ← compress_prod (n := min a.length b.length) (s := a) (by omega) (by omega), h,
    compress_prod (by omega) (by omega)]

example := C12_shape_eq_numel [1, 2, 3] [2, 3] (by decide) (by decide) (by decide)

/-- **C12** (transitivity, partial) Transitivity holds when the order of the middle shape is not
smaller than the orders of both outer shapes.  Missing: the general case, which is false. -/
theorem C12_shape_eq_trans_partial (a b c : List Int) (ha : a ≠ []) (hb : b ≠ []) (hc : c ≠ [])
    (hord : min a.length c.length ≤ b.length)
    (hab : shapeEq a b = true) (hbc : shapeEq b c = true) : shapeEq a c = true := by
  rw [shapeEq_compress ha hb] at hab
  rw [shapeEq_compress hb hc] at hbc
  rw [shapeEq_compress ha hc]
  have la := List.length_pos_iff.2 ha
  have lb := List.length_pos_iff.2 hb
  have lc := List.length_pos_iff.2 hc
  have h0 : 0 < min a.length c.length := by omega
  have e1 := congrArg (compress (min a.length c.length)) hab
  have e2 := congrArg (compress (min a.length c.length)) hbc
  rw [compress_compress h0 (by omega) (by omega), compress_compress h0 (by omega) (by omega)] at e1
  rw [compress_compress h0 (by omega) (by omega), compress_compress h0 (by omega) (by omega)] at e2
  rw [e1, e2]

example : shapeEq [6, 4] [2, 3, 4] = true ∧ shapeEq [2, 3, 4] [24] = true ∧ shapeEq [6, 4] [24] = true := by
  decide

/-- **C12** (negation) The full property is false: `[2,3] == [6]` and `[6] == [3,2]` but
`[2,3] != [3,2]`. -/
theorem C12_shape_eq_not_transitive :
    ¬ ∀ a b c : List Int, shapeEq a b = true → shapeEq b c = true → shapeEq a c = true := by
  intro h
  exact absurd (h [2, 3] [6] [3, 2] (by decide) (by decide)) (by decide)

/-- **C12** The full property. -/
def C12_statement : Prop :=
  Equivalence (fun a b : {s : List Int // s ≠ []} => shapeEq a b = true) ∧
  (∀ a b : List Int, a ≠ [] → b ≠ [] → shapeEq a b = true → a.prod = b.prod) ∧
  (∀ a b : List Int, a.length = b.length → (shapeEq a b = true ↔ a = b))

theorem C12_statement_false : ¬ C12_statement := by
  rintro ⟨⟨_, _, h⟩, _⟩
  exact absurd (h (x := ⟨[2, 3], by decide⟩) (y := ⟨[6], by decide⟩) (z := ⟨[3, 2], by decide⟩) (by decide) (by decide))
    (by decide)

/-- Extents `1, ..., 1, x, y, 1, ..., 1` with `n` ones in front and `m` ones behind. -/
private def padded (n : Nat) (x y : Int) (m : Nat) : List Int :=
  List.replicate n 1 ++ x :: y :: List.replicate m 1

private theorem compress_padded (n m : Nat) (x y : Int) :
    compress (m + 1) (padded n x y m) = x * y :: List.replicate m 1 := by
  have hl : (padded n x y m).length = n + 2 + m := by simp [padded]; omega
  rw [compress_eq (by omega) (by omega), hl, show n + 2 + m - (m + 1) + 1 = n + 2 by omega]
  have e : padded n x y m = (List.replicate n 1 ++ [x, y]) ++ List.replicate m 1 := by simp [padded]
  rw [e, List.take_left' (by simp), List.drop_left' (by simp)]
  simp

/-- **C12** (orders, partial) Exactly which orders are safe: `a == b` and `b == c` give `a == c` for all shapes of
orders `i`, `j`, `k` with positive extents if and only if the middle order is at least the smaller outer one.
Missing: the other orders, where the property is false. -/
theorem C12_orders_exact_partial (i j k : Nat) (hi : 0 < i) (hj : 0 < j) (hk : 0 < k) :
    (∀ a b c : List Int, a.length = i → b.length = j → c.length = k →
      (∀ x ∈ a, 0 < x) → (∀ x ∈ b, 0 < x) → (∀ x ∈ c, 0 < x) →
      shapeEq a b = true → shapeEq b c = true → shapeEq a c = true) ↔ min i k ≤ j := by
  constructor
  · intro h
    by_contra hn
    obtain ⟨m, rfl⟩ : ∃ m, j = m + 1 := ⟨j - 1, by omega⟩
    obtain ⟨n, rfl⟩ : ∃ n, i = n + 2 + m := ⟨i - 2 - m, by omega⟩
    obtain ⟨l, rfl⟩ : ∃ l, k = l + 2 + m := ⟨k - 2 - m, by omega⟩
    have len : ∀ n x y, (padded n x y m).length = n + 2 + m := by intros; simp [padded]; omega
    have lb : ((6 : Int) :: List.replicate m 1).length = m + 1 := by simp
    have hb : ((6 : Int) :: List.replicate m 1) ≠ [] := by simp
    have hp : ∀ n x y, padded n x y m ≠ [] := by intros; simp [padded]
    have pos : ∀ n (x y : Int), 0 < x → 0 < y → ∀ z ∈ padded n x y m, 0 < z := by
      intro n x y hx hy z hz
      simp only [padded, List.mem_append, List.mem_cons, List.mem_replicate] at hz
      rcases hz with ⟨_, rfl⟩ | rfl | rfl | ⟨_, rfl⟩ <;> omega
    have e := h (padded n 2 3 m) (6 :: List.replicate m 1) (padded l 3 2 m) (len _ _ _) lb (len _ _ _)
      (pos _ _ _ (by omega) (by omega))
      (by intro z hz; simp only [List.mem_cons, List.mem_replicate] at hz; rcases hz with rfl | ⟨_, rfl⟩ <;> omega)
      (pos _ _ _ (by omega) (by omega))
      (by
        rw [shapeEq_compress (hp _ _ _) hb, len, lb, show min (n + 2 + m) (m + 1) = m + 1 by omega, compress_padded]
        conv_rhs => rw [← lb, compress_self]
        norm_num)
      (by
        rw [shapeEq_compress hb (hp _ _ _), len, lb, show min (m + 1) (l + 2 + m) = m + 1 by omega, compress_padded]
        conv_lhs => rw [← lb, compress_self]
        norm_num)
    rw [shapeEq_compress (hp _ _ _) (hp _ _ _), len, len] at e
    obtain ⟨r, hr, hn', hl'⟩ : ∃ r, min (n + 2 + m) (l + 2 + m) = r + 2 + m ∧ r ≤ n ∧ r ≤ l :=
      ⟨min n l, by omega, by omega, by omega⟩
    rw [hr, compress_eq (by omega) (by rw [len]; omega), compress_eq (by omega) (by rw [len]; omega), len, len] at e
    have e2 := congrArg (fun s => (s.drop 1).drop r) e
    simp only [List.drop_succ_cons, List.drop_drop] at e2
    rw [show n + 2 + m - (r + 2 + m) + 1 + r = n + 1 by omega,
      show l + 2 + m - (r + 2 + m) + 1 + r = l + 1 by omega] at e2
    have d : ∀ n (x y : Int), (padded n x y m).drop (n + 1) = y :: List.replicate m 1 := by
      intro n x y
      have : padded n x y m = (List.replicate n 1 ++ [x]) ++ (y :: List.replicate m 1) := by simp [padded]
      rw [this, List.drop_left' (by simp)]
    rw [d, d] at e2
    simp at e2
  · intro h a b c ha hb hc _ _ _
    exact C12_shape_eq_trans_partial a b c (by rintro rfl; simp at ha; omega) (by rintro rfl; simp at hb; omega)
      (by rintro rfl; simp at hc; omega) (by rw [ha, hb, hc]; exact h)

example : shapeEq [1, 2, 3] [6] = true ∧ shapeEq [6] [3, 2] = true ∧ shapeEq [1, 2, 3] [3, 2] = false := by decide

/-! ## Conversion -/

/-- **C13** (numel) Conversion to any order `≥ 1` has that order and keeps the number of elements. -/
theorem C13_convert_numel (n : Nat) (s : List Int) (hn : 0 < n) (hs : s ≠ []) :
    (convertShape n s).length = n ∧ numel (convertShape n s) = numel s := by
  have ls := List.length_pos_iff.2 hs
  unfold convertShape
  split
  · next h => exact ⟨h.symm, rfl⟩
  · split
    · refine ⟨by simp; omega, ?_⟩
      rw [numel_eq_prod (by simp; intro _; exact hs), numel_eq_prod hs]; simp
    · exact ⟨(C10_compress_shape n s hn (by omega)).1, (C10_compress_shape n s hn (by omega)).2.2⟩

example : numel (convertShape 2 [2, 3, 4]) = 24 := (C13_convert_numel 2 [2, 3, 4] (by decide) (by decide)).2

/-- **C13** (element order) The element of rank `k` in the original shape is the element of rank `k`
in the converted shape: every index of one is an index of the other, and both give it a position
with that linear index. -/
theorem C13_convert_order (md : Mode) (n : Nat) (s : List Int) (hn : 0 < n) (hs : s ≠ [])
    (hnn : NonNeg s) (k : Int) (h0 : 0 ≤ k) (hk : k < numel s) :
    ∃ p q, InBox s p ∧ InBox (convertShape n s) q ∧
      linearIndex md s p = .ok k ∧ linearIndex md (convertShape n s) q = .ok k := by
  obtain ⟨hl, hne⟩ := C13_convert_numel n s hn hs
  have hc : convertShape n s ≠ [] := by intro e; rw [e] at hl; simp at hl; omega
  have hcn : NonNeg (convertShape n s) := by
    unfold convertShape
    have ls := List.length_pos_iff.2 hs
    split
    · exact hnn
    · split
      · intro d hd
        rcases List.mem_append.1 hd with hd | hd
        · rw [List.eq_of_mem_replicate hd]; decide
        · exact hnn d hd
      · rw [compress_eq hn (by omega)]
        intro d hd
        rcases List.mem_cons.1 hd with rfl | hd
        · exact prod_nonneg' fun x hx => hnn x (List.mem_of_mem_take hx)
        · exact hnn d (List.mem_of_mem_drop hd)
  rw [numel_eq_prod hs] at hk hne
  rw [numel_eq_prod hc] at hne
  obtain ⟨p, hp, hpk⟩ := lin_surj hnn h0 hk
  obtain ⟨q, hq, hqk⟩ := lin_surj hcn h0 (hne ▸ hk)
  exact ⟨p, q, hp, hq, by rw [linearIndex_ok md hp, hpk], by rw [linearIndex_ok md hq, hqk]⟩

example := C13_convert_order .checked 2 [2, 3, 4] (by decide) (by decide) (by decide) 17 (by decide) (by decide)

/-- **C13** (axes) Growing puts ones in front; shrinking keeps the innermost extents. -/
theorem C13_convert_axes (n : Nat) (s : List Int) (hn : 0 < n) (hs : s ≠ []) :
    (s.length ≤ n → convertShape n s = List.replicate (n - s.length) 1 ++ s) ∧
    (n ≤ s.length → (convertShape n s).tail = s.drop (s.length - (n - 1))) := by
  have ls := List.length_pos_iff.2 hs
  unfold convertShape
  constructor
  · intro h
    split
    · next e => simp [e]
    · rw [if_pos (by omega)]
  · intro h
    split
    · next e => rw [e, show s.length - (s.length - 1) = 1 by omega]; simp
    · rw [if_neg (by omega)]
      exact (C10_compress_shape n s hn h).2.1

example : (convertShape 2 [2, 3, 4]).tail = [4] := (C13_convert_axes 2 [2, 3, 4] (by decide) (by decide)).2 (by decide)

/-- **C13** (round trip) Going to a higher order and back returns the original shape. -/
theorem C13_convert_round_trip (n : Nat) (s : List Int) (hs : s ≠ []) (hn : s.length ≤ n) :
    convertShape s.length (convertShape n s) = s := by
  have ls := List.length_pos_iff.2 hs
  rw [(C13_convert_axes n s (by omega) hs).1 hn]
  by_cases e : n = s.length
  · subst e; simp [convertShape]
  · have hl : (List.replicate (n - s.length) (1 : Int) ++ s).length = n := by simp; omega
    rw [convertShape, hl, if_neg (by omega), if_neg (by omega), compress_eq ls (by omega), hl]
    rw [List.take_append, List.drop_append]
    simp only [List.take_replicate, List.drop_replicate, List.length_replicate]
    rw [show n - s.length + 1 - (n - s.length) = 1 by omega,
      show n - s.length - (n - s.length + 1) = 0 by omega]
    cases s with
    | nil => exact absurd rfl hs
    | cons d ds => simp

example : convertShape 4 [5, 7] = [1, 1, 5, 7] ∧ convertShape 1 [2, 3, 4] = [24] ∧
    convertShape 2 (convertShape 4 [5, 7]) = [5, 7] := by decide

/-! ## Number of dimensions

Full property: `nbdims` is the number of extents different from `1`.  It is false:
`C14_nbdims_counts_inner_ones`. -/

/-- **C14** (partial) `nbdims` is the number of extents different from one when ones occur only in
front.  Missing: shapes with a `1` after a non-trivial extent, for which the claim is false. -/
theorem C14_nbdims_partial (k : Nat) (t : List Int) (ht : (1 : Int) ∉ t) :
    nbdims (List.replicate k 1 ++ t) = ((List.replicate k 1 ++ t).countP (· ≠ 1) : Nat) := by
  have h1 : ∀ (k : Nat), kumiLocate (List.replicate k 1 ++ t) (fun m : Int => m != 1) = k := by
    intro k
    induction k with
    | zero =>
      cases t with
      | nil => rfl
      | cons x xs =>
        have : x ≠ 1 := fun e => ht (by simp [e])
        simp [kumiLocate, List.findIdx_cons, bne_iff_ne.2 this]
    | succ k ih =>
      simp only [kumiLocate] at ih ⊢
      simp [List.replicate_succ, List.findIdx_cons, ih]
  have h2 : (List.replicate k 1 ++ t).countP (fun x : Int => decide (x ≠ 1)) = t.length := by
    rw [List.countP_append, List.countP_eq_zero.2, List.countP_eq_length.2]
    · omega
    · intro a ha; simp; rintro rfl; exact ht ha
    · intro a ha; rw [List.eq_of_mem_replicate ha]; simp
  rw [h2]
  unfold nbdims
  split
  · next e => simp at e; simp [e]
  · rw [h1]; simp

example : nbdims [1, 1, 2, 0, 3] = 3 := C14_nbdims_partial 2 [2, 0, 3] (by decide)

/-- **C14** (general value) In general `nbdims` is the order minus the number of leading ones, which
is an upper bound for the number of non-trivial dimensions. -/
theorem C14_nbdims_bounds (s : List Int) :
    nbdims s = ((s.dropWhile (· == 1)).length : Nat) ∧
    ((s.countP (· ≠ 1) : Nat) : Int) ≤ nbdims s ∧ nbdims s ≤ (s.length : Nat) := by
  have h1 : nbdims s = ((s.dropWhile (· == 1)).length : Nat) := by
    have : ∀ s : List Int, s.findIdx (fun m => m != 1) + (s.dropWhile (· == 1)).length = s.length := by
      intro s
      induction s with
      | nil => rfl
      | cons x xs ih =>
        by_cases hx : x = 1
        · subst hx; simp [List.findIdx_cons]; omega
        · simp [List.findIdx_cons, bne_iff_ne.2 hx, hx]
    unfold nbdims kumiLocate
    split
    · rfl
    · have := this s; omega
  refine ⟨h1, ?_, ?_⟩
  · rw [h1]
    have : s.countP (fun x : Int => decide (x ≠ 1)) = (s.dropWhile (· == 1)).countP (· ≠ 1) := by
      conv_lhs => rw [← List.takeWhile_append_dropWhile (p := (· == (1 : Int))) (l := s)]
      rw [List.countP_append, List.countP_eq_zero.2, Nat.zero_add]
      intro a ha
      have := List.mem_takeWhile_imp ha
      simpa using this
    rw [this]
    exact_mod_cast List.countP_le_length
  · rw [h1]; exact_mod_cast (List.dropWhile_sublist _).length_le

example : nbdims [1, 1, 3, 4] = 2 := by decide

/-- **C14** (negation) The full property is false: `[3,1,4]` has two non-trivial dimensions and
`nbdims` gives three. -/
theorem C14_nbdims_counts_inner_ones :
    ¬ ∀ s : List Int, nbdims s = ((s.countP (· ≠ 1) : Nat) : Int) := by
  intro h
  exact absurd (h [3, 1, 4]) (by decide)

/-- **C14** The full property. -/
def C14_statement : Prop := ∀ s : List Int, nbdims s = ((s.countP (· ≠ 1) : Nat) : Int)

theorem C14_statement_false : ¬ C14_statement := C14_nbdims_counts_inner_ones

end Kwk
