import Verif.Lemmas.Typed
import Verif.Lemmas.Witnesses
import Verif.Lemmas.Common
import Verif.Lemmas.Dot

/-!
# Properties C79 to C82: numeric algorithms on C++ integers

`t.Fits v`: the type `t` represents `v`.  `positions s` is the list of positions of `s` in row-major order; the partial
sums are `((positions s).map val).take k`.  Unless stated otherwise nothing is assumed of the types.
-/

namespace Kwk
open Spec

/-! ## C79: sums -/

/-- **C79** (partial) `reduce(c, plus, init)` with an accumulator of type `t` over elements of type `u` is the exact sum
when every partial sum fits in `t`.  The full statement, `reduce(c)` is the sum of the elements, is false:
the accumulator has the type of the elements, see `C79_reduce_narrow_wraps` and `C79_reduce_overflow`. -/
theorem C79_reduce_exact_partial (t u : IntType) (m : Mem Int) (c : Container) (val : List Int → Int) (init : Int)
    (h : Elems c m val) (hu : ∀ p, InBox c.shape p → u.Fits (val p))
    (hf : ∀ k ≤ (positions c.shape).length, t.Fits (init + (((positions c.shape).map val).take k).sum)) :
    reduceAddT t u m c init = .ok (init + ((positions c.shape).map val).sum) := by
  rw [reduceAddT_eq h]
  exact foldlM_sum val _ _ _ (fun p hp a ha hs => addTo_exact ha (hu p (mem_positions.1 hp)) hs) hf

example := C79_reduce_exact_partial .i64 .i8 exTwo exIn exInVal (-7) exIn_elems (ex_all (by decide)) (ex_upTo (by decide))

/-- **C79** (signed elements of rank `int` or more) `reduce(c)` is defined exactly when every partial sum fits in the
type of the elements, and then it is the sum. -/
theorem C79_reduce_signed (t : IntType) (hb : 32 ≤ t.bits) (hs : t.signed = true) (m : Mem Int) (c : Container)
    (val : List Int → Int) (h : Elems c m val) (ht : ∀ p, InBox c.shape p → t.Fits (val p)) :
    let fits := ∀ k ≤ (positions c.shape).length, t.Fits (((positions c.shape).map val).take k).sum
    (fits → reduceSumT t m c = .ok ((positions c.shape).map val).sum) ∧
    (¬ fits → reduceSumT t m c = .error .overflow) := by
  have h0 : t.Fits 0 := by
    have : (0 : Int) < 2 ^ t.bits / 2 := by
      have : (2 : Int) ^ 32 ≤ 2 ^ t.bits := pow_le_pow_right₀ (by decide) hb
      omega
    constructor
    · unfold IntType.lo; rw [if_pos hs]; omega
    · unfold IntType.hi; rw [if_pos hs]; omega
  have := foldlM_sum_checked val (fun a p => addTo t a ⟨t, val p⟩) (positions c.shape) 0 h0
    (fun p hp a ha => addTo_signed hb hs ha (ht p (mem_positions.1 hp)))
  simp only [zero_add] at this
  rw [reduceSumT, reduceAddT_eq h]
  rcases this with ⟨h1, h2⟩ | ⟨h1, h2⟩
  · exact ⟨fun _ => h2, fun hn => absurd h1 hn⟩
  · exact ⟨fun hp => absurd hp h1, fun _ => h2⟩

example := C79_reduce_signed .i32 (by decide) rfl exTwo exIn exInVal exIn_elems (ex_all (by decide))

/-- **C79** (narrow or unsigned elements) `reduce(c)` never fails and is the sum modulo `2^bits`, brought into the range
of the type of the elements. -/
theorem C79_reduce_modular (t : IntType) (hb : 0 < t.bits) (hs : (32 ≤ t.bits ∧ t.signed = false) ∨ t.bits ≤ 16) (m : Mem Int)
    (c : Container) (val : List Int → Int) (h : Elems c m val) (ht : ∀ p, InBox c.shape p → t.Fits (val p)) :
    ∃ r, reduceSumT t m c = .ok r ∧ t.Fits r ∧ r ≡ ((positions c.shape).map val).sum [ZMOD 2 ^ t.bits] := by
  have h0 : t.Fits 0 := by
    have : (0 : Int) < 2 ^ t.bits / 2 := by
      have : (2 : Int) ^ 1 ≤ 2 ^ t.bits := pow_le_pow_right₀ (by decide) hb
      omega
    have hp : (0 : Int) < 2 ^ t.bits := by positivity
    constructor
    · unfold IntType.lo; split <;> omega
    · unfold IntType.hi; split <;> omega
  have hc : (t.common t).signed = false ∨ (t.bits ≤ 16 ∧ t.bits ≤ 16) := by
    rcases hs with ⟨h32, hs⟩ | h16
    · left
      have hp : t.promote = t := by unfold IntType.promote; rw [if_neg (by omega)]
      unfold IntType.common
      rw [hp, if_neg (by omega), if_neg (by omega), Bool.and_self]
      exact hs
    · exact .inr ⟨h16, h16⟩
  refine ⟨t.wrap ((positions c.shape).map val).sum, ?_, t.wrap_mem hb _, IntType.wrap_mod _ _⟩
  have := foldlM_sum_wraps hb val (fun a p => addTo t a ⟨t, val p⟩) (positions c.shape) 0 h0
    (fun p hp a ha => addTo_wraps ha (ht p (mem_positions.1 hp)) hc)
  rw [zero_add] at this
  rw [reduceSumT, reduceAddT_eq h, this]

example := C79_reduce_modular .u8 (by decide) (.inr (by decide)) exTwo exIn exInVal exIn_elems (ex_all (by decide))

/-- **C79** (all types) What `reduce(c, plus, init)` does for an accumulator of any type `t` over elements of any type `u`, with
`w k` the sum of `init` and the first `k` elements brought into the range of `t`, and `c'` the type in which C++ adds a `t`
and a `u`: it is undefined exactly when `c'` is signed and one of the sums of a `w k` and the next element does not fit in it;
otherwise its result is the last `w k`. -/
theorem C79_reduce_all (t u c' : IntType) (hc : IsCommonType t u c') (hb : 0 < t.bits) (m : Mem Int) (c : Container)
    (val : List Int → Int) (init : Int) (h : Elems c m val) (hu : ∀ p, InBox c.shape p → u.Fits (val p)) (hi : t.Fits init)
    (w : Nat → Int)
    (hw : ∀ k, t.Fits (w k) ∧ w k ≡ init + (((positions c.shape).map val).take k).sum [ZMOD 2 ^ t.bits]) :
    let defined := c'.signed = true → ∀ (k : Nat) p, (positions c.shape)[k]? = some p → c'.Fits (w k + val p)
    (defined → reduceAddT t u m c init = .ok (w (positions c.shape).length)) ∧
    (¬ defined → reduceAddT t u m c init = .error .overflow) := by
  intro defined
  have ew : ∀ k, w k = t.wrap (init + (((positions c.shape).map val).take k).sum) := fun k => by
    rw [← IntType.wrap_fits (hw k).1]
    exact IntType.wrap_congr (hw k).2
  obtain ⟨h1, h2⟩ := foldlM_sum_all hb val (fun a p => c'.signed = true → c'.Fits (a + val p))
    (fun a p => addTo t a ⟨u, val p⟩) (positions c.shape) init hi
    (fun p hp a ha => addTo_all hc ha (hu p (mem_positions.1 hp)))
  rw [reduceAddT_eq h]
  constructor
  · intro hd
    rw [h1 fun k p hk hs => by rw [← ew]; exact hd hs k p hk, ew, List.take_of_length_le (by simp)]
  · intro hd
    exact h2 fun hg => hd fun hs k p hk => by rw [ew]; exact hg k p hk hs

/-- A `short` accumulator over `int` elements: the sums are computed in `int` and cut to `short`, so that 40000 and 7
give -25529; one more than the largest `int` is undefined. -/
example : IsCommonType .i16 .i32 .i32 ∧
    reduceAddT .i16 .i32 (oneBlock 0 [40000, 7]) (Container.ofShape ⟨0, 0⟩ [2]) 0 = .ok (-25529) ∧
    reduceAddT .i16 .i32 (oneBlock 0 [1, 2147483647]) (Container.ofShape ⟨0, 0⟩ [2]) 0 = .error .overflow ∧
    reduceAddT .i16 .i32 (oneBlock 0 [65536, 2147483647]) (Container.ofShape ⟨0, 0⟩ [2]) 0 = .ok (-1) := by decide

/-- **C79** (negation) Two signed bytes equal to 100 sum to -56. -/
theorem C79_reduce_narrow_wraps :
    reduceSumT .i8 (oneBlock 0 [100, 100]) (Container.ofShape ⟨0, 0⟩ [2]) = .ok (-56) := by decide

/-- **C79** (negation) The sum of the largest `int` and 1 is undefined, even when a later element brings it back. -/
theorem C79_reduce_overflow :
    reduceSumT .i32 (oneBlock 0 [2147483647, 1, -5]) (Container.ofShape ⟨0, 0⟩ [3]) = .error .overflow := by decide

/-- **C79** The full property. -/
def C79_statement : Prop :=
  ∀ (t u : IntType) (m : Mem Int) (c : Container) (val : List Int → Int) (init : Int), 0 < t.bits → 0 < u.bits →
    Elems c m val → (∀ p, InBox c.shape p → u.Fits (val p)) → t.Fits init →
    reduceAddT t u m c init = .ok (init + ((positions c.shape).map val).sum) ∧
    reduceSumT u m c = .ok ((positions c.shape).map val).sum

theorem C79_statement_false : ¬ C79_statement := by
  intro h
  have := (h .i8 .i8 (oneBlock 0 [100, 100]) (.ofShape ⟨0, 0⟩ [2]) (fun _ => 100) 0 (by decide) (by decide)
    (by
      intro p hp
      match p, hp with
      | [i], hp =>
        have : i = 0 ∨ i = 1 := by have := (inBox_cons.1 hp).1; omega
        rcases this with rfl | rfl <;> decide) (fun _ _ => by decide) (by decide)).2
  rw [C79_reduce_narrow_wraps] at this
  exact absurd this (by decide)

/-- With an accumulator of 64 bits the same sums are exact. -/
example : reduceAddT .i64 .i8 (oneBlock 0 [100, 100]) (Container.ofShape ⟨0, 0⟩ [2]) 0 = .ok 200 ∧
    reduceAddT .i64 .i32 (oneBlock 0 [2147483647, 1, -5]) (Container.ofShape ⟨0, 0⟩ [3]) 0 = .ok 2147483643 ∧
    reduceSumT .u32 (oneBlock 0 [4294967295, 3]) (Container.ofShape ⟨0, 0⟩ [2]) = .ok 2 := by decide

/-! ## C80: dot products -/

/-- **C80** (partial) `transform_reduce(a, b)` and `inner_product(a, b)` are the exact dot product when every product
and every partial sum fits in the type `c` in which C++ computes with the elements.  The full
statement, without the two conditions, is false: see `C80_dot_overflow`. -/
theorem C80_dot_exact_partial (md : Mode) (t1 t2 : IntType) (m : Mem Int) (c1 c2 : Container)
    (v1 v2 : List Int → Int) (hshape : c1.shape = c2.shape) (h1 : Elems c1 m v1) (h2 : Elems c2 m v2)
    (hf1 : ∀ p, InBox c1.shape p → t1.Fits (v1 p)) (hf2 : ∀ p, InBox c1.shape p → t2.Fits (v2 p))
    (c : IntType) (hc : IsCommonType t1 t2 c) (hp : ∀ p, InBox c1.shape p → c.Fits (v1 p * v2 p))
    (hs : ∀ k ≤ (positions c1.shape).length,
      c.Fits (((positions c1.shape).map fun p => v1 p * v2 p).take k).sum) :
    transformReduceT t1 t2 m c1 c2 = .ok ((positions c1.shape).map fun p => v1 p * v2 p).sum ∧
    innerProductT md t1 t2 m c1 c2 = .ok ((positions c1.shape).map fun p => v1 p * v2 p).sum := by
  obtain rfl := isCommon_eq hc
  rw [← dotType_eq] at hs
  have key : transformReduceT t1 t2 m c1 c2 = .ok ((positions c1.shape).map fun p => v1 p * v2 p).sum := by
    rw [transformReduceT_eq h1 (fun p hb => h2 p (by rwa [← hshape]))]
    have := foldlM_sum (t := dotType t1 t2) (fun p => v1 p * v2 p) (fun a p => dotStep t1 t2 a (v1 p) (v2 p))
      (positions c1.shape) 0 (fun p hb a ha hs => dotStep_exact (hf1 p (mem_positions.1 hb))
        (hf2 p (mem_positions.1 hb)) (hp p (mem_positions.1 hb)) ha hs) (by simpa using hs)
    simpa using this
  refine ⟨key, ?_⟩
  unfold innerProductT innerProductInitT
  have hsame : shapeEq c1.shape c2.shape = true := by
    rw [hshape, shapeEq_iff, min_self, compress_self, zip_eq_iff rfl]
  rw [hsame]
  cases md <;> exact key

example := C80_dot_exact_partial .checked .i16 .u8 exTwo exIn exIn exInVal exInVal rfl exIn_elems exIn_elems (ex_all (by decide))
  (ex_all (by decide)) .i32 (by decide) (ex_all (by decide)) (ex_upTo (by decide))

/-- **C80** (signed) When C++ computes with the elements in a signed type `c`, the dot product is defined exactly when
every product and every partial sum fits in `c`, and then it is exact; otherwise the program overflows. -/
theorem C80_dot_signed (md : Mode) (t1 t2 : IntType) (m : Mem Int) (c1 c2 : Container)
    (v1 v2 : List Int → Int) (hshape : c1.shape = c2.shape) (h1 : Elems c1 m v1) (h2 : Elems c2 m v2)
    (hf1 : ∀ p, InBox c1.shape p → t1.Fits (v1 p)) (hf2 : ∀ p, InBox c1.shape p → t2.Fits (v2 p))
    (c : IntType) (hc : IsCommonType t1 t2 c) (hsg : c.signed = true) :
    let products := (positions c1.shape).map fun p => v1 p * v2 p
    let fits := (∀ x ∈ products, c.Fits x) ∧ ∀ k ≤ products.length, c.Fits (products.take k).sum
    (fits → transformReduceT t1 t2 m c1 c2 = .ok products.sum ∧ innerProductT md t1 t2 m c1 c2 = .ok products.sum) ∧
    (¬ fits → transformReduceT t1 t2 m c1 c2 = .error .overflow ∧ innerProductT md t1 t2 m c1 c2 = .error .overflow) := by
  intro products fits
  constructor
  · intro h
    refine C80_dot_exact_partial md t1 t2 m c1 c2 v1 v2 hshape h1 h2 hf1 hf2 c hc
      (fun p hp => h.1 _ (List.mem_map_of_mem (mem_positions.2 hp))) (fun k hk => h.2 k (by simpa [products] using hk))
  · intro h
    have key : transformReduceT t1 t2 m c1 c2 = .error .overflow := by
      rw [transformReduceT_eq h1 (fun p hb => h2 p (by rwa [← hshape]))]
      have e := isCommon_eq hc
      have h0 : c.Fits 0 := by
        have hb : (2 : Int) ^ 32 ≤ 2 ^ c.bits := pow_le_pow_right₀ (by decide) (by have := hc.1; omega)
        constructor
        · unfold IntType.lo; rw [if_pos hsg]; omega
        · unfold IntType.hi; rw [if_pos hsg]; omega
      refine foldlM_dot_overflow (t := c) (fun p => v1 p * v2 p) _ _ 0 h0 (fun p hp a ha => ?_) fun hn => h ⟨?_, ?_⟩
      · subst e
        exact dotStep_signed hsg (hf1 p (mem_positions.1 hp)) (hf2 p (mem_positions.1 hp)) ha
      · intro x hx
        obtain ⟨p, hp, rfl⟩ := List.mem_map.1 hx
        exact hn.1 p hp
      · intro k hk
        simpa using hn.2 k (by simpa [products] using hk)
    refine ⟨key, ?_⟩
    unfold innerProductT innerProductInitT
    have hsame : shapeEq c1.shape c2.shape = true := by
      rw [hshape, shapeEq_iff, min_self, compress_self, zip_eq_iff rfl]
    rw [hsame]
    cases md <;> exact key

example := C80_dot_signed .checked .i64 .u32 exTwo exIn exOut exInVal (fun _ => 0) rfl exIn_elems exOut_elems (ex_all (by decide))
  (ex_all (by decide)) .i64 (by decide) rfl

/-- **C80** (unsigned) When C++ computes with the elements in an unsigned type `c`, the dot product is defined, and is the
exact one modulo `2^bits`, brought into the range of `c`; the elements themselves may be negative. -/
theorem C80_dot_modular (md : Mode) (t1 t2 : IntType) (m : Mem Int) (c1 c2 : Container)
    (v1 v2 : List Int → Int) (hshape : c1.shape = c2.shape) (h1 : Elems c1 m v1) (h2 : Elems c2 m v2)
    (c : IntType) (hc : IsCommonType t1 t2 c) (hsg : c.signed = false) :
    ∃ r, transformReduceT t1 t2 m c1 c2 = .ok r ∧ innerProductT md t1 t2 m c1 c2 = .ok r ∧ c.Fits r ∧
      r ≡ ((positions c1.shape).map fun p => v1 p * v2 p).sum [ZMOD 2 ^ c.bits] := by
  have hpos : 0 < c.bits := by have := hc.1; omega
  have e := isCommon_eq hc
  have h0 : c.Fits 0 := by
    have hb : (0 : Int) < 2 ^ c.bits := by positivity
    constructor
    · unfold IntType.lo; simp [hsg]
    · unfold IntType.hi; simp [hsg]
  have key := foldlM_sum_wraps hpos (fun p => v1 p * v2 p) (fun a p => dotStep t1 t2 a (v1 p) (v2 p)) (positions c1.shape) 0 h0
    (fun p hp a ha => by subst e; exact dotStep_wraps hsg ha)
  rw [zero_add, ← transformReduceT_eq h1 (fun p hb => h2 p (by rwa [← hshape]))] at key
  refine ⟨_, key, ?_, c.wrap_mem hpos _, IntType.wrap_mod _ _⟩
  unfold innerProductT innerProductInitT
  have hsame : shapeEq c1.shape c2.shape = true := by
    rw [hshape, shapeEq_iff, min_self, compress_self, zip_eq_iff rfl]
  rw [hsame]
  cases md <;> exact key

example : IsCommonType .i32 .u32 .u32 ∧ IsCommonType .i16 .u16 .i32 ∧
    transformReduceT .i32 .u32 (oneBlock 0 [-3, 5, 4, 2]) (Container.ofShape ⟨0, 0⟩ [2]) (Container.ofShape ⟨0, 2⟩ [2]) =
      .ok (2 ^ 32 - 2) := by decide

/-- **C80** (initial values, all types) What `transform_reduce(a, b, init)` and `inner_product(a, b, init)` do for elements of any
types `t1` and `t2` and an initial value of any type `t`.  Let `c12` be the type in which C++ multiplies the elements, `q p` the
product at `p` brought into its range, `c` the type in which C++ adds a `t` and a `c12`, and `w k` the sum of `init` and the
first `k` products `q p`, brought into the range of `t`.  Both are undefined exactly when a product overflows the signed type
`c12` or a sum of a `w k` and the next product overflows the signed type `c`; otherwise the result is the last `w k`. -/
theorem C80_dot_init_all (md : Mode) (t t1 t2 c12 c : IntType) (h12 : IsCommonType t1 t2 c12) (hc : IsCommonType t c12 c)
    (hb : 0 < t.bits) (m : Mem Int) (c1 c2 : Container) (v1 v2 : List Int → Int) (init : Int) (hi : t.Fits init)
    (hshape : c1.shape = c2.shape) (h1 : Elems c1 m v1) (h2 : Elems c2 m v2)
    (hf1 : ∀ p, InBox c1.shape p → t1.Fits (v1 p)) (hf2 : ∀ p, InBox c1.shape p → t2.Fits (v2 p)) (q : List Int → Int)
    (hq : ∀ p, InBox c1.shape p → c12.Fits (q p) ∧ q p ≡ v1 p * v2 p [ZMOD 2 ^ c12.bits]) (w : Nat → Int)
    (hw : ∀ k, t.Fits (w k) ∧ w k ≡ init + (((positions c1.shape).map q).take k).sum [ZMOD 2 ^ t.bits]) :
    let defined := (c12.signed = true → ∀ p, InBox c1.shape p → c12.Fits (v1 p * v2 p)) ∧
      (c.signed = true → ∀ (k : Nat) p, (positions c1.shape)[k]? = some p → c.Fits (w k + q p))
    (defined → transformReduceInitT t t1 t2 m c1 c2 init = .ok (w (positions c1.shape).length) ∧
      innerProductInitT md t t1 t2 m c1 c2 init = .ok (w (positions c1.shape).length)) ∧
    (¬ defined → transformReduceInitT t t1 t2 m c1 c2 init = .error .overflow ∧
      innerProductInitT md t t1 t2 m c1 c2 init = .error .overflow) := by
  intro defined
  have ew : ∀ k, w k = t.wrap (init + (((positions c1.shape).map q).take k).sum) := fun k => by
    rw [← IntType.wrap_fits (hw k).1]
    exact IntType.wrap_congr (hw k).2
  obtain ⟨k1, k2⟩ := foldlM_sum_all hb q
    (fun a p => (c12.signed = true → c12.Fits (v1 p * v2 p)) ∧ (c.signed = true → c.Fits (a + q p)))
    (fun a p => dotStepTo t t1 t2 a (v1 p) (v2 p)) (positions c1.shape) init hi
    (fun p hp a ha => dotStepTo_all h12 hc ha (hf1 p (mem_positions.1 hp)) (hf2 p (mem_positions.1 hp))
      (hq p (mem_positions.1 hp)).1 (hq p (mem_positions.1 hp)).2)
  have hip : ∀ r, transformReduceInitT t t1 t2 m c1 c2 init = r → innerProductInitT md t t1 t2 m c1 c2 init = r := fun r h => by
    have hsame : shapeEq c1.shape c2.shape = true := by
      rw [hshape, shapeEq_iff, min_self, compress_self, zip_eq_iff rfl]
    unfold innerProductInitT
    rw [hsame]
    cases md <;> exact h
  constructor
  · intro hd
    have : transformReduceInitT t t1 t2 m c1 c2 init = .ok (w (positions c1.shape).length) := by
      rw [transformReduceInitT_eq h1 (fun p hb => h2 p (by rwa [← hshape])), k1, ew, List.take_of_length_le (by simp)]
      intro k p hk
      refine ⟨fun hs => hd.1 hs p (mem_positions.1 (List.mem_of_getElem? hk)), fun hs => ?_⟩
      rw [← ew]
      exact hd.2 hs k p hk
    exact ⟨this, hip _ this⟩
  · intro hd
    have : transformReduceInitT t t1 t2 m c1 c2 init = .error .overflow := by
      rw [transformReduceInitT_eq h1 (fun p hb => h2 p (by rwa [← hshape])), k2]
      refine fun hg => hd ⟨fun hs p hp => ?_, fun hs k p hk => ?_⟩
      · obtain ⟨k, hk⟩ := List.getElem?_of_mem (mem_positions.2 hp)
        exact (hg k p hk).1 hs
      · rw [ew]
        exact (hg k p hk).2 hs
    exact ⟨this, hip _ this⟩

/-- Products of `unsigned` wrap before they are added to a `long`; bytes are added to a byte. -/
example : transformReduceInitT .i64 .u32 .u32 (oneBlock 0 [65536, 3]) (Container.ofShape ⟨0, 0⟩ [2])
      (Container.ofShape ⟨0, 0⟩ [2]) (-10) = .ok (-1) ∧
    innerProductInitT .checked .i8 .i8 .i8 (oneBlock 0 [10, 10]) (Container.ofShape ⟨0, 0⟩ [2])
      (Container.ofShape ⟨0, 0⟩ [2]) 0 = .ok (-56) ∧
    transformReduceInitT .i64 .u16 .u16 (oneBlock 0 [65535]) (Container.ofShape ⟨0, 0⟩ [1])
      (Container.ofShape ⟨0, 0⟩ [1]) 0 = .error .overflow := by decide

/-- **C80** (bytes) On elements of at most 8 bits, signed or not, and at most 33025 of them, the dot product is exact. -/
theorem C80_dot_bytes (md : Mode) (t1 t2 : IntType) (hb1 : t1.bits ≤ 8) (hb2 : t2.bits ≤ 8) (m : Mem Int)
    (c1 c2 : Container) (v1 v2 : List Int → Int) (hshape : c1.shape = c2.shape) (h1 : Elems c1 m v1)
    (h2 : Elems c2 m v2) (hf1 : ∀ p, InBox c1.shape p → t1.Fits (v1 p)) (hf2 : ∀ p, InBox c1.shape p → t2.Fits (v2 p))
    (hn : (positions c1.shape).length ≤ 33025) :
    transformReduceT t1 t2 m c1 c2 = .ok ((positions c1.shape).map fun p => v1 p * v2 p).sum ∧
    innerProductT md t1 t2 m c1 c2 = .ok ((positions c1.shape).map fun p => v1 p * v2 p).sum := by
  have hc : t1.common t2 = .i32 := IntType.common_narrow (by omega) (by omega)
  have hl : IntType.i32.lo = -2147483648 := by decide
  have hh : IntType.i32.hi = 2147483648 := by decide
  have byte : ∀ {t : IntType} {v : Int}, t.bits ≤ 8 → t.Fits v → |v| ≤ 255 := by
    intro t v hb hv
    have hp : (2 : Int) ^ t.bits ≤ 2 ^ 8 := pow_le_pow_right₀ (by decide) hb
    obtain ⟨a, b⟩ := hv
    unfold IntType.lo at a
    unfold IntType.hi at b
    rw [abs_le]
    constructor
    · split at a <;> omega
    · split at b <;> omega
  have prod : ∀ p, InBox c1.shape p → |v1 p * v2 p| ≤ 65025 := fun p hp => by
    rw [abs_mul]
    exact (mul_le_mul (byte hb1 (hf1 p hp)) (byte hb2 (hf2 p hp)) (abs_nonneg _) (by decide)).trans (by decide)
  have sums : ∀ l : List Int, (∀ x ∈ l, |x| ≤ 65025) → |l.sum| ≤ l.length * 65025 := by
    intro l hl
    induction l with
    | nil => simp
    | cons x l ih =>
      rw [List.sum_cons, List.length_cons]
      have := ih fun y hy => hl y (by simp [hy])
      have := hl x (by simp)
      have := abs_add_le x l.sum
      push_cast
      linarith
  apply C80_dot_exact_partial md t1 t2 m c1 c2 v1 v2 hshape h1 h2 hf1 hf2 .i32
    (hc ▸ IntType.common_isCommon t1 t2)
  · intro p hp
    have := abs_le.1 (prod p hp)
    exact ⟨by omega, by omega⟩
  · intro k hk
    have hle := sums (((positions c1.shape).map fun p => v1 p * v2 p).take k) (by
      intro x hx
      obtain ⟨p, hp, rfl⟩ := List.mem_map.1 (List.mem_of_mem_take hx)
      exact prod p (mem_positions.1 hp))
    rw [List.length_take, List.length_map, min_eq_left hk] at hle
    have := abs_le.1 hle
    exact ⟨by omega, by omega⟩

example := C80_dot_bytes .unchecked .i8 .u8 (by decide) (by decide) exTwo exIn exIn exInVal exInVal rfl exIn_elems exIn_elems
  (ex_all (by decide)) (ex_all (by decide)) (by decide)

/-- **C80** (negation) The dot product of two tables with the single `uint16_t` 65535 is undefined: the product is
computed in `int`.  With `int` elements, `unsigned` arithmetic for mixed signs: the product of -1 and 1u is
4294967295. -/
theorem C80_dot_overflow :
    transformReduceT .u16 .u16 (oneBlock 0 [65535]) (Container.ofShape ⟨0, 0⟩ [1]) (Container.ofShape ⟨0, 0⟩ [1]) =
      .error .overflow ∧
    transformReduceT .i32 .u32 (oneBlock 0 [-1, 1]) (Container.ofShape ⟨0, 0⟩ [1]) (Container.ofShape ⟨0, 1⟩ [1]) =
      .ok 4294967295 := by decide

/-- **C80** The full property. -/
def C80_statement : Prop :=
  ∀ (md : Mode) (t t1 t2 : IntType) (m : Mem Int) (c1 c2 : Container) (v1 v2 : List Int → Int) (init : Int),
    0 < t.bits → 0 < t1.bits → 0 < t2.bits → c1.shape = c2.shape → Elems c1 m v1 → Elems c2 m v2 →
    (∀ p, InBox c1.shape p → t1.Fits (v1 p)) → (∀ p, InBox c1.shape p → t2.Fits (v2 p)) → t.Fits init →
    let dot := ((positions c1.shape).map fun p => v1 p * v2 p).sum
    transformReduceT t1 t2 m c1 c2 = .ok dot ∧ innerProductT md t1 t2 m c1 c2 = .ok dot ∧
    transformReduceInitT t t1 t2 m c1 c2 init = .ok (init + dot) ∧
    innerProductInitT md t t1 t2 m c1 c2 init = .ok (init + dot)

theorem C80_statement_false : ¬ C80_statement := by
  intro h
  have he : Elems (.ofShape ⟨0, 0⟩ [1]) (oneBlock 0 [65535]) (fun _ => (65535 : Int)) := by
    intro p hp
    match p, hp with
    | [i], hp =>
      have : i = 0 := by have := (inBox_cons.1 hp).1; omega
      subst this; decide
  have := (h .checked .i32 .u16 .u16 (oneBlock 0 [65535]) (.ofShape ⟨0, 0⟩ [1]) (.ofShape ⟨0, 0⟩ [1]) _ _ 0 (by decide)
    (by decide) (by decide) rfl he he (fun _ _ => by decide) (fun _ _ => by decide) (by decide)).1
  rw [C80_dot_overflow.1] at this
  cases this

example : transformReduceT .i8 .u8 (oneBlock 0 [-100, 100, 255, 200]) (Container.ofShape ⟨0, 0⟩ [2])
    (Container.ofShape ⟨0, 2⟩ [2]) = .ok (-5500) ∧
    innerProductT .checked .i8 .u8 (oneBlock 0 [-100, 100, 255, 200]) (Container.ofShape ⟨0, 0⟩ [2])
    (Container.ofShape ⟨0, 2⟩ [2]) = .ok (-5500) := by decide

/-! ## C81: iota -/

/-- **C81** (partial) `iota(out, value)` with `value` of type `t` and elements of type `u` writes `value + k` into the
`k`-th element in row-major order (converted to `u`), when `value`, …, `value + n` fit in `t`; nothing else
changes.  The full statement, with `value + n - 1` in place of `value + n`, is false: see
`C81_iota_last_overflow`. -/
theorem C81_iota_exact_partial (t u : IntType) (m : Mem Int) (c : Container) (value : Int) (hd : Distinct c)
    (hv : Valid c m) (hf : ∀ k : Nat, k ≤ (positions c.shape).length → t.Fits (value + k)) :
    ∃ m', iotaT t u m c value = .ok m' ∧
      (∀ (k : Nat) p, (positions c.shape)[k]? = some p → c.get m' p = .ok (u.wrap (value + k))) ∧
      SameOutside c m m' := by
  obtain ⟨vs, hr, hlen, hk⟩ := drawAll_sum (t := t) (fun _ => 1) (fun s _ => u.wrap s)
    (fun s (_ : List Int) => t.incr s) (positions c.shape) value (fun p _ a _ hs => IntType.incr_exact hs) (by
      intro k hk
      rw [iota_sum _ _ _ hk, mul_one]
      exact hf k hk)
  obtain ⟨m', h1, h2, h3⟩ := run_draw hd hv _
    (fun is (sm : Int × Mem Int) => do
      let next ← t.incr sm.1
      let m ← store sm.2 (c.addr is) (u.wrap sm.1)
      pure (next, m)) value _ vs (fun p _ s m1 _ _ => by simp) hr
  refine ⟨m', ?_, ?_, h3⟩
  · unfold iotaT mapCtx
    simp only
    rw [h1]; rfl
  · intro k p hp
    have hlt : k < (positions c.shape).length := (List.getElem?_eq_some_iff.1 hp).1
    rw [get_ok_iff, h2 k p hp, hk k hlt, iota_sum _ _ _ (le_of_lt hlt), mul_one]

example := C81_iota_exact_partial .i32 .u8 exTwo exOut 254 exOut_distinct exOut_valid (ex_upTo (by decide))

/-- **C81** (with a step, partial) `iota(out, value, step)` writes `value + k * step`, when `value`, …, `value + n * step`
fit in the type of `value`. -/
theorem C81_iota_step_exact_partial (t u : IntType) (m : Mem Int) (c : Container) (value : Int) (step : Coord)
    (hd : Distinct c) (hv : Valid c m) (hst : step.type.Fits step.value)
    (hf : ∀ k : Nat, k ≤ (positions c.shape).length → t.Fits (value + k * step.value)) :
    ∃ m', iotaStepT t u m c value step = .ok m' ∧
      (∀ (k : Nat) p, (positions c.shape)[k]? = some p → c.get m' p = .ok (u.wrap (value + k * step.value))) ∧
      SameOutside c m m' := by
  obtain ⟨vs, hr, hlen, hk⟩ := drawAll_sum (t := t) (fun _ => step.value) (fun s _ => u.wrap s)
    (fun s (_ : List Int) => addTo t s step) (positions c.shape) value (fun p _ a ha hs => addTo_exact ha hst hs) (by
      intro k hk
      rw [iota_sum _ _ _ hk]
      exact hf k hk)
  obtain ⟨m', h1, h2, h3⟩ := run_draw hd hv _
    (fun is (sm : Int × Mem Int) => do
      let m ← store sm.2 (c.addr is) (u.wrap sm.1)
      let next ← addTo t sm.1 step
      pure (next, m)) value _ vs (fun p _ s m1 _ hsome => by
        rw [store_ok hsome]
        simp only [bind_assoc, pure_bind, store_ok hsome]
        rfl) hr
  refine ⟨m', ?_, ?_, h3⟩
  · unfold iotaStepT mapCtx
    simp only
    rw [h1]; rfl
  · intro k p hp
    have hlt : k < (positions c.shape).length := (List.getElem?_eq_some_iff.1 hp).1
    rw [get_ok_iff, h2 k p hp, hk k hlt, iota_sum _ _ _ (le_of_lt hlt)]

example := C81_iota_step_exact_partial .i32 .u8 exTwo exOut 7 ⟨.i8, -3⟩ exOut_distinct exOut_valid (by decide) (ex_upTo (by decide))

/-- **C81** (narrow or unsigned values) `iota` never fails; the `k`-th element is `value + k` modulo the size of the type
of `value`, converted to the type of the elements. -/
theorem C81_iota_modular (t u : IntType) (hb : 0 < t.bits) (hs : t.signed = false ∨ t.bits < 32) (m : Mem Int)
    (c : Container) (value : Int) (hval : t.Fits value) (hd : Distinct c) (hv : Valid c m) :
    ∃ m', iotaT t u m c value = .ok m' ∧
      (∀ (k : Nat) p, (positions c.shape)[k]? = some p → ∃ w, t.Fits w ∧ w ≡ value + k [ZMOD 2 ^ t.bits] ∧
        c.get m' p = .ok (u.wrap w)) ∧
      SameOutside c m m' := by
  obtain ⟨vs, hr, hlen, hk⟩ := drawAll_sum_wraps hb (fun _ => 1) (fun s _ => u.wrap s)
    (fun s (_ : List Int) => t.incr s) (positions c.shape) value hval (fun p _ a _ => IntType.incr_wraps hs a)
  obtain ⟨m', h1, h2, h3⟩ := run_draw hd hv _
    (fun is (sm : Int × Mem Int) => do
      let next ← t.incr sm.1
      let m ← store sm.2 (c.addr is) (u.wrap sm.1)
      pure (next, m)) value _ vs (fun p _ s m1 _ _ => by simp) hr
  refine ⟨m', ?_, ?_, h3⟩
  · unfold iotaT mapCtx
    simp only
    rw [h1]; rfl
  · intro k p hp
    have hlt : k < (positions c.shape).length := (List.getElem?_eq_some_iff.1 hp).1
    refine ⟨t.wrap (value + k), t.wrap_mem hb _, IntType.wrap_mod _ _, ?_⟩
    rw [get_ok_iff, h2 k p hp, hk k hlt, iota_sum _ _ _ (le_of_lt hlt), mul_one]

example := C81_iota_modular .u8 .i32 (by decide) (.inl rfl) exTwo exOut 254 (by decide) exOut_distinct exOut_valid

/-- **C81** (with a step, narrow or unsigned values) When `value` and `step` are added in an unsigned type, or both are narrow,
`iota` with a step never fails; the `k`-th element is `value + k * step` modulo the size of the type of `value`. -/
theorem C81_iota_step_modular (t u : IntType) (hb : 0 < t.bits) (m : Mem Int) (c : Container) (value : Int) (step : Coord)
    (hs : (∃ c, IsCommonType t step.type c ∧ c.signed = false) ∨ (t.bits ≤ 16 ∧ step.type.bits ≤ 16))
    (hst : step.type.Fits step.value) (hval : t.Fits value) (hd : Distinct c) (hv : Valid c m) :
    ∃ m', iotaStepT t u m c value step = .ok m' ∧
      (∀ (k : Nat) p, (positions c.shape)[k]? = some p → ∃ w, t.Fits w ∧ w ≡ value + k * step.value [ZMOD 2 ^ t.bits] ∧
        c.get m' p = .ok (u.wrap w)) ∧
      SameOutside c m m' := by
  have hs' : (t.common step.type).signed = false ∨ (t.bits ≤ 16 ∧ step.type.bits ≤ 16) := by
    rcases hs with ⟨c', hc, h⟩ | h
    · exact .inl (by rw [← isCommon_eq hc]; exact h)
    · exact .inr h
  obtain ⟨vs, hr, hlen, hk⟩ := drawAll_sum_wraps hb (fun _ => step.value) (fun s _ => u.wrap s)
    (fun s (_ : List Int) => addTo t s step) (positions c.shape) value hval (fun p _ a ha => addTo_wraps ha hst hs')
  obtain ⟨m', h1, h2, h3⟩ := run_draw hd hv _
    (fun is (sm : Int × Mem Int) => do
      let m ← store sm.2 (c.addr is) (u.wrap sm.1)
      let next ← addTo t sm.1 step
      pure (next, m)) value _ vs (fun p _ s m1 _ hsome => by
        rw [store_ok hsome]
        simp only [bind_assoc, pure_bind, store_ok hsome]
        rfl) hr
  refine ⟨m', ?_, ?_, h3⟩
  · unfold iotaStepT mapCtx
    simp only
    rw [h1]; rfl
  · intro k p hp
    have hlt : k < (positions c.shape).length := (List.getElem?_eq_some_iff.1 hp).1
    refine ⟨t.wrap (value + k * step.value), t.wrap_mem hb _, IntType.wrap_mod _ _, ?_⟩
    rw [get_ok_iff, h2 k p hp, hk k hlt, iota_sum _ _ _ (le_of_lt hlt)]

example := C81_iota_step_modular .u32 .i32 (by decide) exTwo exOut 5 ⟨.i8, -3⟩ (.inl ⟨.u32, by decide, rfl⟩) (by decide) (by decide)
  exOut_distinct exOut_valid

/-- **C81** (signed values of rank `int` or more) `iota` is undefined as soon as `value + n` does not fit, `n` being
the number of elements, and `iota` with a step of the same type as soon as one of `value + step`, …, `value + n * step` does not. -/
theorem C81_iota_signed_overflow (t u : IntType) (hb : 32 ≤ t.bits) (hs : t.signed = true) (m : Mem Int) (c : Container)
    (value step : Int) (hd : Distinct c) (hv : Valid c m) (hval : t.Fits value) (hst : t.Fits step) :
    (¬ t.Fits (value + (positions c.shape).length) →
      iotaT t u m c value = .error .overflow) ∧
    ((∃ k : Nat, k ≤ (positions c.shape).length ∧ ¬ t.Fits (value + k * step)) →
      iotaStepT t u m c value ⟨t, step⟩ = .error .overflow) := by
  constructor
  · intro hn
    have hr := drawAll_sum_overflow (t := t) (fun _ => 1) (fun s _ => u.wrap s)
      (fun s (_ : List Int) => t.incr s) (positions c.shape) value hval (fun p _ a _ => IntType.incr_signed hb hs a) (by
        intro h
        have := h _ (le_refl _)
        rw [iota_sum _ _ _ (le_refl _), mul_one] at this
        exact hn this)
    have := run_draw_error hd hv _
      (fun is (sm : Int × Mem Int) => do
        let next ← t.incr sm.1
        let m ← store sm.2 (c.addr is) (u.wrap sm.1)
        pure (next, m)) value _ (fun p _ s m1 _ _ => by simp) hr
    unfold iotaT mapCtx
    simp only
    rw [this]; rfl
  · rintro ⟨k, hk, hn⟩
    have hr := drawAll_sum_overflow (t := t) (fun _ => step) (fun s _ => u.wrap s)
      (fun s (_ : List Int) => addTo t s ⟨t, step⟩) (positions c.shape) value hval
      (fun p _ a ha => addTo_signed hb hs ha hst) (by
        intro h
        have := h k hk
        rw [iota_sum _ _ _ hk] at this
        exact hn this)
    have := run_draw_error hd hv _
      (fun is (sm : Int × Mem Int) => do
        let m ← store sm.2 (c.addr is) (u.wrap sm.1)
        let next ← addTo t sm.1 ⟨t, step⟩
        pure (next, m)) value _ (fun p _ s m1 _ hsome => by
          rw [store_ok hsome]
          simp only [bind_assoc, pure_bind, store_ok hsome]
          rfl) hr
    unfold iotaStepT mapCtx
    simp only
    rw [this]; rfl

example : iotaT .i32 .i64 exTwo exOut 2147483645 = .error .overflow :=
  (C81_iota_signed_overflow .i32 .i64 (by decide) rfl exTwo exOut 2147483645 1 exOut_distinct exOut_valid (by decide) (by decide)).1
    (by decide)

/-- **C81** (negation) Filling a table of one `int` from the largest `int` is undefined although the only value written
fits: the value is incremented after the last element. -/
theorem C81_iota_last_overflow :
    IntType.i32.Fits 2147483647 ∧
    iotaT .i32 .i32 (oneBlock 0 [0]) (Container.ofShape ⟨0, 0⟩ [1]) 2147483647 = .error .overflow ∧
    iotaStepT .i32 .i32 (oneBlock 0 [0]) (Container.ofShape ⟨0, 0⟩ [1]) 2147483647 ⟨.i32, 1⟩ = .error .overflow :=
  ⟨by decide, rfl, rfl⟩

/-- **C81** The full property. -/
def C81_statement : Prop :=
  ∀ (t u : IntType) (m : Mem Int) (c : Container) (value : Int) (step : Coord), 0 < t.bits → 0 < u.bits → 0 < step.type.bits →
    Distinct c → Valid c m → t.Fits value → step.type.Fits step.value →
    ((∀ k : Nat, k < (positions c.shape).length → t.Fits (value + k)) →
      ∃ m', iotaT t u m c value = .ok m' ∧ SameOutside c m m' ∧
        ∀ (k : Nat) p, (positions c.shape)[k]? = some p → c.get m' p = .ok (u.wrap (value + k))) ∧
    ((∀ k : Nat, k < (positions c.shape).length → t.Fits (value + k * step.value)) →
      ∃ m', iotaStepT t u m c value step = .ok m' ∧ SameOutside c m m' ∧
        ∀ (k : Nat) p, (positions c.shape)[k]? = some p → c.get m' p = .ok (u.wrap (value + k * step.value)))

theorem C81_statement_false : ¬ C81_statement := by
  intro h
  have hd : Distinct (.ofShape ⟨0, 0⟩ [1]) := default_distinct (ofShape_default (by decide))
  have hv : Valid (.ofShape ⟨0, 0⟩ [1]) (oneBlock 0 [(0 : Int)]) := by
    intro p hp
    match p, hp with
    | [i], hp =>
      have : i = 0 := by have := (inBox_cons.1 hp).1; omega
      subst this; exact ⟨0, by decide⟩
  obtain ⟨m', hm, -⟩ := (h .i32 .i32 _ _ 2147483647 ⟨.i32, 1⟩ (by decide) (by decide) (by decide) hd hv (by decide) (by decide)).1
    (by
      intro k hk
      obtain rfl : k = 0 := by
        have : k < 1 := hk
        omega
      decide)
  rw [C81_iota_last_overflow.2.1] at hm
  cases hm

/-- Bytes wrap from 127 to -128; a step of -3 counts down. -/
example : (iotaT .i8 .i32 (oneBlock 0 [0, 0, 0]) (Container.ofShape ⟨0, 0⟩ [3]) 126).map
      (fun m => [0, 1, 2].map fun i => m ⟨0, i⟩) = .ok [some 126, some 127, some (-128)] ∧
    (iotaStepT .i32 .i32 (oneBlock 0 [0, 0, 0]) (Container.ofShape ⟨0, 0⟩ [3]) 2 ⟨.i32, -3⟩).map
      (fun m => [0, 1, 2].map fun i => m ⟨0, i⟩) = .ok [some 2, some (-1), some (-4)] := by decide

/-! ## C82: scans -/

/-- **C82** `inclusive_scan(in, out, init)` with `init` of type `t` over elements of type `ti` writes the sum of `init`
and the first `k + 1` elements into the `k`-th element of the output (converted to its type `u`), when all
these sums and `init` fit in `t`.  Input and output have the same shape and share no cell. -/
theorem C82_inclusive_scan_exact (t ti u : IntType) (m : Mem Int) (inp out : Container) (val : List Int → Int)
    (init : Int) (hshape : inp.shape = out.shape) (hd : Distinct out) (hv : Valid out m) (hi : Elems inp m val)
    (hdis : ∀ p q, InBox out.shape p → InBox out.shape q → inp.addr p ≠ out.addr q)
    (hti : ∀ p, InBox out.shape p → ti.Fits (val p))
    (hf : ∀ k ≤ (positions out.shape).length, t.Fits (init + (((positions out.shape).map val).take k).sum)) :
    ∃ m', inclusiveScanT t ti u m inp out init = .ok m' ∧
      (∀ (k : Nat) p, (positions out.shape)[k]? = some p →
        out.get m' p = .ok (u.wrap (init + (((positions out.shape).map val).take (k + 1)).sum))) ∧
      SameOutside out m m' := by
  obtain ⟨vs, hr, hlen, hk⟩ := drawAll_sum (t := t) val (fun _ next => u.wrap next)
    (fun s p => addTo t s ⟨ti, val p⟩) (positions out.shape) init
    (fun p hp a ha hs => addTo_exact ha (hti p (mem_positions.1 hp)) hs) hf
  obtain ⟨m', h1, h2, h3⟩ := run_draw hd hv _
    (fun is (sm : Int × Mem Int) => do
      let v ← load sm.2 (inp.addr is)
      let sum ← addTo t sm.1 ⟨ti, v⟩
      let m ← store sm.2 (out.addr is) (u.wrap sum)
      pure (sum, m)) init _ vs (fun p hp s m1 hso _ => by
        have : load m1 (inp.addr p) = .ok (val p) := by
          have := hi p (by rwa [hshape])
          unfold Container.get load at this
          unfold load
          rw [hso _ fun q hq => (hdis p q hp hq).symm]
          exact this
        simp only [this]
        simp [bind, Except.bind, pure, Except.pure]
        cases addTo t s ⟨ti, val p⟩ <;> rfl) hr
  refine ⟨m', ?_, ?_, h3⟩
  · unfold inclusiveScanT mapCtx
    simp only [List.map_cons, List.map_nil, List.headD_cons]
    rw [hshape, h1]; rfl
  · intro k p hp
    have hlt : k < (positions out.shape).length := (List.getElem?_eq_some_iff.1 hp).1
    rw [get_ok_iff, h2 k p hp, hk k hlt]

example := C82_inclusive_scan_exact .i32 .i8 .i16 exTwo exIn exOut exInVal (-2) rfl exOut_distinct exOut_valid exIn_elems
  (fun p q hp hq => (ex_disjoint q p hq hp).symm) (ex_all (by decide)) (ex_upTo (by decide))

/-- **C82** (exclusive scan, partial) `exclusive_scan(in, out, init)` writes the sum of `init` and the first `k` elements
into the `k`-th element of the output, when these sums and the sum of all elements fit in the type of `init`.
The full statement does not ask the sum of all elements, which is not written, to fit; it is false: see
`C82_exclusive_scan_extra_sum`. -/
theorem C82_exclusive_scan_exact_partial (t ti u : IntType) (m : Mem Int) (inp out : Container) (val : List Int → Int)
    (init : Int) (hshape : inp.shape = out.shape) (hd : Distinct out) (hv : Valid out m) (hi : Elems inp m val)
    (hdis : ∀ p q, InBox out.shape p → InBox out.shape q → inp.addr p ≠ out.addr q)
    (hti : ∀ p, InBox out.shape p → ti.Fits (val p))
    (hf : ∀ k ≤ (positions out.shape).length, t.Fits (init + (((positions out.shape).map val).take k).sum)) :
    ∃ m', exclusiveScanT t ti u m inp out init = .ok m' ∧
      (∀ (k : Nat) p, (positions out.shape)[k]? = some p →
        out.get m' p = .ok (u.wrap (init + (((positions out.shape).map val).take k).sum))) ∧
      SameOutside out m m' := by
  obtain ⟨vs, hr, hlen, hk⟩ := drawAll_sum (t := t) val (fun s _ => u.wrap s)
    (fun s p => addTo t s ⟨ti, val p⟩) (positions out.shape) init
    (fun p hp a ha hs => addTo_exact ha (hti p (mem_positions.1 hp)) hs) hf
  obtain ⟨m', h1, h2, h3⟩ := run_draw hd hv _
    (fun is (sm : Int × Mem Int) => do
      let m ← store sm.2 (out.addr is) (u.wrap sm.1)
      let v ← load m (inp.addr is)
      let sum ← addTo t sm.1 ⟨ti, v⟩
      pure (sum, m)) init _ vs (fun p hp s m1 hso hsome => by
        have : load (wr m1 (out.addr p) (some (u.wrap s))) (inp.addr p) = .ok (val p) := by
          have := hi p (by rwa [hshape])
          unfold Container.get load at this
          unfold load
          rw [wr_other _ _ (hdis p p hp hp).symm, hso _ fun q hq => (hdis p q hp hq).symm]
          exact this
        rw [store_ok hsome]
        simp only [bind, Except.bind, pure, Except.pure, this]
        cases addTo t s ⟨ti, val p⟩ <;> simp [store_ok hsome]) hr
  refine ⟨m', ?_, ?_, h3⟩
  · unfold exclusiveScanT mapCtx
    simp only [List.map_cons, List.map_nil, List.headD_cons]
    rw [hshape, h1]; rfl
  · intro k p hp
    have hlt : k < (positions out.shape).length := (List.getElem?_eq_some_iff.1 hp).1
    rw [get_ok_iff, h2 k p hp, hk k hlt]

example := C82_exclusive_scan_exact_partial .i32 .i8 .i16 exTwo exIn exOut exInVal (-2) rfl exOut_distinct exOut_valid exIn_elems
  (fun p q hp hq => (ex_disjoint q p hq hp).symm) (ex_all (by decide)) (ex_upTo (by decide))

/-- **C82** (signed sums) When the sums are computed in the signed type of `init`, both scans are undefined as soon as one
of the sums of `init` and the first elements does not fit in it, the sum of all elements included. -/
theorem C82_scan_signed_overflow (t ti u : IntType) (m : Mem Int) (inp out : Container) (val : List Int → Int)
    (init : Int) (hc : IsCommonType t ti t) (hsg : t.signed = true) (hinit : t.Fits init)
    (hshape : inp.shape = out.shape) (hd : Distinct out) (hv : Valid out m) (hi : Elems inp m val)
    (hdis : ∀ p q, InBox out.shape p → InBox out.shape q → inp.addr p ≠ out.addr q)
    (hti : ∀ p, InBox out.shape p → ti.Fits (val p))
    (hf : ∃ k ≤ (positions out.shape).length, ¬ t.Fits (init + (((positions out.shape).map val).take k).sum)) :
    inclusiveScanT t ti u m inp out init = .error .overflow ∧ exclusiveScanT t ti u m inp out init = .error .overflow := by
  have hn : ¬ ∀ k ≤ (positions out.shape).length, t.Fits (init + (((positions out.shape).map val).take k).sum) :=
    fun h => by obtain ⟨k, hk, h'⟩ := hf; exact h' (h k hk)
  have hr : ∀ w : Int → Int → Int, _ := fun w => drawAll_sum_overflow (t := t) val w
    (fun s p => addTo t s ⟨ti, val p⟩) (positions out.shape) init hinit
    (fun p hp a ha => addTo_checked hc hsg ha (hti p (mem_positions.1 hp))) hn
  have hload : ∀ p, InBox out.shape p → ∀ m1 : Mem Int, SameOutside out m m1 → load m1 (inp.addr p) = .ok (val p) := by
    intro p hp m1 hso
    have := hi p (by rwa [hshape])
    unfold Container.get load at this
    unfold load
    rw [hso _ fun q hq => (hdis p q hp hq).symm]
    exact this
  constructor
  · have h1 := run_draw_error hd hv _
      (fun is (sm : Int × Mem Int) => do
        let v ← load sm.2 (inp.addr is)
        let sum ← addTo t sm.1 ⟨ti, v⟩
        let m ← store sm.2 (out.addr is) (u.wrap sum)
        pure (sum, m)) init _ (fun p hp s m1 hso _ => by
          simp only [hload p hp m1 hso]
          simp [bind, Except.bind, pure, Except.pure]
          cases addTo t s ⟨ti, val p⟩ <;> rfl) (hr fun _ next => u.wrap next)
    unfold inclusiveScanT mapCtx
    simp only [List.map_cons, List.map_nil, List.headD_cons]
    rw [hshape, h1]; rfl
  · have h1 := run_draw_error hd hv _
      (fun is (sm : Int × Mem Int) => do
        let m ← store sm.2 (out.addr is) (u.wrap sm.1)
        let v ← load m (inp.addr is)
        let sum ← addTo t sm.1 ⟨ti, v⟩
        pure (sum, m)) init _ (fun p hp s m1 hso hsome => by
          have : load (wr m1 (out.addr p) (some (u.wrap s))) (inp.addr p) = .ok (val p) := by
            have := hload p hp m1 hso
            unfold load at this ⊢
            rw [wr_other _ _ (hdis p p hp hp).symm]
            exact this
          rw [store_ok hsome]
          simp only [bind, Except.bind, pure, Except.pure, this]
          cases addTo t s ⟨ti, val p⟩ <;> simp [store_ok hsome]) (hr fun s _ => u.wrap s)
    unfold exclusiveScanT mapCtx
    simp only [List.map_cons, List.map_nil, List.headD_cons]
    rw [hshape, h1]; rfl

example := C82_scan_signed_overflow .i32 .i8 .i16 exTwo exIn exOut exInVal 2147483645 (by decide) rfl (by decide) rfl exOut_distinct
  exOut_valid exIn_elems (fun p q hp hq => (ex_disjoint q p hq hp).symm) (ex_all (by decide)) ⟨3, by decide, by decide⟩

/-- **C82** (narrow or unsigned sums) Otherwise the scans never fail: each element written is the exact sum modulo the
size of the type of `init`, brought into its range, then converted to the type of the output. -/
theorem C82_scan_modular (t ti u : IntType) (m : Mem Int) (inp out : Container) (val : List Int → Int)
    (init : Int) (hb : 0 < t.bits) (hinit : t.Fits init)
    (hsg : (∃ c, IsCommonType t ti c ∧ c.signed = false) ∨ (t.bits ≤ 16 ∧ ti.bits ≤ 16))
    (hshape : inp.shape = out.shape) (hd : Distinct out) (hv : Valid out m) (hi : Elems inp m val)
    (hdis : ∀ p q, InBox out.shape p → InBox out.shape q → inp.addr p ≠ out.addr q)
    (hti : ∀ p, InBox out.shape p → ti.Fits (val p)) :
    (∃ m', inclusiveScanT t ti u m inp out init = .ok m' ∧
      (∀ (k : Nat) p, (positions out.shape)[k]? = some p → ∃ w, t.Fits w ∧
        w ≡ init + (((positions out.shape).map val).take (k + 1)).sum [ZMOD 2 ^ t.bits] ∧ out.get m' p = .ok (u.wrap w)) ∧
      SameOutside out m m') ∧
    (∃ m', exclusiveScanT t ti u m inp out init = .ok m' ∧
      (∀ (k : Nat) p, (positions out.shape)[k]? = some p → ∃ w, t.Fits w ∧
        w ≡ init + (((positions out.shape).map val).take k).sum [ZMOD 2 ^ t.bits] ∧ out.get m' p = .ok (u.wrap w)) ∧
      SameOutside out m m') := by
  have hsg' : (t.common ti).signed = false ∨ (t.bits ≤ 16 ∧ ti.bits ≤ 16) := by
    rcases hsg with ⟨c, hc, hs⟩ | h
    · left; rw [← isCommon_eq hc]; exact hs
    · exact .inr h
  have hr : ∀ w : Int → Int → Int, _ := fun w => drawAll_sum_wraps hb val w
    (fun s p => addTo t s ⟨ti, val p⟩) (positions out.shape) init hinit
    (fun p hp a ha => addTo_wraps ha (hti p (mem_positions.1 hp)) hsg')
  have hload : ∀ p, InBox out.shape p → ∀ m1 : Mem Int, SameOutside out m m1 → load m1 (inp.addr p) = .ok (val p) := by
    intro p hp m1 hso
    have := hi p (by rwa [hshape])
    unfold Container.get load at this
    unfold load
    rw [hso _ fun q hq => (hdis p q hp hq).symm]
    exact this
  constructor
  · obtain ⟨vs, hrun, hlen, hk⟩ := hr fun _ next => u.wrap next
    obtain ⟨m', h1, h2, h3⟩ := run_draw hd hv _
      (fun is (sm : Int × Mem Int) => do
        let v ← load sm.2 (inp.addr is)
        let sum ← addTo t sm.1 ⟨ti, v⟩
        let m ← store sm.2 (out.addr is) (u.wrap sum)
        pure (sum, m)) init _ vs (fun p hp s m1 hso _ => by
          simp only [hload p hp m1 hso]
          simp [bind, Except.bind, pure, Except.pure]
          cases addTo t s ⟨ti, val p⟩ <;> rfl) hrun
    refine ⟨m', ?_, ?_, h3⟩
    · unfold inclusiveScanT mapCtx
      simp only [List.map_cons, List.map_nil, List.headD_cons]
      rw [hshape, h1]; rfl
    · intro k p hp
      have hlt : k < (positions out.shape).length := (List.getElem?_eq_some_iff.1 hp).1
      refine ⟨_, t.wrap_mem hb _, IntType.wrap_mod _ _, ?_⟩
      rw [get_ok_iff, h2 k p hp, hk k hlt]
  · obtain ⟨vs, hrun, hlen, hk⟩ := hr fun s _ => u.wrap s
    obtain ⟨m', h1, h2, h3⟩ := run_draw hd hv _
      (fun is (sm : Int × Mem Int) => do
        let m ← store sm.2 (out.addr is) (u.wrap sm.1)
        let v ← load m (inp.addr is)
        let sum ← addTo t sm.1 ⟨ti, v⟩
        pure (sum, m)) init _ vs (fun p hp s m1 hso hsome => by
          have : load (wr m1 (out.addr p) (some (u.wrap s))) (inp.addr p) = .ok (val p) := by
            have := hload p hp m1 hso
            unfold load at this ⊢
            rw [wr_other _ _ (hdis p p hp hp).symm]
            exact this
          rw [store_ok hsome]
          simp only [bind, Except.bind, pure, Except.pure, this]
          cases addTo t s ⟨ti, val p⟩ <;> simp [store_ok hsome]) hrun
    refine ⟨m', ?_, ?_, h3⟩
    · unfold exclusiveScanT mapCtx
      simp only [List.map_cons, List.map_nil, List.headD_cons]
      rw [hshape, h1]; rfl
    · intro k p hp
      have hlt : k < (positions out.shape).length := (List.getElem?_eq_some_iff.1 hp).1
      refine ⟨_, t.wrap_mem hb _, IntType.wrap_mod _ _, ?_⟩
      rw [get_ok_iff, h2 k p hp, hk k hlt]

example : IsCommonType .i32 .i8 .i32 ∧
    (inclusiveScanT .u8 .u8 .i32 (oneBlock 0 [200, 100, 0, 0]) (Container.ofShape ⟨0, 0⟩ [2])
      (Container.ofShape ⟨0, 2⟩ [2]) 0).map (fun m => [2, 3].map fun i => m ⟨0, i⟩) = .ok [some 200, some 44] := by decide

/-- **C82** (all types) What the scans do for an initial value of any type `t` over elements of any type `ti`, with `w k` the sum
of `init` and the first `k` elements brought into the range of `t`, and `c` the type in which C++ adds a `t` and a `ti`:
both are undefined exactly when `c` is signed and one of the sums of a `w k` and the next element does not fit in it; otherwise
they write the values `w k` (`exclusive_scan`) and `w (k + 1)` (`inclusive_scan`), converted to the type of the output. -/
theorem C82_scan_all (t ti u c : IntType) (hc : IsCommonType t ti c) (m : Mem Int) (inp out : Container) (val : List Int → Int)
    (init : Int) (hb : 0 < t.bits) (hinit : t.Fits init)
    (hshape : inp.shape = out.shape) (hd : Distinct out) (hv : Valid out m) (hi : Elems inp m val)
    (hdis : ∀ p q, InBox out.shape p → InBox out.shape q → inp.addr p ≠ out.addr q)
    (hti : ∀ p, InBox out.shape p → ti.Fits (val p)) (w : Nat → Int)
    (hw : ∀ k, t.Fits (w k) ∧ w k ≡ init + (((positions out.shape).map val).take k).sum [ZMOD 2 ^ t.bits]) :
    let defined := c.signed = true → ∀ (k : Nat) p, (positions out.shape)[k]? = some p → c.Fits (w k + val p)
    (defined →
      (∃ m', inclusiveScanT t ti u m inp out init = .ok m' ∧
        (∀ (k : Nat) p, (positions out.shape)[k]? = some p → out.get m' p = .ok (u.wrap (w (k + 1)))) ∧
        SameOutside out m m') ∧
      (∃ m', exclusiveScanT t ti u m inp out init = .ok m' ∧
        (∀ (k : Nat) p, (positions out.shape)[k]? = some p → out.get m' p = .ok (u.wrap (w k))) ∧ SameOutside out m m')) ∧
    (¬ defined →
      inclusiveScanT t ti u m inp out init = .error .overflow ∧ exclusiveScanT t ti u m inp out init = .error .overflow) := by
  intro defined
  have ew : ∀ k, w k = t.wrap (init + (((positions out.shape).map val).take k).sum) := fun k => by
    rw [← IntType.wrap_fits (hw k).1]
    exact IntType.wrap_congr (hw k).2
  have hr : ∀ o : Int → Int → Int, _ := fun o => drawAll_sum_all hb val o
    (fun a p => c.signed = true → c.Fits (a + val p)) (fun s p => addTo t s ⟨ti, val p⟩) (positions out.shape) init hinit
    (fun p hp a ha => addTo_all hc ha (hti p (mem_positions.1 hp)))
  simp only [← ew] at hr
  have hgood : defined ↔ ∀ (k : Nat) p, (positions out.shape)[k]? = some p → c.signed = true → c.Fits (w k + val p) :=
    ⟨fun h k p hk hs => h hs k p hk, fun h hs k p hk => h k p hk hs⟩
  have hload : ∀ p, InBox out.shape p → ∀ m1 : Mem Int, SameOutside out m m1 → load m1 (inp.addr p) = .ok (val p) := by
    intro p hp m1 hso
    have := hi p (by rwa [hshape])
    unfold Container.get load at this
    unfold load
    rw [hso _ fun q hq => (hdis p q hp hq).symm]
    exact this
  have hin : ∀ p, InBox out.shape p → ∀ (s : Int) (m1 : Mem Int), SameOutside out m m1 → (m1 (out.addr p)).isSome →
      (do
        let v ← load m1 (inp.addr p)
        let sum ← addTo t s ⟨ti, v⟩
        let m ← store m1 (out.addr p) (u.wrap sum)
        pure (sum, m) : Res (Int × Mem Int)) =
      (do
        let r ← (do let next ← addTo t s ⟨ti, val p⟩; pure (u.wrap next, next) : Res (Int × Int))
        let m2 ← store m1 (out.addr p) r.1
        pure (r.2, m2)) := fun p hp s m1 hso _ => by
    simp only [hload p hp m1 hso]
    simp [bind, Except.bind, pure, Except.pure]
    cases addTo t s ⟨ti, val p⟩ <;> rfl
  have hex : ∀ p, InBox out.shape p → ∀ (s : Int) (m1 : Mem Int), SameOutside out m m1 → (m1 (out.addr p)).isSome →
      (do
        let m ← store m1 (out.addr p) (u.wrap s)
        let v ← load m (inp.addr p)
        let sum ← addTo t s ⟨ti, v⟩
        pure (sum, m) : Res (Int × Mem Int)) =
      (do
        let r ← (do let next ← addTo t s ⟨ti, val p⟩; pure (u.wrap s, next) : Res (Int × Int))
        let m2 ← store m1 (out.addr p) r.1
        pure (r.2, m2)) := fun p hp s m1 hso hsome => by
    have : load (wr m1 (out.addr p) (some (u.wrap s))) (inp.addr p) = .ok (val p) := by
      have := hload p hp m1 hso
      unfold load at this ⊢
      rw [wr_other _ _ (hdis p p hp hp).symm]
      exact this
    rw [store_ok hsome]
    simp only [bind, Except.bind, pure, Except.pure, this]
    cases addTo t s ⟨ti, val p⟩ <;> simp [store_ok hsome]
  rw [hgood]
  refine ⟨fun hg => ⟨?_, ?_⟩, fun hg => ⟨?_, ?_⟩⟩
  · obtain ⟨vs, hrun, hlen, hk⟩ := (hr fun _ next => u.wrap next).1 hg
    obtain ⟨m', h1, h2, h3⟩ := run_draw hd hv _
      (fun is (sm : Int × Mem Int) => do
        let v ← load sm.2 (inp.addr is)
        let sum ← addTo t sm.1 ⟨ti, v⟩
        let m ← store sm.2 (out.addr is) (u.wrap sum)
        pure (sum, m)) init _ vs hin hrun
    refine ⟨m', ?_, ?_, h3⟩
    · unfold inclusiveScanT mapCtx
      simp only [List.map_cons, List.map_nil, List.headD_cons]
      rw [hshape, h1]; rfl
    · intro k p hp
      have hlt : k < (positions out.shape).length := (List.getElem?_eq_some_iff.1 hp).1
      rw [get_ok_iff, h2 k p hp, hk k hlt]
  · obtain ⟨vs, hrun, hlen, hk⟩ := (hr fun s _ => u.wrap s).1 hg
    obtain ⟨m', h1, h2, h3⟩ := run_draw hd hv _
      (fun is (sm : Int × Mem Int) => do
        let m ← store sm.2 (out.addr is) (u.wrap sm.1)
        let v ← load m (inp.addr is)
        let sum ← addTo t sm.1 ⟨ti, v⟩
        pure (sum, m)) init _ vs hex hrun
    refine ⟨m', ?_, ?_, h3⟩
    · unfold exclusiveScanT mapCtx
      simp only [List.map_cons, List.map_nil, List.headD_cons]
      rw [hshape, h1]; rfl
    · intro k p hp
      have hlt : k < (positions out.shape).length := (List.getElem?_eq_some_iff.1 hp).1
      rw [get_ok_iff, h2 k p hp, hk k hlt]
  · have h1 := run_draw_error hd hv _
      (fun is (sm : Int × Mem Int) => do
        let v ← load sm.2 (inp.addr is)
        let sum ← addTo t sm.1 ⟨ti, v⟩
        let m ← store sm.2 (out.addr is) (u.wrap sum)
        pure (sum, m)) init _ hin ((hr fun _ next => u.wrap next).2 hg)
    unfold inclusiveScanT mapCtx
    simp only [List.map_cons, List.map_nil, List.headD_cons]
    rw [hshape, h1]; rfl
  · have h1 := run_draw_error hd hv _
      (fun is (sm : Int × Mem Int) => do
        let m ← store sm.2 (out.addr is) (u.wrap sm.1)
        let v ← load m (inp.addr is)
        let sum ← addTo t sm.1 ⟨ti, v⟩
        pure (sum, m)) init _ hex ((hr fun s _ => u.wrap s).2 hg)
    unfold exclusiveScanT mapCtx
    simp only [List.map_cons, List.map_nil, List.headD_cons]
    rw [hshape, h1]; rfl

/-- `int` sums of `long` elements: computed in `long`, then cut to `int`. -/
example : IsCommonType .i32 .i64 .i64 ∧
    (inclusiveScanT .i32 .i64 .i64 (oneBlock 0 [4294967297, 2147483647, 0, 0]) (Container.ofShape ⟨0, 0⟩ [2])
      (Container.ofShape ⟨0, 2⟩ [2]) 0).map (fun m => [2, 3].map fun i => m ⟨0, i⟩) =
      .ok [some 1, some (-2147483648)] := by decide

/-- **C82** (negation) The exclusive scan of `[2147483647, 1]` from 0 would write 0 and 2147483647, but it also computes
the sum of all elements, which overflows; with `unsigned` elements it succeeds. -/
theorem C82_exclusive_scan_extra_sum :
    exclusiveScanT .i32 .i32 .i32 (oneBlock 0 [2147483647, 1, 0, 0]) (Container.ofShape ⟨0, 0⟩ [2])
      (Container.ofShape ⟨0, 2⟩ [2]) 0 = .error .overflow ∧
    (exclusiveScanT .u32 .u32 .u32 (oneBlock 0 [4294967295, 1, 0, 0]) (Container.ofShape ⟨0, 0⟩ [2])
      (Container.ofShape ⟨0, 2⟩ [2]) 0).map (fun m => [2, 3].map fun i => m ⟨0, i⟩) =
      .ok [some 0, some 4294967295] := ⟨rfl, by decide⟩

/-- **C82** The full property. -/
def C82_statement : Prop :=
  ∀ (t ti u : IntType) (m : Mem Int) (inp out : Container) (val : List Int → Int) (init : Int), 0 < t.bits → 0 < ti.bits →
    inp.shape = out.shape → Distinct out → Valid out m → Elems inp m val →
    (∀ p q, InBox out.shape p → InBox out.shape q → inp.addr p ≠ out.addr q) →
    (∀ p, InBox out.shape p → ti.Fits (val p)) → t.Fits init →
    let sum := fun k => init + (((positions out.shape).map val).take k).sum
    ((∀ k, k < (positions out.shape).length → t.Fits (sum (k + 1))) →
      ∃ m', inclusiveScanT t ti u m inp out init = .ok m' ∧ SameOutside out m m' ∧
        ∀ (k : Nat) p, (positions out.shape)[k]? = some p → out.get m' p = .ok (u.wrap (sum (k + 1)))) ∧
    ((∀ k, k < (positions out.shape).length → t.Fits (sum k)) →
      ∃ m', exclusiveScanT t ti u m inp out init = .ok m' ∧ SameOutside out m m' ∧
        ∀ (k : Nat) p, (positions out.shape)[k]? = some p → out.get m' p = .ok (u.wrap (sum k)))

theorem C82_statement_false : ¬ C82_statement := by
  intro h
  have hin : ∀ p, InBox [2] p → p = [0] ∨ p = [1] := by
    intro p hp
    match p, hp with
    | [i], hp =>
      have : i = 0 ∨ i = 1 := by have := (inBox_cons.1 hp).1; omega
      rcases this with rfl | rfl <;> simp
  have hv : Valid (.ofShape ⟨0, 2⟩ [2]) (oneBlock 0 [(2147483647 : Int), 1, 0, 0]) := by
    intro p hp
    rcases hin p hp with rfl | rfl <;> exact ⟨0, by decide⟩
  obtain ⟨m', hm, -⟩ := (h .i32 .i32 .i32 (oneBlock 0 [2147483647, 1, 0, 0]) (.ofShape ⟨0, 0⟩ [2]) (.ofShape ⟨0, 2⟩ [2])
    (fun p => if p = [0] then 2147483647 else 1) 0 (by decide) (by decide) rfl
    (default_distinct (ofShape_default (by decide))) hv
    (by intro p hp; rcases hin p hp with rfl | rfl <;> decide)
    (by intro p q hp hq; rcases hin p hp with rfl | rfl <;> rcases hin q hq with rfl | rfl <;> decide)
    (by intro p hp; rcases hin p hp with rfl | rfl <;> decide) (by decide)).2
    (by
      intro k hk
      have : k < 2 := hk
      have : k = 0 ∨ k = 1 := by omega
      rcases this with rfl | rfl <;> decide)
  rw [C82_exclusive_scan_extra_sum.1] at hm
  cases hm

/-- The type of `init` decides: bytes summed in `int`, then in bytes. -/
example :
    (inclusiveScanT .i32 .i8 .i32 (oneBlock 0 [100, 100, 7, 0, 0, 0]) (Container.ofShape ⟨0, 0⟩ [3])
      (Container.ofShape ⟨0, 3⟩ [3]) 0).map (fun m => [3, 4, 5].map fun i => m ⟨0, i⟩) =
      .ok [some 100, some 200, some 207] ∧
    (inclusiveScanT .i8 .i8 .i32 (oneBlock 0 [100, 100, 7, 0, 0, 0]) (Container.ofShape ⟨0, 0⟩ [3])
      (Container.ofShape ⟨0, 3⟩ [3]) 0).map (fun m => [3, 4, 5].map fun i => m ⟨0, i⟩) =
      .ok [some 100, some (-56), some (-49)] := by decide

end Kwk
