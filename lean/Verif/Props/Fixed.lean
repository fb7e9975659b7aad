import Verif.Lemmas.AuxFixed
import Verif.Lemmas.Common
import Verif.Lemmas.TypedViews
import Mathlib.Tactic.NormNum
import Verif.Lemmas.Container
import Verif.Lemmas.Prefilled
import Verif.Spec.Nested

/-!
# Properties C56, C57, C67: literals, constants, arrays as sources
-/

namespace Kwk
open Spec

/-! ## C56: literals and array sizes -/

/-- Full statement of **C56**: a decimal literal below `2^64` has its value, and so has the extent of
an array. -/
def C56_statement : Prop :=
  (∀ ds : List Nat, (∀ d ∈ ds, d < 10) → decimal ds < 2 ^ 64 →
    (literalC (ds.map (· + 48))).value = decimal ds) ∧
  ∀ n : Nat, n < 2 ^ 64 → (clamp n).value = n

/-- **C56**, partial: true for every literal outside of the range `[2^16, 2^19)`.  Missing: that
range (`C56_literal_false`). -/
theorem C56_literal_partial (ds : List Nat) (h : decimal ds < 2 ^ 64)
    (hr : decimal ds < 2 ^ 16 ∨ 2 ^ 19 ≤ decimal ds) :
    (literalC (ds.map (· + 48))).value = decimal ds := by
  unfold literalC b10
  rw [show (0 : Int) = ((0 : Nat) : Int) from rfl, b10_aux ds 0 h, Int.toNat_natCast, clamp_value]
  rw [if_neg (by change ¬ (2 ^ 16 ≤ decimal ds ∧ decimal ds < 2 ^ 19); omega)]
  rfl

example : (literalC [49, 50, 51]).value = 123 := C56_literal_partial [1, 2, 3] (by decide) (.inl (by decide))

/-- **C56**, partial: the same for array sizes. -/
theorem C56_array_size_partial (n : Nat) (hr : n < 2 ^ 16 ∨ 2 ^ 19 ≤ n) : (clamp n).value = n := clamp_kept hr

example : (clamp 300).value = 300 := C56_array_size_partial 300 (.inl (by decide))

/-- **C56** The type chosen by `clamp` can represent the value it keeps. -/
theorem C56_type_fits (n : Nat) (h : n < 2 ^ 64) : (clamp n).type.Fits (clamp n).value := by
  unfold clamp
  split
  · exact ⟨Int.emod_nonneg _ (by norm_num), Int.emod_lt_of_pos _ (by norm_num)⟩
  · split
    · exact ⟨Int.emod_nonneg _ (by norm_num), Int.emod_lt_of_pos _ (by norm_num)⟩
    · split
      · exact ⟨Int.emod_nonneg _ (by norm_num), Int.emod_lt_of_pos _ (by norm_num)⟩
      · exact ⟨Int.natCast_nonneg _, by
          show (n : Int) < 2 ^ 64
          exact_mod_cast h⟩

example := C56_type_fits 300 (by decide)

/-- **C56** Exactly the values in `[2^16, 2^19)` are changed, whatever they are. -/
theorem C56_wrong_range (n : Nat) : (clamp n).value ≠ n ↔ 2 ^ 16 ≤ n ∧ n < 2 ^ 19 := by
  rw [clamp_value]
  split
  · next h => exact ⟨fun _ => h, fun _ => by omega⟩
  · next h => exact ⟨fun h' => absurd rfl h', fun h' => absurd h' h⟩

example : literalC ("123".toList.map Char.toNat) = ⟨.u8, 123⟩ := by decide
example : (literalC ("1000000".toList.map Char.toNat)) = ⟨.u32, 1000000⟩ := by decide

/-- **C56** is false: `70000_c` is 4464. -/
theorem C56_literal_false : ¬ C56_statement := by
  intro h
  have := h.1 [7, 0, 0, 0, 0] (by decide) (by decide)
  revert this; decide

/-- **C56** Digit separators are taken for digits: `12'000_c` is 111000. -/
theorem C56_separator_false : (literalC ("12'000".toList.map Char.toNat)).value = 45464 := by decide

/-! ## C57: nested arrays -/

/-- Full statement of **C57**: a view of a nested array without explicit shape shows `a[i][j]...` at
position `(i, j, ...)`. -/
def C57_statement : Prop :=
  ∀ (base : Ptr) (t : Nest), t ≠ .elem → (viewOfArray base t).shape = dims t ∧
    ∀ p, InBox (dims t) p → (viewOfArray base t).addr p = base.add (offset t p)

/-- **C57**, partial: C arrays of any depth, flat `std::array`s, and C arrays of flat `std::array`s.
Missing: `std::array` of arrays, whose extents come out reversed (`C57_nested_std_false`), and
extents in `[2^16, 2^19)` (`C57_large_false`). -/
theorem C57_nested_partial (base : Ptr) (t : Nest) (ht : PlainNest t) (hne : t ≠ .elem) :
    (viewOfArray base t).shape = dims t ∧ (viewOfArray base t).static = true ∧
    ∀ p, InBox (dims t) p → (viewOfArray base t).addr p = base.add (offset t p) := by
  have hs := plain_sizes ht
  refine ⟨hs, rfl, fun p hp => ?_⟩
  have hd : (viewOfArray base t).Default :=
    { ne := by
        show t.sizes ≠ []
        rw [hs]
        cases t <;> simp_all [dims]
      len := by simp [viewOfArray, Container.ofShape, asStride_eq_sfx, sfx_length]
      dflt := fun _ => rfl
      nospec := rfl }
  rw [addr_default hd (show InBox t.sizes p from hs ▸ hp), offset_eq t p hp]
  show base.add (linearize (sfx t.sizes) p) = _
  rw [hs]

example : (viewOfArray ⟨0, 0⟩ (.cArray 2 (.cArray 3 (.stdArray 4 .elem)))).shape = [2, 3, 4] := by decide

/-- **C57**, exact condition: with extents that literals keep, the view has the extents of the C arrays, outermost first, and
then those of the `std::array`s, innermost first; it is right exactly if these are the extents of the array in order. -/
theorem C57_exact_partial (base : Ptr) (t : Nest) (hk : ∀ d ∈ dims t, d < 2 ^ 16 ∨ 2 ^ 19 ≤ d) (hne : t ≠ .elem) :
    (viewOfArray base t).shape = cExtents t ++ (stdExtents t).reverse ∧
    (((viewOfArray base t).shape = dims t ∧
      ∀ p, InBox (dims t) p → (viewOfArray base t).addr p = base.add (offset t p)) ↔
      cExtents t ++ (stdExtents t).reverse = dims t) := by
  have hs : ∀ t : Nest, (∀ d ∈ dims t, d < 2 ^ 16 ∨ 2 ^ 19 ≤ d) → t.sizes = cExtents t ++ (stdExtents t).reverse := by
    intro t
    induction t with
    | elem => intro _; rfl
    | stdArray n t ih =>
      intro h
      have hn : n < 2 ^ 16 ∨ 2 ^ 19 ≤ n := by
        have := h n (by simp [dims]); norm_cast at this
      simp [Nest.sizes, cExtents, stdExtents, clamp_kept hn, ih fun d hd => h d (by simp [dims, hd])]
    | cArray n t ih =>
      intro h
      have hn : n < 2 ^ 16 ∨ 2 ^ 19 ≤ n := by
        have := h n (by simp [dims]); norm_cast at this
      simp [Nest.sizes, cExtents, stdExtents, clamp_kept hn, ih fun d hd => h d (by simp [dims, hd])]
  have hsh : (viewOfArray base t).shape = cExtents t ++ (stdExtents t).reverse := hs t hk
  refine ⟨hsh, fun h => hsh ▸ h.1, fun h => ?_⟩
  have hd' : t.sizes = dims t := (hs t hk).trans h
  refine ⟨hd', fun p hp => ?_⟩
  have hd : (viewOfArray base t).Default :=
    { ne := by
        show t.sizes ≠ []
        rw [hd']
        cases t <;> simp_all [dims]
      len := by simp [viewOfArray, Container.ofShape, asStride_eq_sfx, sfx_length]
      dflt := fun _ => rfl
      nospec := rfl }
  rw [addr_default hd (show InBox t.sizes p from hd' ▸ hp), offset_eq t p hp]
  show base.add (linearize (sfx t.sizes) p) = _
  rw [hd']

example : (viewOfArray ⟨0, 0⟩ (.stdArray 2 (.cArray 3 (.stdArray 4 .elem)))).shape = [3, 4, 2] := by decide

/-- **C57** Ranges: a view of a vector shows its elements in order and nothing else. -/
theorem C57_range (base : Ptr) (n : Nat) :
    (viewOfRange base n).shape = [(n : Int)] ∧
    ∀ i : Int, 0 ≤ i → i < n → (viewOfRange base n).addr [i] = base.add i :=
  ⟨rfl, fun _ _ _ => rfl⟩

example : (viewOfRange ⟨0, 3⟩ 5).addr [4] = ⟨0, 7⟩ := (C57_range ⟨0, 3⟩ 5).2 4 (by decide) (by decide)

/-- **C57** A view of a bare pointer without shape is empty. -/
theorem C57_pointer_empty (base : Ptr) (p : List Int) : ¬ InBox (viewOfPtr base).shape p := by
  intro h
  cases h with
  | cons h0 _ => omega

/-- **C57** is false for `std::array<std::array<int, 3>, 2>`: the view has shape `[3, 2]`. -/
theorem C57_nested_std_false : ¬ C57_statement := by
  intro h
  have := (h ⟨0, 0⟩ (.stdArray 2 (.stdArray 3 .elem)) (by decide)).1
  revert this; decide

/-- **C57** is false for `int[70000]`: the view has 4464 elements. -/
theorem C57_large_false : ¬ C57_statement := by
  intro h
  have := (h ⟨0, 0⟩ (.cArray 70000 .elem) (by decide)).1
  revert this; decide

/-! ## C67: arithmetic on constants -/

/-- Full statement of **C67**: if the expression compiles, the resulting constant is the exact result. -/
def C67_statement : Prop :=
  ∀ a b : Coord, a.type.Fits a.value → b.type.Fits b.value →
    (∀ r, constAdd a b = .ok r → r.value = a.value + b.value) ∧
    (∀ r, constSub a b = .ok r → r.value = a.value - b.value) ∧
    (∀ r, constMul a b = .ok r → r.value = a.value * b.value) ∧
    (∀ r, constNeg a = .ok r → r.value = -a.value)

/-- **C67** (types) The ranges of the integer types. -/
theorem C67_ranges_partial (v : Int) :
    (IntType.i8.Fits v ↔ -128 ≤ v ∧ v ≤ 127) ∧ (IntType.u8.Fits v ↔ 0 ≤ v ∧ v ≤ 255) ∧
    (IntType.i16.Fits v ↔ -32768 ≤ v ∧ v ≤ 32767) ∧ (IntType.u16.Fits v ↔ 0 ≤ v ∧ v ≤ 65535) ∧
    (IntType.i32.Fits v ↔ -2147483648 ≤ v ∧ v ≤ 2147483647) ∧ (IntType.u32.Fits v ↔ 0 ≤ v ∧ v ≤ 4294967295) ∧
    (IntType.i64.Fits v ↔ -9223372036854775808 ≤ v ∧ v ≤ 9223372036854775807) ∧
    (IntType.u64.Fits v ↔ 0 ≤ v ∧ v ≤ 18446744073709551615) := by
  simp only [IntType.Fits, IntType.lo, IntType.hi, IntType.i8, IntType.u8, IntType.i16, IntType.u16, IntType.i32,
    IntType.u32, IntType.i64, IntType.u64]
  norm_num
  omega

/-- **C67**, partial: constants of 8 and 16 bits (all literals below 524288): the result is exact.
Missing: 32-bit constants, whose differences and negations wrap (`C67_constants_false`). -/
theorem C67_narrow_partial (a b : Coord) (ha : a.type.Fits a.value) (hb : b.type.Fits b.value)
    (ha16 : a.type.bits ≤ 16) (hb16 : b.type.bits ≤ 16) :
    (∀ r, constAdd a b = .ok r → r.value = a.value + b.value) ∧
    (∀ r, constSub a b = .ok r → r.value = a.value - b.value) ∧
    (∀ r, constMul a b = .ok r → r.value = a.value * b.value) ∧
    (∀ r, constNeg a = .ok r → r.value = -a.value) ∧
    (∀ r, constDiv a b = .ok r → r.value = a.value.tdiv b.value) := by
  have hc := common_narrow ha16 hb16
  have wa := IntType.wrap_fits (narrow_fits ha16 ha)
  have wb := IntType.wrap_fits (narrow_fits hb16 hb)
  have key : ∀ (f : Int → Int → Int) r, constOp f a b = .ok r → r.value = f a.value b.value := by
    intro f r h
    have := constOp_value h
    rw [hc, wa, wb] at this
    exact op_signed rfl this
  refine ⟨key _, key _, key _, ?_, ?_⟩
  · intro r h
    have hp : a.type.promote = .i32 := if_pos (by omega)
    simp only [constNeg, hp, wa, bind, Except.bind] at h
    split at h
    · cases h
    · next e => cases h; exact op_signed rfl e
  · intro r h
    simp only [constDiv, hc, wa, wb, bind, Except.bind, cdiv] at h
    by_cases hz : b.value = 0
    · rw [if_pos hz] at h; cases h
    · rw [if_neg hz] at h
      simp only [pure, Except.pure] at h
      split at h
      · cases h
      · next e => cases h; exact op_signed rfl e

example := C67_narrow_partial ⟨.i16, -300⟩ ⟨.u8, 7⟩ (by decide) (by decide) (by decide) (by decide)

/-- **C67**, partial: constants of any type: if the operands fit the type `c` in which C++ computes with them, the
result is exact, and of type `c`, exactly if the exact result fits `c`. -/
theorem C67_fits_partial (a b : Coord) (f : Int → Int → Int) (c : IntType) (hc : IsCommonType a.type b.type c)
    (ha : c.Fits a.value) (hb : c.Fits b.value) :
    constOp f a b = .ok ⟨c, f a.value b.value⟩ ↔ c.Fits (f a.value b.value) := by
  have hpos : 0 < c.bits := by have := hc.1; omega
  rw [← IntType.op_exact_iff hpos]
  obtain rfl := isCommon_eq hc
  unfold constOp
  simp only [IntType.wrap_fits ha, IntType.wrap_fits hb, bind, Except.bind]
  cases h : (a.type.common b.type).op (f a.value b.value) with
  | error e => simp
  | ok v => simp [pure, Except.pure]

example := (C67_fits_partial ⟨.u32, 3⟩ ⟨.i16, 5⟩ (· - ·) .u32 (by decide) (by decide) (by decide)).1

/-- **C67** (exact, partial) Constants of any types and values: sums, differences, products and negations are computed
in the type `c`, and are exact if and only if the exact result fits `c`.  Missing: the results that do not fit. -/
theorem C67_exact_partial (a b : Coord) (c : IntType) (hc : IsCommonType a.type b.type c)
    (ha : a.type.Fits a.value) (hb : b.type.Fits b.value) :
    (constAdd a b = .ok ⟨c, a.value + b.value⟩ ↔ c.Fits (a.value + b.value)) ∧
    (constSub a b = .ok ⟨c, a.value - b.value⟩ ↔ c.Fits (a.value - b.value)) ∧
    (constMul a b = .ok ⟨c, a.value * b.value⟩ ↔ c.Fits (a.value * b.value)) ∧
    (IsCommonType a.type a.type c → (constNeg a = .ok ⟨c, -a.value⟩ ↔ c.Fits (-a.value))) := by
  have hpos : 0 < c.bits := by have := hc.1; omega
  have key : ∀ f, Modular f → (constOp f a b = .ok ⟨c, f a.value b.value⟩ ↔ c.Fits (f a.value b.value)) := by
    intro f hf
    by_cases hs : c.signed = true
    · have e := isCommon_eq hc
      exact C67_fits_partial a b f c hc (by rw [e] at hs ⊢; exact IntType.common_fits ha hs)
        (by rw [e] at hs ⊢; exact IntType.common_fits_right hb hs)
    · have e := isCommon_eq hc
      unfold constOp
      rw [← e]
      have hop : c.op (f (c.wrap a.value) (c.wrap b.value)) = c.op (f a.value b.value) := by
        unfold IntType.op; rw [if_neg hs, if_neg hs, hf]
      rw [← IntType.op_exact_iff hpos]
      simp only [hop, bind, Except.bind]
      cases c.op (f a.value b.value) with
      | error e => simp
      | ok v => simp [pure, Except.pure]
  refine ⟨key _ modular_add, key _ modular_sub, key _ modular_mul, fun h => ?_⟩
  have e : c = a.type.promote := by rw [isCommon_eq h]; simp [IntType.common]
  rw [← IntType.op_exact_iff hpos]
  unfold constNeg
  rw [← e]
  have hop : c.op (-(c.wrap a.value)) = c.op (-a.value) := by
    by_cases hs : c.signed = true
    · rw [IntType.wrap_fits (by rw [e]; exact IntType.promote_fits ha)]
    · unfold IntType.op; rw [if_neg hs, if_neg hs]
      congr 1
      have := modular_sub c 0 a.value
      have h0 : c.wrap 0 = 0 := IntType.wrap_fits (by
        have := c.lo_nonpos
        refine ⟨this, ?_⟩
        simp only [IntType.hi, hs]; simp)
      simpa [h0] using this
  simp only [hop, bind, Except.bind]
  cases c.op (-a.value) with
  | error e => simp
  | ok v => simp [pure, Except.pure]

example : IsCommonType .u32 .i32 .u32 ∧ constAdd ⟨.u32, 7⟩ ⟨.i32, -3⟩ = .ok ⟨.u32, 4⟩ ∧
    constSub ⟨.u32, 3⟩ ⟨.i32, 7⟩ = .ok ⟨.u32, 4294967292⟩ := by decide

example : constSub (literalC ("3".toList.map Char.toNat)) (literalC ("5".toList.map Char.toNat))
    = .ok ⟨.i32, -2⟩ := by decide

/-- **C67** is false for 32-bit constants: `600000_c - 600001_c` is 4294967295, and `-600000_c` is
positive. -/
theorem C67_constants_false : ¬ C67_statement := by
  intro h
  have h1 := (h ⟨.u32, 600000⟩ ⟨.u32, 600001⟩ (by decide) (by decide)).2.1 ⟨.u32, 4294967295⟩ (by decide)
  revert h1; decide

end Kwk
