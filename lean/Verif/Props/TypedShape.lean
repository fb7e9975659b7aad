import Verif.Lemmas.TypedShape

/-!
# Property C111: comparing shapes and strides whose numbers have different types

A number `c : Coord` has the type `c.type` and the value `c.value`; `vals` lists the values.  `t.Fits v`: the type `t`
represents `v`.
-/

namespace Kwk
open Spec

/-- **C111** (same order) Shapes of the same order, with extents of any integer types, are equal iff the extents have the
same values: comparing never overflows. -/
theorem C111_same_order (a b : List Coord) (hl : a.length = b.length)
    (ha : ∀ x ∈ a, 0 < x.type.bits ∧ x.type.Fits x.value ∧ 0 ≤ x.value)
    (hb : ∀ x ∈ b, 0 < x.type.bits ∧ x.type.Fits x.value ∧ 0 ≤ x.value) :
    shapeEqT a b = .ok (decide (a.map (·.value) = b.map (·.value))) := by
  have g : ∀ l : List Coord, (∀ x ∈ l, 0 < x.type.bits ∧ x.type.Fits x.value ∧ 0 ≤ x.value) → ∀ x ∈ l, GoodExtent x :=
    fun l h x hx => ⟨(h x hx).1, (h x hx).2.1, (h x hx).2.2⟩
  have e1 : compressT (min a.length b.length) a = .ok a := by rw [compressT, if_pos (by omega)]; rfl
  have e2 : compressT (min a.length b.length) b = .ok b := by rw [compressT, if_pos (by omega)]; rfl
  simp only [shapeEqT, e1, e2, bind, Except.bind]
  rw [foldl_and_all (fun ab : Coord × Coord => eqT ab.1 ab.2), all_eqT hl (g a ha) (g b hb), Bool.true_and]
  rfl

/-- Extents of the types `std::uint8_t` and `std::int64_t`. -/
example : shapeEqT [⟨.u8, 200⟩, ⟨.i32, 3⟩] [⟨.i64, 200⟩, ⟨.u32, 3⟩] = .ok true ∧
    shapeEqT [⟨.u8, 200⟩, ⟨.i32, 3⟩] [⟨.i64, 456⟩, ⟨.u32, 3⟩] = .ok false := by decide

/-- **C111** (different orders, partial) Shapes of any orders are equal iff the shape of the larger order, with its leading
extents replaced by their product, has the same values as the other one; for leading extents whose product is below
`2^31` (zeros counted as ones).  Missing: larger products, for which the comparison is wrong: see `C111_wraps_false`. -/
theorem C111_orders_partial (a b : List Coord) (h0 : b ≠ []) (hl : b.length ≤ a.length)
    (ha : ∀ x ∈ a, 0 < x.type.bits ∧ x.type.Fits x.value ∧ 0 ≤ x.value)
    (hb : ∀ x ∈ b, 0 < x.type.bits ∧ x.type.Fits x.value ∧ 0 ≤ x.value)
    (hp : paddedCount ((a.map (·.value)).take (a.length - b.length + 1)) < 2 ^ 31) :
    let same := ((a.map (·.value)).take (a.length - b.length + 1)).prod ::
      (a.map (·.value)).drop (a.length - b.length + 1) = b.map (·.value)
    shapeEqT a b = .ok (decide same) ∧ shapeEqT b a = .ok (decide same) := by
  intro same
  have g : ∀ l : List Coord, (∀ x ∈ l, 0 < x.type.bits ∧ x.type.Fits x.value ∧ 0 ≤ x.value) → ∀ x ∈ l, GoodExtent x :=
    fun l h x hx => ⟨(h x hx).1, (h x hx).2.1, (h x hx).2.2⟩
  have hb0 := List.length_pos_iff.2 h0
  obtain ⟨c, ec, hv, hg⟩ := compressT_good hb0 hl (g a ha) (.inr hp)
  have e2 : compressT b.length b = .ok b := by rw [compressT, if_pos rfl]; rfl
  rw [compress_eq hb0 (by simpa [vals] using hl), show (vals a).length = a.length from List.length_map _] at hv
  have hlen : c.length = b.length := by
    have := congrArg List.length hv
    simp only [vals, List.length_map, List.length_cons, List.length_drop] at this
    omega
  have hsame : same ↔ vals c = vals b := by rw [hv]
  constructor
  · simp only [shapeEqT, min_eq_right hl, ec, e2, bind, Except.bind]
    rw [foldl_and_all (fun ab : Coord × Coord => eqT ab.1 ab.2), all_eqT hlen hg (g b hb), Bool.true_and]
    exact congrArg Except.ok (decide_eq_decide.2 hsame.symm)
  · simp only [shapeEqT, min_eq_left hl, ec, e2, bind, Except.bind]
    rw [foldl_and_all (fun ab : Coord × Coord => eqT ab.1 ab.2), all_eqT hlen.symm (g b hb) hg, Bool.true_and]
    exact congrArg Except.ok (decide_eq_decide.2 (eq_comm.trans hsame.symm))

example : shapeEqT [⟨.u8, 200⟩, ⟨.u8, 200⟩, ⟨.i32, 3⟩] [⟨.u16, 40000⟩, ⟨.i64, 3⟩] = .ok true ∧
    shapeEqT [⟨.u16, 40000⟩, ⟨.i64, 3⟩] [⟨.u8, 200⟩, ⟨.u8, 201⟩, ⟨.i32, 3⟩] = .ok false := by decide
example : paddedCount (([⟨.u8, 200⟩, ⟨.u8, 200⟩, ⟨.i32, 3⟩] : List Coord).map (·.value) |>.take 2) < 2 ^ 31 := by decide

/-- **C111** (negation) Without the bound: a shape of `2^32 * 5` elements equals a shape without elements, and comparing two
shapes can overflow. -/
theorem C111_wraps_false :
    shapeEqT [⟨.u32, 65536⟩, ⟨.u32, 65536⟩, ⟨.i32, 5⟩] [⟨.i32, 0⟩, ⟨.i32, 5⟩] = .ok true ∧
    shapeEqT [⟨.i32, 65536⟩, ⟨.i32, 65536⟩, ⟨.i32, 5⟩] [⟨.i32, 0⟩, ⟨.i32, 5⟩] = .error .overflow := by decide

/-- The types represent those extents. -/
example : ∀ x ∈ ([⟨.u32, 65536⟩, ⟨.u32, 65536⟩, ⟨.i32, 5⟩] : List Coord), 0 < x.type.bits ∧ x.type.Fits x.value ∧ 0 ≤ x.value := by
  decide

/-- **C111** (strides, partial) Exactly the types for which strides compare by value: at every axis both types are unsigned or
C++ compares them in a signed type.  Missing: the other types, for which a negative stride equals a large one: see
`C111_strides_false`. -/
theorem C111_strides_exact_partial (ts us : List IntType) (hl : ts.length = us.length)
    (ht : ∀ t ∈ ts, 0 < t.bits) (hu : ∀ u ∈ us, 0 < u.bits) :
    (∀ a b : List Coord, a.map (·.type) = ts → b.map (·.type) = us → (∀ x ∈ a, x.type.Fits x.value) →
      (∀ x ∈ b, x.type.Fits x.value) → (strideEqT a b = true ↔ a.map (·.value) = b.map (·.value))) ↔
    ∀ (k : Nat) t u c, ts[k]? = some t → us[k]? = some u → IsCommonType t u c →
      c.signed = true ∨ t.signed = false ∧ u.signed = false := by
  have hz : ∀ t : IntType, 0 < t.bits → t.Fits 0 := by
    intro t h
    have : (0 : Int) < 2 ^ t.bits := by positivity
    have h2 : (2 : Int) ∣ 2 ^ t.bits := dvd_pow_self 2 (by omega)
    unfold IntType.Fits IntType.lo IntType.hi
    cases t.signed <;> first | (simp; done) | (simp; omega)
  constructor
  · intro h k t u c hk hk' hc
    by_contra hn
    rw [not_or] at hn
    obtain ⟨hs, hn⟩ := hn
    have hs : c.signed = false := by simpa using hs
    obtain ⟨h1, e1⟩ := List.getElem?_eq_some_iff.1 hk
    obtain ⟨h2, e2⟩ := List.getElem?_eq_some_iff.1 hk'
    have ht0 := ht t (e1 ▸ List.getElem_mem _)
    have hu0 := hu u (e2 ▸ List.getElem_mem _)
    have hor := hc.2.1 hs
    have hcu : c = t.common u := isCommon_eq hc
    have hW : (0 : Int) < 2 ^ c.bits := by positivity
    -- the two values that are confused
    obtain ⟨x, y, hx, hy, hxy, heq⟩ : ∃ x y : Int, t.Fits x ∧ u.Fits y ∧ x ≠ y ∧ eqT ⟨t, x⟩ ⟨u, y⟩ = true := by
      have hq : ∀ x y, eqT ⟨t, x⟩ ⟨u, y⟩ = true ↔ x % 2 ^ c.bits = y % 2 ^ c.bits := by
        intro x y
        unfold eqT
        rw [← hcu, decide_eq_true_eq, wrap_unsigned hs, wrap_unsigned hs]
      have hneg : ∀ v : IntType, 0 < v.bits → v.signed = true → v.Fits (-1) := by
        intro v hv hvs
        have : (2 : Int) ^ 1 ≤ 2 ^ v.bits := pow_le_pow_right₀ (by decide) hv
        unfold IntType.Fits IntType.lo IntType.hi
        rw [hvs]; simp only [if_true]; omega
      have hmax : ∀ v : IntType, v.bits = c.bits → v.signed = false → v.Fits (2 ^ c.bits - 1) := by
        intro v hv hvs
        unfold IntType.Fits IntType.lo IntType.hi
        rw [hvs, hv]; simp only [Bool.false_eq_true, if_false]; omega
      have hmod : (-1 : Int) % 2 ^ c.bits = (2 ^ c.bits - 1) % 2 ^ c.bits := by
        rw [show (2 ^ c.bits - 1 : Int) = -1 + 2 ^ c.bits by ring, Int.add_emod_right]
      rcases hor with hor | hor
      · have hus : u.signed = true := by
          by_contra hh; exact hn ⟨hor.2, by simpa using hh⟩
        exact ⟨2 ^ c.bits - 1, -1, hmax t hor.1 hor.2, hneg u hu0 hus, by omega, (hq _ _).2 hmod.symm⟩
      · have hts : t.signed = true := by
          by_contra hh; exact hn ⟨by simpa using hh, hor.2⟩
        exact ⟨-1, 2 ^ c.bits - 1, hneg t ht0 hts, hmax u hor.1 hor.2, by omega, (hq _ _).2 hmod⟩
    -- zero strides but at axis `k`
    let a : List Coord := ts.mapIdx fun i t => ⟨t, if i = k then x else 0⟩
    let b : List Coord := us.mapIdx fun i u => ⟨u, if i = k then y else 0⟩
    have := h a b (List.ext_getElem (by simp [a]) (by simp [a])) (List.ext_getElem (by simp [b]) (by simp [b]))
      (by
        intro z hz'
        obtain ⟨i, hi, rfl⟩ := List.mem_mapIdx.1 hz'
        simp only
        split
        · next hik => subst hik; rw [e1]; exact hx
        · exact hz _ (ht _ (List.getElem_mem _)))
      (by
        intro z hz'
        obtain ⟨i, hi, rfl⟩ := List.mem_mapIdx.1 hz'
        simp only
        split
        · next hik => subst hik; rw [e2]; exact hy
        · exact hz _ (hu _ (List.getElem_mem _)))
    have hval : a.map (·.value) = b.map (·.value) := this.1 (by
      rw [strideEqT, foldl_and_all (fun ab : Coord × Coord => eqT ab.1 ab.2), Bool.true_and, List.all_eq_true]
      intro p hp
      obtain ⟨i, hi, rfl⟩ := List.mem_iff_getElem.1 hp
      simp only [a, b, List.getElem_zip, List.getElem_mapIdx]
      by_cases hik : i = k
      · subst hik
        rw [e1, e2, if_pos rfl, if_pos rfl]
        exact heq
      · rw [if_neg hik, if_neg hik]
        unfold eqT
        simp)
    have := congrArg (fun l => l[k]?) hval
    simp only [a, b, List.getElem?_map, List.getElem?_mapIdx, hk, hk', Option.map_some, if_true, Option.some.injEq] at this
    exact hxy this
  · intro h a b rfl rfl ha hb
    rw [strideEqT, foldl_and_all (fun ab : Coord × Coord => eqT ab.1 ab.2), Bool.true_and]
    simp only [List.length_map] at hl
    refine all_zip_iff hl fun p hp => ?_
    obtain ⟨i, hi, rfl⟩ := List.mem_iff_getElem.1 hp
    rw [List.length_zip] at hi
    have hi1 : i < a.length := by omega
    have hi2 : i < b.length := by omega
    rw [List.getElem_zip]
    have m1 : a[i] ∈ a := List.getElem_mem _
    have m2 : b[i] ∈ b := List.getElem_mem _
    have hc := IntType.common_isCommon a[i].type b[i].type
    have hcase := h i a[i].type b[i].type _ (by simp [hi1]) (by simp [hi2]) hc
    rcases hcase with hs | ⟨h1, h2⟩
    · unfold eqT
      simp only [decide_eq_true_eq]
      rw [IntType.wrap_fits (IntType.common_fits (ha _ m1) hs), IntType.wrap_fits (IntType.common_fits_right (hb _ m2) hs)]
    · have p1 : 0 < a[i].type.bits := ht _ (List.mem_map_of_mem m1)
      have p2 : 0 < b[i].type.bits := hu _ (List.mem_map_of_mem m2)
      have n1 : 0 ≤ a[i].value := (fits_bounds p1 (c := a[i].type.common b[i].type) (by have := hc.1; omega) (ha _ m1)).2.2.1 h1
      have n2 : 0 ≤ b[i].value := (fits_bounds p2 (c := a[i].type.common b[i].type) (by have := hc.1; omega) (hb _ m2)).2.2.1 h2
      rw [eqT_nonneg p1 p2 (ha _ m1) (hb _ m2) n1 n2, decide_eq_true_eq]

/-- Strides of the types `std::int32_t` and `std::int64_t`; `std::uint8_t` and `std::uint64_t`. -/
example : ∀ p ∈ [(IntType.i32, IntType.i64), (.u8, .u64), (.u8, .i32)],
    (p.1.common p.2).signed = true ∨ p.1.signed = false ∧ p.2.signed = false := by decide

/-- **C111** (negation, strides) The stride `-1` equals the stride `4294967295` of type `unsigned int`. -/
theorem C111_strides_false : strideEqT [⟨.i32, -1⟩, ⟨.i32, 1⟩] [⟨.u32, 4294967295⟩, ⟨.i32, 1⟩] = true ∧
    strideEqT [⟨.i32, -1⟩, ⟨.i32, 1⟩] [⟨.i64, 4294967295⟩, ⟨.i32, 1⟩] = false := by decide

/-- **C111** The full property. -/
def C111_statement : Prop :=
  ∀ a b : List Coord, (∀ x ∈ a ++ b, 0 < x.type.bits ∧ x.type.Fits x.value) → b ≠ [] →
    (b.length ≤ a.length → (∀ x ∈ a ++ b, 0 ≤ x.value) →
      let same := ((a.map (·.value)).take (a.length - b.length + 1)).prod ::
        (a.map (·.value)).drop (a.length - b.length + 1) = b.map (·.value)
      shapeEqT a b = .ok (decide same) ∧ shapeEqT b a = .ok (decide same)) ∧
    (a.length = b.length → (strideEqT a b = true ↔ a.map (·.value) = b.map (·.value)))

theorem C111_statement_false : ¬ C111_statement := by
  intro h
  have := ((h [⟨.i32, 65536⟩, ⟨.i32, 65536⟩, ⟨.i32, 5⟩] [⟨.i32, 0⟩, ⟨.i32, 5⟩] (by decide) (by decide)).1 (by decide)
    (by decide)).1
  rw [C111_wraps_false.2] at this
  cases this

end Kwk
