import Verif.Lemmas.AuxMachine
import Verif.Lemmas.Machine

/-!
# Properties C08, C09 and C60: machine integers
-/

namespace Kwk
open Spec

/-- **C08** (index) For every position inside a shape whose number of elements is representable in the type
of the extents, the strides and the linear index are computed without overflow (or wrap-around) and are
the mathematical ones.  Coordinates may have any type that can represent the matching extent. -/
theorem C08_index_no_overflow (md : Mode) {t : IntType} {s : List Int} {p : List Coord}
    (hp : InBox s (p.map (·.value))) (hty : List.Forall₂ (fun d c => c.type.Fits d) s p)
    (hf : t.Fits s.prod) :
    asStrideM t s = .ok (distances s) ∧ linearIndexM md t s p = .ok (rowPlace s (p.map (·.value))) ∧
    linearIndex md s (p.map (·.value)) = .ok (rowPlace s (p.map (·.value))) ∧
    0 ≤ rowPlace s (p.map (·.value)) ∧ rowPlace s (p.map (·.value)) < s.prod := by
  rw [rowPlace_eq, distances_eq, ← asStride_eq_sfx]
  have hpad := padded_eq_prod hp.pos
  have hst := asStrideM_eq (t := t) hp.nonNeg (by rw [hpad]; exact hf)
  refine ⟨hst, ?_, ?_, ?_⟩
  · have hcon : containsM s p = true := by
      clear * - hp hty
      unfold containsM
      induction hty with
      | nil => rfl
      | @cons d c s p h _ ih =>
        rw [List.map_cons, inBox_cons] at hp
        rw [List.zipWith_cons_cons, List.foldr_cons, ih hp.2, IntType.wrap_fits h]
        simpa using hp.1.2
    rw [linearIndexM, hcon, show kwkAssert md true = .ok () by cases md <;> rfl]
    simp only [bind, Except.bind]
    rw [hst]
    simp only
    have hb := lin_bounds hp
    rw [linearizeM, linearizeM_aux _ _ 0 s.prod hf le_rfl ?_ ?_]
    · simp
    · rw [asStride_eq_sfx]
      clear * - hp
      generalize p.map (·.value) = q at hp
      induction hp with
      | nil => exact .nil
      | @cons d i s q h t ih =>
        exact .cons (mul_nonneg (Spec.InBox.prod_pos t).le h.1) ih
    · rw [asStride_eq_sfx]; omega
  · rw [linearIndex_ok md hp, asStride_eq_sfx]
  · rw [asStride_eq_sfx]; exact lin_bounds hp

example := C08_index_no_overflow .checked (t := .i16) (s := [100, 300]) (p := [⟨.u8, 99⟩, ⟨.i32, 299⟩]) (by decide)
  (.cons (by decide) (.cons (by decide) .nil)) (by decide)

/-! Full property C08 for `numel` and the strides: no overflow if the number of elements is representable.
It is false for empty shapes (`C08_empty_shape_overflows`), where the product of the trailing extents may
overflow before it is multiplied by zero. -/

/-- **C08** (partial) `numel` and the strides of shapes with non-negative extents are computed without overflow if
the product of the extents, counting empty axes as one, is representable; in particular if no extent is
zero and the number of elements is representable.  Missing: the other empty shapes (false). -/
theorem C08_numel_no_overflow_partial {t : IntType} {s : List Int} (hs : NonNeg s) (hne : s ≠ [])
    (hf : t.Fits (paddedCount s)) (h32 : IntType.i32.Fits (paddedCount s)) :
    numelM t s = .ok s.prod ∧ asStrideM t s = .ok (distances s) := by
  refine ⟨?_, by rw [distances_eq, ← asStride_eq_sfx]; exact asStrideM_eq hs hf⟩
  cases s with
  | nil => exact absurd rfl hne
  | cons d s =>
    rw [numelM, numelM_fold hs hf]
    · simp only [bind, Except.bind]
      rw [IntType.wrap_fits (IntType.fits_between h32 (prod_nonneg' hs) (prod_le_padded hs))]
      rfl
    · simp

example := C08_numel_no_overflow_partial (t := .i16) (s := [100, 0, 300]) (by decide) (by decide) (by decide) (by decide)

/-- **C08** (partial, common case) 32-bit extents, none of them zero. -/
theorem C08_numel_no_overflow_nonempty_partial {s : List Int} (hs : ∀ d ∈ s, 0 < d) (hne : s ≠ [])
    (hf : IntType.i32.Fits s.prod) :
    numelM .i32 s = .ok s.prod ∧ asStrideM .i32 s = .ok (distances s) :=
  C08_numel_no_overflow_partial (fun d hd => (hs d hd).le) hne (by rw [padded_eq_prod hs]; exact hf)
    (by rw [padded_eq_prod hs]; exact hf)

example := C08_numel_no_overflow_nonempty_partial (s := [46341, 46340]) (by decide) (by decide) (by decide)

/-- **C08** (negation) An empty shape whose trailing extents overflow, although it has no elements. -/
theorem C08_empty_shape_overflows :
    numel [0, 65536, 65536] = 0 ∧ numelM .i32 [0, 65536, 65536] = .error .overflow ∧
    asStrideM .i32 [0, 65536, 65536] = .error .overflow := by decide +kernel

/-- **C08** (exact, partial) 32-bit extents of any values: `numel` is right if and only if the products of all trailing
extents are representable; otherwise it overflows. -/
theorem C08_numel_exact_partial {s : List Int} (hne : s ≠ []) :
    (numelM .i32 s = .ok s.prod ↔ ∀ r, r <:+ s → IntType.i32.Fits r.prod) ∧
    (numelM .i32 s = .error .overflow ↔ ∃ r, r <:+ s ∧ ¬ IntType.i32.Fits r.prod) := by
  obtain ⟨h1, h2⟩ := numelM_fold_exact (t := .i32) rfl (by decide) s
  have hd : numelM .i32 s = (do
      let v ← kumiFoldLeft (fun (a : Res Int) b => do IntType.i32.op ((← a) * b)) s (pure 1)
      pure (IntType.i32.wrap v)) := by cases s with
    | nil => exact absurd rfl hne
    | cons => rfl
  rw [hd]
  by_cases h : ∀ r, r <:+ s → IntType.i32.Fits r.prod
  · rw [h1 h]
    simp only [bind, Except.bind]
    rw [IntType.wrap_fits (h s (List.suffix_refl s))]
    simp only [pure, Except.pure, true_iff, reduceCtorEq, false_iff, not_exists, not_and, not_not]
    exact ⟨h, h⟩
  · rw [h2 h]
    refine ⟨⟨fun e => ?_, fun e => absurd e h⟩, ⟨fun _ => ?_, fun _ => rfl⟩⟩
    · cases e
    · push Not at h; exact h

example : IntType.i32.Fits ([50000, 0, 60000] : List Int).prod ∧ numelM .i32 [50000, 0, 60000] = .ok 0 ∧
    numelM .i32 [0, 50000, 60000] = .error .overflow := by decide +kernel

/-- **C08** (exact, partial) Extents of any values, of a signed type: the derived strides are right if and only if the products of all trailing
extents but the first are representable; otherwise the computation overflows. -/
theorem C08_strides_exact_partial {t : IntType} (ht : t.signed = true) (h1 : t.Fits 1) (s : List Int) :
    (asStrideM t s = .ok (distances s) ↔ ∀ r, r <:+ s.tail → t.Fits r.prod) ∧
    (asStrideM t s = .error .overflow ↔ ∃ r, r <:+ s.tail ∧ ¬ t.Fits r.prod) := by
  have one : ∀ r, r <:+ ([] : List Int) → t.Fits r.prod := fun r hr => by rw [List.suffix_nil.1 hr]; exact h1
  match s with
  | [] =>
    refine ⟨⟨fun _ => one, fun _ => rfl⟩, ⟨fun e => (by cases e), fun ⟨r, hr, h⟩ => absurd (one r hr) h⟩⟩
  | [d] =>
    refine ⟨⟨fun _ => one, fun _ => rfl⟩, ⟨fun e => (by cases e), fun ⟨r, hr, h⟩ => absurd (one r hr) h⟩⟩
  | d :: e :: ds =>
    obtain ⟨h2, h3⟩ := asStrideM_fold_exact ht h1 (e :: ds)
    have hd : asStrideM t (d :: e :: ds) = kumiFoldLeft (fun (a : Res Strides) m => do
        let a ← a
        let g ← t.op (m * a.headD 0)
        pure (g :: a)) (e :: ds) (pure [1]) := rfl
    rw [hd, distances_eq]
    rw [List.tail_cons]
    by_cases h : ∀ r, r <:+ e :: ds → t.Fits r.prod
    · rw [h2 h]
      refine ⟨⟨fun _ => h, fun _ => rfl⟩, ⟨fun e => (by cases e), fun ⟨r, hr, g⟩ => absurd (h r hr) g⟩⟩
    · rw [h3 h]
      refine ⟨⟨fun e => (by cases e), fun e => absurd e h⟩, ⟨fun _ => ?_, fun _ => rfl⟩⟩
      push Not at h; exact h

/-- The strides of an empty shape may be fine although `numel` overflows, and the other way round. -/
example : asStrideM .i32 [65536, 32768, 0] = .ok [0, 0, 1] ∧ asStrideM .i32 [65536, 65536] = .ok [65536, 1] ∧
    numelM .i32 [65536, 65536] = .error .overflow ∧ asStrideM .i32 [0, 65536, 65536] = .error .overflow := by decide +kernel

/-- With 64-bit extents `numel` is truncated to 32 bits. -/
theorem C08_numel_truncated : numelM .i64 [65536, 65536] = .ok 0 ∧ numel [65536, 65536] = 4294967296 := by
  decide +kernel

/-- **C08** The full property for `int` extents. -/
def C08_statement : Prop :=
  ∀ (md : Mode) (s : List Int), s ≠ [] → NonNeg s → IntType.i32.Fits s.prod →
    numelM .i32 s = .ok s.prod ∧ asStrideM .i32 s = .ok (distances s) ∧
    ∀ p, InBox s p → ∃ k, linearIndexM md .i32 s (p.map fun i => ⟨.i32, i⟩) = .ok k ∧
      (positions s)[k.toNat]? = some p

theorem C08_statement_false : ¬ C08_statement := by
  intro h
  exact absurd (h .checked [0, 65536, 65536] (by decide) (by decide) (by decide)).1 (by decide +kernel)

example : linearIndexM .checked .i32 [30000, 70000] [⟨.i32, 29999⟩, ⟨.i64, 69999⟩] = .ok 2099999999 := by
  decide +kernel
example : IntType.i32.Fits ([30000, 70000] : List Int).prod := by decide +kernel
example : linearIndexM .checked .i32 [65536, 65536] [⟨.i32, 65535⟩, ⟨.i32, 65535⟩] = .error .overflow := by
  decide +kernel

/-! ## C09

Full property: `contains` is true iff every coordinate is in `[0, extent)`, for all coordinate types.
False: negative coordinates are accepted, and the extent is converted to the type of the coordinate. -/

/-- **C09** (partial) For non-negative coordinates whose types can represent the matching extents, `contains`
is exact.  Missing: negative coordinates and narrow coordinate types (false). -/
theorem C09_contains_partial {s : List Int} {p : List Coord} (h0 : ∀ c ∈ p, 0 ≤ c.value)
    (hty : List.Forall₂ (fun d c => c.type.Fits d) s p) :
    containsM s p = true ↔ InBox s (p.map (·.value)) := by
  unfold containsM
  induction hty with
  | nil => simp [inBox_nil]
  | @cons d c s p h _ ih =>
    rw [List.zipWith_cons_cons, List.foldr_cons, List.map_cons, inBox_cons,
      ← ih fun c hc => h0 c (by simp [hc]), IntType.wrap_fits h, Bool.and_eq_true, decide_eq_true_eq]
    have := h0 c (by simp)
    constructor
    · rintro ⟨h1, h2⟩; exact ⟨⟨this, h1⟩, h2⟩
    · rintro ⟨h1, h2⟩; exact ⟨h1.2, h2⟩

example := C09_contains_partial (s := [2, 300]) (p := [⟨.u8, 1⟩, ⟨.i16, 299⟩]) (by decide) (.cons (by decide) (.cons (by decide) .nil))

/-- **C09** (upper bounds) Whatever the signs, a coordinate at or above its extent is rejected as long as its type
can represent the extent. -/
theorem C09_contains_upper_partial {s : List Int} {p : List Coord}
    (hty : List.Forall₂ (fun d c => c.type.Fits d) s p) :
    containsM s p = true ↔ List.Forall₂ (fun d c => c.value < d) s p := by
  unfold containsM
  induction hty with
  | nil => simp
  | @cons d c s p h _ ih =>
    rw [List.zipWith_cons_cons, List.foldr_cons, List.forall₂_cons, ← ih, IntType.wrap_fits h,
      Bool.and_eq_true, decide_eq_true_eq]

example := C09_contains_upper_partial (s := [2, 300]) (p := [⟨.i8, -1⟩, ⟨.i16, 299⟩]) (.cons (by decide) (.cons (by decide) .nil))

/-- **C09** (partial) On unbounded integers `contains` accepts exactly the valid positions among the
positions without negative coordinates. -/
theorem C09_contains_unbounded_partial {s p : List Int} (hl : s.length = p.length) (h0 : NonNeg p) :
    contains s p = true ↔ InBox s p := by
  unfold contains
  induction s generalizing p with
  | nil => cases p with
    | nil => simp [inBox_nil]
    | cons => simp at hl
  | cons d s ih => cases p with
    | nil => simp at hl
    | cons i p =>
      rw [List.zipWith_cons_cons, List.foldr_cons, inBox_cons,
        ← ih (by simpa using hl) fun x hx => h0 x (by simp [hx]), Bool.and_eq_true, decide_eq_true_eq]
      have := h0 i (by simp)
      constructor
      · rintro ⟨h1, h2⟩; exact ⟨⟨this, h1⟩, h2⟩
      · rintro ⟨h1, h2⟩; exact ⟨h1.2, h2⟩

example : contains [3, 4] [2, 3] = true ∧ contains [3, 4] [2, 4] = false ∧ contains [3, 4] [3, 0] = false := by
  decide

/-- **C09** (types, partial) Exactly which coordinate types are safe for an axis of extent `d`: `contains` is right for
all values of the type if and only if the type is unsigned and can represent `d`. -/
theorem C09_types_exact_partial (t : IntType) (ht : 0 < t.bits) (d : Int) (hd : 0 ≤ d) :
    (∀ v, t.Fits v → (containsM [d] [⟨t, v⟩] = true ↔ 0 ≤ v ∧ v < d)) ↔ t.signed = false ∧ t.Fits d := by
  have hc : ∀ v, containsM [d] [⟨t, v⟩] = true ↔ v < t.wrap d := by intro v; simp [containsM]
  simp only [hc]
  have hw := IntType.wrap_mem t ht d
  have hp : (0 : Int) < 2 ^ t.bits := by positivity
  have hp2 : (2 : Int) ∣ 2 ^ t.bits := dvd_pow_self 2 (by omega)
  constructor
  · intro h
    have h0 : t.Fits 0 := by
      unfold IntType.Fits IntType.lo IntType.hi; split <;> omega
    have hu : t.signed = false := by
      by_contra hs
      simp only [Bool.not_eq_false] at hs
      have h1 : t.Fits (-1) := by unfold IntType.Fits IntType.lo IntType.hi; simp only [hs, if_true]; omega
      have a1 := h (-1) h1
      have a0 := h 0 h0
      have e : ¬ (-1 : Int) < t.wrap d := fun hh => by have := a1.1 hh; omega
      have : ¬ (0 : Int) < d := fun hh => by have := a0.2 ⟨le_rfl, hh⟩; omega
      have : d = 0 := by omega
      subst this
      rw [IntType.wrap_fits h0] at e; omega
    refine ⟨hu, ?_⟩
    have hlo : t.lo = 0 := by simp [IntType.lo, hu]
    by_contra hn
    have hd' : t.hi ≤ d := by
      by_contra hlt; exact hn ⟨by omega, by omega⟩
    have hm : t.Fits (t.hi - 1) := by
      unfold IntType.Fits; rw [hlo]
      have : 1 ≤ t.hi := by simp only [IntType.hi, hu]; simp; omega
      omega
    have := (h _ hm).2 ⟨by have := hm.1; omega, by omega⟩
    have := hw.2
    omega
  · rintro ⟨hu, hf⟩ v hv
    rw [IntType.wrap_fits hf]
    have hlo : t.lo = 0 := by simp [IntType.lo, hu]
    have := hv.1
    omega

example : ¬ IntType.u8.Fits 256 ∧ containsM [256] [⟨.u8, 255⟩] = false ∧ containsM [255] [⟨.u8, 254⟩] = true := by
  decide +kernel

/-- **C09** (negation) A negative coordinate is accepted (and then linearized to a negative index in checked
builds); a valid 8-bit coordinate is rejected by an axis of extent 256, a valid `int` coordinate by an unsigned
axis of extent `2^32-1`. -/
theorem C09_contains_wrong :
    containsM [3, 4] [⟨.i32, 1⟩, ⟨.i32, -1⟩] = true ∧
    linearIndexM .checked .i32 [3, 4] [⟨.i32, 0⟩, ⟨.i32, -1⟩] = .ok (-1) ∧
    containsM [256] [⟨.u8, 5⟩] = false ∧
    containsM [4294967295] [⟨.i32, 5⟩] = false := by decide +kernel

/-- **C09** The full property. -/
def C09_statement : Prop :=
  ∀ (s : List Int) (p : List Coord), s.length = p.length → NonNeg s → (∀ c ∈ p, c.type.Fits c.value) →
    (containsM s p = true ↔ InBox s (p.map (·.value)))

theorem C09_statement_false : ¬ C09_statement := by
  intro h
  have := h [3, 4] [⟨.i32, 1⟩, ⟨.i32, -1⟩] rfl (by decide) (by decide +kernel)
  exact absurd (this.1 (by decide +kernel)) (by decide)

example : containsM [200, 300] [⟨.u8, 199⟩, ⟨.i32, 299⟩] = true ∧
    containsM [200, 300] [⟨.u8, 200⟩, ⟨.i32, 299⟩] = false := by decide +kernel

/-! ## C60 -/

/-- **C60** With counters of the types of the extents (any width and signedness), the loops of `for_each` and
`for_until` never run for ever nor overflow: they behave as the loops on mathematical integers, for
every callback.  (`C20`, `C22` say which positions those visit.) -/
theorem C60_loops_terminate {σ : Type} (ds : List Coord) (hty : ∀ c ∈ ds, c.type.Fits c.value)
    (fuel : Nat) (hpos : 0 < fuel) (hfuel : ∀ c ∈ ds, c.value < fuel) :
    (∀ f : List Int → StateT σ Res Unit, forEachM fuel f ds = forEach f (ds.map (·.value))) ∧
    (∀ f : List Int → StateT σ Res Bool, forUntilM fuel f ds = forUntil f (ds.map (·.value))) := by
  constructor
  · intro f
    unfold forEachM forEach kumiFoldLeft
    refine congrFun ?_ []
    induction ds with
    | nil => rfl
    | cons d ds ih =>
      rw [List.foldr_cons, List.map_cons, List.foldr_cons,
        ih (fun c hc => hty c (by simp [hc])) (fun c hc => hfuel c (by simp [hc]))]
      funext is
      exact forLoopM_eq (hty d (by simp)) _ fuel (hfuel d (by simp)) hpos
  · intro f
    unfold forUntilM forUntil kumiFoldLeft
    refine congrFun (congrFun ?_ []) false
    induction ds with
    | nil => rfl
    | cons d ds ih =>
      rw [List.foldr_cons, List.map_cons, List.foldr_cons,
        ih (fun c hc => hty c (by simp [hc])) (fun c hc => hfuel c (by simp [hc]))]
      funext is found
      exact untilLoopM_eq (hty d (by simp)) _ found fuel (hfuel d (by simp)) hpos

/-- An axis with the largest 8-bit extent: `255` iterations, then the loop ends. -/
example : ((forEachM 256 (fun _ s => .ok ((), s + 1)) [⟨.u8, 255⟩]) 0).map (·.2) = (.ok 255 : Res Nat) := by
  decide +kernel

end Kwk
