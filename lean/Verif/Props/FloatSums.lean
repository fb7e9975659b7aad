import Verif.Lemmas.FloatSums
import Verif.Lemmas.NumberWitnesses
import Verif.Props.Reading
import Verif.Props.Writing

/-!
# Property C133: sums, dot products and scans of floating-point elements

`n` is the number of elements, `u` bounds the relative error of a rounding.
-/

namespace Kwk
open Spec

/-- The elements are the finite numbers `val`. -/
abbrev Numbers (c : Container) (m : Mem (Option ℚ)) (val : List Int → ℚ) : Prop := Elems c m fun p => some (val p)

private theorem reduceInitF_eq (ra rs : ℚ → ℚ) {m : Mem (Option ℚ)} {c : Container} {val : List Int → ℚ} (h : Numbers c m val)
    (init : ℚ) : reduceInitF ra rs m c (some init) =
      .ok (some (((positions c.shape).map val).foldl (fun a b => ra (rs (a + b))) init)) := by
  rw [reduceInitF, reduce_eq _ _ h, ← foldl_addToF, List.map_map]
  rfl

private theorem reduceF_eq {r : ℚ → ℚ} (hi : ∀ x, r (r x) = r x) {m : Mem (Option ℚ)} {c : Container} {val : List Int → ℚ}
    (h : Numbers c m val) :
    reduceF r m c = .ok (some (((positions c.shape).map val).foldl (fun a b => r (a + b)) 0)) := by
  rw [reduceF, reduceInitF_eq r r h]
  simp only [hi]

private theorem dotInitF_eq (md : Mode) (ra rs rp : ℚ → ℚ) {m : Mem (Option ℚ)} {c1 c2 : Container} {v1 v2 : List Int → ℚ}
    (hs : c1.shape = c2.shape) (h1 : Numbers c1 m v1) (h2 : Numbers c2 m v2) (init : ℚ) :
    let s := ((positions c1.shape).map fun p => rp (v1 p * v2 p)).foldl (fun a b => ra (rs (a + b))) init
    transformReduceInitF ra rs rp m c1 c2 (some init) = .ok (some s) ∧
    innerProductInitF md ra rs rp m c1 c2 (some init) = .ok (some s) := by
  intro s
  have e : ((positions c1.shape).map fun p => timesF rp (some (v1 p)) (some (v2 p))).foldl (addToF ra rs) (some init) = some s := by
    rw [← foldl_addToF, List.map_map]
    rfl
  have := C29_pairwise_fold md m c1 c2 _ _ hs h1 h2 (some init) (addToF ra rs) (timesF rp)
  rw [e] at this
  exact this

/-- **C133** `reduce(c)` of elements of one floating-point type: the error bound of sequential summation, `n - 1` roundings. -/
theorem C133_reduce (u : ℚ) (hu : 0 ≤ u) (r : ℚ → ℚ) (hr : RelError u r) (hi : ∀ x, r (r x) = r x) (m : Mem (Option ℚ))
    (c : Container) (val : List Int → ℚ) (h : Numbers c m val) (hv : ∀ p, InBox c.shape p → r (val p) = val p) :
    ∃ s, reduceF r m c = .ok (some s) ∧
      |s - ((positions c.shape).map val).sum| ≤
        ((1 + u) ^ ((positions c.shape).length - 1) - 1) * ((positions c.shape).map fun p => |val p|).sum := by
  refine ⟨_, reduceF_eq hi h, ?_⟩
  have := (fold_zero hu hr 0 val val (fun p => |val p|) (positions c.shape) (fun p _ => Approx.refl (le_refl _))
    fun p hp => hv p (mem_positions.1 hp)).err
  rwa [Nat.zero_add] at this

/-- **C133** `reduce(c, +, init)` with any floating-point types of elements and initial value. -/
theorem C133_reduce_init (u : ℚ) (hu : 0 ≤ u) (ra rs : ℚ → ℚ) (ha : RelError u ra) (hs : RelError u rs) (m : Mem (Option ℚ))
    (c : Container) (val : List Int → ℚ) (h : Numbers c m val) (init : ℚ) :
    ∃ s, reduceInitF ra rs m c (some init) = .ok (some s) ∧
      |s - (init + ((positions c.shape).map val).sum)| ≤
        ((1 + u) ^ (2 * (positions c.shape).length) - 1) * (|init| + ((positions c.shape).map fun p => |val p|).sum) := by
  refine ⟨_, reduceInitF_eq ra rs h init, ?_⟩
  have := (fold_approx hu 2 _ (step_two hu ha hs) 0 val val (fun p => |val p|) (positions c.shape)
    (fun p _ => Approx.refl (le_refl _)) 0 init init |init| (le_refl 0) (Approx.refl (le_refl _))).err
  rwa [Nat.zero_add] at this

example := C133_reduce_init ((1 / 2) ^ 24) (by positivity) _ (roundBits 53) (roundBits_error 24)
  (fun x => (roundBits_error 53 x).trans (mul_le_mul_of_nonneg_right (by norm_num) (abs_nonneg x))) exRats exIn _ exRats_elems 1

/-- **C133** `transform_reduce(a, b)` and `inner_product(a, b)`: `n` roundings. -/
theorem C133_dot (md : Mode) (u : ℚ) (hu : 0 ≤ u) (r : ℚ → ℚ) (hr : RelError u r) (hi : ∀ x, r (r x) = r x) (m : Mem (Option ℚ))
    (c1 c2 : Container) (hs : c1.shape = c2.shape) (v1 v2 : List Int → ℚ) (h1 : Numbers c1 m v1) (h2 : Numbers c2 m v2)
    (hn : positions c1.shape ≠ []) :
    ∃ s, transformReduceF r m c1 c2 = .ok (some s) ∧ innerProductF md r m c1 c2 = .ok (some s) ∧
      |s - ((positions c1.shape).map fun p => v1 p * v2 p).sum| ≤
        ((1 + u) ^ (positions c1.shape).length - 1) * ((positions c1.shape).map fun p => |v1 p * v2 p|).sum := by
  have e := dotInitF_eq md r r r hs h1 h2 0
  simp only [hi] at e
  refine ⟨_, e.1, e.2, ?_⟩
  have := (fold_zero hu hr 1 (fun p => r (v1 p * v2 p)) (fun p => v1 p * v2 p) (fun p => |v1 p * v2 p|) (positions c1.shape)
    (fun p _ => (Approx.refl (le_refl _)).rnd hu hr) fun p _ => hi _).err
  have hl := List.length_pos_iff.2 hn
  rwa [show 1 + ((positions c1.shape).length - 1) = (positions c1.shape).length by omega] at this

/-- **C133** `transform_reduce(a, b, init)` and `inner_product(a, b, init)` with any floating-point types. -/
theorem C133_dot_init (md : Mode) (u : ℚ) (hu : 0 ≤ u) (ra rs rp : ℚ → ℚ) (ha : RelError u ra) (hrs : RelError u rs)
    (hrp : RelError u rp) (m : Mem (Option ℚ)) (c1 c2 : Container) (hs : c1.shape = c2.shape) (v1 v2 : List Int → ℚ)
    (h1 : Numbers c1 m v1) (h2 : Numbers c2 m v2) (init : ℚ) :
    ∃ s, transformReduceInitF ra rs rp m c1 c2 (some init) = .ok (some s) ∧
      innerProductInitF md ra rs rp m c1 c2 (some init) = .ok (some s) ∧
      |s - (init + ((positions c1.shape).map fun p => v1 p * v2 p).sum)| ≤
        ((1 + u) ^ (2 * (positions c1.shape).length + 1) - 1) *
          (|init| + ((positions c1.shape).map fun p => |v1 p * v2 p|).sum) := by
  have e := dotInitF_eq md ra rs rp hs h1 h2 init
  refine ⟨_, e.1, e.2, ?_⟩
  have := (fold_approx hu 2 _ (step_two hu ha hrs) 1 (fun p => rp (v1 p * v2 p)) (fun p => v1 p * v2 p)
    (fun p => |v1 p * v2 p|) (positions c1.shape) (fun p _ => (Approx.refl (le_refl _)).rnd hu hrp) 1 init init |init|
    (le_refl 1) ((Approx.refl (le_refl _)).mono hu (by omega))).err
  rwa [show 1 + 2 * (positions c1.shape).length = 2 * (positions c1.shape).length + 1 by omega] at this

example := C133_dot_init .checked ((1 / 2) ^ 24) (by positivity) _ _ _ (roundBits_error 24) (roundBits_error 24) (roundBits_error 24)
  exRats exIn exIn rfl _ _ exRats_elems exRats_elems (1 / 3)

/-- **C133** `inclusive_scan(in, out, init)`: the element of rank `k` is the sum up to it, with `k + 1` roundings; the output may be
the input. -/
theorem C133_inclusive_scan (u : ℚ) (hu : 0 ≤ u) (r : ℚ → ℚ) (hr : RelError u r) (hi : ∀ x, r (r x) = r x) (m : Mem (Option ℚ))
    (inp out : Container) (hshape : out.shape = inp.shape) (hd : Distinct out) (hv : Valid out m) (hc : NoClobber out inp)
    (val : List Int → ℚ) (h : Numbers inp m val) (init : ℚ) :
    ∃ m', inclusiveScanF r r m inp out (some init) = .ok m' ∧ SameOutside out m m' ∧
      ∀ k p, (positions inp.shape)[k]? = some p → ∃ s, out.get m' p = .ok (some s) ∧
        |s - (init + (((positions inp.shape).take (k + 1)).map val).sum)| ≤
          ((1 + u) ^ (k + 1) - 1) * (|init| + (((positions inp.shape).take (k + 1)).map fun p => |val p|).sum) := by
  obtain ⟨m', e1, e2, e3⟩ := C39_inclusive_scan m inp out hshape hd hv hc _ h (some init) (addToF r r) (fun e => e)
  refine ⟨m', e1, e2, fun k p hk => ?_⟩
  refine ⟨_, by
    rw [e3 k p hk, show (((positions inp.shape).take (k + 1)).map fun p => some (val p)) =
      ((((positions inp.shape).take (k + 1)).map val).map some) by rw [List.map_map]; rfl, foldl_addToF], ?_⟩
  simp only [hi]
  have hlen : ((positions inp.shape).take (k + 1)).length = k + 1 := by
    rw [List.length_take]
    have := (List.getElem?_eq_some_iff.1 hk).1
    omega
  have := (fold_approx hu 1 _ (step_one hu hr) 0 val val (fun p => |val p|) ((positions inp.shape).take (k + 1))
    (fun p _ => Approx.refl (le_refl _)) 0 init init |init| (le_refl 0) (Approx.refl (le_refl _))).err
  rwa [hlen, Nat.zero_add, one_mul] at this

example := C133_inclusive_scan ((1 / 2) ^ 24) (by positivity) _ (roundBits_error 24)
  (fun x => roundBits_fix (roundBits_representable (by decide) x)) exRats exIn exOut rfl exOut_distinct exRats_valid ex_noClobber _
  exRats_elems (1 / 3)

/-- **C133** `exclusive_scan(in, out, init)`: the element of rank `k` is the sum before it, with `k` roundings.  The output may not
overlap the input so that an element is overwritten before it is used (`C39_exclusive_scan_in_place_wrong`). -/
theorem C133_exclusive_scan (u : ℚ) (hu : 0 ≤ u) (r : ℚ → ℚ) (hr : RelError u r) (hi : ∀ x, r (r x) = r x) (m : Mem (Option ℚ))
    (inp out : Container) (hshape : out.shape = inp.shape) (hd : Distinct out) (hv : Valid out m) (hc : NoClobber out inp)
    (hc' : ∀ p, InBox out.shape p → out.addr p ≠ inp.addr p) (val : List Int → ℚ) (h : Numbers inp m val) (init : ℚ) :
    ∃ m', exclusiveScanF r r m inp out (some init) = .ok m' ∧ SameOutside out m m' ∧
      ∀ k p, (positions inp.shape)[k]? = some p → ∃ s, out.get m' p = .ok (some s) ∧
        |s - (init + (((positions inp.shape).take k).map val).sum)| ≤
          ((1 + u) ^ k - 1) * (|init| + (((positions inp.shape).take k).map fun p => |val p|).sum) := by
  obtain ⟨m', e1, e2, e3⟩ := C39_exclusive_scan_partial m inp out hshape hd hv hc hc' _ h (some init) (addToF r r) (fun e => e)
  refine ⟨m', e1, e2, fun k p hk => ?_⟩
  refine ⟨_, by
    rw [e3 k p hk, show (((positions inp.shape).take k).map fun p => some (val p)) =
      ((((positions inp.shape).take k).map val).map some) by rw [List.map_map]; rfl, foldl_addToF], ?_⟩
  simp only [hi]
  have hlen : ((positions inp.shape).take k).length = k := by
    rw [List.length_take]
    have := (List.getElem?_eq_some_iff.1 hk).1
    omega
  have := (fold_approx hu 1 _ (step_one hu hr) 0 val val (fun p => |val p|) ((positions inp.shape).take k)
    (fun p _ => Approx.refl (le_refl _)) 0 init init |init| (le_refl 0) (Approx.refl (le_refl _))).err
  rwa [hlen, Nat.zero_add, one_mul] at this

example := C133_exclusive_scan ((1 / 2) ^ 24) (by positivity) _ (roundBits_error 24)
  (fun x => roundBits_fix (roundBits_representable (by decide) x)) exRats exIn exOut rfl exOut_distinct exRats_valid ex_noClobber
  (fun p hp => ex_disjoint p p hp hp) _ exRats_elems (1 / 3)

/-- Two roundings one after the other. -/
private theorem relError_comp {ua us : ℚ} (ha0 : 0 ≤ ua) {ra rs : ℚ → ℚ} (ha : RelError ua ra) (hs : RelError us rs) :
    RelError ((1 + ua) * (1 + us) - 1) fun x => ra (rs x) := by
  intro x
  have h1 := ha (rs x)
  have h2 := hs x
  have h3 : |rs x| ≤ (1 + us) * |x| := by
    have := abs_add_le (rs x - x) x
    rw [sub_add_cancel] at this
    linarith
  have h4 := abs_add_le (ra (rs x) - rs x) (rs x - x)
  rw [sub_add_sub_cancel] at h4
  have h5 := mul_le_mul_of_nonneg_left h3 ha0
  nlinarith [abs_nonneg x]

private theorem foldl_two {ua us : ℚ} (ha0 : 0 ≤ ua) (hs0 : 0 ≤ us) {ra rs : ℚ → ℚ} (ha : RelError ua ra) (hs : RelError us rs)
    {ι : Type} (l : List ι) (val : ι → ℚ) (init : ℚ) :
    |(l.map val).foldl (fun a b => ra (rs (a + b))) init - (init + (l.map val).sum)| ≤
      (((1 + ua) * (1 + us)) ^ l.length - 1) * (|init| + (l.map fun p => |val p|).sum) := by
  have hu : (0 : ℚ) ≤ (1 + ua) * (1 + us) - 1 := by nlinarith [mul_nonneg ha0 hs0]
  have := (fold_approx hu 1 _ (step_one hu (relError_comp ha0 ha hs)) 0 val val (fun p => |val p|) l
    (fun p _ => Approx.refl (le_refl _)) 0 init init |init| (le_refl 0) (Approx.refl (le_refl _))).err
  rwa [Nat.zero_add, one_mul, add_sub_cancel] at this

/-- **C133** Sums and scans whose initial value and elements have different types: each addition has one rounding in the common type,
with error `us`, and one in the type of the initial value, with error `ua`. -/
theorem C133_types (ua us : ℚ) (ha0 : 0 ≤ ua) (hs0 : 0 ≤ us) (ra rs : ℚ → ℚ) (ha : RelError ua ra) (hs : RelError us rs)
    (m : Mem (Option ℚ)) (inp : Container) (val : List Int → ℚ) (h : Numbers inp m val) (init : ℚ) :
    (∃ s, reduceInitF ra rs m inp (some init) = .ok (some s) ∧
      |s - (init + ((positions inp.shape).map val).sum)| ≤
        (((1 + ua) * (1 + us)) ^ (positions inp.shape).length - 1) * (|init| + ((positions inp.shape).map fun p => |val p|).sum)) ∧
    ∀ out, out.shape = inp.shape → Distinct out → Valid out m → NoClobber out inp →
      (∃ m', inclusiveScanF ra rs m inp out (some init) = .ok m' ∧ SameOutside out m m' ∧
        ∀ k p, (positions inp.shape)[k]? = some p → ∃ s, out.get m' p = .ok (some s) ∧
          |s - (init + (((positions inp.shape).take (k + 1)).map val).sum)| ≤
            (((1 + ua) * (1 + us)) ^ (k + 1) - 1) *
              (|init| + (((positions inp.shape).take (k + 1)).map fun p => |val p|).sum)) ∧
      ((∀ p, InBox out.shape p → out.addr p ≠ inp.addr p) →
        ∃ m', exclusiveScanF ra rs m inp out (some init) = .ok m' ∧ SameOutside out m m' ∧
          ∀ k p, (positions inp.shape)[k]? = some p → ∃ s, out.get m' p = .ok (some s) ∧
            |s - (init + (((positions inp.shape).take k).map val).sum)| ≤
              (((1 + ua) * (1 + us)) ^ k - 1) * (|init| + (((positions inp.shape).take k).map fun p => |val p|).sum)) := by
  refine ⟨⟨_, reduceInitF_eq ra rs h init, foldl_two ha0 hs0 ha hs _ val init⟩, fun out hshape hd hv hc => ⟨?_, fun hc' => ?_⟩⟩
  · obtain ⟨m', e1, e2, e3⟩ := C39_inclusive_scan m inp out hshape hd hv hc _ h (some init) (addToF ra rs) (fun e => e)
    refine ⟨m', e1, e2, fun k p hk => ⟨_, by
      rw [e3 k p hk, show (((positions inp.shape).take (k + 1)).map fun p => some (val p)) =
        ((((positions inp.shape).take (k + 1)).map val).map some) by rw [List.map_map]; rfl, foldl_addToF], ?_⟩⟩
    have hlen : ((positions inp.shape).take (k + 1)).length = k + 1 := by
      rw [List.length_take]
      have := (List.getElem?_eq_some_iff.1 hk).1
      omega
    have := foldl_two ha0 hs0 ha hs ((positions inp.shape).take (k + 1)) val init
    rwa [hlen] at this
  · obtain ⟨m', e1, e2, e3⟩ := C39_exclusive_scan_partial m inp out hshape hd hv hc hc' _ h (some init) (addToF ra rs) (fun e => e)
    refine ⟨m', e1, e2, fun k p hk => ⟨_, by
      rw [e3 k p hk, show (((positions inp.shape).take k).map fun p => some (val p)) =
        ((((positions inp.shape).take k).map val).map some) by rw [List.map_map]; rfl, foldl_addToF], ?_⟩⟩
    have hlen : ((positions inp.shape).take k).length = k := by
      rw [List.length_take]
      have := (List.getElem?_eq_some_iff.1 hk).1
      omega
    have := foldl_two ha0 hs0 ha hs ((positions inp.shape).take k) val init
    rwa [hlen] at this

/-- A `float` sum of `double` elements: the additions are rounded to 53 bits, the results to 24. -/
example := (C133_types ((1 / 2) ^ 24) ((1 / 2) ^ 53) (by positivity) (by positivity) _ _ (roundBits_error 24) (roundBits_error 53)
  exRats exIn _ exRats_elems (1 / 3)).2 exOut rfl exOut_distinct exRats_valid ex_noClobber

/-- **C133** Dot products whose initial value and elements have different types: products have error `up`, sums `us`, results `ua`. -/
theorem C133_dot_types (md : Mode) (ua us up : ℚ) (ha0 : 0 ≤ ua) (hs0 : 0 ≤ us) (hp0 : 0 ≤ up) (ra rs rp : ℚ → ℚ)
    (ha : RelError ua ra) (hrs : RelError us rs) (hrp : RelError up rp) (m : Mem (Option ℚ)) (c1 c2 : Container)
    (hs : c1.shape = c2.shape) (v1 v2 : List Int → ℚ) (h1 : Numbers c1 m v1) (h2 : Numbers c2 m v2) (init : ℚ) :
    ∃ s, transformReduceInitF ra rs rp m c1 c2 (some init) = .ok (some s) ∧
      innerProductInitF md ra rs rp m c1 c2 (some init) = .ok (some s) ∧
      |s - (init + ((positions c1.shape).map fun p => v1 p * v2 p).sum)| ≤
        (((1 + ua) * (1 + us)) ^ (positions c1.shape).length * (1 + up) - 1) *
          (|init| + ((positions c1.shape).map fun p => |v1 p * v2 p|).sum) := by
  have e := dotInitF_eq md ra rs rp hs h1 h2 init
  refine ⟨_, e.1, e.2, ?_⟩
  have key := foldl_two ha0 hs0 ha hrs (positions c1.shape) (fun p => rp (v1 p * v2 p)) init
  have hsum : ∀ l : List (List Int), |(l.map fun p => rp (v1 p * v2 p)).sum - (l.map fun p => v1 p * v2 p).sum| ≤
        up * (l.map fun p => |v1 p * v2 p|).sum ∧
      (l.map fun p => |rp (v1 p * v2 p)|).sum ≤ (1 + up) * (l.map fun p => |v1 p * v2 p|).sum := by
    intro l
    induction l with
    | nil => simp
    | cons p l ih =>
      simp only [List.map_cons, List.sum_cons]
      have g := hrp (v1 p * v2 p)
      have g1 := abs_add_le (rp (v1 p * v2 p) - v1 p * v2 p) (v1 p * v2 p)
      rw [sub_add_cancel] at g1
      have g2 := abs_add_le (rp (v1 p * v2 p) - v1 p * v2 p)
        ((l.map fun p => rp (v1 p * v2 p)).sum - (l.map fun p => v1 p * v2 p).sum)
      rw [show ∀ a b c d : ℚ, a - b + (c - d) = a + c - (b + d) by intros; ring] at g2
      constructor <;> linarith [ih.1, ih.2]
  obtain ⟨g1, g2⟩ := hsum (positions c1.shape)
  have hU : (1 : ℚ) ≤ ((1 + ua) * (1 + us)) ^ (positions c1.shape).length :=
    one_le_pow₀ (by nlinarith [mul_nonneg ha0 hs0])
  set U := ((1 + ua) * (1 + us)) ^ (positions c1.shape).length
  set A := ((positions c1.shape).map fun p => |v1 p * v2 p|).sum
  set s := ((positions c1.shape).map fun p => rp (v1 p * v2 p)).foldl (fun a b => ra (rs (a + b))) init
  have g3 := abs_add_le (s - (init + ((positions c1.shape).map fun p => rp (v1 p * v2 p)).sum))
    (((positions c1.shape).map fun p => rp (v1 p * v2 p)).sum - ((positions c1.shape).map fun p => v1 p * v2 p).sum)
  rw [show ∀ a b c d : ℚ, a - (b + c) + (c - d) = a - (b + d) by intros; ring] at g3
  have g4 := mul_le_mul_of_nonneg_left g2 (sub_nonneg.2 hU)
  have g5 : 0 ≤ U * up * |init| := by positivity
  nlinarith

example := C133_dot_types .checked ((1 / 2) ^ 24) ((1 / 2) ^ 53) ((1 / 2) ^ 24) (by positivity) (by positivity) (by positivity) _ _ _
  (roundBits_error 24) (roundBits_error 53) (roundBits_error 24) exRats exIn exIn rfl _ _ exRats_elems exRats_elems (1 / 3)

/-- **C133** A sum is finite exactly if the initial value and all elements are. -/
theorem C133_finite (md : Mode) (ra rs rp : ℚ → ℚ) (m : Mem (Option ℚ)) (c1 c2 : Container) (hs : c1.shape = c2.shape)
    (v1 v2 : List Int → Option ℚ) (h1 : Elems c1 m v1) (h2 : Elems c2 m v2) (init : Option ℚ) :
    (∃ s, reduceInitF ra rs m c1 init = .ok s ∧ (s.isSome ↔ init.isSome ∧ ∀ p, InBox c1.shape p → (v1 p).isSome)) ∧
    (∃ s, transformReduceInitF ra rs rp m c1 c2 init = .ok s ∧ innerProductInitF md ra rs rp m c1 c2 init = .ok s ∧
      (s.isSome ↔ init.isSome ∧ ∀ p, InBox c1.shape p → (v1 p).isSome ∧ (v2 p).isSome)) := by
  refine ⟨⟨_, reduce_eq _ _ h1, ?_⟩, ⟨_, (C29_pairwise_fold md m c1 c2 v1 v2 hs h1 h2 init (addToF ra rs) (timesF rp)).1,
    (C29_pairwise_fold md m c1 c2 v1 v2 hs h1 h2 init (addToF ra rs) (timesF rp)).2, ?_⟩⟩
  · rw [foldl_addToF_isSome]
    simp only [List.forall_mem_map, mem_positions]
  · rw [foldl_addToF_isSome]
    simp only [List.forall_mem_map, mem_positions]
    refine and_congr_right fun _ => forall_congr' fun p => imp_congr_right fun _ => ?_
    cases v1 p <;> cases v2 p <;> simp [timesF]

example := C133_finite .checked (roundBits 24) (roundBits 24) (roundBits 24) exRats exIn exIn rfl _ _ exRats_elems exRats_elems none

/-- **C133** If the types represent all partial sums then the result is the exact sum. -/
theorem C133_exact (ra rs : ℚ → ℚ) (m : Mem (Option ℚ)) (c : Container) (val : List Int → ℚ) (h : Numbers c m val) (init : ℚ)
    (hp : ∀ k, 0 < k → k ≤ (positions c.shape).length →
      let s := init + (((positions c.shape).take k).map val).sum
      ra s = s ∧ rs s = s) :
    reduceInitF ra rs m c (some init) = .ok (some (init + ((positions c.shape).map val).sum)) := by
  rw [reduceInitF_eq ra rs h]
  congr 2
  refine fold_exact _ (fun x => if ra x = x ∧ rs x = x then x else x + 1) (fun a b hab => ?_) _ _ (fun k h1 h2 => ?_)
  · by_cases hx : ra (a + b) = a + b ∧ rs (a + b) = a + b
    · rw [hx.2, hx.1]
    · simp only [if_neg hx] at hab; linarith
  · have := hp k h1 (by simpa using h2)
    rw [← List.map_take]
    exact if_pos this

example := C133_exact (roundBits 24) (roundBits 24) exRats exIn _ exRats_elems 1 (fun k hk hl => by
  have hl : k ≤ 4 := hl
  have hl : k = 1 ∨ k = 2 ∨ k = 3 ∨ k = 4 := by omega
  rcases hl with rfl | rfl | rfl | rfl <;> decide +kernel)

/-- **C133** Integers stored as floating-point numbers with `p` bits are added exactly as long as the sum of the absolute values is
below `2^p`. -/
theorem C133_integers (p : ℕ) (m : Mem (Option ℚ)) (c : Container) (val : List Int → Int)
    (h : Numbers c m fun q => (val q : ℚ)) (init : Int)
    (hb : |init| + ((positions c.shape).map fun q => |val q|).sum < 2 ^ p) :
    reduceInitF (roundBits p) (roundBits p) m c (some (init : ℚ)) =
      .ok (some ((init + ((positions c.shape).map val).sum : Int) : ℚ)) := by
  have cast_sum : ∀ l : List (List Int), (l.map fun q => (val q : ℚ)).sum = (((l.map val).sum : Int) : ℚ) := by
    intro l
    induction l with
    | nil => simp
    | cons a l ih => simp only [List.map_cons, List.sum_cons, ih]; push_cast; rfl
  have bound : ∀ (l : List (List Int)) (k : ℕ), |((l.take k).map val).sum| ≤ (l.map fun q => |val q|).sum := by
    intro l
    induction l with
    | nil => intro k; simp
    | cons a l ih =>
      intro k
      cases k with
      | zero =>
        simp only [List.take_zero, List.map_nil, List.sum_nil, abs_zero]
        exact List.sum_nonneg (by simp)
      | succ k =>
        simp only [List.take_succ_cons, List.map_cons, List.sum_cons]
        have := ih k
        have := abs_add_le (val a) ((l.take k).map val).sum
        omega
  rw [C133_exact _ _ m c _ h (init : ℚ), cast_sum]
  · push_cast; rfl
  · intro k _ _
    simp only [cast_sum]
    have e : Representable p ((init : ℚ) + (((((positions c.shape).take k).map val).sum : Int) : ℚ)) := by
      refine ⟨init + (((positions c.shape).take k).map val).sum, 0, ?_, by push_cast; simp⟩
      have h1 := bound (positions c.shape) k
      have h2 := abs_add_le init (((positions c.shape).take k).map val).sum
      omega
    exact ⟨roundBits_fix e, roundBits_fix e⟩

/-- **C133** Sums are monotone: larger elements do not give a smaller sum. -/
theorem C133_monotone (ra rs : ℚ → ℚ) (ha : Monotone ra) (hs : Monotone rs) (m m' : Mem (Option ℚ)) (c c' : Container)
    (hc : c'.shape = c.shape) (val val' : List Int → ℚ) (h : Numbers c m val) (h' : Numbers c' m' val')
    (hle : ∀ p, InBox c.shape p → val p ≤ val' p) (init init' : ℚ) (hinit : init ≤ init') :
    ∃ s s', reduceInitF ra rs m c (some init) = .ok (some s) ∧ reduceInitF ra rs m' c' (some init') = .ok (some s') ∧ s ≤ s' := by
  refine ⟨_, _, reduceInitF_eq ra rs h init, reduceInitF_eq ra rs h' init', ?_⟩
  rw [hc]
  exact fold_mono _ (fun a a' b b' h1 h2 => ha (hs (by linarith))) val val' _ (fun p hp => hle p (mem_positions.1 hp)) _ _ hinit

/-- **C133** Rounding to nearest in a binary format is monotone and idempotent. -/
theorem C133_formats (p : ℕ) (hp : 0 < p) :
    Monotone (roundBits p) ∧ (∀ x, roundBits p (roundBits p x) = roundBits p x) ∧ RelError ((1 / 2) ^ p) (roundBits p) :=
  ⟨fun _ _ h => roundBits_mono hp h, fun x => roundBits_fix (roundBits_representable hp x), roundBits_error p⟩

/-- An initial value of an integer type, as in `inner_product(a, b, 0)`, makes an integer accumulator: the sum is cut after every
element, and the error bounds do not hold.  Two products of 0.25 sum up to 0. -/
theorem C133_int_init_false : ¬ ∀ (m : Mem (Option ℚ)) (c : Container) (val : List Int → ℚ) (s : ℚ), Numbers c m val →
    transformReduceInitF (fun x => (truncQ x : ℚ)) (roundBits 24) (roundBits 24) m c c (some 0) = .ok (some s) →
    |s - ((positions c.shape).map fun p => val p * val p).sum| ≤ 1 / 2 * ((positions c.shape).map fun p => |val p * val p|).sum := by
  intro h
  have := h (oneBlock 0 [some (1 / 2), some (1 / 2)]) (.ofShape ⟨0, 0⟩ [2]) (fun _ => 1 / 2) 0 (by
    intro p hp
    have hall : ∀ p ∈ positions (Container.ofShape ⟨0, 0⟩ [2]).shape,
        (Container.ofShape ⟨0, 0⟩ [2]).get (oneBlock 0 [some (1 / 2 : ℚ), some (1 / 2)]) p = .ok (some (1 / 2)) := by decide +kernel
    exact hall p (mem_positions.2 hp)) (by decide +kernel)
  exact absurd this (by decide +kernel)

/-! ## Concrete cases -/

/-- The `float` nearest to 0.1, ten times; the last cell for outputs. -/
private def tenths : Mem (Option ℚ) := oneBlock 0 (List.replicate 10 (some (13421773 / 2 ^ 27)) ++ List.replicate 10 (some 0))

private def tenC : Container := .ofShape ⟨0, 0⟩ [2, 5]
private def tenO : Container := .ofShape ⟨0, 10⟩ [2, 5]

private theorem tenths_numbers : Numbers tenC tenths fun _ => 13421773 / 2 ^ 27 := by
  intro p hp
  have hall : ∀ p ∈ positions tenC.shape, tenC.get tenths p = .ok (some (13421773 / 2 ^ 27)) := by decide +kernel
  exact hall p (mem_positions.2 hp)

/-- In `float`, ten times 0.1 is 1.0000001. -/
example : reduceF (roundBits 24) tenths tenC = .ok (some (8388609 / 2 ^ 23)) := by decide +kernel

/-- `C133_reduce`: nine roundings. -/
example : ∃ s, reduceF (roundBits 24) tenths tenC = .ok (some s) ∧ |s - 134217730 / 2 ^ 27| ≤ 1 / 2 ^ 20 := by
  obtain ⟨h1, h2, h3⟩ := C133_formats 24 (by norm_num)
  obtain ⟨s, e, hb⟩ := C133_reduce _ (by norm_num) _ h3 h2 tenths tenC _ tenths_numbers (fun _ _ => by decide +kernel)
  refine ⟨s, e, ?_⟩
  rw [show ((positions tenC.shape).map fun _ => (13421773 / 2 ^ 27 : ℚ)).sum = 134217730 / 2 ^ 27 by decide +kernel,
    show ((positions tenC.shape).map fun _ => |(13421773 / 2 ^ 27 : ℚ)|).sum = 134217730 / 2 ^ 27 by decide +kernel,
    show (positions tenC.shape).length = 10 by decide] at hb
  refine le_trans hb ?_
  norm_num

/-- `C133_reduce_init`: `double` elements, `float` sum. -/
example : reduceInitF (roundBits 24) (roundBits 53) tenths tenC (some 1) = .ok (some (16777218 / 2 ^ 23)) := by decide +kernel

/-- `C133_dot`, `C133_dot_init`. -/
example : transformReduceF (roundBits 24) tenths tenC tenC = .ok (some (13421773 / 2 ^ 27)) ∧
    innerProductF .checked (roundBits 24) tenths tenC tenC = .ok (some (13421773 / 2 ^ 27)) ∧
    innerProductInitF .checked (roundBits 24) (roundBits 24) (roundBits 24) tenths tenC tenC (some 1) =
      .ok (some (9227468 / 2 ^ 23)) := by decide +kernel

example : ∃ s, transformReduceF (roundBits 24) tenths tenC tenC = .ok (some s) ∧
    innerProductF .checked (roundBits 24) tenths tenC tenC = .ok (some s) ∧ |s - 1 / 10| ≤ 1 / 2 ^ 20 := by
  obtain ⟨h1, h2, h3⟩ := C133_formats 24 (by norm_num)
  obtain ⟨s, e, e', hb⟩ := C133_dot .checked _ (by norm_num) _ h3 h2 tenths tenC tenC rfl _ _ tenths_numbers tenths_numbers
    (by decide)
  refine ⟨s, e, e', ?_⟩
  rw [show ((positions tenC.shape).map fun _ => (13421773 / 2 ^ 27 : ℚ) * (13421773 / 2 ^ 27)).sum =
      10 * (13421773 / 2 ^ 27) ^ 2 by decide +kernel,
    show ((positions tenC.shape).map fun _ => |(13421773 / 2 ^ 27 : ℚ) * (13421773 / 2 ^ 27)|).sum =
      10 * (13421773 / 2 ^ 27) ^ 2 by decide +kernel,
    show (positions tenC.shape).length = 10 by decide] at hb
  have h4 : |s - 1 / 10| ≤ |s - 10 * (13421773 / 2 ^ 27) ^ 2| + |10 * (13421773 / 2 ^ 27) ^ 2 - 1 / 10| := by
    have := abs_add_le (s - 10 * (13421773 / 2 ^ 27) ^ 2) (10 * (13421773 / 2 ^ 27) ^ 2 - 1 / 10)
    rwa [sub_add_sub_cancel] at this
  refine le_trans h4 (le_trans (add_le_add_left hb _) ?_)
  rw [abs_of_pos (by norm_num)]
  norm_num

/-- `C133_inclusive_scan`, `C133_exclusive_scan`. -/
example : (do
    let m' ← inclusiveScanF (roundBits 24) (roundBits 24) tenths tenC tenO (some 0)
    reduceInitF (roundBits 24) (roundBits 24) m' (.ofShape ⟨0, 10⟩ [3]) (some 0)) = .ok (some (10066330 / 2 ^ 24)) := by
  decide +kernel

example : (do
    let m' ← exclusiveScanF (roundBits 24) (roundBits 24) tenths tenC tenO (some 1)
    tenO.get m' [1, 4]) = .ok (some (15938357 / 2 ^ 23)) := by
  decide +kernel

/-- `C133_finite`. -/
example : reduceF (roundBits 24) (oneBlock 0 [some 1, none, some 2]) (.ofShape ⟨0, 0⟩ [3]) = .ok none := by decide +kernel

/-- `C133_integers`: the numbers 1 to 6 in a format of five bits. -/
example : reduceInitF (roundBits 5) (roundBits 5) (oneBlock 0 [some 1, some 2, some 3, some 4, some 5, some 6])
    (.ofShape ⟨0, 0⟩ [2, 3]) (some ((0 : Int) : ℚ)) = .ok (some ((0 + 21 : Int) : ℚ)) := by
  have := C133_integers 5 (oneBlock 0 [some 1, some 2, some 3, some 4, some 5, some 6]) (.ofShape ⟨0, 0⟩ [2, 3])
    (fun q => 3 * q.headD 0 + q.getD 1 0 + 1) (by
      intro p hp
      have hall : ∀ p ∈ positions (Container.ofShape ⟨0, 0⟩ [2, 3]).shape, (Container.ofShape ⟨0, 0⟩ [2, 3]).get
          (oneBlock 0 [some 1, some 2, some 3, some 4, some 5, some 6]) p =
            .ok (some (((3 * p.headD 0 + p.getD 1 0 + 1 : Int) : ℚ))) := by decide +kernel
      exact hall p (mem_positions.2 hp)) 0 (by decide)
  rw [this]
  decide +kernel

/-- Beyond the bound of `C133_integers` a one can get lost: 32 + 1 in five bits (33 is a tie, 32 + 1/2 is not). -/
example : reduceInitF (roundBits 5) (roundBits 5) (oneBlock 0 [some (1 / 2)]) (.ofShape ⟨0, 0⟩ [1]) (some 32) = .ok (some 32) := by
  decide +kernel

/-- `C133_monotone`. -/
example : ∃ s s', reduceInitF (roundBits 24) (roundBits 24) tenths tenC (some 0) = .ok (some s) ∧
    reduceInitF (roundBits 24) (roundBits 24) tenths tenC (some 1) = .ok (some s') ∧ s ≤ s' := by
  obtain ⟨h1, -, -⟩ := C133_formats 24 (by norm_num)
  exact C133_monotone _ _ h1 h1 tenths tenths tenC tenC rfl _ _ tenths_numbers tenths_numbers (fun _ _ => le_refl _) 0 1 (by norm_num)

end Kwk
