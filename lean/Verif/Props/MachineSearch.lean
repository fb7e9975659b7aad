import Verif.Lemmas.MachineSearch
import Verif.Lemmas.Witnesses
import Verif.Lemmas.Contiguous
import Verif.Props.Search

/-!
# Property C131: binary searches count in `int`

Extents carry their own integer types; `vals` are their values.  The elements lie in memory in row-major order
(`Elems (Container.ofShape …)`), wherever the exact arithmetic says.

Full property: on a sorted container of any size, `lower_bound` and `upper_bound` return the first position whose element is not
less than, or greater than, the value, and `binary_search` tells if there is an equal element.  False for `2^31` elements or more
(`C131_statement_false`): `numel()` is cut to 32 bits, so the searches look at fewer elements, or at none.
-/

namespace Kwk
open Spec

variable {α β σ : Type}

/-- The memory `m` holds the numbers `val` of the container, in increasing order. -/
def HoldsSorted (c : TypedContainer) (m : Mem Int) (val : List Int → Int) : Prop :=
  Elems (Container.ofShape c.base (vals c.shape)) m val ∧
  ∀ p q, InBox (vals c.shape) p → InBox (vals c.shape) q → p < q → val p ≤ val q

/-- `lower_bound` is right on `c`, whatever sorted numbers it holds. -/
def LowerRight (md : Mode) (c : TypedContainer) : Prop :=
  ∀ m val, HoldsSorted c m val → ∀ value : Int,
    ∃ r, lowerBoundM (σ := Unit) md m c value (fun e v => pure (decide (e < v))) () = .ok (r, ()) ∧
      IsFirst (vals c.shape) (fun p => value ≤ val p) r

/-- `upper_bound` is right on `c`, whatever sorted numbers it holds. -/
def UpperRight (md : Mode) (c : TypedContainer) : Prop :=
  ∀ m val, HoldsSorted c m val → ∀ value : Int,
    ∃ r, upperBoundM (σ := Unit) md m c value (fun v e => pure (decide (v < e))) () = .ok (r, ()) ∧
      IsFirst (vals c.shape) (fun p => value < val p) r

/-- `binary_search` is right on `c`, whatever sorted numbers it holds. -/
def SearchRight (md : Mode) (c : TypedContainer) : Prop :=
  ∀ m val, HoldsSorted c m val → ∀ value : Int,
    ∃ b, binarySearchM (σ := Unit) md m c value (fun x y => pure (decide (x < y))) () = .ok (b, ()) ∧
      (b = true ↔ ∃ p, InBox (vals c.shape) p ∧ val p = value)

/-- The full property, on integers: the searches are right on every container with less than `2^63` elements. -/
def C131_statement : Prop :=
  ∀ (md : Mode) (c : TypedContainer), c.shape ≠ [] → (∀ d ∈ c.shape, d.type.Fits d.value ∧ 0 < d.value) →
    (vals c.shape).prod < 2 ^ 63 → LowerRight md c ∧ UpperRight md c ∧ SearchRight md c

/-- **C131** (what is searched, partial) If the extents have 64-bit types, or there are less than `2^31` elements, then
`lower_bound` and `upper_bound` search the first `n` positions, where `n` is the `int` that is congruent to the number of elements
modulo `2^32`: all of them below `2^31` elements, none if `n` is not positive.  They end without fault. -/
theorem C131_searched_partial (md : Mode) (m : Mem α) (c : TypedContainer) (val : List Int → α) (hne : c.shape ≠ [])
    (hs : ∀ d ∈ vals c.shape, 0 < d) (hlt : (vals c.shape).prod < 2 ^ 63)
    (hw : (vals c.shape).prod < 2 ^ 31 ∨ ∀ d ∈ c.shape, d.type.bits = 64)
    (h : Elems (Container.ofShape c.base (vals c.shape)) m val) (n : Int) (hn : -2 ^ 31 ≤ n ∧ n < 2 ^ 31)
    (hmod : (2 : Int) ^ 32 ∣ (vals c.shape).prod - n) (s : σ) (value : β) :
    (∀ func : α → β → Bool,
      (∀ p q, InBox (vals c.shape) p → InBox (vals c.shape) q → p < q → func (val q) value = true → func (val p) value = true) →
      ∃ r, lowerBoundM md m c value (fun e v => pure (func e v)) s = .ok (r, s) ∧
        IsFirst (vals c.shape) (fun p => p ∈ (positions (vals c.shape)).take n.toNat ∧ func (val p) value = false) r) ∧
    (∀ func : β → α → Bool,
      (∀ p q, InBox (vals c.shape) p → InBox (vals c.shape) q → p < q → func value (val p) = true → func value (val q) = true) →
      ∃ r, upperBoundM md m c value (fun v e => pure (func v e)) s = .ok (r, s) ∧
        IsFirst (vals c.shape) (fun p => p ∈ (positions (vals c.shape)).take n.toNat ∧ func value (val p) = true) r) := by
  have hex : Exact c.shape := ⟨hs, hlt, hw.imp (by omega) fun h d hd => (h d hd).ge⟩
  have hwrap : IntType.i32.wrap (vals c.shape).prod = n := by
    generalize (vals c.shape).prod = N at *
    simp only [IntType.wrap, IntType.i32, IntType.hi]
    norm_num
    split <;> omega
  have htake : ∀ p, InBox (vals c.shape) p →
      (linearize (sfx (vals c.shape)) p < n ↔ p ∈ (positions (vals c.shape)).take n.toNat) := by
    intro p hp
    have h1 := positions_getElem? hp
    have h2 := (lin_bounds hp).1
    constructor
    · intro hlt
      apply List.mem_of_getElem? (i := (linearize (sfx (vals c.shape)) p).toNat)
      rw [List.getElem?_take_of_lt (by omega), h1]
    · intro hm
      obtain ⟨k, hk, e⟩ := List.getElem_of_mem hm
      have hk' : k < n.toNat := by have := hk; rw [List.length_take] at this; omega
      rw [List.getElem_take] at e
      have h3 := positions_rank (s := vals c.shape) (k := k) (List.getElem?_eq_some_iff.2 ⟨_, e⟩)
      omega
  have hcongr : ∀ (Q R : List Int → Prop), (∀ p, InBox (vals c.shape) p → (Q p ↔ R p)) → ∀ r,
      IsFirst (vals c.shape) Q r → IsFirst (vals c.shape) R r := by
    intro Q R hQR r ⟨h1, h2⟩
    refine ⟨?_, fun p => ?_⟩
    · rw [h1]
      exact ⟨fun g p hp e => g p hp ((hQR p hp).2 e), fun g p hp e => g p hp ((hQR p hp).1 e)⟩
    · rw [h2 p]
      exact ⟨fun ⟨g1, g2, g3⟩ => ⟨g1, (hQR p g1).1 g2, fun q hq hlt e => g3 q hq hlt ((hQR q hq).2 e)⟩,
        fun ⟨g1, g2, g3⟩ => ⟨g1, (hQR p g1).2 g2, fun q hq hlt e => g3 q hq hlt ((hQR q hq).1 e)⟩⟩
  have hnum := numelT_exact hne hex
  rw [hwrap] at hnum
  constructor
  · intro func hpart
    obtain ⟨r, h1, h2⟩ := searchFrom_first md (c := c) h hne hex (fun e => pure (func e value)) (fun e => func e value)
      (fun _ _ => rfl) hpart s
    rw [hwrap] at h1 h2
    refine ⟨r, ?_, hcongr _ _ (fun p hp => and_congr_left fun _ => htake p hp) r h2⟩
    unfold lowerBoundM
    simp only [bind, StateT.bind, liftM, monadLift, MonadLift.monadLift, StateT.lift, hnum, Except.bind, pure, Except.pure]
    by_cases h0 : n = 0
    · rw [if_pos h0]
      have : r = none := by
        rw [h2.1]
        intro p hp ⟨hl, _⟩
        have := (lin_bounds hp).1
        omega
      rw [this]
      rfl
    · rw [if_neg h0]
      exact h1
  · intro func hpart
    obtain ⟨r, h1, h2⟩ := searchFrom_first md (c := c) h hne hex
      (fun e => do let r ← (pure (func value e) : StateT σ Res Bool); pure (!r)) (fun e => !func value e)
      (fun _ _ => rfl) (by
        intro p q hp hq hlt hq'
        by_contra hn
        have : func value (val p) = true := by simpa using hn
        rw [hpart p q hp hq hlt this] at hq'; cases hq') s
    rw [hwrap] at h1 h2
    refine ⟨r, ?_, hcongr _ _ (fun p hp => ?_) r h2⟩
    · unfold upperBoundM
      simp only [bind, StateT.bind, liftM, monadLift, MonadLift.monadLift, StateT.lift, hnum, Except.bind, pure, Except.pure]
      exact h1
    · rw [htake p hp]; simp

example := C131_searched_partial .checked exTwo ⟨⟨0, 0⟩, [⟨.u8, 2⟩, ⟨.i64, 2⟩]⟩ exInVal (by decide) (by decide) (by decide)
  (.inl (by decide)) exIn_elems 4 (by decide) (by decide) () (3 : Int)

/-- **C131** (partial) With less than `2^31` elements, and extents of any types, the searches are right: the first position whose
element is not less than (`lower_bound`), or greater than (`upper_bound`), the value.  Missing: more elements (false). -/
theorem C131_bounds_partial (md : Mode) (m : Mem α) (c : TypedContainer) (val : List Int → α) (hne : c.shape ≠ [])
    (hs : ∀ d ∈ vals c.shape, 0 < d) (hlt : (vals c.shape).prod < 2 ^ 31)
    (h : Elems (Container.ofShape c.base (vals c.shape)) m val) (s : σ) (value : β) :
    (∀ func : α → β → Bool,
      (∀ p q, InBox (vals c.shape) p → InBox (vals c.shape) q → p < q → func (val q) value = true → func (val p) value = true) →
      ∃ r, lowerBoundM md m c value (fun e v => pure (func e v)) s = .ok (r, s) ∧
        IsFirst (vals c.shape) (fun p => func (val p) value = false) r) ∧
    (∀ func : β → α → Bool,
      (∀ p q, InBox (vals c.shape) p → InBox (vals c.shape) q → p < q → func value (val p) = true → func value (val q) = true) →
      ∃ r, upperBoundM md m c value (fun v e => pure (func v e)) s = .ok (r, s) ∧
        IsFirst (vals c.shape) (fun p => func value (val p) = true) r) := by
  have hp := prod_pos' hs
  have hall : ∀ (Q : List Int → Prop) r,
      IsFirst (vals c.shape) (fun p => p ∈ (positions (vals c.shape)).take (vals c.shape).prod.toNat ∧ Q p) r →
      IsFirst (vals c.shape) Q r := by
    intro Q r
    have hlen : (positions (vals c.shape)).length ≤ (vals c.shape).prod.toNat := by
      have := positions_length (s := vals c.shape) fun d hd => (hs d hd).le
      omega
    rw [List.take_of_length_le hlen]
    rintro ⟨h1, h2⟩
    refine ⟨?_, fun p => ?_⟩
    · rw [h1]
      exact ⟨fun g p hp e => g p hp ⟨mem_positions.2 hp, e⟩, fun g p hp e => g p hp e.2⟩
    · rw [h2 p]
      exact ⟨fun ⟨g1, g2, g3⟩ => ⟨g1, g2.2, fun q hq hlt e => g3 q hq hlt ⟨mem_positions.2 hq, e⟩⟩,
        fun ⟨g1, g2, g3⟩ => ⟨g1, ⟨mem_positions.2 g1, g2⟩, fun q hq hlt e => g3 q hq hlt e.2⟩⟩
  obtain ⟨h1, h2⟩ := C131_searched_partial md m c val hne hs (by omega) (.inl hlt) h (vals c.shape).prod (by omega) (by simp) s value
  constructor
  · intro func hpart
    obtain ⟨r, e, hr⟩ := h1 func hpart
    exact ⟨r, e, hall _ r hr⟩
  · intro func hpart
    obtain ⟨r, e, hr⟩ := h2 func hpart
    exact ⟨r, e, hall _ r hr⟩

/-- Extents of three different types. -/
example : let c : TypedContainer := ⟨⟨0, 0⟩, [⟨.u8, 2⟩, ⟨.i64, 1⟩, ⟨.u32, 3⟩]⟩
    let m : Mem Int := oneBlock 0 [1, 3, 3, 3, 5, 7]
    (lowerBoundM (σ := Unit) .checked m c 3 (fun e v => pure (e < v)) () = .ok (some [0, 0, 1], ())) ∧
    (upperBoundM (σ := Unit) .checked m c 3 (fun v e => pure (v < e)) () = .ok (some [1, 0, 1], ())) ∧
    (lowerBoundM (σ := Unit) .checked m c 9 (fun e v => pure (e < v)) () = .ok (none, ())) := by
  decide +kernel

/-- **C131** (`binary_search`, partial) With less than `2^31` elements and a strict weak order, `binary_search` tells if some
element is equivalent to the value.  Missing: more elements (false). -/
theorem C131_binary_search_partial (md : Mode) (m : Mem α) (c : TypedContainer) (val : List Int → α) (hne : c.shape ≠ [])
    (hs : ∀ d ∈ vals c.shape, 0 < d) (hlt : (vals c.shape).prod < 2 ^ 31)
    (h : Elems (Container.ofShape c.base (vals c.shape)) m val) (lt : α → α → Bool) (hord : StrictWeak lt)
    (hsorted : ∀ p q, InBox (vals c.shape) p → InBox (vals c.shape) q → p < q → lt (val q) (val p) = false)
    (value : α) (s : σ) :
    ∃ b, binarySearchM md m c value (fun a b => pure (lt a b)) s = .ok (b, s) ∧
      (b = true ↔ ∃ p, InBox (vals c.shape) p ∧ lt (val p) value = false ∧ lt value (val p) = false) := by
  obtain ⟨r, h1, h2⟩ := (C131_bounds_partial md m c val hne hs hlt h s value).1 lt (by
    intro p q hp hq hpq hv
    rcases hord.split _ _ (val p) hv with h' | h'
    · rw [hsorted p q hp hq hpq] at h'; cases h'
    · exact h')
  -- the same position as without types, hence the same answer
  obtain ⟨r', g1, g2⟩ := C30_lower_bound md m (Container.ofShape c.base (vals c.shape)) val h
    (by show vals c.shape ≠ []; simpa using hne) (fun d hd => (hs d hd).le) lt value (by
    intro p q hp hq hpq hv
    rcases hord.split _ _ (val p) hv with h' | h'
    · rw [hsorted p q hp hq hpq] at h'; cases h'
    · exact h') s
  have hr : r' = r := by
    cases r with
    | none => exact g2.1.2 (h2.1.1 rfl)
    | some p => exact (g2.2 p).2 ((h2.2 p).1 rfl)
  subst hr
  obtain ⟨b, e1, e2⟩ := C32_binary_search md m (Container.ofShape c.base (vals c.shape)) val h
    (by show vals c.shape ≠ []; simpa using hne) (fun d hd => (hs d hd).le) lt hord hsorted value s
  refine ⟨b, ?_, e2⟩
  rw [← e1]
  unfold binarySearchM binarySearch
  simp only [bind, StateT.bind, h1, g1, Except.bind]
  cases r' with
  | none => rfl
  | some p =>
    obtain ⟨hp, -, -⟩ := (h2.2 p).1 rfl
    have hb := lin_bounds hp
    have hex : Exact c.shape := ⟨hs, by omega, .inl (by omega)⟩
    have hsm : ∀ i ∈ p, Small i := by
      have hd : ∀ d ∈ vals c.shape, d ≤ 2147483648 := fun d hd => by
        have := le_padded hd
        rw [padded_eq_prod hs] at this
        omega
      clear * - hp hd
      generalize vals c.shape = s at hp hd
      induction hp with
      | nil => simp
      | @cons d i s p h _ ih =>
        intro x hx
        rcases List.mem_cons.1 hx with rfl | hx
        · exact ⟨h.1, by have := hd d (by simp); have := h.2; omega⟩
        · exact ih (fun d hd' => hd d (by simp [hd'])) x hx
    have hget := c.get_exact hne hex m hp hsm (by omega)
    have hpl : c.plain = Container.ofShape c.base (vals c.shape) := rfl
    simp only [bind, StateT.bind, liftM, monadLift, MonadLift.monadLift, StateT.lift, hget, hpl]

example : let c : TypedContainer := ⟨⟨0, 0⟩, [⟨.u8, 2⟩, ⟨.i64, 1⟩, ⟨.u32, 3⟩]⟩
    let m : Mem Int := oneBlock 0 [1, 3, 3, 3, 5, 7]
    (binarySearchM (σ := Unit) .checked m c 5 (fun a b => pure (a < b)) () = .ok (true, ())) ∧
    (binarySearchM (σ := Unit) .checked m c 4 (fun a b => pure (a < b)) () = .ok (false, ())) := by
  decide +kernel

/-- **C131** (exactly when, partial) With 64-bit extents, each of the three searches is right for all sorted contents if and only if
there are less than `2^31` elements. -/
theorem C131_exact_partial (md : Mode) (c : TypedContainer) (hne : c.shape ≠ []) (hs : ∀ d ∈ vals c.shape, 0 < d)
    (hlt : (vals c.shape).prod < 2 ^ 63) (h64 : ∀ d ∈ c.shape, d.type.bits = 64) :
    (LowerRight md c ↔ (vals c.shape).prod < 2 ^ 31) ∧ (UpperRight md c ↔ (vals c.shape).prod < 2 ^ 31) ∧
    (SearchRight md c ↔ (vals c.shape).prod < 2 ^ 31) := by
  have hord : StrictWeak fun a b : Int => decide (a < b) :=
    ⟨fun a => by simp, fun a b c h1 h2 => by simp at *; omega, fun a b c h1 h2 h3 h4 => by simp at *; omega⟩
  have hprod := prod_pos' hs
  have hnn : NonNeg (vals c.shape) := fun d hd => (hs d hd).le
  -- only the last element is 1
  let N := (vals c.shape).prod
  let val : List Int → Int := fun p => if linearize (sfx (vals c.shape)) p = N - 1 then 1 else 0
  let m : Mem Int := fun q => some (if q.off - c.base.off = N - 1 then 1 else 0)
  have hval01 : ∀ p, val p = 0 ∨ val p = 1 := fun p => by simp only [val]; split <;> simp
  have hm : HoldsSorted c m val := by
    refine ⟨fun p hp => ?_, fun p q hp hq hpq => ?_⟩
    · have hd := ofShape_default (b := c.base) (s := vals c.shape) (by simpa using hne)
      unfold Container.get
      rw [addr_default hd hp]
      show load m ⟨_, c.base.off + linearize (sfx (vals c.shape)) p⟩ = _
      unfold load
      simp only [m, val, add_sub_cancel_left]
    · have h1 := (lin_lt_iff hp hq).2 hpq
      have h2 := (lin_bounds hq).2
      have : val p = 0 := if_neg (by show ¬ _ = (vals c.shape).prod - 1; omega)
      rcases hval01 q with e | e <;> omega
  obtain ⟨last, hlast, hrank⟩ := lin_surj hnn (k := N - 1) (by show 0 ≤ (vals c.shape).prod - 1; omega)
    (by show (vals c.shape).prod - 1 < _; omega)
  have hvl : val last = 1 := if_pos hrank
  -- the number of elements as `int`
  let n := IntType.i32.wrap N
  have hn : -2 ^ 31 ≤ n ∧ n < 2 ^ 31 ∧ (2 : Int) ^ 32 ∣ N - n := by
    show -2 ^ 31 ≤ IntType.i32.wrap N ∧ IntType.i32.wrap N < 2 ^ 31 ∧ (2 : Int) ^ 32 ∣ N - IntType.i32.wrap N
    simp only [IntType.wrap, IntType.i32, IntType.hi]
    norm_num
    refine ⟨?_, ?_, ?_⟩ <;> split <;> omega
  have hzero : ¬ N < 2 ^ 31 → ∀ p, InBox (vals c.shape) p → p ∈ (positions (vals c.shape)).take n.toNat → val p = 0 := by
    intro hN p hp hmem
    obtain ⟨k, hk, e⟩ := List.getElem_of_mem hmem
    have hk' : k < n.toNat := by have := hk; rw [List.length_take] at this; omega
    rw [List.getElem_take] at e
    have h3 := positions_rank (s := vals c.shape) (k := k) (List.getElem?_eq_some_iff.2 ⟨_, e⟩)
    exact if_neg (by omega)
  have hparts : ∀ value : Int, ∀ p q, InBox (vals c.shape) p → InBox (vals c.shape) q → p < q → ∀ m' val', HoldsSorted c m' val' →
      (decide (val' q < value) = true → decide (val' p < value) = true) ∧
      (decide (value < val' p) = true → decide (value < val' q) = true) := by
    intro value p q hp hq hpq m' val' h'
    have := h'.2 p q hp hq hpq
    constructor <;> (intro g; simp at *; omega)
  have hnoneL : ¬ N < 2 ^ 31 → lowerBoundM (σ := Unit) md m c (1 : Int) (fun e v => pure (decide (e < v))) () = .ok (none, ()) := by
    intro hN
    obtain ⟨r, e, hr⟩ := (C131_searched_partial md m c val hne hs hlt (.inr h64) hm.1 n ⟨hn.1, hn.2.1⟩ hn.2.2 () (1 : Int)).1
      (fun a b => decide (a < b)) (fun p q hp hq hpq => (hparts 1 p q hp hq hpq m val hm).1)
    rw [e]
    have : r = none := hr.1.2 fun p hp ⟨h1, h2⟩ => by
      rw [hzero hN p hp h1] at h2; exact absurd h2 (by decide)
    rw [this]
  have hnoneU : ¬ N < 2 ^ 31 → upperBoundM (σ := Unit) md m c (0 : Int) (fun v e => pure (decide (v < e))) () = .ok (none, ()) := by
    intro hN
    obtain ⟨r, e, hr⟩ := (C131_searched_partial md m c val hne hs hlt (.inr h64) hm.1 n ⟨hn.1, hn.2.1⟩ hn.2.2 () (0 : Int)).2
      (fun a b => decide (a < b)) (fun p q hp hq hpq => (hparts 0 p q hp hq hpq m val hm).2)
    rw [e]
    have : r = none := hr.1.2 fun p hp ⟨h1, h2⟩ => by
      rw [hzero hN p hp h1] at h2; exact absurd h2 (by decide)
    rw [this]
  refine ⟨⟨fun h => ?_, fun h m val hm value => ?_⟩, ⟨fun h => ?_, fun h m val hm value => ?_⟩,
    ⟨fun h => ?_, fun h m val hm value => ?_⟩⟩
  · by_contra hN
    obtain ⟨r, e, hr⟩ := h m val hm 1
    rw [hnoneL hN] at e
    cases e
    exact hr.1.1 rfl last hlast hvl.ge
  · obtain ⟨r, e, hr⟩ := (C131_bounds_partial md m c val hne hs h hm.1 () value).1 (fun a b => decide (a < b))
      (fun p q hp hq hpq => (hparts value p q hp hq hpq m val hm).1)
    exact ⟨r, e, by simpa using hr⟩
  · by_contra hN
    obtain ⟨r, e, hr⟩ := h m val hm 0
    rw [hnoneU hN] at e
    cases e
    exact hr.1.1 rfl last hlast (show 0 < val last by rw [hvl]; decide)
  · obtain ⟨r, e, hr⟩ := (C131_bounds_partial md m c val hne hs h hm.1 () value).2 (fun a b => decide (a < b))
      (fun p q hp hq hpq => (hparts value p q hp hq hpq m val hm).2)
    exact ⟨r, e, by simpa using hr⟩
  · by_contra hN
    obtain ⟨b, e, hb⟩ := h m val hm 1
    have e' : binarySearchM (σ := Unit) md m c 1 (fun x y => pure (decide (x < y))) () = .ok (false, ()) := by
      unfold binarySearchM
      simp only [bind, StateT.bind, hnoneL hN, Except.bind]
      rfl
    rw [e'] at e
    cases e
    exact absurd (hb.2 ⟨last, hlast, hvl⟩) (by decide)
  · obtain ⟨b, e, hb⟩ := C131_binary_search_partial md m c val hne hs h hm.1 (fun a b => decide (a < b)) hord
      (fun p q hp hq hpq => by have := hm.2 p q hp hq hpq; simpa using this) value ()
    refine ⟨b, e, hb.trans ?_⟩
    refine exists_congr fun p => and_congr_right fun _ => ?_
    simp
    omega

/-- The hypotheses of the exact condition: a container of three thousand million elements. -/
example : (vals [(⟨.i64, 3000000000⟩ : Coord)]).prod < 2 ^ 63 ∧ ¬ (vals [(⟨.i64, 3000000000⟩ : Coord)]).prod < 2 ^ 31 := by decide

/-- **C131** is false: in 65536 x 65536 zeros with 64-bit extents, `numel()` is 0 and zero is not found; with `3·10^9` elements it is
negative, and with `2^32 + 5` elements only the first five are searched. -/
theorem C131_statement_false : ¬ C131_statement ∧
    numelT [⟨.i64, 65536⟩, ⟨.i64, 65536⟩] = .ok ⟨.i32, 0⟩ ∧
    lowerBoundM (σ := Unit) .checked (fun _ => some (0 : Int)) ⟨⟨0, 0⟩, [⟨.i64, 65536⟩, ⟨.i64, 65536⟩]⟩ (0 : Int)
      (fun e v => pure (decide (e < v))) () = .ok (none, ()) ∧
    numelT [⟨.i64, 3000000000⟩] = .ok ⟨.i32, -1294967296⟩ ∧
    binarySearchM (σ := Unit) .checked (fun _ => some (0 : Int)) ⟨⟨0, 0⟩, [⟨.i64, 3000000000⟩]⟩ (0 : Int)
      (fun x y => pure (decide (x < y))) () = .ok (false, ()) ∧
    upperBoundM (σ := Unit) .checked (fun q => some (if q.off < 5 then 0 else 1)) ⟨⟨0, 0⟩, [⟨.u64, 4294967301⟩]⟩ (0 : Int)
      (fun v e => pure (decide (v < e))) () = .ok (none, ()) := by
  refine ⟨fun h => ?_, by decide +kernel, by decide +kernel, by decide +kernel, by decide +kernel, by decide +kernel⟩
  have h1 := (h .checked ⟨⟨0, 0⟩, [⟨.i64, 65536⟩, ⟨.i64, 65536⟩]⟩ (by decide) (by decide) (by decide)).1
  have h2 := (C131_exact_partial .checked ⟨⟨0, 0⟩, [⟨.i64, 65536⟩, ⟨.i64, 65536⟩]⟩ (by decide) (by decide) (by decide)
    (by decide)).1.1 h1
  revert h2
  decide

end Kwk
