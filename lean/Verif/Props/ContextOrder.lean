import Verif.Props.Contexts
import Mathlib.Algebra.BigOperators.Group.List.Basic
import Mathlib.Tactic.Ring

/-!
# Property C140: `iota` and scans in a context of the user

Intended: in every context that visits each position once, `iota` numbers the elements in row-major order, and scans accumulate the
elements in row-major order.  The code gives the number, or the accumulated value, of the order in which the context visits.
-/

namespace Kwk
open Spec

variable {α β : Type}

/-- **C140** `iota(ctx, c, v)` gives the position visited as number `k` the value incremented `k` times. -/
theorem C140_iota_visits (ctx : Ctx) (hc : VisitsAll ctx) (m : Mem α) (c : Container) (hd : Distinct c) (hv : Valid c m)
    (incr : β → β) (conv : β → α) (v : β) :
    ∃ m', iotaC ctx m c incr conv v = .ok m' ∧ SameOutside c m m' ∧
      ∀ (k : Nat) p, (ctx.order c.shape)[k]? = some p → c.get m' p = .ok (conv (incr^[k] v)) := by
  obtain ⟨m', h1, h2, h3⟩ := order_write (s0 := v) (hc c.shape).1 (hc c.shape).2 hd hv
    (fun sm p => do let m ← store sm.2 (c.addr p) (conv sm.1); pure (incr sm.1, m)) (fun _ s => (incr s, some (conv s))) (by
      intro p hp s m1 _ hs
      simp only [store_ok (valid_isSome hv hp hs)]; rfl)
  refine ⟨m', ?_, h2, ?_⟩
  · unfold iotaC Ctx.map; rw [h1]; rfl
  · intro k p hk
    have hlen := (List.getElem?_eq_some_iff.1 hk).1
    rw [get_ok_iff, h3 _ p _ (split_take hk)]
    simp only [iterate_foldl, List.length_take, Nat.min_eq_left hlen.le]

example := C140_iota_visits backwards backwards_visits exTwo exOut exOut_distinct exOut_valid (fun x : Int => x + 1) (fun x => x) 5

/-- **C140** The same with a step. -/
theorem C140_iota_step_visits [Add β] (ctx : Ctx) (hc : VisitsAll ctx) (m : Mem α) (c : Container) (hd : Distinct c) (hv : Valid c m)
    (conv : β → α) (v step : β) :
    ∃ m', iotaStepC ctx m c conv v step = .ok m' ∧ SameOutside c m m' ∧
      ∀ (k : Nat) p, (ctx.order c.shape)[k]? = some p → c.get m' p = .ok (conv ((· + step)^[k] v)) :=
  C140_iota_visits ctx hc m c hd hv (· + step) conv v

example := C140_iota_step_visits backwards backwards_visits exTwo exOut exOut_distinct exOut_valid (fun x : Int => x) 5 3

/-- **C140** (partial) `iota(ctx, c, v)` numbers the elements in row-major order exactly when the context visits the positions of
the shape of `c` in row-major order.  Missing: any other context. -/
theorem C140_iota_exact_partial (md : Mode) (ctx : Ctx) (hc : VisitsAll ctx) (m : Mem Int) (c : Container) (hd : Distinct c)
    (hv : Valid c m) (v : Int) :
    (∃ m', iotaC ctx m c (fun x : Int => x + 1) (fun x => x) v = .ok m' ∧
      ∀ p k, InBox c.shape p → linearIndex md c.shape p = .ok k → c.get m' p = .ok (v + k)) ↔
    ctx.order c.shape = positions c.shape := by
  obtain ⟨m', h1, _, h3⟩ := C140_iota_visits ctx hc m c hd hv (fun x : Int => x + 1) (fun x => x) v
  have hit : ∀ k : Nat, (fun x : Int => x + 1)^[k] v = v + k := by
    intro k
    induction k with
    | zero => simp
    | succ k ih => rw [Function.iterate_succ_apply', ih]; push_cast; ring
  constructor
  · rintro ⟨m'', g1, g2⟩
    rw [h1] at g1; cases g1
    refine order_of_rank hc fun k p hk => ?_
    have hp : InBox c.shape p := ((hc _).2 p).1 (List.mem_of_getElem? hk)
    have e := g2 p _ hp (linearIndex_ok md hp)
    rw [h3 k p hk, hit] at e
    have hk' : (linearize (sfx c.shape) p) = k := by
      have := Except.ok.inj e; omega
    have := getElem?_rank hp
    rwa [hk', Int.toNat_natCast] at this
  · intro ho
    refine ⟨m', h1, fun p k hp hk => ?_⟩
    rw [linearIndex_ok md hp] at hk; cases hk
    rw [h3 _ p (by rw [ho]; exact getElem?_rank hp), hit, Int.toNat_of_nonneg (lin_bounds hp).1]

example := (C140_iota_exact_partial .checked (visiting [2, 2] (positions [2, 2])) (visiting_visits (List.Perm.refl _)) exTwo exOut
  exOut_distinct exOut_valid 5).2 rfl

/-- **C140** (partial) The same with a step; a step of 0 needs nothing.  Missing: any other context. -/
theorem C140_iota_step_exact_partial (md : Mode) (ctx : Ctx) (hc : VisitsAll ctx) (m : Mem Int) (c : Container) (hd : Distinct c)
    (hv : Valid c m) (v step : Int) :
    (∃ m', iotaStepC ctx m c (fun x => x) v step = .ok m' ∧
      ∀ p k, InBox c.shape p → linearIndex md c.shape p = .ok k → c.get m' p = .ok (v + k * step)) ↔
    step = 0 ∨ ctx.order c.shape = positions c.shape := by
  obtain ⟨m', h1, _, h3⟩ := C140_iota_step_visits ctx hc m c hd hv (fun x => x) v step
  have hit : ∀ k : Nat, (· + step)^[k] v = v + k * step := by
    intro k
    induction k with
    | zero => simp
    | succ k ih => rw [Function.iterate_succ_apply', ih]; push_cast; ring
  constructor
  · rintro ⟨m'', g1, g2⟩
    rw [h1] at g1; cases g1
    by_cases h0 : step = 0
    · exact .inl h0
    refine .inr (order_of_rank hc fun k p hk => ?_)
    have hp : InBox c.shape p := ((hc _).2 p).1 (List.mem_of_getElem? hk)
    have e := g2 p _ hp (linearIndex_ok md hp)
    rw [h3 k p hk, hit] at e
    have hk' : (linearize (sfx c.shape) p) = k := by
      have e1 := Except.ok.inj e
      exact (mul_right_cancel₀ h0 (add_left_cancel e1)).symm
    have := getElem?_rank hp
    rwa [hk', Int.toNat_natCast] at this
  · intro ho
    refine ⟨m', h1, fun p k hp hk => ?_⟩
    rw [linearIndex_ok md hp] at hk; cases hk
    rcases ho with rfl | ho
    · obtain ⟨j, hj⟩ := List.mem_iff_getElem?.1 (((hc _).2 p).2 hp)
      rw [h3 j p hj, hit]; simp
    · rw [h3 _ p (by rw [ho]; exact getElem?_rank hp), hit, Int.toNat_of_nonneg (lin_bounds hp).1]

example := (C140_iota_step_exact_partial .checked backwards backwards_visits exTwo exOut exOut_distinct exOut_valid 5 0).2 (.inl rfl)

/-- **C140** `transform_inclusive_scan` gives the position visited as number `k` the value accumulated over the first `k + 1`
visited positions. -/
theorem C140_inclusive_visits (ctx : Ctx) (hc : VisitsAll ctx) (m : Mem α) (inp out : Container) (init : α) (f1 : α → β → α)
    (f2 : α → β) (hs : out.shape = inp.shape) (hd : Distinct out) (hv : Valid out m) (ha : Apart out inp) (val : List Int → α)
    (hin : Elems inp m val) :
    ∃ m', transformInclusiveScanC ctx m inp out init f1 f2 = .ok m' ∧ SameOutside out m m' ∧
      ∀ (k : Nat) p, (ctx.order out.shape)[k]? = some p →
        out.get m' p = .ok ((((ctx.order out.shape).take (k + 1)).map fun q => f2 (val q)).foldl f1 init) := by
  obtain ⟨m', h1, h2, h3⟩ := order_write (s0 := init) (hc out.shape).1 (hc out.shape).2 hd hv
    (fun sm p => do
      let v ← load sm.2 (inp.addr p)
      let m ← store sm.2 (out.addr p) (f1 sm.1 (f2 v))
      pure (f1 sm.1 (f2 v), m)) (fun p s => (f1 s (f2 (val p)), some (f1 s (f2 (val p))))) (by
      intro p hp s m1 hm hs1
      have e : load m1 (inp.addr p) = .ok (val p) := by
        apply load_ok
        rw [hm _ fun q hq hne => ha q p hq hp hne]
        exact get_ok_iff.1 (hin p (hs ▸ hp))
      simp only [e, bind, Except.bind, store_ok (valid_isSome hv hp hs1)]; rfl)
  refine ⟨m', ?_, h2, ?_⟩
  · unfold transformInclusiveScanC Ctx.map
    rw [← hs]
    exact congrArg (fun x => x >>= fun r : α × Mem α => (pure r.2 : Res (Mem α))) h1
  · intro k p hk
    rw [get_ok_iff, h3 _ p _ (split_take hk)]
    rw [List.foldl_map, List.take_add_one, hk, List.foldl_append]
    rfl

example := C140_inclusive_visits backwards backwards_visits exTwo exIn exOut 0 (fun a b => a + b) (fun x => 10 * x) rfl exOut_distinct
  exOut_valid ex_apart exInVal exIn_elems

/-- **C140** `transform_exclusive_scan` gives the position visited as number `k` the value accumulated over the first `k` visited
positions. -/
theorem C140_exclusive_visits (ctx : Ctx) (hc : VisitsAll ctx) (m : Mem α) (inp out : Container) (init : α) (f1 : α → β → α)
    (f2 : α → β) (hs : out.shape = inp.shape) (hd : Distinct out) (hv : Valid out m) (ha : Disjoint out inp) (val : List Int → α)
    (hin : Elems inp m val) :
    ∃ m', transformExclusiveScanC ctx m inp out init f1 f2 = .ok m' ∧ SameOutside out m m' ∧
      ∀ (k : Nat) p, (ctx.order out.shape)[k]? = some p →
        out.get m' p = .ok ((((ctx.order out.shape).take k).map fun q => f2 (val q)).foldl f1 init) := by
  obtain ⟨m', h1, h2, h3⟩ := order_write (s0 := init) (hc out.shape).1 (hc out.shape).2 hd hv
    (fun sm p => do
      let m ← store sm.2 (out.addr p) sm.1
      let v ← load m (inp.addr p)
      pure (f1 sm.1 (f2 v), m)) (fun p s => (f1 s (f2 (val p)), some s)) (by
      intro p hp s m1 hm hs1
      have e : load (wr m1 (out.addr p) (some s)) (inp.addr p) = .ok (val p) := by
        apply load_ok
        rw [wr_other _ _ (ha p p hp hp), hm _ fun q hq _ => ha q p hq hp]
        exact get_ok_iff.1 (hin p (hs ▸ hp))
      rw [store_ok (valid_isSome hv hp hs1)]
      simp only [bind, Except.bind]
      erw [e]; rfl)
  refine ⟨m', ?_, h2, ?_⟩
  · unfold transformExclusiveScanC Ctx.map
    rw [← hs]
    exact congrArg (fun x => x >>= fun r : α × Mem α => (pure r.2 : Res (Mem α))) h1
  · intro k p hk
    rw [get_ok_iff, h3 _ p _ (split_take hk), List.foldl_map]

example := C140_exclusive_visits backwards backwards_visits exTwo exIn exOut 0 (fun a b => a + b) (fun x => 10 * x) rfl exOut_distinct
  exOut_valid ex_disjoint exInVal exIn_elems

/-- **C140** (partial) `inclusive_scan` with sums, for all contents, gives the sums of the elements up to each position in
row-major order exactly when the context visits in row-major order.  Missing: any other context. -/
theorem C140_inclusive_exact_partial (ctx : Ctx) (hc : VisitsAll ctx) (inp out : Container) (hs : out.shape = inp.shape)
    (hd : Distinct out) (hi : Distinct inp) (ha : Apart out inp) :
    (∀ (m : Mem Int) val, Valid out m → Elems inp m val →
      ∃ m', inclusiveScanC ctx m inp out 0 (fun a e => a + e) = .ok m' ∧
        ∀ (k : Nat) p, (positions out.shape)[k]? = some p → out.get m' p = .ok (((positions out.shape).take (k + 1)).map val).sum) ↔
    ctx.order out.shape = positions out.shape := by
  constructor
  · intro H
    refine order_of_rank hc fun k p hk => ?_
    have hp : InBox out.shape p := ((hc _).2 p).1 (List.mem_of_getElem? hk)
    obtain ⟨j, hj⟩ := List.mem_iff_getElem?.1 (mem_positions.2 hp)
    have hkl := (List.getElem?_eq_some_iff.1 hk).1
    have hjl := (List.getElem?_eq_some_iff.1 hj).1
    have key : ∀ q, q ∈ (ctx.order out.shape).take (k + 1) ↔ q ∈ (positions out.shape).take (j + 1) := by
      intro q
      by_cases hq : InBox out.shape q
      · classical
        let val : List Int → Int := fun r => if r = q then 1 else 0
        have hel : Elems inp (fun a => some (if a = inp.addr q then 1 else 0)) val := by
          intro r hr
          rw [get_ok_iff]
          by_cases e : r = q
          · subst e; simp [val]
          · simp [val, e, show ¬ inp.addr r = inp.addr q from fun e' => e (hi r q hr (hs ▸ hq) e')]
        have hval : Valid out (fun a => some (if a = inp.addr q then (1 : Int) else 0)) := fun _ _ => ⟨_, rfl⟩
        obtain ⟨m', g1, g2⟩ := H _ val hval hel
        obtain ⟨m'', g3, _, g4⟩ := C140_inclusive_visits ctx hc _ inp out 0 (fun a e => a + e) (fun e => e) hs hd hval ha val hel
        have : m'' = m' := by
          have := g3.symm.trans g1; exact Except.ok.inj this
        subst this
        have e := (g4 k p hk).symm.trans (g2 j p hj)
        have e := Except.ok.inj e
        rw [← List.sum_eq_foldl, sum_indicator (((hc _).1).sublist (List.take_sublist _ _)),
          sum_indicator ((positions_nodup _).sublist (List.take_sublist _ _))] at e
        by_cases a1 : q ∈ (ctx.order out.shape).take (k + 1) <;> by_cases a2 : q ∈ (positions out.shape).take (j + 1) <;>
          simp_all
      · exact ⟨fun h => absurd (((hc _).2 q).1 (List.mem_of_mem_take h)) hq,
          fun h => absurd (mem_positions.1 (List.mem_of_mem_take h)) hq⟩
    have hlen := ((List.perm_ext_iff_of_nodup (((hc _).1).sublist (List.take_sublist _ _))
      ((positions_nodup _).sublist (List.take_sublist _ _))).2 key).length_eq
    simp only [List.length_take] at hlen
    have : k = j := by omega
    rwa [this]
  · intro ho m val hv hin
    obtain ⟨m', g1, _, g2⟩ := C140_inclusive_visits ctx hc m inp out 0 (fun a e => a + e) (fun e => e) hs hd hv ha val hin
    refine ⟨m', g1, fun k p hk => ?_⟩
    rw [g2 k p (by rw [ho]; exact hk), ho, List.sum_eq_foldl]

example := mt (C140_inclusive_exact_partial backwards backwards_visits exIn exOut rfl exOut_distinct exIn_distinct ex_apart).1 (by decide)

/-- **C140** (partial) `exclusive_scan` with sums, for all contents, gives the sums of the elements before each position in
row-major order exactly when the context visits in row-major order.  Missing: any other context. -/
theorem C140_exclusive_exact_partial (ctx : Ctx) (hc : VisitsAll ctx) (inp out : Container) (hs : out.shape = inp.shape)
    (hd : Distinct out) (hi : Distinct inp) (ha : Disjoint out inp) :
    (∀ (m : Mem Int) val, Valid out m → Elems inp m val →
      ∃ m', exclusiveScanC ctx m inp out 0 (fun a e => a + e) = .ok m' ∧
        ∀ (k : Nat) p, (positions out.shape)[k]? = some p → out.get m' p = .ok (((positions out.shape).take k).map val).sum) ↔
    ctx.order out.shape = positions out.shape := by
  constructor
  · intro H
    refine order_of_rank hc fun k p hk => ?_
    have hp : InBox out.shape p := ((hc _).2 p).1 (List.mem_of_getElem? hk)
    obtain ⟨j, hj⟩ := List.mem_iff_getElem?.1 (mem_positions.2 hp)
    have hkl := (List.getElem?_eq_some_iff.1 hk).1
    have hjl := (List.getElem?_eq_some_iff.1 hj).1
    have key : ∀ q, q ∈ (ctx.order out.shape).take k ↔ q ∈ (positions out.shape).take j := by
      intro q
      by_cases hq : InBox out.shape q
      · classical
        let val : List Int → Int := fun r => if r = q then 1 else 0
        have hel : Elems inp (fun a => some (if a = inp.addr q then 1 else 0)) val := by
          intro r hr
          rw [get_ok_iff]
          by_cases e : r = q
          · subst e; simp [val]
          · simp [val, e, show ¬ inp.addr r = inp.addr q from fun e' => e (hi r q hr (hs ▸ hq) e')]
        have hval : Valid out (fun a => some (if a = inp.addr q then (1 : Int) else 0)) := fun _ _ => ⟨_, rfl⟩
        obtain ⟨m', g1, g2⟩ := H _ val hval hel
        obtain ⟨m'', g3, _, g4⟩ := C140_exclusive_visits ctx hc _ inp out 0 (fun a e => a + e) (fun e => e) hs hd hval ha val hel
        have : m'' = m' := by
          have := g3.symm.trans g1; exact Except.ok.inj this
        subst this
        have e := (g4 k p hk).symm.trans (g2 j p hj)
        have e := Except.ok.inj e
        rw [← List.sum_eq_foldl, sum_indicator (((hc _).1).sublist (List.take_sublist _ _)),
          sum_indicator ((positions_nodup _).sublist (List.take_sublist _ _))] at e
        by_cases a1 : q ∈ (ctx.order out.shape).take k <;> by_cases a2 : q ∈ (positions out.shape).take j <;>
          simp_all
      · exact ⟨fun h => absurd (((hc _).2 q).1 (List.mem_of_mem_take h)) hq,
          fun h => absurd (mem_positions.1 (List.mem_of_mem_take h)) hq⟩
    have hlen := ((List.perm_ext_iff_of_nodup (((hc _).1).sublist (List.take_sublist _ _))
      ((positions_nodup _).sublist (List.take_sublist _ _))).2 key).length_eq
    simp only [List.length_take] at hlen
    have : k = j := by omega
    rwa [this]
  · intro ho m val hv hin
    obtain ⟨m', g1, _, g2⟩ := C140_exclusive_visits ctx hc m inp out 0 (fun a e => a + e) (fun e => e) hs hd hv ha val hin
    refine ⟨m', g1, fun k p hk => ?_⟩
    rw [g2 k p (by rw [ho]; exact hk), ho, List.sum_eq_foldl]

example := mt (C140_exclusive_exact_partial backwards backwards_visits exIn exOut rfl exOut_distinct exIn_distinct ex_disjoint).1
  (by decide)

/-- **C140** The full claim is false: a context that visits from the last to the first numbers, and adds up, from the last. -/
theorem C140_order_false :
    (do let m ← iotaC backwards (oneBlock 0 [0, 0, 0]) (Container.ofShape ⟨0, 0⟩ [3]) (fun x : Int => x + 1) (fun x => x) 0
        (Container.ofShape ⟨0, 0⟩ [3]).get m [0]) = .ok 2 ∧
    (do let m ← inclusiveScanC backwards (oneBlock 0 [1, 2, 3, 0, 0, 0]) (Container.ofShape ⟨0, 0⟩ [3])
          (Container.ofShape ⟨0, 3⟩ [3]) 0 (fun a e : Int => a + e)
        (Container.ofShape ⟨0, 3⟩ [3]).get m [0]) = .ok 6 := by
  decide

example : Disjoint (Container.ofShape ⟨0, 0⟩ [3]) (Container.ofShape ⟨1, 0⟩ [3]) := by
  intro p q _ _ e
  have := congrArg Ptr.blk e
  simp [Container.addr, Ptr.add, Container.ofShape] at this

example : ∃ m', iotaC backwards exMem exView (fun x : Int => x + 1) (fun x => x) 5 = .ok m' ∧ exView.get m' [1, 1] = .ok 5 := by
  obtain ⟨m', h, _, h1⟩ := C140_iota_visits backwards backwards_visits exMem exView exDistinct exValid (fun x : Int => x + 1)
    (fun x => x) 5
  exact ⟨m', h, h1 0 _ (by decide)⟩

end Kwk
