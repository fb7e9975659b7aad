import Verif.Lemmas.Contiguous
import Verif.Lemmas.ThrowsMore
import Verif.Props.Throws
import Verif.Props.Search
import Verif.Props.Reverse

/-!
# Property C127 (continued): functions that throw in `for_each`, `transform_reduce`, `inner_product`, `none_of`, `find_last_if` and the
binary searches
-/

namespace Kwk
open Spec

variable {α β γ ε φ : Type}

/-- **C127** (`for_each`, `for_each_index`) The calls are made in row-major order until one throws; the function object, the memory and the
exception are what the last call left. -/
theorem C127_for_each (call : φ → List Ptr → Mem α → Res (Except ε Unit × (φ × Mem α)))
    (callI : φ → Ptr → List Int → Mem α → Res (Except ε Unit × (φ × Mem α))) (f : φ) (c : Container) (cs : List Container) (m : Mem α) :
    forEachE call f c cs m =
      callsAlong (fun p fm => call fm.1 (c.addr p :: cs.map fun d => d.addr p) fm.2) (positions c.shape) (f, m) ∧
    forEachIndexE callI f c m = callsAlong (fun p fm => callI fm.1 (c.addr p) p fm.2) (positions c.shape) (f, m) := by
  have key : ∀ (step : List Int → φ × Mem α → Res (Except ε Unit × (φ × Mem α))) (l : List (List Int)) (fm : φ × Mem α),
      runAll (m := Code ε φ α) step l fm = callsAlong step l fm := by
    intro step l
    induction l with
    | nil => intro fm; rfl
    | cons p l ih =>
      intro fm
      rw [runAll_code, callsAlong]
      congr 1
      funext r
      obtain ⟨_ | _, sm⟩ := r
      · rfl
      · exact ih sm
  constructor
  · unfold forEachE mapE
    rw [forEach_eq]; exact key _ _ _
  · unfold forEachIndexE mapIndexE
    rw [forEach_eq]; exact key _ _ _

example := (C127_for_each thirdCall (fun n p _ => thirdCall n [p]) 0 exOut [exIn] exTwo).1

/-- **C127** (`transform_reduce`, `inner_product`) The result, or the exception of the first call that throws, is that of the calls in
row-major order, the transformation before the reduction at each position. -/
theorem C127_transform_reduce (md : Mode) (m : Mem α) (c1 c2 : Container) (val1 val2 : List Int → α) (hshape : c1.shape = c2.shape)
    (h1 : Elems c1 m val1) (h2 : Elems c2 m val2) (init : β) (R : β → γ → Except ε β) (T : α → α → Except ε γ) :
    let expected := (positions c1.shape).foldlM (fun a p => do R a (← T (val1 p) (val2 p))) init
    transformReduceE m c1 c2 init R T = .ok expected ∧ innerProductE md m c1 c2 init R T = .ok expected := by
  intro expected
  have hrun : ∀ (step : List Int → β × Mem α → Res (Except ε Unit × (β × Mem α))) (l : List (List Int)) (init : β),
      (∀ p ∈ l, ∀ a, ∃ a', step p (a, m) = .ok ((do R a (← T (val1 p) (val2 p))).map fun _ => (), (a', m)) ∧
        ∀ y, (do R a (← T (val1 p) (val2 p))) = .ok y → a' = y) →
      ∃ s, runAll (m := Code ε β α) step l (init, m) =
        .ok ((l.foldlM (fun a p => do R a (← T (val1 p) (val2 p))) init).map fun _ => (), s) ∧
        ∀ b, l.foldlM (fun a p => do R a (← T (val1 p) (val2 p))) init = .ok b → s.1 = b := by
    intro step l
    induction l with
    | nil => intro init _; exact ⟨(init, m), rfl, fun b hb => by cases hb; rfl⟩
    | cons p l ih =>
      intro init hl
      obtain ⟨a', e1, e2⟩ := hl p (by simp) init
      rw [runAll_code, List.foldlM_cons, e1]
      cases hR : (do R init (← T (val1 p) (val2 p))) with
      | error e => exact ⟨(a', m), rfl, fun b hb => by cases hb⟩
      | ok y =>
        have := e2 y hR
        subst this
        exact ih _ fun q hq => hl q (by simp [hq])
  have hT : transformReduceE m c1 c2 init R T = .ok expected := by
    unfold transformReduceE mapE
    simp only [List.map_cons, List.map_nil, List.headD_cons]
    rw [forEach_eq]
    obtain ⟨s, hs, hb⟩ := hrun (fun is sm => transformReduceStepE R T (c1.addr is) (c2.addr is) sm) (positions c1.shape) init (by
      intro p hp a
      have e1 := get_ok_iff.1 (h1 p (mem_positions.1 hp))
      have e2 := get_ok_iff.1 (h2 p (hshape ▸ mem_positions.1 hp))
      simp only [transformReduceStepE, load, e1, e2, bind, Except.bind]
      cases hT : T (val1 p) (val2 p) with
      | error e => exact ⟨a, rfl, fun y hy => by cases hy⟩
      | ok x =>
        simp only []
        cases hR : R a x with
        | error e => exact ⟨a, rfl, fun y hy => by cases hy⟩
        | ok y => exact ⟨y, rfl, fun y hy => by cases hy; rfl⟩)
    rw [hs]
    show Except.ok _ = _
    congr 1
    show _ = List.foldlM _ _ _
    revert hb
    cases List.foldlM (fun a p => do R a (← T (val1 p) (val2 p))) init (positions c1.shape) with
    | error e => intro _; rfl
    | ok b => intro hb; rw [← hb b rfl]; rfl
  refine ⟨hT, ?_⟩
  unfold innerProductE
  have : shapeEq c1.shape c2.shape = true := by
    rw [← hshape, shapeEq_iff]
    intro x hx
    simp only [min_self] at hx
    exact (zip_eq_iff (b := compress c1.shape.length c1.shape) rfl).2 rfl x hx
  rw [this, hT]
  cases md <;> rfl

example : transformReduceE exTwo exIn exIn 0 (fun a x => .ok (a + x)) (fun x y => (notThree x).map (· * y)) = .ok (.error "three") :=
  (C127_transform_reduce .checked exTwo exIn exIn exInVal exInVal rfl exIn_elems exIn_elems 0 _ _).1

/-- **C127** (`none_of`) Like `any_of`: an exception comes out unless the answer was known before. -/
theorem C127_none_of (m : Mem α) (c : Container) (val : List Int → α) (hin : Elems c m val) (f : α → Except ε Bool)
    (pre post : List (List Int)) (p : List Int) (hsplit : positions c.shape = pre ++ p :: post) (hpre : ∀ q ∈ pre, f (val q) = .ok false) :
    (∀ e, f (val p) = .error e → noneOfE m c f = .ok (.error e)) ∧ (f (val p) = .ok true → noneOfE m c f = .ok (.ok false)) := by
  have hn : noneOfE m c f = (do let r ← anyOfE m c f; pure (r.map fun b => !b)) := by
    unfold noneOfE noneOfM anyOfE
    rw [ExceptT.run_bind]
    congr 1
    funext r
    cases r <;> rfl
  obtain ⟨h1, h2⟩ := (C127_predicates m c val hin f pre post p hsplit).2 hpre
  rw [hn]
  exact ⟨fun e he => by rw [h1 e he]; rfl, fun ht => by rw [h2 ht]; rfl⟩

example : noneOfE exTwo exIn (fun x => (notThree x).map (· = 40)) = .ok (.error "three") :=
  (C127_none_of exTwo exIn exInVal exIn_elems _ _ _ _ ex_split (by decide)).1 _ rfl

/-- **C127** (`find_last_if`) In a container with the default layout: if no element after `p` satisfies the predicate and it throws at `p`,
the exception comes out; if it is satisfied at `p`, the earlier elements are not tested. -/
theorem C127_find_last_if (m : Mem α) (c : Container) (hd : c.Default) (val : List Int → α) (hin : Elems c m val) (f : α → Except ε Bool)
    (p : List Int) (hp : InBox c.shape p) (hafter : ∀ q, InBox c.shape q → p < q → f (val q) = .ok false) :
    (∀ e, f (val p) = .error e → findLastIfE m c f = .ok (.error e)) ∧ (f (val p) = .ok true → findLastIfE m c f = .ok (.ok (some p))) := by
  have hr : Elems (reverse c) m (fun p => val (mirror c.shape p)) := by
    intro q hq
    rw [((C46_reverse_partial hd.toWF (C46_default_corner hd ⟨p, hp⟩)).2 q hq).2 m]
    exact hin _ (mirror_inBox hq)
  have hmm : mirror c.shape (mirror c.shape p) = p := mirror_mirror hp.length
  obtain ⟨pre, post, hsplit⟩ := List.append_of_mem (mem_positions.2 (mirror_inBox hp))
  have hlt : ∀ q ∈ pre, q < mirror c.shape p := by
    have := positions_sorted c.shape
    rw [hsplit, List.pairwise_append] at this
    exact fun q hq => this.2.2 q hq _ (by simp)
  obtain ⟨h1, h2⟩ := C127_find_if m (reverse c) _ hr f pre post (mirror c.shape p) hsplit fun q hq => by
    have hqb : InBox c.shape q := mem_positions.1 (by rw [hsplit]; simp [hq])
    refine hafter _ (mirror_inBox hqb) ?_
    have h := (mirror_lt (mirror_inBox hp) hqb).2 (hlt q hq)
    rwa [hmm] at h
  simp only [hmm] at h1 h2
  unfold findLastIfE
  refine ⟨fun e he => by rw [h1 e he]; rfl, fun ht => ?_⟩
  rw [h2 ht]
  show Except.ok (Except.ok (some (mirror c.shape (mirror c.shape p)))) = _
  rw [hmm]

example : findLastIfE exTwo exIn (fun x => (notThree x).map (· = 20)) = .ok (.error "three") :=
  (C127_find_last_if exTwo exIn exIn_default exInVal exIn_elems _ [1, 0] (by decide) fun q hq =>
    (by decide : ∀ q ∈ positions exIn.shape, [1, 0] < q → (notThree (exInVal q)).map (fun x => decide (x = 20)) = .ok false) q
      (mem_positions.2 hq)).1 _ rfl

/-- **C127** (`lower_bound`, `upper_bound`) Take any comparison `func` that gives the answers of the given one where it does not throw, and by
which the container is partitioned.  Either an exception that the comparison throws for an element comes out, or the result is the one of
`func`. -/
theorem C127_bounds (md : Mode) (m : Mem α) (c : Container) (val : List Int → α) (h : Elems c m val) (hne : c.shape ≠ []) (hs : NonNeg c.shape)
    (value : β) :
    (∀ (cmp : α → β → Except ε Bool) (func : α → β → Bool), (∀ a b r, cmp a b = .ok r → func a b = r) →
      (∀ p q, InBox c.shape p → InBox c.shape q → p < q → func (val q) value = true → func (val p) value = true) →
      (∃ p e, InBox c.shape p ∧ cmp (val p) value = .error e ∧ lowerBoundE md m c value cmp = .ok (.error e)) ∨
      ∃ r, lowerBoundE md m c value cmp = .ok (.ok r) ∧ IsFirst c.shape (fun p => func (val p) value = false) r) ∧
    (∀ (cmp : β → α → Except ε Bool) (func : β → α → Bool), (∀ a b r, cmp a b = .ok r → func a b = r) →
      (∀ p q, InBox c.shape p → InBox c.shape q → p < q → func value (val p) = true → func value (val q) = true) →
      (∃ p e, InBox c.shape p ∧ cmp value (val p) = .error e ∧ upperBoundE md m c value cmp = .ok (.error e)) ∨
      ∃ r, upperBoundE md m c value cmp = .ok (.ok r) ∧ IsFirst c.shape (fun p => func value (val p) = true) r) := by
  constructor
  · intro cmp func hcmp hpart
    have hlow : lowerBoundE md m c value cmp = (do
        let s ← searchLoopE md m c (fun e => cmp e value) (c.numel.toNat + 1) ⟨c.numel, 0, 0⟩; searchEndE md c s) := by
      unfold lowerBoundE
      split
      · next h0 => rw [h0]; simp [searchLoopE, searchEndE, h0, bind, Except.bind, pure, Except.pure]
      · rfl
    rw [hlow]
    rcases finishE_run md h hne hs (fun e => cmp e value) (fun e => func e value) (fun p _ b hb => hcmp _ _ _ hb) with h' | ⟨r, h1, h2⟩
    · exact .inl h'
    · obtain ⟨r', h3, h4⟩ := C30_lower_bound (σ := Unit) md m c val h hne hs func value hpart ()
      rw [lowerBound_eq, h2] at h3
      simp only [Except.ok.injEq, Prod.mk.injEq, and_true] at h3
      exact .inr ⟨r, h1, h3 ▸ h4⟩
  · intro cmp func hcmp hpart
    unfold upperBoundE
    rcases finishE_run md h hne hs (fun e => (cmp value e).map fun r => !r) (fun e => !func value e) (fun p _ b hb => by
      cases hc : cmp value (val p) with
      | error e => rw [hc] at hb; cases hb
      | ok r => rw [hc] at hb; rw [hcmp _ _ _ hc]; cases hb; rfl) with ⟨p, e, hp, he, hr⟩ | ⟨r, h1, h2⟩
    · refine .inl ⟨p, e, hp, ?_, hr⟩
      cases hc : cmp value (val p) with
      | error e' => rw [hc] at he; cases he; rfl
      | ok r => rw [hc] at he; cases he
    · obtain ⟨r', h3, h4⟩ := C31_upper_bound (σ := Unit) md m c val h hne hs func value hpart ()
      rw [upperBound_eq] at h3
      have h2' : finish (σ := Unit) md m c (fun e => do let r ← (pure (func value e) : StateT Unit Res Bool); pure (!r)) () = .ok (r, ()) := h2
      rw [h2'] at h3
      simp only [Except.ok.injEq, Prod.mk.injEq, and_true] at h3
      exact .inr ⟨r, h1, h3 ▸ h4⟩

example := (C127_bounds .checked exTwo exIn exInVal exIn_elems (by decide) (by decide) 2).1 lessNotThree (fun a b => decide (a < b))
  lessNotThree_sound fun p q hp hq h => by have := exInVal_sorted p q hp hq h; simp; omega

/-- **C127** (`lower_bound`, first comparison) The element in the middle is compared first: if the comparison throws there, the exception
comes out. -/
theorem C127_middle (md : Mode) (m : Mem α) (c : Container) (val : List Int → α) (h : Elems c m val) (hne : c.shape ≠ []) (hs : NonNeg c.shape)
    (value : β) (p : List Int) (hp : (positions c.shape)[(positions c.shape).length / 2]? = some p) (e : ε) :
    (∀ cmp : α → β → Except ε Bool, cmp (val p) value = .error e → lowerBoundE md m c value cmp = .ok (.error e)) ∧
    (∀ cmp : β → α → Except ε Bool, cmp value (val p) = .error e → upperBoundE md m c value cmp = .ok (.error e)) := by
  have hbox : InBox c.shape p := mem_positions.1 (List.mem_of_getElem? hp)
  have hN : c.numel = (positions c.shape).length := by
    rw [positions_length hs, Container.numel, numel_eq_prod hne]
  have hrank := positions_rank hp
  have hpos : 0 < (positions c.shape).length := by
    have := (List.getElem?_eq_some_iff.1 hp).1; omega
  have hmid : c.numel.tdiv 2 = linearize (sfx c.shape) p := by
    rw [Int.tdiv_eq_ediv_of_nonneg (by omega), hN]; omega
  have hloop : ∀ adv : α → Except ε Bool, adv (val p) = .error e →
      searchLoopE md m c adv (c.numel.toNat + 1) ⟨c.numel, 0, 0⟩ = .ok (.error e) := by
    intro adv hadv
    unfold searchLoopE
    simp only [show c.numel > 0 by omega, if_true, zero_add, hmid, coordinates_lin md hne hbox, h p hbox, bind, Except.bind, hadv]
    rfl
  constructor
  · intro cmp he
    unfold lowerBoundE
    rw [if_neg (by omega), hloop _ he]; rfl
  · intro cmp he
    unfold upperBoundE
    rw [hloop _ (by rw [he]; rfl)]; rfl

example : lowerBoundE .checked exTwo exIn 2 lessNotThree = .ok (.error "three") :=
  (C127_middle .checked exTwo exIn exInVal exIn_elems (by decide) (by decide) 2 [1, 0] (by decide) "three").1 _ rfl

/-- **C127** (`binary_search`) Take any strict weak order that gives the answers of the given comparison where it does not throw, and by which
the container is sorted.  Either an exception that the comparison throws for an element comes out, or the answer is whether an element is
equivalent to the value. -/
theorem C127_binary_search (md : Mode) (m : Mem α) (c : Container) (val : List Int → α) (h : Elems c m val) (hne : c.shape ≠ [])
    (hs : NonNeg c.shape) (cmp : α → α → Except ε Bool) (lt : α → α → Bool) (hcmp : ∀ a b r, cmp a b = .ok r → lt a b = r)
    (hlt : StrictWeak lt) (hsorted : ∀ p q, InBox c.shape p → InBox c.shape q → p < q → lt (val q) (val p) = false) (value : α) :
    (∃ p e, InBox c.shape p ∧ (cmp (val p) value = .error e ∨ cmp value (val p) = .error e) ∧
      binarySearchE md m c value cmp = .ok (.error e)) ∨
    ∃ b, binarySearchE md m c value cmp = .ok (.ok b) ∧
      (b = true ↔ ∃ p, InBox c.shape p ∧ lt (val p) value = false ∧ lt value (val p) = false) := by
  have hpart : ∀ p q, InBox c.shape p → InBox c.shape q → p < q → lt (val q) value = true → lt (val p) value = true := by
    intro p q hp hq hpq hv
    rcases hlt.split _ _ (val p) hv with h' | h'
    · rw [hsorted p q hp hq hpq] at h'; cases h'
    · exact h'
  unfold binarySearchE
  rcases (C127_bounds (ε := ε) md m c val h hne hs value).1 cmp lt hcmp hpart with ⟨p, e, hp, he, hr⟩ | ⟨r, h1, h2⟩
  · exact .inl ⟨p, e, hp, .inl he, by rw [hr]; rfl⟩
  · obtain ⟨b, hb, hiff⟩ := C32_binary_search (σ := Unit) md m c val h hne hs lt hlt hsorted value ()
    obtain ⟨r', h3, h4⟩ := C30_lower_bound (σ := Unit) md m c val h hne hs lt value hpart ()
    have hrr : r' = r := by
      cases r with
      | none => rw [h4.1]; exact h2.1.1 rfl
      | some p => rw [h4.2]; exact (h2.2 p).1 rfl
    subst hrr
    rw [h1]
    unfold binarySearch at hb
    simp only [bind, StateT.bind, h3, Except.bind] at hb ⊢
    cases r' with
    | none =>
      simp only [pure, StateT.pure, Except.pure, Except.ok.injEq, Prod.mk.injEq, and_true] at hb ⊢
      exact .inr ⟨b, by rw [hb], hiff⟩
    | some p =>
      have hp := ((h2.2 p).1 rfl).1
      simp only [liftM, monadLift, MonadLift.monadLift, StateT.lift, h p hp, pure, StateT.pure, Except.pure, bind, StateT.bind,
        Except.bind, Except.ok.injEq, Prod.mk.injEq, and_true] at hb ⊢
      cases hc : cmp value (val p) with
      | error e => exact .inl ⟨p, e, hp, .inr hc, rfl⟩
      | ok r =>
        refine .inr ⟨b, ?_, hiff⟩
        rw [← hb, hcmp _ _ _ hc]; rfl

/-! ## Examples -/

example : (forEachE thirdCall 0 exOut [] exTwo).map (fun r => (r.1, r.2.1, (positions [2, 2]).map fun p => exOut.get r.2.2 p)) =
    .ok (.error "third", 2, [.ok 7, .ok 7, .ok 0, .ok 0]) := by rfl
example : (forEachIndexE (fun n p is m => if is = [1, 0] then pure (.error "here", (n, m)) else thirdCall n [p] m) 0 exOut exTwo).map
    (fun r => (r.1, r.2.1)) = .ok (.error "here", 2) := by rfl
example : transformReduceE exTwo exIn exIn 0 (fun a x => .ok (a + x)) (fun x y => (notThree x).map (· * y)) = .ok (.error "three") := by rfl
example : innerProductE .checked exTwo exIn exIn 0 (fun a x => if a > 4 then .error "big" else .ok (a + x)) (fun x y => .ok (x * y)) =
    .ok (.error "big") := by rfl
example : noneOfE exTwo exIn (fun x => (notThree x).map (· = 20)) = .ok (.ok false) := by rfl
example : findLastIfE exTwo exIn (fun x => (notThree x).map (· = 40)) = .ok (.ok (some [1, 1])) := by rfl
example : findLastIfE exTwo exIn (fun x => (notThree x).map (· = 20)) = .ok (.error "three") := by rfl
example : exIn.Default := ofShape_default (by decide)

example : lowerBoundE .checked exTwo exIn 2 lessNotThree = .ok (.error "three") := by rfl
example : lowerBoundE .checked exTwo exIn (-1) (fun a b => if a = 4 then .error "four" else .ok (decide (a < b)) : Int → Int → Except String Bool) =
    .ok (.ok (some [0, 0])) := by rfl
example : upperBoundE .checked exTwo exIn 3 lessNotThree = .ok (.error "three") := by rfl
example : binarySearchE .checked exTwo exIn 2 (fun a b => if a = 4 then .error "four" else .ok (decide (a < b)) : Int → Int → Except String Bool) =
    .ok (.ok true) := by rfl
example : (positions exIn.shape)[(positions exIn.shape).length / 2]? = some [1, 0] := by decide

end Kwk
