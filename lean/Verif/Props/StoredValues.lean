import Verif.Lemmas.StoredValues
import Verif.Props.Sequences

/-!
# Property C166: copies of values that are stored or accumulated
-/

namespace Kwk
open Spec

variable {α β γ : Type}

/-- The full property: a value that is given up is copied only into elements. -/
def C166_statement : Prop := ∀ s : Storing, OnlyNeeded s

/-- **C166** `reduce`: with an initial value, and the sum of the elements. -/
theorem C166_reduce_partial [Nonempty α] [DecidableEq α] {c : Container} {m : Mem α} {xs : List α} (h : Lists c m xs) (f : β → α → β) (init : β)
    (add : α → α → α) (zero : α) (ctx : Bool) (g : GivenAs) (n : Nat) :
    viaContext ctx (reduceAcc m c f init) g n = .ok (xs.foldl f init, n + ofCaller g + 0 + if ctx then 0 else 1) ∧
    reduceSumAcc m c add zero n = .ok (xs.foldl add zero, n + xs.length) := by
  refine ⟨via_context (fun g n => ?_) .., ?_⟩
  · refine take_then (j := 0) (fun n => ?_) g n
    rw [(C117_reading h (fun _ => true) (Classical.arbitrary α) (accByReference f) (init, n)).1, foldl_reference]
    rfl
  · unfold reduceSumAcc
    rw [takeValue_then]
    refine (C117_reading h (fun _ => true) (Classical.arbitrary α) (accByValue add) (zero, n)).1.trans ?_
    rw [foldl_value]

example : reduceSumAcc exMem exView (· + ·) 0 0 = .ok (10, 4) :=
  (C166_reduce_partial exLists (fun (a : Int) e => a + e) 0 (· + ·) 0 true .rvalue 0).2

/-- **C166** `transform_reduce` and `inner_product`, with all, some or none of their functions. -/
theorem C166_sums_partial [Nonempty α] {a b : Container} {m : Mem α} {xs ys : List α} (hs : a.shape = b.shape) (ha : Lists a m xs)
    (hb : Lists b m ys) (R : β → γ → β) (T : α → α → γ) (init : β) (md : Mode) (ctx : Bool) (g : GivenAs) (n : Nat) :
    viaContext ctx (transformReduceAcc m a b init (accByReference R) T) g n =
      .ok ((List.zipWith T xs ys).foldl R init, n + ofCaller g + 0 + if ctx then 0 else 1) ∧
    viaContext ctx (transformReduceTAcc m a b init R T) g n =
      .ok ((List.zipWith T xs ys).foldl R init, n + ofCaller g + (1 + xs.length) + if ctx then 0 else 1) ∧
    viaContext ctx (transformReduceInitAcc m a b init R T) g n =
      .ok ((List.zipWith T xs ys).foldl R init, n + ofCaller g + (1 + (1 + xs.length)) + if ctx then 0 else 1) ∧
    transformReduceInitAcc m a b init R T .rvalue n = .ok ((List.zipWith T xs ys).foldl R init, n + (2 + xs.length)) ∧
    viaContext ctx (innerProductAcc md m a b init (accByReference R) T) g n =
      .ok ((List.zipWith T xs ys).foldl R init, n + ofCaller g + 0 + if ctx then 0 else 1) ∧
    viaContext ctx (innerProductInitAcc md m a b init R T) g n =
      .ok ((List.zipWith T xs ys).foldl R init, n + ofCaller g + (1 + xs.length) + if ctx then 0 else 1) ∧
    innerProductInitAcc md m a b init R T .rvalue n = .ok ((List.zipWith T xs ys).foldl R init, n + (1 + xs.length)) := by
  have hl : (List.zipWith T xs ys).length = xs.length := by
    rw [List.length_zipWith, lists_length ha, lists_length hb, hs, Nat.min_self]
  have r1 := fun n => C117_reading_two hs ha hb (accByReference R) T (init, n) md
  have r2 := fun n => C117_reading_two hs ha hb (accByValue R) T (init, n) md
  simp only [foldl_reference] at r1
  simp only [foldl_value, hl] at r2
  have t1 : ∀ g n, transformReduceTAcc m a b init R T g n =
      .ok ((List.zipWith T xs ys).foldl R init, n + ofCaller g + (1 + xs.length)) := fun g n =>
    via_context_count (f := transformReduceAcc m a b init (accByValue R) T) (fun g n => take_then (fun n => (r2 n).1) g n) g n
  have t2 : ∀ g n, transformReduceInitAcc m a b init R T g n =
      .ok ((List.zipWith T xs ys).foldl R init, n + ofCaller g + (1 + (1 + xs.length))) := fun g n => via_context_count t1 g n
  have i1 : ∀ g n, innerProductInitAcc md m a b init R T g n =
      .ok ((List.zipWith T xs ys).foldl R init, n + ofCaller g + (1 + xs.length)) := fun g n =>
    via_context_count (f := innerProductAcc md m a b init (accByValue R) T) (fun g n => take_then (fun n => (r2 n).2) g n) g n
  refine ⟨via_context (fun g n => take_then (j := 0) (fun n => (r1 n).1) g n) .., via_context t1 .., via_context t2 .., ?_,
    via_context (fun g n => take_then (j := 0) (fun n => (r1 n).2) g n) .., via_context i1 .., i1 .rvalue n⟩
  rw [t2, ← Nat.add_assoc 1 1]
  rfl

example : innerProductInitAcc .checked exMem exView exView 0 (· + ·) (· * ·) .rvalue 0 = .ok (30, 5) :=
  (C166_sums_partial rfl exLists exLists (· + ·) (· * ·) 0 .checked true .rvalue 0).2.2.2.2.2.2

/-- **C166** `fill`, `replace_if` and `replace`. -/
theorem C166_writing_partial [Nonempty α] [DecidableEq α] {c : Container} {m : Mem α} {xs : List α} (hd : Distinct c) (h : Lists c m xs)
    (f : α → Bool) (v old : α) (ctx : Bool) (g : GivenAs) (n : Nat) :
    (∃ m', Lists c m' (List.replicate xs.length v) ∧ SameOutside c m m' ∧
      viaContext ctx (fillAcc m c v) g n = .ok (m', n + ofCaller g + xs.length + if ctx then 0 else 1)) ∧
    (∃ m', Lists c m' (xs.map fun x => if f x then v else x) ∧ SameOutside c m m' ∧
      viaContext ctx (replaceIfAcc m c f v) g n = .ok (m', n + ofCaller g + (1 + xs.countP f) + if ctx then 0 else 1)) ∧
    (∃ m', Lists c m' (xs.map fun x => if x = old then v else x) ∧ SameOutside c m m' ∧
      viaContext ctx (replaceAcc m c old v) g n =
        .ok (m', n + ofCaller g + (1 + (1 + xs.countP fun x => x = old)) + if ctx then 0 else 1)) := by
  have key : ∀ f : α → Bool, ∃ m', Lists c m' (xs.map fun x => if f x then v else x) ∧ SameOutside c m m' ∧
      ∀ g n, replaceIfAcc m c f v g n = .ok (m', n + ofCaller g + (1 + xs.countP f)) := by
    intro f
    obtain ⟨m', hm, hl, ho⟩ := (C117_writing hd h v v (fun x => x) f (fun _ => v) (fun x : Nat => x) (fun _ => v) 0).2.2.1
    refine ⟨m', hl, ho, fun g n => ?_⟩
    obtain ⟨val, he, rfl⟩ := lists_elems h
    have hv : Valid c m := fun p hp => ⟨_, he p hp⟩
    let step : Nat × Mem α → List Int → Res (Nat × Mem α) := fun sm p => do
      let w ← load sm.2 (c.addr p)
      if f w then do
        let m ← store sm.2 (c.addr p) v
        pure (sm.1 + 1, m)
      else pure (sm.1, sm.2)
    have hstep : ∀ p, InBox c.shape p → ∀ s m1, (∀ a, (∀ q, InBox c.shape q → q < p → c.addr q ≠ a) → m1 a = m a) →
        (∀ a, (m1 a).isSome = (m a).isSome) → step (s, m1) p =
          .ok (s + (if f (val p) then 1 else 0), wr m1 (c.addr p) (if f (val p) then some v else none)) := by
      intro p hp s m1 ha hs
      have e : load m1 (c.addr p) = .ok (val p) := by
        apply load_ok
        rw [own_cell hd hp ha]
        exact get_ok_iff.1 (he p hp)
      simp only [step, e, bind, Except.bind]
      cases hf : f (val p)
      · rfl
      · simp only [if_true]
        rw [store_ok (valid_isSome hv hp hs)]; rfl
    have run : ∀ n, (positions c.shape).foldlM step (n, m) = .ok (n + (positions c.shape).countP fun p => f (val p), m') := by
      intro n
      obtain ⟨m2, h1, h2, -, h4⟩ := loop_write c.shape c.addr
        (fun p s => (s + (if f (val p) then 1 else 0), if f (val p) then some v else none)) step m n hd
        (fun p hp => by obtain ⟨w, hw⟩ := hv p hp; exact isSome_of_get hw) hstep
      have hcount : ∀ (l : List (List Int)) (n : Nat), l.foldl (fun s p => s + (if f (val p) then 1 else 0)) n = n + l.countP fun p => f (val p) := by
        intro l
        induction l with
        | nil => exact fun _ => rfl
        | cons p l ih =>
          intro n
          rw [List.foldl_cons, ih, List.countP_cons]
          omega
      rw [h1, hcount]
      congr 2
      funext a
      by_cases ha : ∃ p, InBox c.shape p ∧ c.addr p = a
      · obtain ⟨p, hp, rfl⟩ := ha
        obtain ⟨k, hk, hkp⟩ := List.mem_iff_getElem.1 (mem_positions.2 hp)
        rw [h4 k p (by rw [List.getElem?_eq_getElem hk, hkp])]
        obtain ⟨m3, g1, g2, -⟩ := C38_replace_if m c hd val he f v
        rw [hm] at g1
        cases g1
        rw [get_ok_iff.1 (g2 p hp)]
        cases hf : f (val p)
        · simpa [hf] using get_ok_iff.1 (he p hp)
        · simp [hf]
      · have hno : ∀ p, InBox c.shape p → c.addr p ≠ a := fun p hp e => ha ⟨p, hp, e⟩
        rw [h2 a hno, ho a hno]
    unfold replaceIfAcc mapCtx
    rw [takeValue_then, takeValue_then, List.countP_map]
    show (loopState _ _ _ >>= _) = _
    rw [loopState_eq]
    show ((positions c.shape).foldlM step (n + ofCaller g + 1, m) >>= fun r => (pure (r.2, r.1) : Res (Mem α × Nat))) = _
    rw [run, ← Nat.add_assoc]
    rfl
  obtain ⟨m1, hm1, hl1, ho1⟩ := (C117_writing hd h v v (fun x => x) f (fun _ => v) (fun x : Nat => x) (fun _ => v) 0).1
  obtain ⟨m2, hl2, ho2, h2⟩ := key f
  obtain ⟨m3, hl3, ho3, h3⟩ := key fun x => x = old
  refine ⟨⟨m1, hl1, ho1, via_context (fun g n => take_then (fun n => ?_) g n) ..⟩, ⟨m2, hl2, ho2, via_context h2 ..⟩,
    ⟨m3, by simpa using hl3, ho3, via_context (fun g n => via_context_count h3 g n) ..⟩⟩
  unfold fill mapCtx at hm1
  change (loopState _ _ _ >>= _) = _ at hm1
  cases hr : loopState (fun is (sm : Unit × Mem α) => do let m ← store sm.2 (c.addr is) v; pure ((), m)) c.shape ((), m) with
  | error e => rw [show loopState _ c.shape ((), m) = _ from hr] at hm1; cases hm1
  | ok r =>
    rw [show loopState _ c.shape ((), m) = _ from hr] at hm1
    cases hm1
    have hc := count_loop (fun _ n => n) (k := 1) (s' := ()) (m' := r.2)
      (f' := fun is (sm : Nat × Mem α) => do let m ← store sm.2 (c.addr is) v; pure (sm.1 + 1, m)) (fun p s n m => by
        cases hst : store m (c.addr p) v <;> simp [bind, Except.bind, pure, Except.pure]) hr n
    rw [Nat.one_mul, ← lists_length h] at hc
    show (loopState (fun is (sm : Nat × Mem α) => do let m ← store sm.2 (c.addr is) v; pure (sm.1 + 1, m)) c.shape (n, m) >>=
      fun r => (pure (r.2, r.1) : Res (Mem α × Nat))) = _
    rw [hc]
    rfl

example := (C166_writing_partial exDistinct exLists (fun v => decide (v = 3)) 9 4 false .rvalue 0).2.2

/-- **C166** `iota`: from a value, with and without a step, or from a new value. -/
theorem C166_iota_partial [Nonempty α] [Add β] {c : Container} {m : Mem α} {xs : List α} (hd : Distinct c) (h : Lists c m xs) (incr : β → β)
    (conv : β → α) (v step : β) (ctx : Bool) (g : GivenAs) (n : Nat) :
    (∃ m', Lists c m' ((List.range xs.length).map fun k => conv (incr^[k] v)) ∧ SameOutside c m m' ∧
      viaContext ctx (iotaAcc m c incr conv v) g n = .ok (m', n + ofCaller g + xs.length + if ctx then 0 else 1) ∧
      iotaAcc m c incr conv v .rvalue n = .ok (m', n + xs.length)) ∧
    (∃ m', Lists c m' ((List.range xs.length).map fun k => conv ((fun x => x + step)^[k] v)) ∧ SameOutside c m m' ∧
      viaContext ctx (iotaStepAcc m c conv v step) g n = .ok (m', n + ofCaller g + xs.length + if ctx then 0 else 1)) := by
  have key : ∀ incr : β → β, ∃ m', Lists c m' ((List.range xs.length).map fun k => conv (incr^[k] v)) ∧ SameOutside c m m' ∧
      ∀ g n, iotaAcc m c incr conv v g n = .ok (m', n + ofCaller g + xs.length) := by
    intro incr
    obtain ⟨m1, hm1, hl1, ho1⟩ := (C117_writing hd h (conv v) (conv v) (fun x => x) (fun _ => true) (fun _ => conv v) incr conv v).2.2.2.2
    refine ⟨m1, hl1, ho1, fun g n => take_then (fun n => ?_) g n⟩
    let f : List Int → β × Mem α → Res (β × Mem α) := fun is sm => do
      let m ← store sm.2 (c.addr is) (conv sm.1)
      pure (incr sm.1, m)
    let f' : List Int → (β × Nat) × Mem α → Res ((β × Nat) × Mem α) := fun is sm => do
      let m ← store sm.2 (c.addr is) (conv sm.1.1)
      pure ((incr sm.1.1, sm.1.2 + 1), m)
    change (loopState f c.shape (v, m) >>= fun r => (pure r.2 : Res (Mem α))) = _ at hm1
    cases hr : loopState f c.shape (v, m) with
    | error e => rw [hr] at hm1; cases hm1
    | ok r =>
      rw [hr] at hm1
      cases hm1
      have hc := count_loop Prod.mk (k := 1) (s' := r.1) (m' := r.2) (f := f) (f' := f') (fun p s n m => by
        simp only [f, f']
        cases store m (c.addr p) (conv s) <;> rfl) hr n
      rw [Nat.one_mul, ← lists_length h] at hc
      show (loopState f' c.shape ((v, n), m) >>= fun r => (pure (r.2, r.1.2) : Res (Mem α × Nat))) = _
      rw [hc]
      rfl
  obtain ⟨m1, hl1, ho1, h1⟩ := key incr
  obtain ⟨m2, hl2, ho2, h2⟩ := key fun x => x + step
  exact ⟨⟨m1, hl1, ho1, via_context h1 .., h1 .rvalue n⟩, ⟨m2, hl2, ho2, via_context h2 ..⟩⟩

example := C166_iota_partial exDistinct exLists (fun x : Int => x + 1) (fun x => x) 5 2 false .lvalue 0

private theorem inclusive_count {inp out : Container} {m m' : Mem α} {init : α} {f1 : α → β → α} {f2 : α → β} {f1' : α × Nat → β → α × Nat}
    {j : Nat} (hf : ∀ a n e, f1' (a, n) e = (f1 a e, n + j)) (h : transformInclusiveScan m inp out init f1 f2 = .ok m') (g : GivenAs) (n : Nat) :
    transformInclusiveAcc m inp out init f1' f2 g n = .ok (m', n + ofCaller g + (1 + (j + 1) * (positions inp.shape).length)) := by
  unfold transformInclusiveScan mapCtx at h
  let step : List Int → α × Mem α → Res (α × Mem α) := fun is sm => do
    let v ← load sm.2 (inp.addr is)
    let m ← store sm.2 (out.addr is) (f1 sm.1 (f2 v))
    pure (f1 sm.1 (f2 v), m)
  let step' : List Int → (α × Nat) × Mem α → Res ((α × Nat) × Mem α) := fun is sm => do
    let v ← load sm.2 (inp.addr is)
    let m ← store sm.2 (out.addr is) (f1' sm.1 (f2 v)).1
    pure (((f1' sm.1 (f2 v)).1, (f1' sm.1 (f2 v)).2 + 1), m)
  change (loopState step inp.shape (init, m) >>= fun r => (pure r.2 : Res (Mem α))) = _ at h
  cases hr : loopState step inp.shape (init, m) with
  | error e => rw [hr] at h; cases h
  | ok r =>
    rw [hr] at h
    cases h
    have hc := fun n => count_loop Prod.mk (k := j + 1) (s' := r.1) (m' := r.2) (f := step) (f' := step') (fun p s n m => by
      simp only [step, step', hf]
      cases load m (inp.addr p) with
      | error e => rfl
      | ok v =>
        show (store m (out.addr p) (f1 s (f2 v)) >>= _) = ((store m (out.addr p) (f1 s (f2 v)) >>= _) >>= _)
        cases store m (out.addr p) (f1 s (f2 v)) <;> rfl) hr n
    unfold transformInclusiveAcc
    rw [takeValue_then, takeValue_then]
    show (loopState step' inp.shape ((init, n + ofCaller g + 1), m) >>= fun r => (pure (r.2, r.1.2) : Res (Mem α × Nat))) = _
    rw [hc, ← Nat.add_assoc]
    rfl

private theorem exclusive_count {inp out : Container} {m m' : Mem α} {init : α} {f1 : α → β → α} {f2 : α → β} {f1' : α × Nat → β → α × Nat}
    {j : Nat} (hf : ∀ a n e, f1' (a, n) e = (f1 a e, n + j)) (h : transformExclusiveScan m inp out init f1 f2 = .ok m') (g : GivenAs) (n : Nat) :
    transformExclusiveAcc m inp out init f1' f2 g n = .ok (m', n + ofCaller g + (1 + (j + 1) * (positions inp.shape).length)) := by
  unfold transformExclusiveScan mapCtx at h
  let step : List Int → α × Mem α → Res (α × Mem α) := fun is sm => do
    let m ← store sm.2 (out.addr is) sm.1
    let v ← load m (inp.addr is)
    pure (f1 sm.1 (f2 v), m)
  let step' : List Int → (α × Nat) × Mem α → Res ((α × Nat) × Mem α) := fun is sm => do
    let m ← store sm.2 (out.addr is) sm.1.1
    let v ← load m (inp.addr is)
    pure (f1' (sm.1.1, sm.1.2 + 1) (f2 v), m)
  change (loopState step inp.shape (init, m) >>= fun r => (pure r.2 : Res (Mem α))) = _ at h
  cases hr : loopState step inp.shape (init, m) with
  | error e => rw [hr] at h; cases h
  | ok r =>
    rw [hr] at h
    cases h
    have hc := fun n => count_loop Prod.mk (k := j + 1) (s' := r.1) (m' := r.2) (f := step) (f' := step') (fun p s n m => by
      simp only [step, step', hf]
      rw [Nat.add_assoc n 1 j, Nat.add_comm 1 j]
      cases store m (out.addr p) s with
      | error e => rfl
      | ok m1 =>
        show (load m1 (inp.addr p) >>= _) = ((load m1 (inp.addr p) >>= _) >>= _)
        cases load m1 (inp.addr p) <;> rfl) hr n
    unfold transformExclusiveAcc
    rw [takeValue_then, takeValue_then]
    show (loopState step' inp.shape ((init, n + ofCaller g + 1), m) >>= fun r => (pure (r.2, r.1.2) : Res (Mem α × Nat))) = _
    rw [hc, ← Nat.add_assoc]
    rfl

/-- **C166** The scans: with two functions, one or none. -/
theorem C166_scans_partial [Nonempty α] {out inp : Container} {m : Mem α} {xs : List α} (hs : out.shape = inp.shape) (hd : Distinct out)
    (hv : Valid out m) (hc : NoClobber out inp) (hx : Lists inp m xs) (init : α) (f1 : α → β → α) (f2 : α → β) (f : α → α → α)
    (ctx : Bool) (g : GivenAs) (n : Nat) :
    (∃ m', Lists out m' ((xs.map f2).scanl f1 init).tail ∧ SameOutside out m m' ∧
      viaContext ctx (transformInclusiveAcc m inp out init (accByReference f1) f2) g n =
        .ok (m', n + ofCaller g + (1 + xs.length) + if ctx then 0 else 1)) ∧
    (∃ m', Lists out m' (xs.scanl f init).tail ∧ SameOutside out m m' ∧
      viaContext ctx (scanAcc (fun f => transformInclusiveAcc m inp out init f fun e => e) (accByReference f)) g n =
        .ok (m', n + ofCaller g + (2 + xs.length) + if ctx then 0 else 1) ∧
      viaContext ctx (scanSumAcc (fun f => transformInclusiveAcc m inp out init f fun e => e) f) g n =
        .ok (m', n + ofCaller g + (3 + 2 * xs.length) + if ctx then 0 else 1)) ∧
    ((∀ p, InBox out.shape p → out.addr p ≠ inp.addr p) →
      (∃ m', Lists out m' ((xs.map f2).scanl f1 init).dropLast ∧ SameOutside out m m' ∧
        viaContext ctx (transformExclusiveAcc m inp out init (accByReference f1) f2) g n =
          .ok (m', n + ofCaller g + (1 + xs.length) + if ctx then 0 else 1)) ∧
      (∃ m', Lists out m' (xs.scanl f init).dropLast ∧ SameOutside out m m' ∧
        viaContext ctx (scanAcc (fun f => transformExclusiveAcc m inp out init f fun e => e) (accByReference f)) g n =
          .ok (m', n + ofCaller g + (2 + xs.length) + if ctx then 0 else 1) ∧
        viaContext ctx (scanSumAcc (fun f => transformExclusiveAcc m inp out init f fun e => e) f) g n =
          .ok (m', n + ofCaller g + (3 + 2 * xs.length) + if ctx then 0 else 1))) := by
  obtain ⟨⟨m1, p1, q1, r1⟩, he⟩ := C117_scans hs hd hv hc hx init f1 f2
  obtain ⟨⟨m2, p2, q2, r2⟩, he'⟩ := C117_scans hs hd hv hc hx init f fun e => e
  rw [List.map_id'] at q2
  have passed : ∀ {scan : (α × Nat → α → α × Nat) → GivenAs → Copying (Mem α)} {m' : Mem α},
      (∀ g n, scan (accByReference f) g n = .ok (m', n + ofCaller g + (1 + (0 + 1) * (positions inp.shape).length))) →
      (∀ g n, scan (accByValue f) g n = .ok (m', n + ofCaller g + (1 + (1 + 1) * (positions inp.shape).length))) →
      viaContext ctx (scanAcc scan (accByReference f)) g n = .ok (m', n + ofCaller g + (2 + xs.length) + if ctx then 0 else 1) ∧
      viaContext ctx (scanSumAcc scan f) g n = .ok (m', n + ofCaller g + (3 + 2 * xs.length) + if ctx then 0 else 1) := by
    intro scan m' h1 h2
    refine ⟨via_context (fun g n => (via_context_count h1 g n).trans ?_) ctx g n,
      via_context (fun g n => (via_context_count (fun g n => via_context_count h2 g n) g n).trans ?_) ctx g n⟩
    · rw [lists_length hx]
      congr 2
      omega
    · rw [lists_length hx]
      congr 2
      omega
  refine ⟨⟨m1, q1, r1, via_context (fun g n => ?_) ..⟩, ⟨m2, q2, r2, passed (fun g n => inclusive_count (j := 0) (fun _ _ _ => rfl) p2 g n)
    fun g n => inclusive_count (j := 1) (fun _ _ _ => rfl) p2 g n⟩, fun ho => ?_⟩
  · have := inclusive_count (f1' := accByReference f1) (j := 0) (fun _ _ _ => rfl) p1 g n
    rwa [Nat.zero_add, Nat.one_mul, ← lists_length hx] at this
  obtain ⟨m3, p3, q3, r3⟩ := he ho
  obtain ⟨m4, p4, q4, r4⟩ := he' ho
  rw [List.map_id'] at q4
  refine ⟨⟨m3, q3, r3, via_context (fun g n => ?_) ..⟩, ⟨m4, q4, r4, passed (fun g n => exclusive_count (j := 0) (fun _ _ _ => rfl) p4 g n)
    fun g n => exclusive_count (j := 1) (fun _ _ _ => rfl) p4 g n⟩⟩
  have := exclusive_count (f1' := accByReference f1) (j := 0) (fun _ _ _ => rfl) p3 g n
  rwa [Nat.zero_add, Nat.one_mul, ← lists_length hx] at this

private theorem unit_distinct (a : Ptr) : Distinct (.ofShape a [1]) := by
  intro p q hp hq _
  have hp := mem_positions.2 hp
  have hq := mem_positions.2 hq
  rw [show positions (Container.ofShape a [1]).shape = [[0]] from rfl] at hp hq
  rw [List.mem_singleton.1 hp, List.mem_singleton.1 hq]

private theorem unit_at {a : Ptr} {p : List Int} (hp : InBox (Container.ofShape a [1]).shape p) : p = [0] := by
  have hp := mem_positions.2 hp
  rwa [show positions (Container.ofShape a [1]).shape = [[0]] from rfl, List.mem_singleton] at hp

example := C166_scans_partial (out := .ofShape ⟨1, 0⟩ [1]) (inp := .ofShape ⟨0, 0⟩ [1])
  (m := fun q => if q.off = 0 then some (7 : Int) else none) (xs := [7]) rfl (unit_distinct _)
  (fun p hp => by rw [unit_at hp]; exact ⟨7, rfl⟩) (fun p q hp hq _ => by rw [unit_at hp, unit_at hq]; decide) rfl
  1 (· + ·) (· * 2) (· + ·) false .lvalue 0

private theorem run_acc {ρ : Type} {x : Copying ρ} {n n' : Nat} {r : ρ} (h : x n = .ok (r, n')) :
    (x >>= fun _ => pure () : Copying Unit) n = .ok ((), n') := by
  show (x n >>= _) = _
  rw [h]
  rfl

/-- **C166** The calls that copy a value given up only into elements: with a context, `reduce` with an initial value, `transform_reduce`
and `inner_product` with two functions, `fill` and `iota`; besides `iota` without a value. -/
theorem C166_which_partial (s : Storing) :
    OnlyNeeded s ↔ s ∈ [.reduce true, .transformReduce true, .innerProduct true, .fill true, .iota true,
      .iotaNone, .iotaStep true] := by
  constructor
  · intro h
    have h0 := h .checked (.ofShape ⟨0, 0⟩ [1]) (.ofShape ⟨1, 0⟩ [1]) (fun q => if q.off = 0 then some 7 else none) [7] (fun _ => true)
      (fun a _ => a) 8 7 0 (unit_distinct _) rfl rfl (unit_distinct _) (fun p hp => by rw [unit_at hp]; exact ⟨7, rfl⟩)
      (fun p q hp hq => by rw [unit_at hp, unit_at hq]; decide)
    revert h0
    rcases s with (_ | _) | _ | (_ | _) | (_ | _) | (_ | _) | _ | (_ | _) | (_ | _) | _ | (_ | _) | (_ | _) | _ | (_ | _) | (_ | _) | (_ | _) | (_ | _) |
        (_ | _) | (_ | _) | (_ | _) | (_ | _) | (_ | _) <;>
      first
        | exact fun _ => by decide
        | exact fun h => absurd (congrArg (fun r : Res (Unit × Nat) => match r with | .ok x => x.2 | .error _ => 0) h) (by decide +kernel)
  · intro h md c o m xs f op v old n hd hl _ _ _ _
    simp only [List.mem_cons, List.not_mem_nil, or_false] at h
    rcases h with rfl | rfl | rfl | rfl | rfl | rfl | rfl
    · exact run_acc (C166_reduce_partial hl op v op v true .rvalue n).1
    · exact run_acc (C166_sums_partial rfl hl hl op op v md true .rvalue n).1
    · exact run_acc (C166_sums_partial rfl hl hl op op v md true .rvalue n).2.2.2.2.1
    · obtain ⟨m', -, -, h1⟩ := (C166_writing_partial hd hl f v old true .rvalue n).1
      exact run_acc h1
    · obtain ⟨m', -, -, h1, -⟩ := (C166_iota_partial hd hl (op old) (fun x => x) v old true .rvalue n).1
      exact run_acc h1
    · obtain ⟨m', -, -, -, h1⟩ := (C166_iota_partial hd hl (op old) (fun x => x) v old true .rvalue n).1
      exact run_acc h1
    · obtain ⟨m', -, -, h1⟩ := (C166_iota_partial hd hl (op old) (fun x => x) v old true .rvalue n).2
      exact run_acc h1

example : ¬ OnlyNeeded (.inclusiveScan true) := fun h => absurd ((C166_which_partial _).1 h) (by decide)

/-- **C166** is false: without a context, `fill` copies its value once more. -/
theorem C166_not : ¬ C166_statement := fun h => absurd ((C166_which_partial _).1 (h (.fill false))) (by decide)

end Kwk
