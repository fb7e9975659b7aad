import Verif.Spec.Arguments
import Verif.Lemmas.Arguments
import Verif.Props.Sequences

/-!
# Property C159: arguments of algorithms that are elements of the containers

`p`, `q` are objects of the caller: variables, or elements of the containers themselves.  Only the values they hold before the call
matter, and the call does not change them unless it assigns to them as elements of the container it writes.
-/

namespace Kwk
open Spec

variable {α ρ : Type}

private theorem ready_sound {s : Objs α} (h : Unused s) : Sound s.next s := ⟨Nat.le_refl _, h⟩

private theorem ready_blk {s : Objs α} (h : Unused s) {p : Ptr} {v : α} (hv : s.mem p = some v) : p.blk < s.next := by
  by_contra hn
  rw [h p (by omega)] at hv
  cases hv

private theorem answers_one {s : Objs α} (hs : Unused s) {prog fwd : Ptr → Calls α ρ} {A : α → Mem α → Res (ρ × Mem α)}
    (h : ∀ t p, Sound s.next t → Acts s.next t (prog p t) (load t.mem p >>= fun v => A v (upToBlock s.next t.mem)))
    (hf : ∀ p, fwd p = inScope (param p >>= prog)) {p : Ptr} {v : α} (hv : s.mem p = some v) {r : ρ} {m : Mem α} (hA : A v s.mem = .ok (r, m)) :
    Yields s (fwd p) (prog p) r m := by
  have hs' := ready_sound hs
  constructor
  · rw [hf, acts_all hs' (acts_forward h s p hs'), load_of hv, cut_all hs']
    show (A v s.mem >>= _) = _
    rw [hA]; rfl
  · rw [acts_all hs' (h s p hs'), load_of hv, cut_all hs']
    show (A v s.mem >>= _) = _
    rw [hA]; rfl

private theorem answers_two {s : Objs α} (hs : Unused s) {prog fwd : Ptr → Ptr → Calls α ρ} {A : α → α → Mem α → Res (ρ × Mem α)}
    (h : ∀ t p p', Sound s.next t → p'.blk < t.next → Acts s.next t (prog p p' t)
      (load t.mem p >>= fun v => load t.mem p' >>= fun w => A v w (upToBlock s.next t.mem)))
    (hf : ∀ p p', fwd p p' = inScope (param p >>= fun q => param p' >>= fun q' => prog q q')) {p p' : Ptr} {v w : α}
    (hv : s.mem p = some v) (hw : s.mem p' = some w) {r : ρ} {m : Mem α} (hA : A v w s.mem = .ok (r, m)) :
    Yields s (fwd p p') (prog p p') r m := by
  have hs' := ready_sound hs
  have hb := ready_blk hs hw
  constructor
  · rw [hf, acts_all hs' (acts_forward_two h s p p' hs' hb), load_of hv, load_of hw, cut_all hs']
    show (A v w s.mem >>= _) = _
    rw [hA]; rfl
  · rw [acts_all hs' (h s p p' hs' hb), load_of hv, load_of hw, cut_all hs']
    show (A v w s.mem >>= _) = _
    rw [hA]; rfl

/-- A frame where the elements of `exView` are `1 2 3 4`, and a variable holds `2`. -/
def exObjs : Objs Int := ⟨fun q => if q.blk = 1 then oneBlock 1 [2] q else exMem q, 2⟩

theorem exUnused : Unused exObjs := by
  intro q hq
  have hq : 2 ≤ q.blk := hq
  show (if q.blk = 1 then _ else oneBlock 0 [1, 3, 2, 4] q) = none
  rw [if_neg (by omega)]
  unfold oneBlock
  rw [if_neg (by omega)]

theorem exObjs_lists : Lists exView exObjs.mem [1, 2, 3, 4] := rfl

/-- **C159** Algorithms that write.  `p` and `q` may be elements of the container: the values are those held before the call. -/
theorem C159_writing [Nonempty α] [DecidableEq α] [AddMonoid α] {s : Objs α} (hs : Unused s) {c : Container} (hc : c.base.blk < s.next)
    (hd : Distinct c) {xs : List α} (hx : Lists c s.mem xs) {p q : Ptr} {v w : α} (hv : s.mem p = some v) (hw : s.mem q = some w)
    (incr : α → α) :
    (∃ m', Yields s (fillObj c p) (fillObjCtx c p) () m' ∧ Lists c m' (List.replicate xs.length v) ∧ SameOutside c s.mem m') ∧
    (∃ m', Yields s (iotaObj incr c p) (iotaObjCtx incr c p) () m' ∧
      Lists c m' ((List.range xs.length).map fun k => incr^[k] v) ∧ SameOutside c s.mem m') ∧
    (∃ m', Yields s (iotaStepObj c p q) (iotaStepObjCtx c p q) () m' ∧
      Lists c m' ((List.range xs.length).map fun k => v + k • w) ∧ SameOutside c s.mem m') ∧
    (∃ m', Yields s (replaceObj c p q) (replaceObjCtx c p q) () m' ∧
      Lists c m' (xs.map fun x => if x = v then w else x) ∧ SameOutside c s.mem m') := by
  refine ⟨?_, ?_, ?_, ?_⟩
  · obtain ⟨m', h1, h2, h3⟩ := (C117_writing (β := α) hd hx v v id (fun x => decide (x = v)) (fun _ => v) incr id v).1
    refine ⟨m', answers_one hs (A := fun v m => fill m c v >>= fun m => pure ((), m)) (fun t p ht => fill_acts hc t p ht)
      (fun _ => rfl) hv ?_, h2, h3⟩
    rw [h1]; rfl
  · obtain ⟨m', h1, h2, h3⟩ := (C117_writing (β := α) hd hx v v id (fun x => decide (x = v)) (fun _ => v) incr (fun x => x) v).2.2.2.2
    refine ⟨m', answers_one hs (A := fun v m => iota m c incr (fun x => x) v >>= fun m => pure ((), m))
      (fun t p ht => iota_acts incr hc t p ht) (fun _ => rfl) hv ?_, h2, h3⟩
    rw [h1]; rfl
  · obtain ⟨m', h1, h2, h3⟩ := (C117_writing (β := α) hd hx v v id (fun x => decide (x = v)) (fun _ => v) (fun x => x + w) (fun x => x) v).2.2.2.2
    refine ⟨m', answers_two hs (A := fun v w m => iotaStep m c (fun x => x) v w >>= fun m => pure ((), m))
      (fun t p p' ht hp => iotaStep_acts hc t p p' ht hp) (fun _ _ => rfl) hv hw ?_, ?_, h3⟩
    · rw [show iotaStep s.mem c (fun x => x) v w = iota s.mem c (fun x => x + w) (fun x => x) v from rfl, h1]; rfl
    · have hit : ∀ (n : Nat) (x : α), (fun x : α => x + w)^[n] x = x + n • w := by
        intro n
        induction n with
        | zero => simp
        | succ n ih => intro x; rw [Function.iterate_succ_apply', ih, succ_nsmul, add_assoc]
      simpa only [hit] using h2
  · obtain ⟨m', h1, h2, h3⟩ := (C117_writing (β := α) hd hx w v id (fun x => decide (x = v)) (fun _ => v) incr id v).2.2.1
    refine ⟨m', answers_two hs (A := fun v w m => replace m c v w >>= fun m => pure ((), m))
      (fun t p p' ht hp => replace_acts hc t p p' ht hp) (fun _ _ => rfl) hv hw ?_, ?_, h3⟩
    · unfold replace; rw [h1]; rfl
    · simpa only [decide_eq_true_eq] using h2

-- `iota(view, view(0,0), view(0,1))` and `replace(view, view(0,0), view(1,1))`
example : ∃ m', Yields exObjs (iotaStepObj exView ⟨0, 0⟩ ⟨0, 2⟩) (iotaStepObjCtx exView ⟨0, 0⟩ ⟨0, 2⟩) () m' ∧
    Lists exView m' [1, 3, 5, 7] := by
  obtain ⟨m', h1, h2, -⟩ := (C159_writing exUnused (c := exView) (by decide) exDistinct exObjs_lists (p := ⟨0, 0⟩) (q := ⟨0, 2⟩) (v := 1) (w := 2)
    (by decide) (by decide) id).2.2.1
  exact ⟨m', h1, h2⟩

example : ∃ m', Yields exObjs (replaceObj exView ⟨0, 0⟩ ⟨0, 3⟩) (replaceObjCtx exView ⟨0, 0⟩ ⟨0, 3⟩) () m' ∧
    Lists exView m' [4, 2, 3, 4] := by
  obtain ⟨m', h1, h2, -⟩ := (C159_writing exUnused (c := exView) (by decide) exDistinct exObjs_lists (p := ⟨0, 0⟩) (q := ⟨0, 3⟩) (v := 1) (w := 4)
    (by decide) (by decide) id).2.2.2
  exact ⟨m', h1, h2⟩

private theorem mapM_loads (ps : List Ptr) (t : Objs α) : ps.mapM readObj t = (loads t.mem ps >>= fun vs => .ok (vs, t)) := by
  induction ps with
  | nil => rfl
  | cons p ps ih =>
    rw [List.mapM_cons]
    unfold loads
    show (readObj p t >>= fun r => (ps.mapM readObj >>= fun vs => pure (r.1 :: vs)) r.2) = _
    unfold readObj
    cases load t.mem p with
    | error e => rfl
    | ok v =>
      show (ps.mapM readObj t >>= _) = _
      rw [ih]
      show ((loads t.mem ps >>= _) >>= _) = ((loads t.mem ps >>= _) >>= _)
      rw [bind_assoc, bind_assoc]
      rfl

private theorem loads_of {m : Mem α} {fs : List Ptr} {vs : List α} (h : List.Forall₂ (fun q v => m q = some v) fs vs) : loads m fs = .ok vs := by
  induction h with
  | nil => rfl
  | cons h _ ih =>
    unfold loads
    rw [load_of h, ih]
    rfl

/-- **C159** `replace_if` with a function object: its members (`fs`) and the new value may be elements of the container. -/
theorem C159_replace_if [Nonempty α] {s : Objs α} (hs : Unused s) {c : Container} (hc : c.base.blk < s.next) (hd : Distinct c)
    {xs : List α} (hx : Lists c s.mem xs) {fs : List Ptr} {vs : List α} (hf : List.Forall₂ (fun q v => s.mem q = some v) fs vs)
    {p : Ptr} {v : α} (hv : s.mem p = some v) (pr : List α → α → Bool) :
    ∃ m', Yields s (replaceIfObj c fs (fun fs x => do pure (pr (← fs.mapM readObj) x)) p)
        (replaceIfObjCtx c fs (fun fs x => do pure (pr (← fs.mapM readObj) x)) p) () m' ∧
      Lists c m' (xs.map fun x => if pr vs x then v else x) ∧ SameOutside c s.mem m' := by
  have hs' := ready_sound hs
  obtain ⟨m', h1, h2, h3⟩ := (C117_writing (β := α) hd hx v v id (pr vs) (fun _ => v) id id v).2.2.1
  have hcall : Pure fs.length (fun fs x => do pure (pr (← fs.mapM readObj) x) : List Ptr → α → Calls α Bool) pr := by
    intro ps x t vs _ hl
    show (ps.mapM readObj t >>= _) = _
    rw [mapM_loads, hl]
    rfl
  have hb : ∀ q ∈ fs, q.blk < s.next := by
    intro q hq
    obtain ⟨i, hi, rfl⟩ := List.mem_iff_getElem.1 hq
    exact ready_blk hs ((List.forall₂_iff_get.1 hf).2 i hi (hf.length_eq ▸ hi))
  have k1 := acts_all hs' (replaceIf_forward hcall hc s fs p hs' rfl hb (ready_blk hs hv))
  have k2 := acts_all hs' (replaceIf_acts hcall hc s fs p hs' rfl hb (ready_blk hs hv))
  rw [loads_of hf, load_of hv, cut_all hs'] at k1 k2
  refine ⟨m', ⟨k1.trans ?_, k2.trans ?_⟩, h2, h3⟩
  · show ((replaceIf s.mem c (pr vs) v >>= _) >>= _) = _
    rw [h1]; rfl
  · show ((replaceIf s.mem c (pr vs) v >>= _) >>= _) = _
    rw [h1]; rfl

-- elements less than the second one become the first one
example : ∃ m', Yields exObjs
      (replaceIfObj exView [⟨0, 1⟩] (fun fs x => do pure ((fun vs x => decide (x < vs.headD 0)) (← fs.mapM readObj) x)) ⟨0, 3⟩)
      (replaceIfObjCtx exView [⟨0, 1⟩] (fun fs x => do pure ((fun vs x => decide (x < vs.headD 0)) (← fs.mapM readObj) x)) ⟨0, 3⟩) () m' ∧
    Lists exView m' [4, 4, 3, 4] := by
  obtain ⟨m', h1, h2, -⟩ := C159_replace_if exUnused (c := exView) (by decide) exDistinct exObjs_lists (fs := [⟨0, 1⟩]) (vs := [3])
    (.cons (by decide) .nil) (p := ⟨0, 3⟩) (v := 4) (by decide) (fun vs x => decide (x < vs.headD 0))
  exact ⟨m', h1, h2⟩

/-- **C159** Scans: the initial value may be an element of either container. -/
theorem C159_scans [Nonempty α] {s : Objs α} (hs : Unused s) {out inp : Container} (ho : out.base.blk < s.next) (hi : inp.base.blk < s.next)
    (hsh : out.shape = inp.shape) (hd : Distinct out) (hv : Valid out s.mem) (hc : NoClobber out inp) {xs : List α}
    (hx : Lists inp s.mem xs) {p : Ptr} {v : α} (hp : s.mem p = some v) (f1 : α → α → α) (f2 : α → α) :
    (∃ m', Yields s (inclusiveScanObj f1 f2 inp out p) (inclusiveScanObjCtx f1 f2 inp out p) () m' ∧
      Lists out m' ((xs.map f2).scanl f1 v).tail ∧ SameOutside out s.mem m') ∧
    ((∀ p, InBox out.shape p → out.addr p ≠ inp.addr p) →
      ∃ m', Yields s (exclusiveScanObj f1 f2 inp out p) (exclusiveScanObjCtx f1 f2 inp out p) () m' ∧
        Lists out m' ((xs.map f2).scanl f1 v).dropLast ∧ SameOutside out s.mem m') := by
  have key := C117_scans hsh hd hv hc hx v f1 f2
  refine ⟨?_, fun h => ?_⟩
  · obtain ⟨m', h1, h2, h3⟩ := key.1
    refine ⟨m', answers_one hs (A := fun v m => transformInclusiveScan m inp out v f1 f2 >>= fun m => pure ((), m))
      (fun t p ht => inclusive_acts f1 f2 hi ho t p ht) (fun _ => rfl) hp ?_, h2, h3⟩
    rw [h1]; rfl
  · obtain ⟨m', h1, h2, h3⟩ := key.2 h
    refine ⟨m', answers_one hs (A := fun v m => transformExclusiveScan m inp out v f1 f2 >>= fun m => pure ((), m))
      (fun t p ht => exclusive_acts f1 f2 hi ho t p ht) (fun _ => rfl) hp ?_, h2, h3⟩
    rw [h1]; rfl

-- in place, with the first element as the initial value
example : ∃ m', Yields exObjs (inclusiveScanObj (· + ·) id exView exView ⟨0, 0⟩) (inclusiveScanObjCtx (· + ·) id exView exView ⟨0, 0⟩) () m' ∧
    Lists exView m' [2, 4, 7, 11] := by
  obtain ⟨m', h1, h2, -⟩ := (C159_scans exUnused (out := exView) (inp := exView) (by decide) (by decide) rfl exDistinct
    ((C117_sequence exView exObjs.mem).1.2 ⟨_, exObjs_lists⟩) (noClobber_self exDistinct) exObjs_lists (p := ⟨0, 0⟩) (v := 1) (by decide)
    (· + ·) id).1
  exact ⟨m', h1, h2⟩

/-- **C159** Algorithms that read: the values given may be elements of the containers; nothing changes. -/
theorem C159_reading [Nonempty α] [DecidableEq α] {s : Objs α} (hs : Unused s) {c d : Container} (hc : c.base.blk < s.next)
    (hd : d.base.blk < s.next) {xs ys : List α} (hx : Lists c s.mem xs) (hy : Lists d s.mem ys) {p : Ptr} {v : α} (hv : s.mem p = some v)
    (f R T : α → α → α) (md : Mode) :
    Yields s (reduceObj f c p) (reduceObjCtx f c p) (xs.foldl f v) s.mem ∧
    (c.shape = d.shape → Yields s (transformReduceObj R T c d p) (transformReduceObjCtx R T c d p) ((List.zipWith T xs ys).foldl R v) s.mem) ∧
    (c.shape = d.shape →
      Yields s (innerProductObj md R T c d p) (innerProductObjCtx md R T c d p) ((List.zipWith T xs ys).foldl R v) s.mem) ∧
    Yields s (countObj c p) (countObjCtx c p) (xs.count v) s.mem ∧
    Yields s (findObj c p) (findObjCtx c p) ((xs.findIdx? fun x => decide (x = v)).bind (place c.shape)) s.mem ∧
    (c.Default → Yields s (findLastObj c p) (findLastObjCtx c p)
      ((xs.reverse.findIdx? fun x => decide (x = v)).bind fun k => place c.shape (xs.length - 1 - k)) s.mem) := by
  refine ⟨?_, fun h => ?_, fun h => ?_, ?_, ?_, fun h => ?_⟩
  · obtain ⟨val, he, rfl⟩ := lists_elems hx
    exact answers_one hs (A := fun v m => reduceRun m c f v) (fun t p ht => reduce_acts f hc t p ht) (fun _ => rfl) hv (reduceRun_eq f v he)
  · refine answers_one hs (A := fun v m => transformReduce m c d v R T >>= fun r => pure (r, m))
      (fun t p ht => transformReduce_acts R T hc hd t p ht) (fun _ => rfl) hv ?_
    rw [(C117_reading_two h hx hy R T v md).1]; rfl
  · refine answers_one hs (A := fun v m => innerProduct md m c d v R T >>= fun r => pure (r, m))
      (fun t p ht => innerProduct_acts md R T hc hd t p ht) (fun _ => rfl) hv ?_
    rw [(C117_reading_two h hx hy R T v md).2]; rfl
  · refine answers_one hs (A := fun v m => count m c v >>= fun r => pure (r, m))
      (fun t p ht => count_acts hc t p ht) (fun _ => rfl) hv ?_
    rw [(C117_reading hx (fun x => decide (x = v)) v f v).2.2.2.2.2]; rfl
  · refine answers_one hs (A := fun v m => find m c v >>= fun r => pure (r, m))
      (fun t p ht => find_acts hc t p ht) (fun _ => rfl) hv ?_
    rw [(C117_find hx (fun x => decide (x = v)) v).2.2]; rfl
  · refine answers_one hs (A := fun v m => findLast m c v >>= fun r => pure (r, m))
      (fun t p ht => findLast_acts hc t p ht) (fun _ => rfl) hv ?_
    unfold findLast
    rw [C117_find_last h hx]; rfl

-- the sum that begins with the last element
example : Yields exObjs (reduceObj (· + ·) exView ⟨0, 3⟩) (reduceObjCtx (· + ·) exView ⟨0, 3⟩) 14 exObjs.mem :=
  (C159_reading exUnused (c := exView) (d := exView) (by decide) (by decide) exObjs_lists exObjs_lists (p := ⟨0, 3⟩) (v := 4) (by decide)
    (· + ·) (· + ·) (· * ·) .checked).1

/-- **C159** Binary searches for a value that may be an element of the container; nothing changes. -/
theorem C159_searches [Nonempty α] (md : Mode) {s : Objs α} (hs : Unused s) {c : Container} (hc : c.base.blk < s.next) {xs : List α}
    (hx : Lists c s.mem xs) (hne : c.shape ≠ []) (hn : NonNeg c.shape) {p : Ptr} {v : α} (hv : s.mem p = some v) (lt : α → α → Bool) :
    (xs.Pairwise (fun a b => lt b v = true → lt a v = true) →
      Yields s (lowerBoundObj md lt c p) (lowerBoundObjCtx md lt c p) (place c.shape (xs.countP fun e => lt e v)) s.mem) ∧
    (xs.Pairwise (fun a b => lt v a = true → lt v b = true) →
      Yields s (upperBoundObj md lt c p) (upperBoundObjCtx md lt c p) (place c.shape (xs.countP fun e => !lt v e)) s.mem) ∧
    (StrictWeak lt → xs.Pairwise (fun a b => lt b a = false) →
      Yields s (binarySearchObj md lt c p) (binarySearchObjCtx md lt c p) (xs.any fun x => !lt x v && !lt v x) s.mem) := by
  refine ⟨fun h => ?_, fun h => ?_, fun h1 h2 => ?_⟩
  · refine answers_one hs (A := fun v m => lowerBound md m c v (fun e w => (pure (lt e w) : StateT Unit Res Bool)) () >>= fun r => pure (r.1, m))
      (fun t p ht => lowerBound_acts md lt hc t p ht) (fun _ => rfl) hv ?_
    rw [(C117_bounds md hx hne hn v ()).1 lt h]; rfl
  · refine answers_one hs (A := fun v m => upperBound md m c v (fun w e => (pure (lt w e) : StateT Unit Res Bool)) () >>= fun r => pure (r.1, m))
      (fun t p ht => upperBound_acts md lt hc t p ht) (fun _ => rfl) hv ?_
    rw [(C117_bounds md hx hne hn v ()).2 lt h]; rfl
  · refine answers_one hs (A := fun v m => binarySearch md m c v (fun e w => (pure (lt e w) : StateT Unit Res Bool)) () >>= fun r => pure (r.1, m))
      (fun t p ht => binarySearch_acts md lt hc t p ht) (fun _ => rfl) hv ?_
    rw [C117_binary_search md hx hne hn lt h1 h2 v ()]; rfl

-- the third element, found by itself
example : Yields exObjs (lowerBoundObj .checked (fun a b => decide (a < b)) exView ⟨0, 1⟩)
    (lowerBoundObjCtx .checked (fun a b => decide (a < b)) exView ⟨0, 1⟩) (some [1, 0]) exObjs.mem :=
  (C159_searches .checked exUnused (c := exView) (by decide) exObjs_lists (by decide) (by decide) (p := ⟨0, 1⟩) (v := 3) (by decide)
    fun a b => decide (a < b)).1 (by decide)

private theorem same_one {s : Objs α} (hs : Unused s) {prog fwd : Ptr → Calls α ρ} {A : α → Mem α → Res (ρ × Mem α)}
    (h : ∀ t p, Sound s.next t → Acts s.next t (prog p t) (load t.mem p >>= fun v => A v (upToBlock s.next t.mem)))
    (hf : ∀ p, fwd p = inScope (param p >>= prog)) {p q : Ptr} (he : s.mem p = s.mem q) : fwd p s = fwd q s := by
  have hs' := ready_sound hs
  rw [hf, hf, acts_all hs' (acts_forward h s p hs'), acts_all hs' (acts_forward h s q hs')]
  unfold load
  rw [he]

private theorem same_two {s : Objs α} (hs : Unused s) {prog fwd : Ptr → Ptr → Calls α ρ} {A : α → α → Mem α → Res (ρ × Mem α)}
    (h : ∀ t p p', Sound s.next t → p'.blk < t.next → Acts s.next t (prog p p' t)
      (load t.mem p >>= fun v => load t.mem p' >>= fun w => A v w (upToBlock s.next t.mem)))
    (hf : ∀ p p', fwd p p' = inScope (param p >>= fun q => param p' >>= fun q' => prog q q')) {p p' q q' : Ptr} (he : s.mem p = s.mem q)
    (he' : s.mem p' = s.mem q') (hp : p'.blk < s.next) (hq : q'.blk < s.next) : fwd p p' s = fwd q q' s := by
  have hs' := ready_sound hs
  rw [hf, hf, acts_all hs' (acts_forward_two h s p p' hs' hp), acts_all hs' (acts_forward_two h s q q' hs' hq)]
  unfold load
  rw [he, he']

/-- **C159** Objects that hold the same value can be given one for the other, whatever the containers are: the calls have the same
outcome, results, changes and undefined behaviour alike. -/
theorem C159_alias [DecidableEq α] [Add α] (md : Mode) {s : Objs α} (hs : Unused s) {c d : Container} (hc : c.base.blk < s.next)
    (hd : d.base.blk < s.next) {p q : Ptr} (h : s.mem p = s.mem q) (incr f2 : α → α) (f1 R : α → α → α) (lt : α → α → Bool) :
    fillObj c p s = fillObj c q s ∧
    iotaObj incr c p s = iotaObj incr c q s ∧
    exclusiveScanObj f1 f2 d c p s = exclusiveScanObj f1 f2 d c q s ∧
    inclusiveScanObj f1 f2 d c p s = inclusiveScanObj f1 f2 d c q s ∧
    reduceObj f1 c p s = reduceObj f1 c q s ∧
    transformReduceObj f1 R c d p s = transformReduceObj f1 R c d q s ∧
    innerProductObj md f1 R c d p s = innerProductObj md f1 R c d q s ∧
    countObj c p s = countObj c q s ∧
    findObj c p s = findObj c q s ∧
    findLastObj c p s = findLastObj c q s ∧
    lowerBoundObj md lt c p s = lowerBoundObj md lt c q s ∧
    upperBoundObj md lt c p s = upperBoundObj md lt c q s ∧
    binarySearchObj md lt c p s = binarySearchObj md lt c q s ∧
    (∀ p' q' : Ptr, p'.blk < s.next → q'.blk < s.next → s.mem p' = s.mem q' → iotaStepObj c p p' s = iotaStepObj c q q' s) ∧
    (∀ p' q' : Ptr, p'.blk < s.next → q'.blk < s.next → s.mem p' = s.mem q' → replaceObj c p p' s = replaceObj c q q' s) := by
  refine ⟨?_, ?_, ?_, ?_, ?_, ?_, ?_, ?_, ?_, ?_, ?_, ?_, ?_, ?_, ?_⟩
  · exact same_one hs (A := fun v m => fill m c v >>= fun m => pure ((), m)) (fun t p ht => fill_acts hc t p ht) (fun _ => rfl) h
  · exact same_one hs (A := fun v m => iota m c incr (fun x => x) v >>= fun m => pure ((), m)) (fun t p ht => iota_acts incr hc t p ht) (fun _ => rfl) h
  · exact same_one hs (A := fun v m => transformExclusiveScan m d c v f1 f2 >>= fun m => pure ((), m)) (fun t p ht => exclusive_acts f1 f2 hd hc t p ht) (fun _ => rfl) h
  · exact same_one hs (A := fun v m => transformInclusiveScan m d c v f1 f2 >>= fun m => pure ((), m)) (fun t p ht => inclusive_acts f1 f2 hd hc t p ht) (fun _ => rfl) h
  · exact same_one hs (A := fun v m => reduceRun m c f1 v) (fun t p ht => reduce_acts f1 hc t p ht) (fun _ => rfl) h
  · exact same_one hs (A := fun v m => transformReduce m c d v f1 R >>= fun r => pure (r, m)) (fun t p ht => transformReduce_acts f1 R hc hd t p ht) (fun _ => rfl) h
  · exact same_one hs (A := fun v m => innerProduct md m c d v f1 R >>= fun r => pure (r, m)) (fun t p ht => innerProduct_acts md f1 R hc hd t p ht) (fun _ => rfl) h
  · exact same_one hs (A := fun v m => count m c v >>= fun r => pure (r, m)) (fun t p ht => count_acts hc t p ht) (fun _ => rfl) h
  · exact same_one hs (A := fun v m => find m c v >>= fun r => pure (r, m)) (fun t p ht => find_acts hc t p ht) (fun _ => rfl) h
  · exact same_one hs (A := fun v m => findLast m c v >>= fun r => pure (r, m)) (fun t p ht => findLast_acts hc t p ht) (fun _ => rfl) h
  · exact same_one hs (A := fun v m => lowerBound md m c v (fun e w => (pure (lt e w) : StateT Unit Res Bool)) () >>= fun r => pure (r.1, m)) (fun t p ht => lowerBound_acts md lt hc t p ht) (fun _ => rfl) h
  · exact same_one hs (A := fun v m => upperBound md m c v (fun w e => (pure (lt w e) : StateT Unit Res Bool)) () >>= fun r => pure (r.1, m)) (fun t p ht => upperBound_acts md lt hc t p ht) (fun _ => rfl) h
  · exact same_one hs (A := fun v m => binarySearch md m c v (fun e w => (pure (lt e w) : StateT Unit Res Bool)) () >>= fun r => pure (r.1, m)) (fun t p ht => binarySearch_acts md lt hc t p ht) (fun _ => rfl) h
  · intro p' q' hp hq h'
    exact same_two hs (A := fun v w m => iotaStep m c (fun x => x) v w >>= fun m => pure ((), m)) (fun t p p' ht hp => iotaStep_acts hc t p p' ht hp)
      (fun _ _ => rfl) h h' hp hq
  · intro p' q' hp hq h'
    exact same_two hs (A := fun v w m => replace m c v w >>= fun m => pure ((), m)) (fun t p p' ht hp => replace_acts hc t p p' ht hp)
      (fun _ _ => rfl) h h' hp hq

-- the second element, or a variable that holds the same number
example : iotaObj (· + 1) exView ⟨0, 2⟩ exObjs = iotaObj (· + 1) exView ⟨1, 0⟩ exObjs :=
  (C159_alias .checked exUnused (c := exView) (d := exView) (by decide) (by decide) (p := ⟨0, 2⟩) (q := ⟨1, 0⟩) (by decide) (· + 1) id
    (· + ·) (· * ·) fun a b => decide (a < b)).2.1

end Kwk
