import Verif.Lemmas.AuxWriting
import Verif.Lemmas.Writing
import Verif.Props.Reading
import Mathlib.Algebra.Group.Nat.Even
import Mathlib.Data.Nat.Cast.Basic
import Mathlib.Logic.Function.Iterate

/-!
# Properties C34-C41: writing algorithms

`Distinct c`: different positions are different cells. `Valid c m`: all positions are cells.
`SameOutside c m m'`: nothing but cells of `c` changed.  All in `Spec/Layout.lean`.
-/

namespace Kwk
open Spec

variable {α β σ : Type}

/-! ## Common form -/

/-! ## fill, generate, iota -/

/-- **C34** `fill` sets every element and nothing else. -/
theorem C34_fill (m : Mem α) (c : Container) (hd : Distinct c) (hv : Valid c m) (v : α) :
    ∃ m', fill m c v = .ok m' ∧ (∀ p, InBox c.shape p → c.get m' p = .ok v) ∧
      SameOutside c m m' := by
  obtain ⟨s', m', h1, h2, h3⟩ := run_write (s0 := ()) hd hv
    (fun p sm => do let m ← store sm.2 (c.addr p) v; pure ((), m)) (fun _ _ => ((), some v)) (by
      intro p hp s m1 _ hs
      simp only [store_ok (valid_isSome hv hp hs)]; rfl)
  refine ⟨m', ?_, ?_, h2⟩
  · unfold fill mapCtx; rw [h1]; rfl
  · intro p hp
    rw [get_ok_iff, h3 _ p (getElem?_rank hp)]

example := C34_fill exTwo exOut exOut_distinct exOut_valid 7

/-- **C34** `generate` sets the element at `p` to `f p` and nothing else. -/
theorem C34_generate (m : Mem α) (c : Container) (hd : Distinct c) (hv : Valid c m)
    (f : List Int → α) :
    ∃ m', generate m f c = .ok m' ∧ (∀ p, InBox c.shape p → c.get m' p = .ok (f p)) ∧
      SameOutside c m m' := by
  obtain ⟨s', m', h1, h2, h3⟩ := run_write (s0 := ()) hd hv
    (fun p sm => do let m ← store sm.2 (c.addr p) (f p); pure ((), m)) (fun p _ => ((), some (f p))) (by
      intro p hp s m1 _ hs
      simp only [store_ok (valid_isSome hv hp hs)]; rfl)
  refine ⟨m', ?_, ?_, h2⟩
  · unfold generate mapIndexCtx; rw [h1]; rfl
  · intro p hp
    rw [get_ok_iff, h3 _ p (getElem?_rank hp)]

example : ∃ m', fill exMem exView 7 = .ok m' ∧ exView.get m' [1, 1] = .ok 7 := by
  obtain ⟨m', h, h1, _⟩ := C34_fill exMem exView exDistinct exValid 7
  exact ⟨m', h, h1 _ (by decide)⟩

/-- **C35** (any increment) `iota(c, v)` stores at the position of linear index `k` the value `v`
incremented `k` times. -/
theorem C35_iota_iterate (md : Mode) (m : Mem α) (c : Container) (hd : Distinct c) (hv : Valid c m)
    (incr : β → β) (conv : β → α) (v : β) :
    ∃ m', iota m c incr conv v = .ok m' ∧ SameOutside c m m' ∧
      ∀ p k, InBox c.shape p → linearIndex md c.shape p = .ok k →
        c.get m' p = .ok (conv (incr^[k.toNat] v)) := by
  obtain ⟨s', m', h1, h2, h3⟩ := run_write (s0 := v) hd hv
    (fun p sm => do let m ← store sm.2 (c.addr p) (conv sm.1); pure (incr sm.1, m))
    (fun _ s => (incr s, some (conv s))) (by
      intro p hp s m1 _ hs
      simp only [store_ok (valid_isSome hv hp hs)]; rfl)
  refine ⟨m', ?_, h2, ?_⟩
  · unfold iota mapCtx; rw [h1]; rfl
  · intro p k hp hk
    rw [linearIndex_ok md hp] at hk
    cases hk
    rw [get_ok_iff, h3 _ p (getElem?_rank hp)]
    simp only
    rw [iterate_foldl, take_rank_length hp]

example := C35_iota_iterate .checked exTwo exOut exOut_distinct exOut_valid (fun x : Int => 2 * x) (fun x => x + 1) 3

/-- **C35** `iota(c, v)` stores `v + k` and `iota(c)` stores `k` at the position of linear index
`k`, in any additive monoid with one. -/
theorem C35_iota (md : Mode) [AddMonoidWithOne α] (m : Mem α) (c : Container) (hd : Distinct c)
    (hv : Valid c m) (v : α) :
    (∃ m', iota m c (fun x : α => x + 1) (fun x => x) v = .ok m' ∧ SameOutside c m m' ∧
      ∀ p k, InBox c.shape p → linearIndex md c.shape p = .ok k →
        c.get m' p = .ok (v + (k.toNat : α))) ∧
    (∃ m', iota0 m c = .ok m' ∧ SameOutside c m m' ∧
      ∀ p k, InBox c.shape p → linearIndex md c.shape p = .ok k → c.get m' p = .ok (k.toNat : α)) := by
  have hit : ∀ (n : Nat) (w : α), (fun x : α => x + 1)^[n] w = w + (n : α) := by
    intro n
    induction n with
    | zero => simp
    | succ n ih => intro w; rw [Function.iterate_succ_apply', ih, Nat.cast_succ, add_assoc]
  constructor
  · obtain ⟨m', h1, h2, h3⟩ := C35_iota_iterate md m c hd hv (fun x : α => x + 1) (fun x => x) v
    exact ⟨m', h1, h2, fun p k hp hk => by rw [h3 p k hp hk, hit]⟩
  · obtain ⟨m', h1, h2, h3⟩ := C35_iota_iterate md m c hd hv (fun x : α => x + 1) (fun x => x) 0
    exact ⟨m', h1, h2, fun p k hp hk => by rw [h3 p k hp hk, hit, zero_add]⟩

example := C35_iota .checked exTwo exOut exOut_distinct exOut_valid 5

/-- **C35** `iota(c, v, step)` stores `v + k * step` at the position of linear index `k`. -/
theorem C35_iota_step (md : Mode) [AddMonoid β] (m : Mem α) (c : Container) (hd : Distinct c)
    (hv : Valid c m) (conv : β → α) (v step : β) :
    ∃ m', iotaStep m c conv v step = .ok m' ∧ SameOutside c m m' ∧
      ∀ p k, InBox c.shape p → linearIndex md c.shape p = .ok k →
        c.get m' p = .ok (conv (v + k.toNat • step)) := by
  obtain ⟨m', h1, h2, h3⟩ := C35_iota_iterate md m c hd hv (fun x => x + step) conv v
  refine ⟨m', h1, h2, fun p k hp hk => ?_⟩
  rw [h3 p k hp hk]
  have hit : ∀ (n : Nat) (w : β), (fun x : β => x + step)^[n] w = w + n • step := by
    intro n
    induction n with
    | zero => simp
    | succ n ih => intro w; rw [Function.iterate_succ_apply', ih, succ_nsmul, add_assoc]
  rw [hit]

example : (do let m ← iotaStep exMem exView (fun x : Int => x) 10 5; reduce m exView (fun a e => a ++ [e]) [])
    = .ok [10, 15, 20, 25] := by decide

/-! ## transform, copy, copy_if -/

/-- **C36** `transform(f, out, ins...)` stores at each position `p` of `out` the value of `f` on the
former elements of the inputs at `p`, and changes nothing else.  The inputs may overlap the output
as long as no element is overwritten before its position is reached. -/
theorem C36_transform (m : Mem α) (f : List α → α) (out : Container) (ins : List Container)
    (hd : Distinct out) (hv : Valid out m) (hc : ∀ c ∈ ins, NoClobber out c)
    (vals : List Int → List α)
    (hvals : ∀ p, InBox out.shape p → ins.mapM (fun c => c.get m p) = .ok (vals p)) :
    ∃ m', transform m f out ins = .ok m' ∧
      (∀ p, InBox out.shape p → out.get m' p = .ok (f (vals p))) ∧ SameOutside out m m' := by
  obtain ⟨s', m', h1, h2, h3⟩ := run_write (s0 := ()) hd hv
    (fun p sm => do
      let vs ← (ins.map fun c => c.addr p).mapM (fun i => load sm.2 i)
      let m ← store sm.2 (out.addr p) (f vs)
      pure ((), m)) (fun p _ => ((), some (f (vals p)))) (by
      intro p hp s m1 ha hs
      have := mapM_load_congr (m1 := m1) ins p (vals p) (by
        intro c hcm
        exact ha _ fun q hq hlt => hc c hcm p q hp hq hlt) (hvals p hp)
      simp only [this]
      simp only [bind, Except.bind]
      rw [store_ok (valid_isSome hv hp hs)]; rfl)
  refine ⟨m', ?_, ?_, h2⟩
  · unfold transform mapCtx; rw [h1]; rfl
  · intro p hp
    rw [get_ok_iff, h3 _ p (getElem?_rank hp)]

example := C36_transform exTwo List.sum exOut [exIn, exIn] exOut_distinct exOut_valid
  (fun c hc => by simp only [List.mem_cons, List.not_mem_nil, or_false, or_self] at hc; exact hc ▸ ex_noClobber)
  (fun p => [exInVal p, exInVal p]) fun p hp => by simp [exIn_elems p hp, pure, Except.pure, bind, Except.bind]

/-- **C36** (in place) `transform(f, c, c)` replaces each element by its image. -/
theorem C36_transform_in_place (m : Mem α) (f : α → α) (c : Container) (hd : Distinct c)
    (val : List Int → α) (h : Elems c m val) (dflt : α) :
    ∃ m', transform m (fun vs => f (vs.headD dflt)) c [c] = .ok m' ∧
      (∀ p, InBox c.shape p → c.get m' p = .ok (f (val p))) ∧ SameOutside c m m' := by
  obtain ⟨m', h1, h2, h3⟩ := C36_transform m (fun vs => f (vs.headD dflt)) c [c] hd
    (fun p hp => ⟨_, h p hp⟩) (by intro c' hc'; simp at hc'; subst hc'; exact noClobber_self hd)
    (fun p => [val p]) (by intro p hp; simp [h p hp, pure, Except.pure, bind, Except.bind])
  exact ⟨m', h1, h2, h3⟩

example : ∃ m', transform exMem (fun vs => vs.sum) exView [exView, exView] = .ok m' ∧
    exView.get m' [1, 0] = .ok 6 := by
  obtain ⟨m', h1, h2, _⟩ := C36_transform exMem (fun vs => vs.sum) exView [exView, exView]
    exDistinct exValid (by intro c hc; simp at hc; subst hc; exact noClobber_self exDistinct)
    (fun p => [exVal p, exVal p]) (by intro p hp; simp [exElems p hp, pure, Except.pure, bind, Except.bind])
  exact ⟨m', h1, h2 [1, 0] (by decide)⟩

/-- **C37** `copy(out, in)` makes `out` equal to the former contents of `in`, position by position;
`in` itself is unchanged when it shares no cell with `out`. -/
theorem C37_copy (m : Mem α) (out inp : Container) (hd : Distinct out) (hv : Valid out m)
    (hc : NoClobber out inp) (val : List Int → α)
    (h : ∀ p, InBox out.shape p → inp.get m p = .ok (val p)) (dflt : α) :
    ∃ m', copy m out inp dflt = .ok m' ∧
      (∀ p, InBox out.shape p → out.get m' p = .ok (val p)) ∧ SameOutside out m m' ∧
      ((∀ p q, InBox out.shape p → InBox inp.shape q → out.addr p ≠ inp.addr q) →
        ∀ q, InBox inp.shape q → inp.get m' q = inp.get m q) := by
  obtain ⟨m', h1, h2, h3⟩ := C36_transform m (fun vs => vs.headD dflt) out [inp] hd hv
    (by intro c' hc'; simp at hc'; subst hc'; exact hc)
    (fun p => [val p]) (by intro p hp; simp [h p hp, pure, Except.pure, bind, Except.bind])
  refine ⟨m', h1, h2, h3, ?_⟩
  intro hdis q hq
  unfold Container.get load
  rw [h3 _ fun p hp => hdis p q hp hq]

example := C37_copy exTwo exOut exIn exOut_distinct exOut_valid ex_noClobber exInVal exIn_elems 0

/-- **C37** `copy_if(f, out, in)` changes exactly the positions whose input element satisfies `f`. -/
theorem C37_copy_if (m : Mem α) (f : α → Bool) (out inp : Container) (hd : Distinct out)
    (hv : Valid out m) (hc : NoClobber out inp) (val : List Int → α)
    (h : ∀ p, InBox out.shape p → inp.get m p = .ok (val p)) :
    ∃ m', copyIf m f out inp = .ok m' ∧
      (∀ p, InBox out.shape p →
        (f (val p) = true → out.get m' p = .ok (val p)) ∧
        (f (val p) = false → out.get m' p = out.get m p)) ∧ SameOutside out m m' := by
  obtain ⟨s', m', h1, h2, h3⟩ := run_write (s0 := ()) hd hv
    (fun p sm => do
      let v ← load sm.2 (inp.addr p)
      if f v then do
        let m ← store sm.2 (out.addr p) v
        pure ((), m)
      else pure ((), sm.2)) (fun p _ => ((), if f (val p) then some (val p) else none)) (by
      intro p hp s m1 ha hs
      have e : load m1 (inp.addr p) = .ok (val p) := by
        apply load_ok
        rw [ha _ fun q hq hlt => hc p q hp hq hlt]
        exact get_ok_iff.1 (h p hp)
      simp only [e, bind, Except.bind]
      cases hf : f (val p)
      · rfl
      · simp only [if_true]
        rw [store_ok (valid_isSome hv hp hs)]; rfl)
  refine ⟨m', ?_, ?_, h2⟩
  · unfold copyIf mapCtx
    simp only [List.map_cons, List.map_nil, List.headD_cons]
    show (loopState _ _ _ >>= _) = _
    rw [h1]; rfl
  · intro p hp
    have := h3 _ p (getElem?_rank hp)
    constructor
    · intro hf; rw [get_ok_iff, this]; simp [hf]
    · intro hf
      simp only [hf, Bool.false_eq_true, if_false] at this
      unfold Container.get load; rw [this]

example : (do
    let m ← copyIf exMem (fun x => x > 2) exView (Container.ofShape ⟨0, 0⟩ [2, 2])
    reduce m exView (fun a e => a ++ [e]) []) = .ok [1, 3, 3, 4] := by decide

/-! ## replace -/

/-- **C38** `replace_if` sets exactly the matching elements to the new value; all other memory is
unchanged. -/
theorem C38_replace_if (m : Mem α) (c : Container) (hd : Distinct c) (val : List Int → α)
    (h : Elems c m val) (f : α → Bool) (v : α) :
    ∃ m', replaceIf m c f v = .ok m' ∧
      Elems c m' (fun p => if f (val p) then v else val p) ∧ SameOutside c m m' := by
  have hv : Valid c m := fun p hp => ⟨_, h p hp⟩
  obtain ⟨s', m', h1, h2, h3⟩ := run_write (s0 := ()) hd hv
    (fun p sm => do
      let w ← load sm.2 (c.addr p)
      if f w then do
        let m ← store sm.2 (c.addr p) v
        pure ((), m)
      else pure ((), sm.2)) (fun p _ => ((), if f (val p) then some v else none)) (by
      intro p hp s m1 ha hs
      have e : load m1 (c.addr p) = .ok (val p) := by
        apply load_ok
        rw [own_cell hd hp ha]
        exact get_ok_iff.1 (h p hp)
      simp only [e, bind, Except.bind]
      cases hf : f (val p)
      · rfl
      · simp only [if_true]
        rw [store_ok (valid_isSome hv hp hs)]; rfl)
  refine ⟨m', ?_, ?_, h2⟩
  · unfold replaceIf mapCtx; rw [h1]; rfl
  · intro p hp
    rw [get_ok_iff, h3 _ p (getElem?_rank hp)]
    cases hf : f (val p)
    · simpa [hf] using get_ok_iff.1 (h p hp)
    · simp [hf]

example := C38_replace_if exTwo exIn exIn_distinct exInVal exIn_elems (fun x => x > 2) 9

/-- **C38** `replace(c, old, new)`: elements equal to `old` become `new`, others stay; if
`new ≠ old` no element equals `old` afterwards and replacing again changes nothing. -/
theorem C38_replace [DecidableEq α] (m : Mem α) (c : Container) (hd : Distinct c)
    (val : List Int → α) (h : Elems c m val) (old new : α) :
    ∃ m', replace m c old new = .ok m' ∧
      Elems c m' (fun p => if val p = old then new else val p) ∧ SameOutside c m m' ∧
      (new ≠ old → (∀ p, InBox c.shape p → c.get m' p ≠ .ok old) ∧
        replace m' c old new = .ok m') := by
  obtain ⟨m', h1, h2, h3⟩ := C38_replace_if m c hd val h (fun x => decide (x = old)) new
  simp only [decide_eq_true_eq] at h2
  refine ⟨m', h1, h2, h3, fun hne => ⟨?_, ?_⟩⟩
  · intro p hp e
    rw [h2 p hp] at e
    injection e with e
    simp only at e
    split at e
    · exact hne e
    · contradiction
  · obtain ⟨m'', g1, g2, g3⟩ := C38_replace_if m' c hd _ h2 (fun x => decide (x = old)) new
    have : m'' = m' := by
      funext a
      by_cases ha : ∃ p, InBox c.shape p ∧ c.addr p = a
      · obtain ⟨p, hp, rfl⟩ := ha
        rw [get_ok_iff.1 (g2 p hp), get_ok_iff.1 (h2 p hp)]
        congr 1
        by_cases hv : val p = old
        · simp [hv, hne]
        · simp [hv]
      · exact g3 a fun p hp e => ha ⟨p, hp, e⟩
    rw [this] at g1
    exact g1

example : (do
    let m ← replace exMem exView 3 9
    reduce m exView (fun a e => a ++ [e]) []) = .ok [1, 2, 9, 4] := by decide

/-! ## Scans -/

/-- **C39** (inclusive) After `transform_inclusive_scan` the element of rank `k` is the left fold of
the first `k+1` transformed inputs.  In-place use is allowed (`NoClobber`). -/
theorem C39_inclusive_scan (m : Mem α) (inp out : Container) (hshape : out.shape = inp.shape)
    (hd : Distinct out) (hv : Valid out m) (hc : NoClobber out inp) (val : List Int → α)
    (h : Elems inp m val) (init : α) (f1 : α → β → α) (f2 : α → β) :
    ∃ m', transformInclusiveScan m inp out init f1 f2 = .ok m' ∧ SameOutside out m m' ∧
      ∀ k p, (positions inp.shape)[k]? = some p →
        out.get m' p =
          .ok ((((positions inp.shape).take (k + 1)).map fun p => f2 (val p)).foldl f1 init) := by
  obtain ⟨s', m', h1, h2, h3⟩ := run_write (s0 := init) hd hv
    (fun p sm => do
      let v ← load sm.2 (inp.addr p)
      let m ← store sm.2 (out.addr p) (f1 sm.1 (f2 v))
      pure (f1 sm.1 (f2 v), m))
    (fun p s => (f1 s (f2 (val p)), some (f1 s (f2 (val p))))) (by
      intro p hp s m1 ha hs
      have e : load m1 (inp.addr p) = .ok (val p) := by
        apply load_ok
        rw [ha _ fun q hq hlt => hc p q hp hq hlt]
        exact get_ok_iff.1 (h p (hshape ▸ hp))
      simp only [e, bind, Except.bind]
      rw [store_ok (valid_isSome hv hp hs)]; rfl)
  rw [hshape] at h1 h3
  refine ⟨m', ?_, h2, ?_⟩
  · unfold transformInclusiveScan mapCtx
    simp only [List.map_cons, List.map_nil, List.headD_cons]
    show (loopState _ _ _ >>= _) = _
    rw [h1]; rfl
  · intro k p hk
    rw [get_ok_iff, h3 k p hk]
    simp only
    rw [List.take_add_one, hk, List.foldl_map, List.foldl_append]
    rfl

example := C39_inclusive_scan exTwo exIn exOut rfl exOut_distinct exOut_valid ex_noClobber exInVal exIn_elems 0 (fun a x => a + x)
  fun x => 10 * x

/-! Full property for the exclusive scan: the same, with the first `k` inputs, also in place.
The in-place case is false: see `C39_exclusive_scan_in_place_wrong`. -/

/-- **C39** (exclusive, partial) After `transform_exclusive_scan` the element of rank `k` is the left
fold of the first `k` transformed inputs, if no input element is overwritten before *or when* its
position is reached.  Missing: in-place use, for which the claim is false. -/
theorem C39_exclusive_scan_partial (m : Mem α) (inp out : Container)
    (hshape : out.shape = inp.shape) (hd : Distinct out) (hv : Valid out m) (hc : NoClobber out inp)
    (hc' : ∀ p, InBox out.shape p → out.addr p ≠ inp.addr p) (val : List Int → α)
    (h : Elems inp m val) (init : α) (f1 : α → β → α) (f2 : α → β) :
    ∃ m', transformExclusiveScan m inp out init f1 f2 = .ok m' ∧ SameOutside out m m' ∧
      ∀ k p, (positions inp.shape)[k]? = some p →
        out.get m' p =
          .ok ((((positions inp.shape).take k).map fun p => f2 (val p)).foldl f1 init) := by
  obtain ⟨s', m', h1, h2, h3⟩ := run_write (s0 := init) hd hv
    (fun p sm => do
      let m ← store sm.2 (out.addr p) sm.1
      let v ← load m (inp.addr p)
      pure (f1 sm.1 (f2 v), m))
    (fun p s => (f1 s (f2 (val p)), some s)) (by
      intro p hp s m1 ha hs
      simp only
      rw [store_ok (valid_isSome hv hp hs)]
      have e : load (wr m1 (out.addr p) (some s)) (inp.addr p) = .ok (val p) := by
        apply load_ok
        rw [wr_other _ _ (hc' p hp), ha _ fun q hq hlt => hc p q hp hq hlt]
        exact get_ok_iff.1 (h p (hshape ▸ hp))
      simp only [bind, Except.bind, e]; rfl)
  rw [hshape] at h1 h3
  refine ⟨m', ?_, h2, ?_⟩
  · unfold transformExclusiveScan mapCtx
    simp only [List.map_cons, List.map_nil, List.headD_cons]
    show (loopState _ _ _ >>= _) = _
    rw [h1]; rfl
  · intro k p hk
    rw [get_ok_iff, h3 k p hk]
    simp only [List.foldl_map]

/-- Two disjoint vectors of three elements in one block, for the examples. -/
def exMem2 : Mem Int := oneBlock 0 [1, 2, 3, 0, 0, 0]

example : (do
    let m ← inclusiveScan exMem2 (.ofShape ⟨0, 0⟩ [3]) (.ofShape ⟨0, 3⟩ [3]) 10 (· + ·)
    reduce m (.ofShape ⟨0, 3⟩ [3]) (fun a e => a ++ [e]) []) = .ok [11, 13, 16] := by decide
example : (do
    let m ← inclusiveScan exMem2 (.ofShape ⟨0, 0⟩ [3]) (.ofShape ⟨0, 0⟩ [3]) 10 (· + ·)
    reduce m (.ofShape ⟨0, 0⟩ [3]) (fun a e => a ++ [e]) []) = .ok [11, 13, 16] := by decide
example : (do
    let m ← exclusiveScan exMem2 (.ofShape ⟨0, 0⟩ [3]) (.ofShape ⟨0, 3⟩ [3]) 10 (· + ·)
    reduce m (.ofShape ⟨0, 3⟩ [3]) (fun a e => a ++ [e]) []) = .ok [10, 11, 13] := by decide

/-- **C39** (exclusive, in place) What the in-place scan writes instead: the input is lost, the element of rank `k` is the
`k`-th iterate of `s ↦ f1(s, f2(s))` from the initial value. -/
theorem C39_exclusive_scan_in_place_partial (m : Mem α) (c : Container) (hd : Distinct c) (hv : Valid c m)
    (init : α) (f1 : α → β → α) (f2 : α → β) :
    ∃ m', transformExclusiveScan m c c init f1 f2 = .ok m' ∧ SameOutside c m m' ∧
      ∀ k p, (positions c.shape)[k]? = some p →
        c.get m' p = .ok ((fun s => f1 s (f2 s))^[k] init) := by
  obtain ⟨s', m', h1, h2, h3⟩ := run_write (s0 := init) hd hv
    (fun p sm => do
      let m ← store sm.2 (c.addr p) sm.1
      let v ← load m (c.addr p)
      pure (f1 sm.1 (f2 v), m))
    (fun p s => (f1 s (f2 s), some s)) (by
      intro p hp s m1 ha hs
      simp only
      rw [store_ok (valid_isSome hv hp hs)]
      have e : load (wr m1 (c.addr p) (some s)) (c.addr p) = .ok s := load_ok (wr_self _ _ _)
      simp only [bind, Except.bind, e]; rfl)
  refine ⟨m', ?_, h2, ?_⟩
  · unfold transformExclusiveScan mapCtx
    simp only [List.map_cons, List.map_nil, List.headD_cons]
    show (loopState _ _ _ >>= _) = _
    rw [h1]; rfl
  · intro k p hk
    rw [get_ok_iff, h3 k p hk]
    simp only
    have hlen : k ≤ (positions c.shape).length := (List.getElem?_eq_some_iff.1 hk).1.le
    have key : ∀ (l : List (List Int)) (s : α), l.foldl (fun s _ => f1 s (f2 s)) s = (fun s => f1 s (f2 s))^[l.length] s := by
      intro l
      induction l with
      | nil => intro s; rfl
      | cons a l ih => intro s; rw [List.foldl_cons, ih, List.length_cons, Function.iterate_succ_apply]
    rw [key, List.length_take, min_eq_left hlen]

example := C39_exclusive_scan_in_place_partial exTwo exIn exIn_distinct exIn_valid 1 (fun a x => a + x) fun x => 10 * x

/-- **C39** (exact, partial) If the running fold depends on the elements at all, the in-place `transform_exclusive_scan` is right
for all contents and initial values if and only if the container has at most one position. -/
theorem C39_in_place_exact_partial (c : Container) (hd : Distinct c) (f1 : α → β → α) (f2 : α → β)
    (hf : ∃ a b s, f1 s (f2 a) ≠ f1 s (f2 b)) :
    (∀ (m : Mem α) (val : List Int → α) (init : α), Elems c m val →
      ∃ m', transformExclusiveScan m c c init f1 f2 = .ok m' ∧ ∀ k p, (positions c.shape)[k]? = some p →
        c.get m' p = .ok ((((positions c.shape).take k).map fun p => f2 (val p)).foldl f1 init)) ↔
    (positions c.shape).length ≤ 1 := by
  constructor
  · intro h
    by_contra hlen
    obtain ⟨a, b, s, hab⟩ := hf
    have key : ∀ e, f1 s (f2 s) = f1 s (f2 e) := by
      intro e
      obtain ⟨m', h1, h2⟩ := h (fun _ => some e) (fun _ => e) s fun p _ => rfl
      obtain ⟨m'', g1, -, g2⟩ := C39_exclusive_scan_in_place_partial (fun _ => some e) c hd (fun p _ => ⟨e, rfl⟩) s f1 f2
      rw [h1] at g1; cases g1
      have hk : (positions c.shape)[1]? = some ((positions c.shape)[1]'(by omega)) := List.getElem?_eq_getElem _
      have := (g2 1 _ hk).symm.trans (h2 1 _ hk)
      clear hk g2 h2
      generalize positions c.shape = l at this hlen
      match l with
      | [] => simp at hlen
      | [x] => simp at hlen
      | x :: y :: l => simpa using this
    exact hab ((key a).symm.trans (key b))
  · intro hlen m val init hel
    obtain ⟨m', g1, -, g2⟩ := C39_exclusive_scan_in_place_partial m c hd (fun p hp => ⟨_, hel p hp⟩) init f1 f2
    refine ⟨m', g1, fun k p hk => ?_⟩
    have : k = 0 := by
      have := (List.getElem?_eq_some_iff.1 hk).1
      omega
    subst this
    rw [g2 0 p hk]; rfl

example : ∃ a b s : Int, s + a ≠ s + b := ⟨0, 1, 0, by decide⟩

/-- **C39** (negation) In place, `exclusive_scan` overwrites an element before reading it: on
`1 2 3` with initial value `10` it produces `10 20 40` instead of `10 11 13`. -/
theorem C39_exclusive_scan_in_place_wrong :
    (do
      let m ← exclusiveScan exMem2 (.ofShape ⟨0, 0⟩ [3]) (.ofShape ⟨0, 0⟩ [3]) 10 (· + ·)
      reduce m (.ofShape ⟨0, 0⟩ [3]) (fun a e => a ++ [e]) []) = (.ok [10, 20, 40] : Res (List Int)) := by
  decide

/-- **C39** The full property (elements of type `int`); `out` may be the input (`NoClobber`). -/
def C39_statement : Prop :=
  ∀ (m : Mem Int) (inp out : Container), out.shape = inp.shape → Distinct out → Valid out m → NoClobber out inp →
    ∀ val : List Int → Int, Elems inp m val → ∀ (init : Int) (f1 : Int → Int → Int) (f2 : Int → Int),
    (∃ m', transformExclusiveScan m inp out init f1 f2 = .ok m' ∧ SameOutside out m m' ∧
      ∀ k p, (positions inp.shape)[k]? = some p →
        out.get m' p = .ok ((((positions inp.shape).take k).map fun p => f2 (val p)).foldl f1 init)) ∧
    (∃ m', transformInclusiveScan m inp out init f1 f2 = .ok m' ∧ SameOutside out m m' ∧
      ∀ k p, (positions inp.shape)[k]? = some p →
        out.get m' p = .ok ((((positions inp.shape).take (k + 1)).map fun p => f2 (val p)).foldl f1 init))

theorem C39_statement_false : ¬ C39_statement := by
  intro h
  have hd : Distinct (.ofShape ⟨0, 0⟩ [2]) := default_distinct (ofShape_default (by decide))
  have := (C39_in_place_exact_partial (α := Int) (β := Int) (.ofShape ⟨0, 0⟩ [2]) hd (· + ·) id ⟨0, 1, 0, by decide⟩).1
    (fun m val init he => by
      obtain ⟨⟨m', h1, -, h2⟩, -⟩ := h m (.ofShape ⟨0, 0⟩ [2]) (.ofShape ⟨0, 0⟩ [2]) rfl hd (fun p hp => ⟨_, he p hp⟩)
        (noClobber_self hd) val he init (· + ·) id
      exact ⟨m', h1, h2⟩)
  exact absurd this (by decide)

/-! ## Memory safety without any assumption on overlaps -/

/-- **C40** (generators, replace) `fill`, `generate`, `iota` and `replace_if` on a container whose
positions are cells never fault, change only cells of the container, and neither create nor destroy
cells -- even when positions overlap. -/
theorem C40_safe_one (m : Mem α) (c : Container) (hv : Valid c m) (v : α) (f : List Int → α)
    (P : α → Bool) (incr : β → β) (conv : β → α) (b : β) :
    ∀ r ∈ [fill m c v, generate m f c, iota m c incr conv b, replaceIf m c P v],
      ∃ m', r = .ok m' ∧ SameOutside c m m' ∧ (∀ a, (m' a).isSome = (m a).isSome) := by
  have hsome : ∀ p, InBox c.shape p → (m (c.addr p)).isSome := fun p hp => by
    obtain ⟨v, hv⟩ := hv p hp; exact isSome_of_get hv
  intro r hr
  simp only [List.mem_cons, List.not_mem_nil, or_false] at hr
  rcases hr with rfl | rfl | rfl | rfl
  · obtain ⟨s', m', h1, h2⟩ := safe_loop (m := m) (s0 := ()) c.shape rfl
      (fun p sm => do let m ← store sm.2 (c.addr p) v; pure ((), m)) (by
        intro p hp s m1 hs
        refine ⟨(), some v, ?_, hsome p hp⟩
        simp only [store_ok (show (m1 (c.addr p)).isSome by rw [hs]; exact hsome p hp)]; rfl)
    exact ⟨m', by unfold fill mapCtx; rw [h1]; rfl, h2⟩
  · obtain ⟨s', m', h1, h2⟩ := safe_loop (m := m) (s0 := ()) c.shape rfl
      (fun p sm => do let m ← store sm.2 (c.addr p) (f p); pure ((), m)) (by
        intro p hp s m1 hs
        refine ⟨(), some (f p), ?_, hsome p hp⟩
        simp only [store_ok (show (m1 (c.addr p)).isSome by rw [hs]; exact hsome p hp)]; rfl)
    exact ⟨m', by unfold generate mapIndexCtx; rw [h1]; rfl, h2⟩
  · obtain ⟨s', m', h1, h2⟩ := safe_loop (m := m) (s0 := b) c.shape rfl
      (fun p sm => do let m ← store sm.2 (c.addr p) (conv sm.1); pure (incr sm.1, m)) (by
        intro p hp s m1 hs
        refine ⟨incr s, some (conv s), ?_, hsome p hp⟩
        simp only [store_ok (show (m1 (c.addr p)).isSome by rw [hs]; exact hsome p hp)]; rfl)
    exact ⟨m', by unfold iota mapCtx; rw [h1]; rfl, h2⟩
  · obtain ⟨s', m', h1, h2⟩ := safe_loop (m := m) (s0 := ()) c.shape rfl
      (fun p sm => do
        let w ← load sm.2 (c.addr p)
        if P w then do
          let m ← store sm.2 (c.addr p) v
          pure ((), m)
        else pure ((), sm.2)) (by
        intro p hp s m1 hs
        have hcell : (m1 (c.addr p)).isSome := by rw [hs]; exact hsome p hp
        obtain ⟨w, hw⟩ := load_isSome hcell
        refine ⟨(), if P w then some v else none, ?_, hsome p hp⟩
        simp only [hw, bind, Except.bind]
        cases P w
        · rfl
        · simp only [if_true]; rw [store_ok hcell]; rfl)
    exact ⟨m', by unfold replaceIf mapCtx; rw [h1]; rfl, h2⟩

example := C40_safe_one exTwo exOut exOut_valid 7 exInVal (fun x => x > 2) (fun x : Int => x + 1) (fun x => x) 0

/-- **C40** (transform, copy_if, scans) The algorithms with inputs never fault and change only cells
of the output, if the inputs can be read at the positions of the driving container -- whatever the
overlaps. -/
theorem C40_safe_inputs (m : Mem α) (out inp : Container) (ins : List Container)
    (hv : Valid out m) (hi : ∀ p, InBox out.shape p → ∃ v, inp.get m p = .ok v)
    (his : ∀ c ∈ ins, ∀ p, InBox out.shape p → ∃ v, c.get m p = .ok v) (hshape : out.shape = inp.shape)
    (f : List α → α) (P : α → Bool) (init : α) (f1 : α → β → α) (f2 : α → β) :
    ∀ r ∈ [transform m f out ins, copyIf m P out inp,
        transformInclusiveScan m inp out init f1 f2, transformExclusiveScan m inp out init f1 f2],
      ∃ m', r = .ok m' ∧ SameOutside out m m' ∧ (∀ a, (m' a).isSome = (m a).isSome) := by
  have hsome : ∀ p, InBox out.shape p → (m (out.addr p)).isSome := fun p hp => by
    obtain ⟨v, hv⟩ := hv p hp; exact isSome_of_get hv
  have hsomei : ∀ p, InBox out.shape p → (m (inp.addr p)).isSome := fun p hp => by
    obtain ⟨v, hv⟩ := hi p hp; exact isSome_of_get hv
  intro r hr
  simp only [List.mem_cons, List.not_mem_nil, or_false] at hr
  rcases hr with rfl | rfl | rfl | rfl
  · obtain ⟨s', m', h1, h2⟩ := safe_loop (m := m) (s0 := ()) out.shape rfl
      (fun p sm => do
        let vs ← (ins.map fun c => c.addr p).mapM (fun i => load sm.2 i)
        let m ← store sm.2 (out.addr p) (f vs)
        pure ((), m)) (by
        intro p hp s m1 hs
        have hvs : ∃ vs, (ins.map fun c => c.addr p).mapM (fun i => load m1 i) = .ok vs := by
          clear hi hsomei
          induction ins with
          | nil => exact ⟨[], rfl⟩
          | cons c ins ih =>
            obtain ⟨vs, hvs⟩ := ih fun c hc => his c (by simp [hc])
            obtain ⟨v, hv⟩ := his c (by simp) p hp
            obtain ⟨w, hw⟩ := load_isSome (m := m1) (a := c.addr p) (by rw [hs]; exact isSome_of_get hv)
            exact ⟨w :: vs, by rw [List.map_cons, List.mapM_cons, hw, hvs]; rfl⟩
        obtain ⟨vs, hvs⟩ := hvs
        refine ⟨(), some (f vs), ?_, hsome p hp⟩
        simp only [hvs, bind, Except.bind]
        rw [store_ok (by rw [hs]; exact hsome p hp)]; rfl)
    exact ⟨m', by unfold transform mapCtx; rw [h1]; rfl, h2⟩
  · obtain ⟨s', m', h1, h2⟩ := safe_loop (m := m) (s0 := ()) out.shape rfl
      (fun p sm => do
        let v ← load sm.2 (inp.addr p)
        if P v then do
          let m ← store sm.2 (out.addr p) v
          pure ((), m)
        else pure ((), sm.2)) (by
        intro p hp s m1 hs
        obtain ⟨w, hw⟩ := load_isSome (m := m1) (a := inp.addr p) (by rw [hs]; exact hsomei p hp)
        refine ⟨(), if P w then some w else none, ?_, hsome p hp⟩
        simp only [hw, bind, Except.bind]
        cases P w
        · rfl
        · simp only [if_true]; rw [store_ok (by rw [hs]; exact hsome p hp)]; rfl)
    refine ⟨m', ?_, h2⟩
    unfold copyIf mapCtx
    simp only [List.map_cons, List.map_nil, List.headD_cons]
    show (loopState _ _ _ >>= _) = _
    rw [h1]; rfl
  · obtain ⟨s', m', h1, h2⟩ := safe_loop (m := m) (out := out) (s0 := init) inp.shape hshape
      (fun p sm => do
        let v ← load sm.2 (inp.addr p)
        let m ← store sm.2 (out.addr p) (f1 sm.1 (f2 v))
        pure (f1 sm.1 (f2 v), m)) (by
        intro p hp s m1 hs
        rw [← hshape] at hp
        obtain ⟨w, hw⟩ := load_isSome (m := m1) (a := inp.addr p) (by rw [hs]; exact hsomei p hp)
        refine ⟨f1 s (f2 w), some (f1 s (f2 w)), ?_, hsome p hp⟩
        simp only [hw, bind, Except.bind]
        rw [store_ok (by rw [hs]; exact hsome p hp)]; rfl)
    refine ⟨m', ?_, h2⟩
    unfold transformInclusiveScan mapCtx
    simp only [List.map_cons, List.map_nil, List.headD_cons]
    show (loopState _ _ _ >>= _) = _
    rw [h1]; rfl
  · obtain ⟨s', m', h1, h2⟩ := safe_loop (m := m) (out := out) (s0 := init) inp.shape hshape
      (fun p sm => do
        let m ← store sm.2 (out.addr p) sm.1
        let v ← load m (inp.addr p)
        pure (f1 sm.1 (f2 v), m)) (by
        intro p hp s m1 hs
        rw [← hshape] at hp
        have hcell : (m1 (out.addr p)).isSome := by rw [hs]; exact hsome p hp
        obtain ⟨w, hw⟩ := load_isSome (m := wr m1 (out.addr p) (some s)) (a := inp.addr p)
          (by rw [wr_isSome _ _ hcell, hs]; exact hsomei p hp)
        refine ⟨f1 s (f2 w), some s, ?_, hsome p hp⟩
        simp only
        rw [store_ok hcell]
        simp only [bind, Except.bind, hw]; rfl)
    refine ⟨m', ?_, h2⟩
    unfold transformExclusiveScan mapCtx
    simp only [List.map_cons, List.map_nil, List.headD_cons]
    show (loopState _ _ _ >>= _) = _
    rw [h1]; rfl

example := C40_safe_inputs exTwo exOut exIn [exIn, exOut] exOut_valid exIn_valid
  (by simp only [List.mem_cons, List.not_mem_nil, or_false, forall_eq_or_imp, forall_eq]; exact ⟨exIn_valid, exOut_valid⟩) rfl List.sum
  (fun x => x > 2) 0 (fun a x => a + x) fun x => 10 * x

/-- **C40** (short forms) The same for `iota` without start value or with a step, `replace`, `copy` and the scans that do not
transform. -/
theorem C40_safe_short [DecidableEq α] [Add α] [Zero α] [One α] [Add β] (m : Mem α) (c inp : Container) (hv : Valid c m)
    (hi : ∀ p, InBox c.shape p → ∃ v, inp.get m p = .ok v) (hshape : c.shape = inp.shape) (v w dflt init : α)
    (conv : β → α) (b step : β) (f : α → α → α) :
    ∀ r ∈ [iota0 m c, iotaStep m c conv b step, replace m c v w, copy m c inp dflt, inclusiveScan m inp c init f,
        exclusiveScan m inp c init f],
      ∃ m', r = .ok m' ∧ SameOutside c m m' ∧ (∀ a, (m' a).isSome = (m a).isSome) := by
  have one := fun (P : α → Bool) => C40_safe_one m c hv w (fun _ => w) P (fun v : α => v + 1) (fun v => v) (0 : α)
  have two := C40_safe_inputs m c inp [inp] hv hi (by simpa using hi) hshape (fun vs => vs.headD dflt) (fun _ => true) init f
    (fun e => e)
  intro r hr
  simp only [List.mem_cons, List.not_mem_nil, or_false] at hr
  rcases hr with rfl | rfl | rfl | rfl | rfl | rfl
  · exact one (fun _ => true) _ (by simp [iota0])
  · exact C40_safe_one m c hv w (fun _ => w) (fun _ => true) (fun v => v + step) conv b _ (by simp [iotaStep, iota])
  · exact one (fun x => decide (x = v)) _ (by simp [replace])
  · exact two _ (by simp [copy])
  · exact two _ (by simp [inclusiveScan])
  · exact two _ (by simp [exclusiveScan])

example : Valid exView exMem := exValid

/-! ## Mismatched shapes

Full property C41: over containers of different shapes nothing outside an argument is read.  False:
`C41_mismatch_reads_outside`. -/

/-- **C41** (partial) If every position of the driving container is a position of the other one
(same order, extents at least as large), `transform` and `transform_reduce` stay inside both.
Missing: smaller inputs, for which the claim is false. -/
theorem C41_larger_input_partial (m : Mem α) (out inp : Container)
    (hsub : List.Forall₂ (fun d e => d ≤ e) out.shape inp.shape) (hv : Valid out m) (hvi : Valid inp m)
    (f : List α → α) (init : β) (R : β → α → β) (T : α → α → α) :
    (∃ m', transform m f out [inp] = .ok m') ∧ (∃ r, transformReduce m out inp init R T = .ok r) := by
  have hbox : ∀ p, InBox out.shape p → InBox inp.shape p := by
    intro p hp
    have : ∀ (s t p : List Int), List.Forall₂ (fun d e => d ≤ e) s t → InBox s p → InBox t p := by
      intro s t p hst
      induction hst generalizing p with
      | nil => exact id
      | cons h _ ih =>
        intro hp
        obtain ⟨i, q, rfl, hi, hq⟩ := inBox_cons_left hp
        exact inBox_cons.2 ⟨by omega, ih q hq⟩
    exact this _ _ p hsub hp
  constructor
  · obtain ⟨m', h, _⟩ := C40_safe_inputs m out out [inp] hv hv
      (by intro c hc p hp; simp at hc; subst hc; exact hvi p (hbox p hp)) rfl f (fun _ => true)
      (f []) (fun a (_ : α) => a) (fun x => x) (transform m f out [inp]) (by simp)
    exact ⟨m', h⟩
  · have hlo : ∀ p, ∃ v, InBox out.shape p → out.get m p = .ok v := by
      intro p
      by_cases hp : InBox out.shape p
      · obtain ⟨v, hv⟩ := hv p hp; exact ⟨v, fun _ => hv⟩
      · exact ⟨f [], fun h => absurd h hp⟩
    have hli : ∀ p, ∃ v, InBox out.shape p → inp.get m p = .ok v := by
      intro p
      by_cases hp : InBox out.shape p
      · obtain ⟨v, hv⟩ := hvi p (hbox p hp); exact ⟨v, fun _ => hv⟩
      · exact ⟨f [], fun h => absurd h hp⟩
    choose vo hvo using hlo
    choose vi hvi' using hli
    refine ⟨((positions out.shape).map fun p => T (vo p) (vi p)).foldl R init, ?_⟩
    unfold transformReduce mapCtx
    rw [loopState_eq, foldlM_read _ (fun p a => R a (T (vo p) (vi p)))]
    · rw [← List.foldl_map (f := fun p => T (vo p) (vi p)) (g := R)]; rfl
    · intro p hp s
      have hp := mem_positions.1 hp
      have h1 := hvo p hp
      have h2 := hvi' p hp
      unfold Container.get at h1 h2
      simp only [List.map_cons, List.map_nil, List.headD_cons, h1, h2]; rfl

example := C41_larger_input_partial exTwo (.ofShape ⟨0, 4⟩ [2, 1]) exIn (by decide)
  (fun p hp => (by decide : ∀ p ∈ positions [2, 1], ∃ v ∈ [0], (Container.ofShape ⟨0, 4⟩ [2, 1]).get exTwo p = .ok v) p (mem_positions.2 hp)
    |>.imp fun _ h => h.2) exIn_valid List.sum 0 (fun a x => a + x) fun x y => x * y

/-- **C41** (exact, partial) `transform` (so `copy`) and `transform_reduce` stay inside the two containers in every memory if
and only if every position of the driving container is stored, in the layout of the other one, in a cell of one of them. -/
theorem C41_exact_partial [Inhabited α] (out inp : Container) (f : List α → α) (init : β) (R : β → α → β) (T : α → α → α) :
    let covered := ∀ p, InBox out.shape p →
      ∃ q, (InBox inp.shape q ∧ inp.addr p = inp.addr q) ∨ (InBox out.shape q ∧ inp.addr p = out.addr q)
    ((∀ m : Mem α, Valid out m → Valid inp m → ∃ m', transform m f out [inp] = .ok m') ↔ covered) ∧
    ((∀ m : Mem α, Valid out m → Valid inp m → ∃ r, transformReduce m out inp init R T = .ok r) ↔ covered) := by
  intro covered
  have reads : covered → ∀ m : Mem α, Valid out m → Valid inp m → ∀ p, InBox out.shape p → ∃ v, inp.get m p = .ok v := by
    intro hc m hv hvi p hp
    obtain ⟨q, ⟨hq, e⟩ | ⟨hq, e⟩⟩ := hc p hp
    · obtain ⟨v, h⟩ := hvi q hq
      exact ⟨v, by unfold Container.get at h ⊢; rw [e]; exact h⟩
    · obtain ⟨v, h⟩ := hv q hq
      exact ⟨v, by unfold Container.get at h ⊢; rw [e]; exact h⟩
  classical
  let cell : Ptr → Prop := fun a =>
    ∃ q, (InBox inp.shape q ∧ a = inp.addr q) ∨ (InBox out.shape q ∧ a = out.addr q)
  let m0 : Mem α := fun a => if cell a then some default else none
  have hm0 : ∀ a, (m0 a).isSome ↔ cell a := by
    intro a
    show (if cell a then some default else none : Option α).isSome ↔ _
    split <;> simp_all
  have hvo : Valid out m0 := fun p hp => load_isSome ((hm0 _).2 ⟨p, .inr ⟨hp, rfl⟩⟩)
  have hvi : Valid inp m0 := fun p hp => load_isSome ((hm0 _).2 ⟨p, .inl ⟨hp, rfl⟩⟩)
  refine ⟨⟨fun h p hp => ?_, fun hc m hv hvi => ?_⟩, ⟨fun h p hp => ?_, fun hc m hv hvi => ?_⟩⟩
  · obtain ⟨m', h⟩ := h m0 hvo hvi
    unfold transform mapCtx at h
    rw [loopState_eq] at h
    cases hl : (positions out.shape).foldlM (fun s p => (fun is sm => (fun o is ((), m) => do
        let vs ← is.mapM (fun i => load m i)
        let m ← store m o (f vs)
        pure ((), m)) (out.addr is) ([inp].map fun c => c.addr is) sm) p s) ((), m0) with
    | error e => rw [hl] at h; cases h
    | ok s' =>
      obtain ⟨s, s'', hs, hstep⟩ := foldlM_steps_ok (step := fun is sm => (fun o is ((), m) => do
          let vs ← is.mapM (fun i => load m i)
          let m ← store m o (f vs)
          pure ((), m)) (out.addr is) ([inp].map fun c => c.addr is) sm)
        (fun s : Unit × Mem α => ∀ a, (s.2 a).isSome = (m0 a).isSome) (by
          intro p s s' hs hst a
          simp only [List.map_cons, List.map_nil, List.mapM_cons, List.mapM_nil, bind, Except.bind, pure,
            Except.pure] at hst
          cases h1 : load s.2 (inp.addr p) with
          | error e => rw [h1] at hst; cases hst
          | ok v =>
            rw [h1] at hst
            simp only at hst
            cases h2 : store s.2 (out.addr p) (f [v]) with
            | error e => rw [h2] at hst; cases hst
            | ok m1 =>
              rw [h2] at hst
              cases hst
              rw [store_inv h2, hs]) hl (fun _ => rfl) p (mem_positions.2 hp)
      simp only [List.map_cons, List.map_nil, List.mapM_cons, List.mapM_nil, bind, Except.bind, pure, Except.pure] at hstep
      cases h1 : load s.2 (inp.addr p) with
      | error e => rw [h1] at hstep; cases hstep
      | ok v =>
        have := load_inv h1
        rw [hs] at this
        exact (hm0 _).1 this
  · obtain ⟨m', h, _⟩ := C40_safe_inputs m out out [inp] hv hv
      (by intro c hc' p hp; simp at hc'; subst hc'; exact reads hc m hv hvi p hp) rfl f (fun _ => true)
      (f []) (fun a (_ : α) => a) (fun x => x) (transform m f out [inp]) (by simp)
    exact ⟨m', h⟩
  · obtain ⟨r, h⟩ := h m0 hvo hvi
    unfold transformReduce mapCtx at h
    rw [loopState_eq] at h
    cases hl : (positions out.shape).foldlM (fun s p => (fun is sm => (fun i1 ins (init, m) => do
        let v1 ← load m i1
        let v2 ← load m (ins.headD i1)
        pure (R init (T v1 v2), m)) (out.addr is) ([inp].map fun c => c.addr is) sm) p s) (init, m0) with
    | error e => rw [hl] at h; cases h
    | ok s' =>
      obtain ⟨s, s'', hs, hstep⟩ := foldlM_steps_ok (step := fun is sm => (fun i1 ins (init, m) => do
          let v1 ← load m i1
          let v2 ← load m (ins.headD i1)
          pure (R init (T v1 v2), m)) (out.addr is) ([inp].map fun c => c.addr is) sm)
        (fun s : β × Mem α => s.2 = m0) (by
          intro p s s' hs hst
          simp only [List.map_cons, List.map_nil, List.headD_cons, bind, Except.bind, pure, Except.pure] at hst
          cases h1 : load s.2 (out.addr p) with
          | error e => rw [h1] at hst; cases hst
          | ok v =>
            cases h2 : load s.2 (inp.addr p) with
            | error e => rw [h1, h2] at hst; cases hst
            | ok w => rw [h1, h2] at hst; cases hst; exact hs) hl rfl p (mem_positions.2 hp)
      simp only [List.map_cons, List.map_nil, List.headD_cons, bind, Except.bind, pure, Except.pure] at hstep
      cases h1 : load s.2 (out.addr p) with
      | error e => rw [h1] at hstep; cases hstep
      | ok v =>
        cases h2 : load s.2 (inp.addr p) with
        | error e => rw [h1, h2] at hstep; cases hstep
        | ok w =>
          have := load_inv h2
          rw [hs] at this
          exact (hm0 _).1 this
  · have hli : ∀ p, ∃ v, InBox out.shape p → inp.get m p = .ok v := by
      intro p
      by_cases hp : InBox out.shape p
      · obtain ⟨v, hv⟩ := reads hc m hv hvi p hp; exact ⟨v, fun _ => hv⟩
      · exact ⟨default, fun h => absurd h hp⟩
    have hlo : ∀ p, ∃ v, InBox out.shape p → out.get m p = .ok v := by
      intro p
      by_cases hp : InBox out.shape p
      · obtain ⟨v, hv⟩ := hv p hp; exact ⟨v, fun _ => hv⟩
      · exact ⟨default, fun h => absurd h hp⟩
    choose vo hvo using hlo
    choose vi hvi' using hli
    refine ⟨((positions out.shape).map fun p => T (vo p) (vi p)).foldl R init, ?_⟩
    unfold transformReduce mapCtx
    rw [loopState_eq, foldlM_read _ (fun p a => R a (T (vo p) (vi p)))]
    · rw [← List.foldl_map (f := fun p => T (vo p) (vi p)) (g := R)]; rfl
    · intro p hp s
      have hp := mem_positions.1 hp
      have h1 := hvo p hp
      have h2 := hvi' p hp
      unfold Container.get at h1 h2
      simp only [List.map_cons, List.map_nil, List.headD_cons, h1, h2]; rfl

example := (C41_exact_partial (α := Int) exOut exIn List.sum 0 (fun a x => a + x) (fun x y => x * y)).1.2 fun p hp => ⟨p, .inl ⟨hp, rfl⟩⟩

/-- **C41** (partial) For vectors in blocks of their own: `copy` stays inside in every memory if and only if the output is not
longer than the input. -/
theorem C41_vectors_partial [Inhabited α] (n k : Int) (hn : 0 ≤ n) (hk : 0 ≤ k) (b b' : Nat) (hb : b ≠ b') (dflt : α) :
    (∀ m : Mem α, Valid (.ofShape ⟨b, 0⟩ [n]) m → Valid (.ofShape ⟨b', 0⟩ [k]) m →
      ∃ m', copy m (.ofShape ⟨b, 0⟩ [n]) (.ofShape ⟨b', 0⟩ [k]) dflt = .ok m') ↔ n ≤ k := by
  refine (C41_exact_partial (.ofShape ⟨b, 0⟩ [n]) (.ofShape ⟨b', 0⟩ [k]) (fun vs => vs.headD dflt) dflt
    (fun a _ => a) (fun a _ => a)).1.trans ?_
  have haddr : ∀ (c : Nat) (e i : Int), (Container.ofShape ⟨c, 0⟩ [e]).addr [i] = ⟨c, i⟩ := by
    intro c e i
    simp [Container.addr, Container.ofShape, Container.index, asStride, Ptr.add]
  constructor
  · intro h
    by_contra hlt
    obtain ⟨q, ⟨hq, e⟩ | ⟨hq, e⟩⟩ := h [n - 1] (inBox_cons.2 ⟨by omega, by simp [InBox]⟩)
    · obtain ⟨i, q, rfl, hi, hq⟩ := inBox_cons_left hq
      cases q with
      | nil => rw [haddr, haddr] at e; cases e; omega
      | cons _ _ => simp [InBox] at hq
    · obtain ⟨i, q, rfl, hi, hq⟩ := inBox_cons_left hq
      cases q with
      | nil => rw [haddr, haddr] at e; cases e; exact hb rfl
      | cons _ _ => simp [InBox] at hq
  · intro h p hp
    obtain ⟨i, q, rfl, hi, hq⟩ := inBox_cons_left hp
    exact ⟨i :: q, .inl ⟨inBox_cons.2 ⟨by omega, hq⟩, rfl⟩⟩

example : (∀ p, InBox [1, 4] p → ∃ q, InBox [2, 3] q ∧
    (Container.ofShape ⟨0, 0⟩ [2, 3]).addr p = (Container.ofShape ⟨0, 0⟩ [2, 3]).addr q) := by
  intro p hp
  obtain ⟨i, p, rfl, hi, hp⟩ := inBox_cons_left hp
  obtain ⟨j, p, rfl, hj, hp⟩ := inBox_cons_left hp
  cases p with
  | cons _ _ => simp [InBox] at hp
  | nil =>
    obtain rfl : i = 0 := by omega
    obtain rfl | rfl | rfl | rfl : j = 0 ∨ j = 1 ∨ j = 2 ∨ j = 3 := by omega
    · exact ⟨[0, 0], by decide⟩
    · exact ⟨[0, 1], by decide⟩
    · exact ⟨[0, 2], by decide⟩
    · exact ⟨[1, 0], by decide⟩

/-- **C41** (negation) There is no check: `copy` of a two element vector into a three element one
reads outside of the source, and `copy` of a 2x1 into a 2x2 container silently takes elements of
other positions. -/
theorem C41_mismatch_reads_outside :
    (let m : Mem Int := fun p => match oneBlock 0 [1, 2] p with
        | some v => some v
        | none => oneBlock 1 [0, 0, 0] p
     (copy m (.ofShape ⟨1, 0⟩ [3]) (.ofShape ⟨0, 0⟩ [2]) 0).isOk = false) ∧
    (let m : Mem Int := fun p => match oneBlock 0 [1, 2, 3, 4] p with
        | some v => some v
        | none => oneBlock 1 [0, 0, 0, 0] p
     (do let m ← copy m (.ofShape ⟨1, 0⟩ [2, 2]) (.ofShape ⟨0, 0⟩ [2, 1]) 0
         reduce m (.ofShape ⟨1, 0⟩ [2, 2]) (fun a e => a ++ [e]) []) = (.ok [1, 2, 2, 3] : Res (List Int))) := by
  constructor <;> decide

/-- **C41** The full property (elements of type `int`). -/
def C41_statement : Prop :=
  ∀ (m : Mem Int) (out inp : Container), out.shape.length = inp.shape.length → Valid out m → Valid inp m →
    ∀ (f : List Int → Int) (R T : Int → Int → Int) (init : Int),
    (∃ m', transform m f out [inp] = .ok m') ∧ (∃ r, transformReduce m out inp init R T = .ok r)

theorem C41_statement_false : ¬ C41_statement := by
  intro h
  have := (C41_vectors_partial (α := Int) 3 2 (by decide) (by decide) 1 0 (by decide) 0).1
    (fun m hv hi => (h m (.ofShape ⟨1, 0⟩ [3]) (.ofShape ⟨0, 0⟩ [2]) rfl hv hi _ (fun a _ => a) (fun a _ => a) 0).1)
  omega

end Kwk
