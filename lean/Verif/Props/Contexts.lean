import Verif.Lemmas.Contexts
import Verif.Lemmas.Witnesses
import Verif.Props.Reading
import Verif.Props.Writing

/-!
# Properties C138, C139: algorithms in a context of the user

`VisitsAll ctx`: the context visits every position once, in some order.  `Apart out inp`: no element of `inp` is stored where another
element of `out` is.  Both in `Spec/Contexts.lean`.
-/

namespace Kwk
open Spec

variable {α β : Type}

/-! ## C138: element by element -/

/-- **C138** `fill` in any context sets every element and nothing else. -/
theorem C138_fill (ctx : Ctx) (hc : VisitsAll ctx) (m : Mem α) (c : Container) (hd : Distinct c) (hv : Valid c m) (v : α) :
    ∃ m', fillC ctx m c v = .ok m' ∧ (∀ p, InBox c.shape p → c.get m' p = .ok v) ∧ SameOutside c m m' := by
  obtain ⟨m', h1, h2, h3⟩ := order_each (hc c.shape).1 (hc c.shape).2 hd hv
    (fun sm p => do let m ← store sm.2 (c.addr p) v; pure ((), m)) (fun _ => some v) (by
      intro p hp m1 _ hs
      simp only [store_ok (valid_isSome hv hp hs)]; rfl)
  refine ⟨m', ?_, ?_, h2⟩
  · unfold fillC Ctx.map; rw [h1]; rfl
  · intro p hp; rw [get_ok_iff, h3 p hp]

example := C138_fill backwards backwards_visits exTwo exOut exOut_distinct exOut_valid 7

/-- **C138** `generate` in any context stores `f p` at every position `p`. -/
theorem C138_generate (ctx : Ctx) (hc : VisitsAll ctx) (m : Mem α) (c : Container) (hd : Distinct c) (hv : Valid c m)
    (f : List Int → α) :
    ∃ m', generateC ctx m f c = .ok m' ∧ (∀ p, InBox c.shape p → c.get m' p = .ok (f p)) ∧ SameOutside c m m' := by
  obtain ⟨m', h1, h2, h3⟩ := order_each (hc c.shape).1 (hc c.shape).2 hd hv
    (fun sm p => do let m ← store sm.2 (c.addr p) (f p); pure ((), m)) (fun p => some (f p)) (by
      intro p hp m1 _ hs
      simp only [store_ok (valid_isSome hv hp hs)]; rfl)
  refine ⟨m', ?_, ?_, h2⟩
  · unfold generateC Ctx.mapIndex; rw [h1]; rfl
  · intro p hp; rw [get_ok_iff, h3 p hp]

example := C138_generate backwards backwards_visits exTwo exOut exOut_distinct exOut_valid fun p => p.headD 0 * 10

/-- **C138** `transform` in any context stores the function of the inputs at every position. -/
theorem C138_transform (ctx : Ctx) (hc : VisitsAll ctx) (m : Mem α) (f : List α → α) (out : Container) (ins : List Container)
    (hd : Distinct out) (hv : Valid out m) (ha : ∀ c ∈ ins, Apart out c) (vals : List Int → List α)
    (hin : ∀ p, InBox out.shape p → ins.mapM (fun c => c.get m p) = .ok (vals p)) :
    ∃ m', transformC ctx m f out ins = .ok m' ∧ (∀ p, InBox out.shape p → out.get m' p = .ok (f (vals p))) ∧
      SameOutside out m m' := by
  obtain ⟨m', h1, h2, h3⟩ := order_each (hc out.shape).1 (hc out.shape).2 hd hv
    (fun sm p => do
      let vs ← (ins.map fun c => c.addr p).mapM (fun i => load sm.2 i)
      let m ← store sm.2 (out.addr p) (f vs)
      pure ((), m)) (fun p => some (f (vals p))) (by
      intro p hp m1 hm hs
      have e := mapM_load_congr (m := m) (m1 := m1) ins p (vals p)
        (fun c hcm => hm _ fun q hq hne => ha c hcm q p hq hp hne) (hin p hp)
      simp only [e, bind, Except.bind, store_ok (valid_isSome hv hp hs)]; rfl)
  refine ⟨m', ?_, ?_, h2⟩
  · unfold transformC Ctx.map; rw [h1]; rfl
  · intro p hp; rw [get_ok_iff, h3 p hp]

example := C138_transform backwards backwards_visits exTwo List.sum exOut [exIn, exIn] exOut_distinct exOut_valid
  (fun c hc => by simp only [List.mem_cons, List.not_mem_nil, or_false, or_self] at hc; exact hc ▸ ex_apart)
  (fun p => [exInVal p, exInVal p]) fun p hp => by simp [exIn_elems p hp, pure, Except.pure, bind, Except.bind]

/-- **C138** `copy` in any context. -/
theorem C138_copy (ctx : Ctx) (hc : VisitsAll ctx) (m : Mem α) (out inp : Container) (d : α) (hs : out.shape = inp.shape)
    (hd : Distinct out) (hv : Valid out m) (ha : Apart out inp) (val : List Int → α) (hin : Elems inp m val) :
    ∃ m', copyC ctx m out inp d = .ok m' ∧ Elems out m' val ∧ SameOutside out m m' := by
  obtain ⟨m', h1, h2, h3⟩ := C138_transform ctx hc m (fun vs => vs.headD d) out [inp] hd hv (by simpa using ha)
    (fun p => [val p]) (by
      intro p hp
      rw [List.mapM_cons, hin p (hs ▸ hp)]; rfl)
  exact ⟨m', h1, fun p hp => h2 p hp, h3⟩

example := C138_copy backwards backwards_visits exTwo exOut exIn 0 rfl exOut_distinct exOut_valid ex_apart exInVal exIn_elems

/-- **C138** `copy_if` in any context. -/
theorem C138_copy_if (ctx : Ctx) (hc : VisitsAll ctx) (m : Mem α) (f : α → Bool) (out inp : Container) (hs : out.shape = inp.shape)
    (hd : Distinct out) (ha : Apart out inp) (old val : List Int → α) (hout : Elems out m old) (hin : Elems inp m val) :
    ∃ m', copyIfC ctx m f out inp = .ok m' ∧ Elems out m' (fun p => if f (val p) then val p else old p) ∧
      SameOutside out m m' := by
  have hv : Valid out m := fun p hp => ⟨_, hout p hp⟩
  obtain ⟨m', h1, h2, h3⟩ := order_each (hc out.shape).1 (hc out.shape).2 hd hv
    (fun sm p => do
      let v ← load sm.2 (inp.addr p)
      if f v then do
        let m ← store sm.2 (out.addr p) v
        pure ((), m)
      else pure ((), sm.2)) (fun p => if f (val p) then some (val p) else none) (by
      intro p hp m1 hm hs1
      have e : load m1 (inp.addr p) = .ok (val p) := by
        apply load_ok
        rw [hm _ fun q hq hne => ha q p hq hp hne]
        exact get_ok_iff.1 (hin p (hs ▸ hp))
      simp only [e, bind, Except.bind]
      by_cases hf : f (val p) = true
      · simp only [hf, if_true, store_ok (valid_isSome hv hp hs1)]; rfl
      · simp only [hf]; rfl)
  refine ⟨m', ?_, ?_, h2⟩
  · exact congrArg (fun x => x >>= fun r : Unit × Mem α => (pure r.2 : Res (Mem α))) h1
  · intro p hp
    rw [get_ok_iff, h3 p hp]
    by_cases hf : f (val p) = true
    · simp [hf]
    · simpa [hf] using get_ok_iff.1 (hout p hp)

example := C138_copy_if backwards backwards_visits exTwo (fun x => x > 2) exOut exIn rfl exOut_distinct ex_apart (fun _ => 0) exInVal
  exOut_elems exIn_elems

/-- **C138** `replace_if` in any context. -/
theorem C138_replace_if (ctx : Ctx) (hc : VisitsAll ctx) (m : Mem α) (c : Container) (f : α → Bool) (v : α) (hd : Distinct c)
    (val : List Int → α) (h : Elems c m val) :
    ∃ m', replaceIfC ctx m c f v = .ok m' ∧ Elems c m' (fun p => if f (val p) then v else val p) ∧ SameOutside c m m' := by
  have hv : Valid c m := fun p hp => ⟨_, h p hp⟩
  obtain ⟨m', h1, h2, h3⟩ := order_each (hc c.shape).1 (hc c.shape).2 hd hv
    (fun sm p => do
      let w ← load sm.2 (c.addr p)
      if f w then do
        let m ← store sm.2 (c.addr p) v
        pure ((), m)
      else pure ((), sm.2)) (fun p => if f (val p) then some v else none) (by
      intro p hp m1 hm hs1
      have e : load m1 (c.addr p) = .ok (val p) := by
        apply load_ok
        rw [own_cell' hd hp hm]
        exact get_ok_iff.1 (h p hp)
      simp only [e, bind, Except.bind]
      by_cases hf : f (val p) = true
      · simp only [hf, if_true, store_ok (valid_isSome hv hp hs1)]; rfl
      · simp only [hf]; rfl)
  refine ⟨m', ?_, ?_, h2⟩
  · unfold replaceIfC Ctx.map; rw [show _ = _ from h1]; rfl
  · intro p hp
    rw [get_ok_iff, h3 p hp]
    by_cases hf : f (val p) = true
    · simp [hf]
    · simpa [hf] using get_ok_iff.1 (h p hp)

example := C138_replace_if backwards backwards_visits exTwo exIn (fun x => x > 2) 9 exIn_distinct exInVal exIn_elems

/-- **C138** `replace` in any context. -/
theorem C138_replace [DecidableEq α] (ctx : Ctx) (hc : VisitsAll ctx) (m : Mem α) (c : Container) (x y : α) (hd : Distinct c)
    (val : List Int → α) (h : Elems c m val) :
    ∃ m', replaceC ctx m c x y = .ok m' ∧ Elems c m' (fun p => if val p = x then y else val p) ∧ SameOutside c m m' := by
  obtain ⟨m', h1, h2, h3⟩ := C138_replace_if ctx hc m c (fun e => e = x) y hd val h
  exact ⟨m', h1, fun p hp => by simpa using h2 p hp, h3⟩

example := C138_replace backwards backwards_visits exTwo exIn 3 9 exIn_distinct exInVal exIn_elems

/-- **C138** `all_of`, `any_of` and `none_of` in any context. -/
theorem C138_quantifiers (ctx : Ctx) (hc : VisitsAll ctx) (m : Mem α) (c : Container) (f : α → Bool) (val : List Int → α)
    (h : Elems c m val) :
    (∃ b, allOfC ctx m c f = .ok b ∧ (b = true ↔ ∀ p, InBox c.shape p → f (val p))) ∧
    (∃ b, anyOfC ctx m c f = .ok b ∧ (b = true ↔ ∃ p, InBox c.shape p ∧ f (val p))) ∧
    (∃ b, noneOfC ctx m c f = .ok b ∧ (b = true ↔ ∀ p, InBox c.shape p → ¬ f (val p))) := by
  have hany : anyOfC ctx m c f = .ok (((ctx.order c.shape).map val).any f) := by
    unfold anyOfC; rw [reduceC_eq hc _ _ h, foldl_or, Bool.false_or]
  have hm := (hc c.shape).2
  refine ⟨⟨_, by unfold allOfC; rw [reduceC_eq hc _ _ h, foldl_and, Bool.true_and], ?_⟩, ⟨_, hany, ?_⟩,
    ⟨!((ctx.order c.shape).map val).any f, by unfold noneOfC; rw [hany]; rfl, ?_⟩⟩
  · simp [List.all_eq_true, hm]
  · simp [List.any_eq_true, hm]
  · simp [hm]

example := C138_quantifiers backwards backwards_visits exTwo exIn (fun x => x > 2) exInVal exIn_elems

/-- **C138** `count_if` in any context counts the positions whose element satisfies the predicate. -/
theorem C138_count_if (ctx : Ctx) (hc : VisitsAll ctx) (m : Mem α) (c : Container) (f : α → Bool) (val : List Int → α)
    (h : Elems c m val) : countIfC ctx m c f = .ok ((positions c.shape).countP fun p => f (val p)) := by
  unfold countIfC
  rw [reduceC_eq hc _ _ h, foldl_count, List.countP_map, (order_perm hc c.shape).countP_eq]
  simp [Function.comp_def]

example : countIfC backwards exTwo exIn (fun x => x > 2) = .ok 2 := C138_count_if backwards backwards_visits exTwo exIn _ exInVal exIn_elems

/-- **C138** `count` in any context. -/
theorem C138_count [DecidableEq α] (ctx : Ctx) (hc : VisitsAll ctx) (m : Mem α) (c : Container) (v : α) (val : List Int → α)
    (h : Elems c m val) : countC ctx m c v = .ok ((positions c.shape).countP fun p => val p = v) := by
  have := C138_count_if ctx hc m c (fun e => e = v) val h
  rw [← this]
  simp [countC, countIfC]

example : countC backwards exTwo exIn 3 = .ok 1 := C138_count backwards backwards_visits exTwo exIn _ exInVal exIn_elems

/-- **C138** `find_first_of` in any context returns the first position, in row-major order, of an element equal to one of the
values. -/
theorem C138_find_first_of [DecidableEq α] (ctx : Ctx) (hc : VisitsAll ctx) (m : Mem α) (c vs : Container) (val vval : List Int → α)
    (h : Elems c m val) (hv : Elems vs m vval) :
    ∃ r, findFirstOfC ctx m c vs = .ok r ∧ IsFirst c.shape (fun p => ∃ q, InBox vs.shape q ∧ vval q = val p) r := by
  have hany : ∀ f : α → Bool, anyOfC ctx m vs f = anyOf m vs f := by
    intro f
    unfold anyOfC
    rw [reduceC_eq hc _ _ hv, anyOf_eq f hv, foldl_or, Bool.false_or, List.any_map, (order_perm hc vs.shape).any_eq]
    rfl
  have := C28_find_first_of m c vs val vval h hv
  unfold findFirstOf at this
  unfold findFirstOfC
  simpa only [hany] using this

example : backwards.order [2, 2] = [[1, 1], [1, 0], [0, 1], [0, 0]] := by decide

example : ∃ m', fillC backwards exMem exView 7 = .ok m' ∧ exView.get m' [1, 1] = .ok 7 := by
  obtain ⟨m', h, h1, _⟩ := C138_fill backwards backwards_visits exMem exView exDistinct exValid 7
  exact ⟨m', h, h1 _ (by decide)⟩

/-- Two disjoint containers. -/
example : Apart (Container.ofShape ⟨0, 0⟩ [3]) (Container.ofShape ⟨1, 0⟩ [3]) := by
  intro p q _ _ _ e
  have := congrArg Ptr.blk e
  simp [Container.addr, Ptr.add, Container.ofShape] at this

/-! ### The condition is needed -/

/-- **C138** For `copy` between containers of distinct cells, any contents and any context, the condition is exactly that no element
of the source is stored where another element of the destination is. -/
theorem C138_copy_exact (out inp : Container) (hs : out.shape = inp.shape) (hd : Distinct out) (hi : Distinct inp)
    {a b : α} (hab : a ≠ b) :
    (∀ ctx, VisitsAll ctx → ∀ (m : Mem α) val, Valid out m → Elems inp m val →
      ∃ m', copyC ctx m out inp a = .ok m' ∧ Elems out m' val) ↔ Apart out inp := by
  constructor
  · intro H p q hp hq hne e
    have hl := firstTwo_perm hp hq hne
    have hnd := hl.nodup_iff.2 (positions_nodup _)
    classical
    let m : Mem α := fun x => some (if x = inp.addr p then a else b)
    obtain ⟨m', h1, h2⟩ := H _ (visiting_visits hl) m (fun r => if inp.addr r = inp.addr p then a else b)
      (fun r _ => ⟨_, rfl⟩) (fun r _ => rfl)
    have hq2 := get_ok_iff.1 (h2 q hq)
    have hpq : ¬ inp.addr q = inp.addr p := fun e' => hne (hi p q (hs ▸ hp) (hs ▸ hq) e'.symm)
    simp only [if_neg hpq] at hq2
    -- the two first steps
    let step : Unit × Mem α → List Int → Res (Unit × Mem α) := fun sm r => do
      let vs ← ([inp].map fun c => c.addr r).mapM (fun i => load sm.2 i)
      let m ← store sm.2 (out.addr r) (vs.headD a)
      pure ((), m)
    have hstep : ∀ (m1 : Mem α) r v, m1 (inp.addr r) = some v → (m1 (out.addr r)).isSome →
        step ((), m1) r = .ok ((), wr m1 (out.addr r) (some v)) := by
      intro m1 r v hv hsome
      simp only [step, List.map_cons, List.map_nil, List.mapM_cons, List.mapM_nil, load_ok hv, bind, Except.bind, pure, Except.pure,
        List.headD_cons, store_ok hsome]
    have hrun : (p :: q :: ((positions out.shape).erase p).erase q).foldlM step ((), m) = .ok ((), m') := by
      have h1' : (do
          let r ← (p :: q :: ((positions out.shape).erase p).erase q).foldlM step ((), m)
          pure r.2 : Res (Mem α)) = .ok m' := by
        rw [← h1]; simp only [copyC, transformC, Ctx.map, visiting, if_true]; rfl
      cases hr : (p :: q :: ((positions out.shape).erase p).erase q).foldlM step ((), m) with
      | error x => rw [hr] at h1'; cases h1'
      | ok r => rw [hr] at h1'; cases h1'; rfl
    have hm1 : step ((), m) p = .ok ((), wr m (out.addr p) (some a)) := hstep m p a (by simp [m]) rfl
    have hm2 : step ((), wr m (out.addr p) (some a)) q = .ok ((), wr (wr m (out.addr p) (some a)) (out.addr q) (some a)) := by
      refine hstep _ q a ?_ (by rw [wr_isSome _ _ rfl]; rfl)
      rw [← e]; exact wr_self ..
    rw [List.foldlM_cons, hm1] at hrun
    simp only [bind, Except.bind] at hrun
    rw [List.foldlM_cons, hm2] at hrun
    simp only [bind, Except.bind] at hrun
    obtain ⟨s', m'', g1, g2, _⟩ := foldlM_safe (((positions out.shape).erase p).erase q) (fun x => x ≠ out.addr q) step
      (wr (wr m (out.addr p) (some a)) (out.addr q) (some a)) () (by
        intro r hr _ m1 hsame hsome
        have hall : ∀ x, (m1 x).isSome := by
          intro x
          rw [hsome, wr_isSome _ _ (by rw [wr_isSome _ _ rfl]; rfl), wr_isSome _ _ rfl]; rfl
        obtain ⟨v, hv⟩ := Option.isSome_iff_exists.1 (hall (inp.addr r))
        have hrb : InBox out.shape r := mem_positions.1 (List.mem_of_mem_erase (List.mem_of_mem_erase hr))
        have hrq : r ≠ q := by
          rintro rfl
          exact (List.nodup_cons.1 (List.nodup_cons.1 hnd).2).1 hr
        refine ⟨(), _, hstep m1 r v hv (hall _), ?_, ?_⟩
        · intro x hx
          have : x = out.addr q := by simpa using hx
          subst this
          rw [wr_other _ _ fun e' => hrq (hd r q hrb hq e')]
          exact hsame _ (by simp)
        · intro x; rw [wr_isSome _ _ (hall _), hsome])
    rw [g1] at hrun
    cases hrun
    rw [g2 (out.addr q) (by simp), wr_self] at hq2
    exact hab (by simpa using hq2)
  · intro ha ctx hc m val hv hin
    obtain ⟨m', h1, h2, _⟩ := C138_copy ctx hc m out inp a hs hd hv ha val hin
    exact ⟨m', h1, h2⟩

example := (C138_copy_exact exOut exIn rfl exOut_distinct exIn_distinct (by decide : (1 : Int) ≠ 2)).2 ex_apart

/-! ## C139: reductions -/

/-- **C139** The result of `reduce` does not depend on the order in which a context visits the positions exactly when two
elements may be exchanged after every value that can be reached. -/
theorem C139_reduce_exact (f : β → α → β) (init : β) :
    (∀ ctx, VisitsAll ctx → ∀ (m : Mem α) c val, Elems c m val →
      reduceC ctx m c f init = .ok (((positions c.shape).map val).foldl f init)) ↔
    ∀ (l : List α) x y, f (f (l.foldl f init) x) y = f (f (l.foldl f init) y) x := by
  constructor
  · intro H l x y
    let L := l ++ [x, y]
    let N := l.length + 2
    have hpos : positions [(N : Int)] = (List.range N).map fun k : Nat => [(k : Int)] := positions_line N
    have hl : ((List.range l.length ++ [l.length + 1, l.length]).map fun k : Nat => [(k : Int)]).Perm (positions [(N : Int)]) := by
      rw [hpos]
      refine List.Perm.map _ ?_
      rw [show N = l.length + 1 + 1 from rfl, List.range_succ, List.range_succ, List.append_assoc]
      exact List.Perm.append_left _ (List.Perm.swap _ _ _)
    have he : Elems (Container.ofShape ⟨0, 0⟩ [(N : Int)]) (fun a => some (L.getD a.off.toNat x)) fun p => L.getD (p.headD 0).toNat x := by
      intro p hp
      rw [get_ok_iff]
      obtain ⟨k, rfl⟩ : ∃ k, p = [k] := List.length_eq_one_iff.1 hp.length.symm
      rw [addr_default (ofShape_default (by simp)) hp]
      simp [Container.ofShape, Ptr.add, sfx, linearize]
    have := H _ (visiting_visits hl) _ _ _ he
    rw [reduceC_eq (visiting_visits hl) _ _ he] at this
    have hsh : (Container.ofShape ⟨0, 0⟩ [(N : Int)]).shape = [(N : Int)] := rfl
    rw [hsh, hpos] at this
    simp only [visiting, if_true, List.map_map] at this
    have hfront : (List.range l.length).map (fun k => L.getD k x) = l := by
      apply List.ext_getElem (by simp)
      intro k h1 h2
      have h3 : (l ++ [x, y])[k]? = some l[k] := by rw [List.getElem?_append_left h2]; exact List.getElem?_eq_getElem h2
      simp [L, h3]
    have e1 : (List.range l.length ++ [l.length + 1, l.length]).map (fun k => L.getD k x) = l ++ [y, x] := by
      rw [List.map_append, hfront]; simp [L]
    have e2 : (List.range N).map (fun k => L.getD k x) = l ++ [x, y] := by
      rw [show N = l.length + 1 + 1 from rfl, List.range_succ, List.range_succ, List.append_assoc, List.map_append, hfront]
      simp [L]
    have hcomp : ((fun p : List Int => L.getD (p.headD 0).toNat x) ∘ fun k : Nat => [(k : Int)]) = fun k => L.getD k x := by
      funext k; simp
    rw [hcomp, e1, e2] at this
    simpa using (Except.ok.inj this).symm
  · intro h ctx hc m c val he
    rw [reduceC_eq hc _ _ he, foldl_perm h ((order_perm hc c.shape).map val)]

/-- A sum does not depend on the order. -/
example : reduceC backwards exMem exView (fun a e => a + e) 0 = .ok (((positions exView.shape).map exVal).foldl (fun a e => a + e) 0) :=
  (C139_reduce_exact (fun a e => a + e) 0).2 (fun _ _ _ => by ring) backwards backwards_visits exMem exView exVal exElems

/-- Reading decimal digits does. -/
example : ¬ ∀ ctx, VisitsAll ctx → ∀ (m : Mem Int) c val, Elems c m val →
    reduceC ctx m c (fun a e => 10 * a + e) 0 = .ok (((positions c.shape).map val).foldl (fun a e => 10 * a + e) 0) := by
  rw [C139_reduce_exact]
  intro h
  exact absurd (h [] 1 2) (by decide)

/-- **C139** `transform_reduce` in any context. -/
theorem C139_transform_reduce {γ : Type} (ctx : Ctx) (hc : VisitsAll ctx) (m : Mem α) (c1 c2 : Container) (init : β) (R : β → γ → β)
    (T : α → α → γ) (hs : c1.shape = c2.shape) (v1 v2 : List Int → α) (h1 : Elems c1 m v1) (h2 : Elems c2 m v2)
    (hR : ∀ (l : List γ) x y, R (R (l.foldl R init) x) y = R (R (l.foldl R init) y) x) :
    transformReduceC ctx m c1 c2 init R T = .ok (((positions c1.shape).map fun p => T (v1 p) (v2 p)).foldl R init) := by
  rw [← foldl_perm hR ((order_perm hc c1.shape).map _)]
  unfold transformReduceC Ctx.map
  rw [foldlM_read _ (fun p a => R a (T (v1 p) (v2 p)))]
  · rw [List.foldl_map]; rfl
  · intro p hp s
    have hb := ((hc _).2 p).1 hp
    have e1 : load m (c1.addr p) = .ok (v1 p) := h1 p hb
    have e2 : load m (c2.addr p) = .ok (v2 p) := h2 p (hs ▸ hb)
    simp only [e1, List.map_cons, List.map_nil, List.headD_cons, e2]; rfl

example : transformReduceC backwards exTwo exIn exIn 0 (fun a x => a + x) (fun x y => x * y) = .ok (30 : Int) :=
  C139_transform_reduce backwards backwards_visits exTwo exIn exIn 0 _ _ rfl exInVal exInVal exIn_elems exIn_elems fun _ _ _ => by ring

/-- The elements of two containers in the order of the context. -/
private theorem transformReduceC_eq {γ : Type} {ctx : Ctx} (hc : VisitsAll ctx) (m : Mem α) (c1 c2 : Container) (init : β) (R : β → γ → β)
    (T : α → α → γ) (hs : c1.shape = c2.shape) (v1 v2 : List Int → α) (h1 : Elems c1 m v1) (h2 : Elems c2 m v2) :
    transformReduceC ctx m c1 c2 init R T =
      .ok (((ctx.order c1.shape).map fun p => (v1 p, v2 p)).foldl (fun a e => R a (T e.1 e.2)) init) := by
  unfold transformReduceC Ctx.map
  rw [foldlM_read _ (fun p a => R a (T (v1 p) (v2 p)))]
  · rw [List.foldl_map]; rfl
  · intro p hp s
    have hb := ((hc _).2 p).1 hp
    have e1 : load m (c1.addr p) = .ok (v1 p) := h1 p hb
    have e2 : load m (c2.addr p) = .ok (v2 p) := h2 p (hs ▸ hb)
    simp only [e1, List.map_cons, List.map_nil, List.headD_cons, e2]; rfl

/-- **C139** The result of `transform_reduce` does not depend on the order in which a context visits the positions exactly when two pairs of
elements may be exchanged after every value that can be reached. -/
theorem C139_transform_reduce_exact {γ : Type} (init : β) (R : β → γ → β) (T : α → α → γ) :
    (∀ ctx, VisitsAll ctx → ∀ (m : Mem α) c1 c2 v1 v2, c1.shape = c2.shape → Elems c1 m v1 → Elems c2 m v2 →
      transformReduceC ctx m c1 c2 init R T = .ok (((positions c1.shape).map fun p => T (v1 p) (v2 p)).foldl R init)) ↔
    ∀ (l : List (α × α)) (x y : α × α), let a := (l.map fun e => T e.1 e.2).foldl R init
      R (R a (T x.1 x.2)) (T y.1 y.2) = R (R a (T y.1 y.2)) (T x.1 x.2) := by
  constructor
  · intro H l x y
    let L := l ++ [x, y]
    let N := l.length + 2
    have hpos : positions [(N : Int)] = (List.range N).map fun k : Nat => [(k : Int)] := positions_line N
    have hl : ((List.range l.length ++ [l.length + 1, l.length]).map fun k : Nat => [(k : Int)]).Perm (positions [(N : Int)]) := by
      rw [hpos]
      refine List.Perm.map _ ?_
      rw [show N = l.length + 1 + 1 from rfl, List.range_succ, List.range_succ, List.append_assoc]
      exact List.Perm.append_left _ (List.Perm.swap _ _ _)
    let m : Mem α := fun a => some (if a.blk = 0 then (L.getD a.off.toNat x).1 else (L.getD a.off.toNat x).2)
    have he1 : Elems (Container.ofShape ⟨0, 0⟩ [(N : Int)]) m fun p => (L.getD (p.headD 0).toNat x).1 := by
      intro p hp
      rw [get_ok_iff]
      obtain ⟨k, rfl⟩ : ∃ k, p = [k] := List.length_eq_one_iff.1 hp.length.symm
      rw [addr_default (ofShape_default (by simp)) hp]
      simp [m, Container.ofShape, Ptr.add, sfx, linearize]
    have he2 : Elems (Container.ofShape ⟨1, 0⟩ [(N : Int)]) m fun p => (L.getD (p.headD 0).toNat x).2 := by
      intro p hp
      rw [get_ok_iff]
      obtain ⟨k, rfl⟩ : ∃ k, p = [k] := List.length_eq_one_iff.1 hp.length.symm
      rw [addr_default (ofShape_default (by simp)) hp]
      simp [m, Container.ofShape, Ptr.add, sfx, linearize]
    have hsame : (Container.ofShape ⟨0, 0⟩ [(N : Int)]).shape = (Container.ofShape ⟨1, 0⟩ [(N : Int)]).shape := rfl
    have := H _ (visiting_visits hl) m _ _ _ _ hsame he1 he2
    rw [transformReduceC_eq (visiting_visits hl) _ _ _ _ _ _ hsame _ _ he1 he2] at this
    have hsh : (Container.ofShape ⟨0, 0⟩ [(N : Int)]).shape = [(N : Int)] := rfl
    rw [hsh, hpos] at this
    simp only [visiting, if_true, List.map_map] at this
    have hfront : (List.range l.length).map (fun k => L.getD k x) = l := by
      apply List.ext_getElem (by simp)
      intro k h1 h2
      have h3 : (l ++ [x, y])[k]? = some l[k] := by rw [List.getElem?_append_left h2]; exact List.getElem?_eq_getElem h2
      simp [L, h3]
    have e1 : (List.range l.length ++ [l.length + 1, l.length]).map (fun k => L.getD k x) = l ++ [y, x] := by
      rw [List.map_append, hfront]; simp [L]
    have e2 : (List.range N).map (fun k => L.getD k x) = l ++ [x, y] := by
      rw [show N = l.length + 1 + 1 from rfl, List.range_succ, List.range_succ, List.append_assoc, List.map_append, hfront]
      simp [L]
    have hcomp : ((fun p : List Int => ((L.getD (p.headD 0).toNat x).1, (L.getD (p.headD 0).toNat x).2)) ∘ fun k : Nat => [(k : Int)]) =
        fun k => L.getD k x := by
      funext k; simp
    have hcomp2 : ((fun p : List Int => T (L.getD (p.headD 0).toNat x).1 (L.getD (p.headD 0).toNat x).2) ∘ fun k : Nat => [(k : Int)]) =
        (fun e : α × α => T e.1 e.2) ∘ fun k => L.getD k x := by
      funext k; simp
    rw [hcomp, hcomp2, e1, ← List.map_map, e2] at this
    have h3 := (Except.ok.inj this).symm
    simpa [List.foldl_map] using h3
  · intro h ctx hc m c1 c2 v1 v2 hs h1 h2
    rw [transformReduceC_eq hc m c1 c2 init R T hs v1 v2 h1 h2, foldl_perm (f := fun a (e : α × α) => R a (T e.1 e.2)) (init := init) ?_
      ((order_perm hc c1.shape).map _), List.foldl_map, List.foldl_map]
    intro l x y
    have := h l x y
    simpa only [List.foldl_map] using this

/-- A dot product does not depend on the order. -/
example : transformReduceC backwards exTwo exIn exIn 0 (fun a x => a + x) (fun x y => x * y) =
    .ok (((positions exIn.shape).map fun p => exInVal p * exInVal p).foldl (fun a x => a + x) (0 : Int)) :=
  (C139_transform_reduce_exact 0 (fun a x => a + x) (fun x y => x * y)).2 (fun _ _ _ => by simp only []; ring) backwards backwards_visits
    exTwo exIn exIn exInVal exInVal rfl exIn_elems exIn_elems

/-- Reading the products as digits does. -/
example : ¬ ∀ ctx, VisitsAll ctx → ∀ (m : Mem Int) c1 c2 v1 v2, c1.shape = c2.shape → Elems c1 m v1 → Elems c2 m v2 →
    transformReduceC ctx m c1 c2 0 (fun a x => 10 * a + x) (fun x y => x * y) =
      .ok (((positions c1.shape).map fun p => v1 p * v2 p).foldl (fun a x => 10 * a + x) 0) := by
  rw [C139_transform_reduce_exact]
  intro h
  exact absurd (h [] (1, 1) (1, 2)) (by decide)

/-- **C139** `inner_product` in any context. -/
theorem C139_inner_product {γ : Type} (md : Mode) (ctx : Ctx) (hc : VisitsAll ctx) (m : Mem α) (c1 c2 : Container) (init : β)
    (R : β → γ → β) (T : α → α → γ) (hs : c1.shape = c2.shape) (v1 v2 : List Int → α) (h1 : Elems c1 m v1) (h2 : Elems c2 m v2)
    (hR : ∀ (l : List γ) x y, R (R (l.foldl R init) x) y = R (R (l.foldl R init) y) x) :
    innerProductC md ctx m c1 c2 init R T = .ok (((positions c1.shape).map fun p => T (v1 p) (v2 p)).foldl R init) := by
  have := C139_transform_reduce ctx hc m c1 c2 init R T hs v1 v2 h1 h2 hR
  unfold innerProductC
  have hsh : shapeEq c1.shape c2.shape = true := by
    rw [← hs, shapeEq_iff]
    intro x hx
    simp only [min_self] at hx
    exact (zip_eq_iff (b := compress c1.shape.length c1.shape) rfl).2 rfl x hx
  rw [hsh, ← this]
  cases md <;> rfl

example : innerProductC .checked backwards exTwo exIn exIn 0 (fun a x => a + x) (fun x y => x * y) = .ok (30 : Int) :=
  C139_inner_product .checked backwards backwards_visits exTwo exIn exIn 0 _ _ rfl exInVal exInVal exIn_elems exIn_elems fun _ _ _ => by
    ring

end Kwk
