import Verif.Lemmas.StackThrows

/-! # Helper lemmas about single operations on fully static tables whose elements throw -/

namespace Kwk.Throws
open Spec EM

variable {α : Type} {K : ElemKind α} {throws : Nat → Bool} {ext : Ptr → Prop} {f : Frame} {ty : ElemType}

/-! ### Moves that fail -/

theorem moveEvents_respects {σ : Slots} {b c m : Nat} (hcb : c ≠ b)
    (h1 : ∀ k : Nat, k < m → σ ⟨b, k⟩ = .raw ∨ (ty.implicit ∧ σ ⟨b, k⟩ = .alive)) (h2 : ∀ k : Nat, k < m → σ ⟨c, k⟩ = .alive) :
    Respects ty σ (moveEvents b c m) (setBlock σ b m .alive) := by
  induction m with
  | zero => rw [setBlock_zero]; exact .nil
  | succ m ih =>
    rw [moveEvents_succ]
    refine respects_append (ih (fun k hk => h1 k (by omega)) (fun k hk => h2 k (by omega))) ?_
    rw [← setBlock_succ]
    refine .cons (.read ?_) (.cons (.construct ?_) .nil)
    · rw [setBlock_other _ hcb]; exact h2 m (by omega)
    · rw [setBlock_at]; exact h1 m (by omega)

theorem moveStack_ok {b c n : Nat} {s : Elems α} (h : Quiet throws s.calls n) :
    ∃ s', moveStackE K throws b n c s = (.ok (), s') ∧ s'.calls = s.calls + n ∧ s'.log = s.log ++ stackMoveEvents b n c ∧
      s'.val = movedVals K b c n s.val := by
  rw [moveStackE, bind_emit]
  obtain ⟨s1, e1, c1, l1, v1⟩ := moves_ok (K := K) (b := b) (c := c) (n := n) (s := { s with log := s.log ++ [.allocate b n] }) h
  exact ⟨s1, unwind_ok e1, c1, by rw [l1]; simp [stackMoveEvents, moveEvents], v1⟩

theorem moveStack_fail {b c n : Nat} {s : Elems α} (h : ¬ Quiet throws s.calls n) {σ : Slots} (hg : ∀ p, p.blk = b → σ p = .gone)
    (hs : ∀ k : Nat, k < n → σ ⟨c, k⟩ = .alive) :
    ∃ k s' es, k < n ∧ moveStackE K throws b n c s = (.error .exception, s') ∧ s'.log = s.log ++ es ∧ Respects ty σ es σ ∧
      s'.val = movedVals K b c k s.val ∧ Quiet throws s.calls k ∧ throws (s.calls + k) = true := by
  rw [moveStackE, bind_emit]
  obtain ⟨k, s1, hk, e1, l1, v1, q1⟩ := moves_fail (K := K) (b := b) (c := c) (n := n) (s := { s with log := s.log ++ [.allocate b n] }) h
  refine ⟨k, _, [.allocate b n] ++ moveEvents b c k ++ [.read ⟨c, k⟩] ++ destroyEvents b k ++ [.release b], hk, unwind_err e1, ?_, ?_, v1, q1⟩
  · dsimp only; rw [l1]; simp
  · have hcb : c ≠ b := by
      rintro rfl
      have := hs 0 (by omega)
      rw [hg _ rfl] at this; cases this
    have r1 := storage_respects (ty := ty) n hg
    have r2 := moveEvents_respects (ty := ty) (σ := setBlock σ b n (if ty.implicit then .alive else .raw)) (m := k) hcb
      (fun j hj => newStorage σ b n j (by omega)) (fun j hj => by rw [setBlock_other _ hcb]; exact hs j (by omega))
    have r3 : Respects ty (setBlock (setBlock σ b n (if ty.implicit then .alive else .raw)) b k .alive) [.read ⟨c, k⟩]
        (setBlock (setBlock σ b n (if ty.implicit then .alive else .raw)) b k .alive) :=
      .cons (.read (by rw [setBlock_other _ hcb, setBlock_other _ hcb]; exact hs k hk)) .nil
    have r4 := destroy_respects (ty := ty) (s := setBlock (setBlock σ b n (if ty.implicit then .alive else .raw)) b k .alive) b k
      (fun j hj => if_pos (inBlock_mk rfl hj))
    rw [setBlock_idem] at r4
    refine respects_to (respects_append (respects_append (respects_append (respects_append r1 r2) r3) r4) (.cons (.release ?_) .nil)) ?_
    · intro p hpb ha
      simp only [setBlock, hg p hpb] at ha
      split at ha
      · cases ha
      · split at ha
        · split at ha
          · assumption
          · cases ha
        · cases ha
    · funext p
      by_cases hpb : p.blk = b
      · rw [if_pos hpb, hg p hpb]
      · rw [if_neg hpb, setBlock_other _ hpb, setBlock_other _ hpb]

/-! ### Values of objects -/

theorem objVals_mix (w v : Ptr → α) (b n : Nat) : objVals (mix b n w v) ⟨b, n⟩ = (List.range n).map fun (k : Nat) => w ⟨b, k⟩ :=
  List.map_congr_left fun _ hk => mix_in b n w v (List.mem_range.1 hk)

theorem objVals_valuesAt (v : Ptr → α) (o : StackObj) : valuesAt v ⟨o.blk, 0⟩ o.count = objVals v o := by
  refine List.map_congr_left fun k _ => ?_
  rw [add_mk]

/-- The first `k` elements of a list, replaced. -/
theorem objVals_part {v v' : Ptr → α} {o : StackObj} {k : Nat} (g : List α) (hg : g.length = o.count)
    (h1 : ∀ (i : Nat) (hi : i < o.count), i < k → v' ⟨o.blk, i⟩ = g[i])
    (h2 : ∀ i : Nat, i < o.count → k ≤ i → v' ⟨o.blk, i⟩ = v ⟨o.blk, i⟩) : objVals v' o = g.take k ++ (objVals v o).drop k := by
  refine List.ext_getElem ?_ fun i hi _ => ?_
  · rw [List.length_append, List.length_take, List.length_drop, objVals_length, objVals_length, hg]; omega
  · rw [objVals_length] at hi
    rw [List.getElem_append]
    simp only [objVals, List.getElem_map, List.getElem_range, List.length_take, hg, List.getElem_take, List.getElem_drop]
    split
    · next h => exact h1 i hi (by omega)
    · next h =>
      rw [h2 i hi (by omega)]
      congr 2
      have : k ≤ i := by omega
      have h' : min k o.count = k := by omega
      rw [h']; omega

/-- What is left of the source, and the target, after `k` moves. -/
theorem moved_source {v : Ptr → α} {b : Nat} {o : StackObj} {k : Nat} :
    objVals (movedVals K b o.blk k v) o = ((objVals v o).take k).map K.moved ++ (objVals v o).drop k := by
  rw [List.map_take]
  refine objVals_part _ (by simp [objVals]) (fun i hi hk => ?_) (fun i hi hk => ?_)
  · rw [movedVals, mix_in _ _ _ _ hk]
    simp [objVals]
  · rw [movedVals, mix_at _ _ _ _ hk]
    by_cases e : o.blk = b
    · rw [← e, mix_at _ _ _ _ hk]
    · exact mix_other e

theorem moved_target {v : Ptr → α} {o o' : StackObj} {k : Nat} (hc : o.count = o'.count) (hb : o.blk ≠ o'.blk) :
    objVals (movedVals K o.blk o'.blk k v) o = (objVals v o').take k ++ (objVals v o).drop k := by
  refine objVals_part _ (by simp [objVals, hc]) (fun i hi hk => ?_) (fun i hi hk => ?_)
  · rw [movedVals, mix_other hb, mix_in _ _ _ _ hk]
    simp [objVals]
  · rw [movedVals, mix_other hb, mix_at _ _ _ _ hk]

theorem moved_else {v : Ptr → α} {b c k : Nat} {q : Ptr} (hb : q.blk ≠ b) (hc : q.blk ≠ c) : movedVals K b c k v q = v q := by
  rw [movedVals, mix_other hc, mix_other hb]

/-! ### Constructions -/

/-- The list a construction makes. -/
def builtList (K : ElemKind α) (v : Ptr → α) (n : Nat) : Option Ptr → List α
  | some p => valuesAt v p n
  | none => List.replicate n K.dflt

theorem buildStep_ok (h : FrameInv ext f) {x n : Nat} {src : Option Ptr} (hp : ∀ p, src = some p → 0 < n → p.blk < f.next) {s : Elems α}
    (hq : Quiet throws s.calls (if src.isSome then 2 * n else n)) :
    ∃ s', buildStackE K throws f.next n src s = (.ok (), s') ∧ s'.calls = s.calls + (if src.isSome then 2 * n else n) ∧
      s'.log = s.log ++ stackBuildEvents f.next n src ∧
      contents (f.add x n) s'.val = upd (contents f s.val) x (some (builtList K s.val n src)) ∧
      ∀ q, q.blk < f.next → s'.val q = s.val q := by
  obtain ⟨s', e, c, l, v⟩ := build_ok (K := K) (b := f.next) (n := n) (src := src) (fun p e hn => by have := hp p e hn; omega) hq
  have hv : ∀ q, q.blk < f.next → s'.val q = s.val q := fun q hq => by rw [v, mix_other (by omega)]
  refine ⟨s', e, c, l, ?_, hv⟩
  rw [contents_add h hv, v, objVals_mix]
  congr 2
  cases src with
  | none => exact List.map_const'.trans (by rw [List.length_range, builtList])
  | some p => rfl

theorem moveStep_ok (h : FrameInv ext f) {x y : Nat} {o : StackObj} (hx : f.objs x = none) (hy : f.objs y = some o) {s : Elems α}
    (hq : Quiet throws s.calls o.count) :
    ∃ s', moveStackE K throws f.next o.count o.blk s = (.ok (), s') ∧ s'.calls = s.calls + o.count ∧
      s'.log = s.log ++ stackMoveEvents f.next o.count o.blk ∧
      contents (f.add x o.count) s'.val =
        upd (upd (contents f s.val) x (some (objVals s.val o))) y (some ((objVals s.val o).map K.moved)) ∧
      ∀ q, ext q → s'.val q = s.val q := by
  obtain ⟨s', e, c, l, v⟩ := moveStack_ok (K := K) (b := f.next) (c := o.blk) hq
  have hxy : x ≠ y := by rintro rfl; rw [hx] at hy; cases hy
  have hlt := h.lt y o hy
  have hy' : (f.add x o.count).objs y = some o := by simpa only [Frame.add, upd_ne _ _ hxy.symm] using hy
  have hx' : (f.add x o.count).objs x = some ⟨f.next, o.count⟩ := by simp only [Frame.add, upd_self]
  refine ⟨s', e, c, l, ?_, fun q hq => by rw [v, moved_else (by have := h.old q hq; omega) (h.out q y o hq hy)]⟩
  have e1 := contents_upd (add_inv h x o.count) (v := mix f.next o.count (fun q => s.val ⟨o.blk, q.off⟩) s.val) (v' := s'.val) hy'
    (fun z o' k _ hb => by rw [v, movedVals, mix_other hb])
  rw [e1, contents_add h (v := s.val) (fun q hq => mix_other (by omega)), objVals_mix, v, moved_source]
  congr 2
  rw [List.take_of_length_le (by rw [objVals_length]), List.drop_eq_nil_of_le (by rw [objVals_length]), List.append_nil]

/-! ### Assignments and swaps -/

theorem assignStep_ok (h : FrameInv ext f) {x : Nat} {o : StackObj} (hx : f.objs x = some o) {src : Ptr}
    (hp : 0 < o.count → src.blk < f.next) {s : Elems α} (hq : Quiet throws s.calls (2 * o.count + 3 * o.count)) :
    ∃ s', assignStackE K throws f o src s = (.ok (), s') ∧ s'.calls = s.calls + (2 * o.count + 3 * o.count) ∧
      s'.log = s.log ++ stackAssignEvents f o src ∧
      contents ({ f with next := f.next + 2 } : Frame) s'.val = upd (contents f s.val) x (some (valuesAt s.val src o.count)) ∧
      ∀ q, ext q → s'.val q = s.val q := by
  obtain ⟨s', e, c, l, v⟩ := assign_ok (K := K) (h.lt x o hx) hp hq
  refine ⟨s', e, c, l, ?_, fun q hq => by rw [v q (h.old q hq), mix_other (h.out q x o hq hx)]⟩
  rw [contents_next, contents_upd h (v := s.val) hx (fun z o' k hz hb => by rw [v _ (h.lt z o' hz), mix_other hb])]
  congr 2
  refine List.map_congr_left fun k hk => ?_
  rw [v _ (h.lt x o hx), mix_in _ _ _ _ (List.mem_range.1 hk)]

theorem moveAssignStep_ok (h : FrameInv ext f) {x y : Nat} {o o' : StackObj} (hx : f.objs x = some o) (hy : f.objs y = some o')
    (hc : o.count = o'.count) {k : Nat} {s s' : Elems α} (v : s'.val = movedVals K o.blk o'.blk k s.val) :
    contents f s'.val = upd (upd (contents f s.val) x (some ((objVals s.val o').take k ++ (objVals s.val o).drop k))) y
        (some (((objVals s.val o').take k).map K.moved ++ (objVals s.val o').drop k)) ∧
      ∀ q, ext q → s'.val q = s.val q := by
  refine ⟨?_, fun q hq => by rw [v, moved_else (h.out q x o hq hx) (h.out q y o' hq hy)]⟩
  rw [contents_upd2 h (v := s.val) hx hy (fun z o'' k _ h1 h2 => by rw [v, moved_else h1 h2]) _
    (fun hxy => by rw [v, moved_target hc fun e => hxy (h.excl x y o o' hx hy e)]), v, moved_source]

theorem swapStep_ok (h : FrameInv ext f) {x y : Nat} {o o' : StackObj} (hx : f.objs x = some o) (hy : f.objs y = some o')
    (hc : o.count = o'.count) {s : Elems α} (hq : Quiet throws s.calls (3 * o.count)) :
    ∃ s', swapStackE K throws f.next o.blk o'.blk o.count s = (.ok (), s') ∧ s'.calls = s.calls + 3 * o.count ∧
      s'.log = s.log ++ swapEvents f.next o.blk o'.blk o.count ∧
      contents ({ f with next := f.next + 1 } : Frame) s'.val =
        upd (upd (contents f s.val) x (some (objVals s.val o'))) y (some (objVals s.val o)) ∧
      ∀ q, ext q → s'.val q = s.val q := by
  have l1 := h.lt x o hx
  have l2 := h.lt y o' hy
  obtain ⟨s', e, c, l, v⟩ := swap_ok (K := K) (tmp := f.next) (a := o.blk) (b := o'.blk) (by omega) (by omega) hq
  refine ⟨s', e, c, l, ?_, fun q hq => ?_⟩
  · rw [contents_next, contents_upd2 h (v := s.val) hx hy (fun z o'' k hz h1 h2 => by
        have := h.lt z o'' hz
        rw [v _ (by exact Nat.ne_of_lt this), swappedVals, mix_other h2, mix_other h1]) (objVals s.val o') (fun hxy => ?_)]
    · congr 2
      refine Eq.trans (List.map_congr_left (g := fun (k : Nat) => s.val ⟨o.blk, k⟩) fun k hk => ?_) (by rw [objVals, hc])
      rw [v _ (by exact Nat.ne_of_lt l2), swappedVals, mix_in _ _ _ _ (by rw [hc]; exact List.mem_range.1 hk)]
    · rw [objVals, objVals, hc]
      refine List.map_congr_left fun k hk => ?_
      rw [v _ (by exact Nat.ne_of_lt l1), swappedVals, mix_other (fun e => hxy (h.excl x y o o' hx hy e)),
        mix_in _ _ _ _ (by rw [hc]; exact List.mem_range.1 hk)]
  · have := h.old q hq
    rw [v q (by omega), swappedVals, mix_other (h.out q y o' hq hy), mix_other (h.out q x o hq hx)]

theorem contents_remove {x : Nat} (v : Ptr → α) : contents ({ f with objs := upd f.objs x none } : Frame) v = upd (contents f v) x none := by
  funext y
  by_cases e : y = x
  · subst e; rw [upd_self, contents_none (by simp only [upd_self])]
  · rw [upd_ne _ _ e]; simp only [contents, upd_ne _ _ e]

theorem write_contents (h : FrameInv ext f) {x : Nat} {o : StackObj} (hx : f.objs x = some o) (k : Nat) (v : Ptr → α) (a : α) :
    contents f (fun q => if q = (⟨o.blk, k⟩ : Ptr) then a else v q) = upd (contents f v) x (some ((objVals v o).set k a)) := by
  rw [contents_upd h (v := v) hx (fun z o' j _ hb => if_neg fun e => hb (congrArg Ptr.blk e))]
  congr 2
  refine List.ext_getElem (by simp [objVals]) fun i h1 h2 => ?_
  simp only [objVals, List.getElem_map, List.getElem_range, List.getElem_set]
  by_cases e : k = i
  · simp [e]
  · rw [if_neg e, if_neg (by simp only [Ptr.mk.injEq]; omega)]

/-! ### One operation -/

private theorem upd_same {β : Type} (A : Nat → Option β) {x : Nat} (h : A x = none) : upd A x none = A := by
  funext y
  by_cases e : y = x
  · subst e; rw [upd_self, h]
  · rw [upd_ne _ _ e]

/-- Nothing throws. -/
theorem stepE_ok (h : FrameInv ext f) {op : ThrowOp α} (hs : SourceAlive ext f op) {s : Elems α}
    (hq : Quiet throws s.calls (callsOutside (contents f s.val) op + callsInside (contents f s.val) op)) :
    ∃ s', stepE K throws f op s = (.ok (f.step (toStack op)).2, s') ∧
      s'.calls = s.calls + (callsOutside (contents f s.val) op + callsInside (contents f s.val) op) ∧
      s'.log = s.log ++ (f.step (toStack op)).1 ∧
      contents (f.step (toStack op)).2 s'.val = effect K s.val (contents f s.val) op ∧ ∀ q, ext q → s'.val q = s.val q := by
  cases op with
  | dflt x n =>
    simp only [stepE, toStack, Frame.step, effect, callsOutside, callsInside] at hq ⊢
    cases hx : f.objs x with
    | some o => simp only [contents_some hx]; exact ⟨s, rfl, by simp, by simp, rfl, fun _ _ => rfl⟩
    | none =>
      simp only [contents_none hx] at hq ⊢
      obtain ⟨s', e, c, l, v, w⟩ := buildStep_ok (K := K) h (x := x) (n := n) (src := none) (fun _ e => by cases e) (s := s)
        (by simpa using hq)
      exact ⟨s', by rw [bind_ok (noexcept_ok e)]; rfl, by simpa using c, l, v, fun q hq => w q (h.old q hq)⟩
  | make x n src =>
    simp only [stepE, toStack, Frame.step, callsOutside, callsInside] at hq ⊢
    cases hx : f.objs x with
    | some o =>
      simp only [contents_some hx]
      exact ⟨s, rfl, by simp, by simp, by cases src <;> simp only [effect, contents_some hx], fun _ _ => rfl⟩
    | none =>
      simp only [contents_none hx] at hq ⊢
      obtain ⟨s', e, c, l, v, w⟩ := buildStep_ok (K := K) h (x := x) (n := n) (src := src)
        (fun p e hn => by subst e; exact source_blk h hs hn) (s := s) (by simpa using hq)
      refine ⟨s', by rw [bind_ok e]; rfl, by simpa using c, l, ?_, fun q hq => w q (h.old q hq)⟩
      rw [v]
      cases src <;> simp only [effect, contents_none hx] <;> rfl
  | copy x y =>
    simp only [stepE, toStack, Frame.step, effect, callsOutside, callsInside] at hq ⊢
    cases hx : f.objs x <;> cases hy : f.objs y
    case none.some o =>
      simp only [contents_none hx, contents_some hy, objVals_length] at hq ⊢
      obtain ⟨s', e, c, l, v, w⟩ := buildStep_ok (K := K) h (x := x) (n := o.count) (src := some ⟨o.blk, 0⟩)
        (fun p e _ => by cases e; exact h.lt y o hy) (s := s) (by simpa using hq)
      refine ⟨s', by rw [bind_ok e]; rfl, by simpa using c, l, ?_, fun q hq => w q (h.old q hq)⟩
      rw [v, builtList, objVals_valuesAt]
    all_goals
      (first
        | simp only [contents_none hx, contents_none hy]
        | simp only [contents_some hx, contents_none hy]
        | simp only [contents_none hx, contents_some hy]
        | simp only [contents_some hx, contents_some hy])
      exact ⟨s, rfl, by simp, by simp, rfl, fun _ _ => rfl⟩
  | move x y =>
    simp only [stepE, toStack, Frame.step, effect, callsOutside, callsInside] at hq ⊢
    cases hx : f.objs x <;> cases hy : f.objs y
    case none.some o =>
      simp only [contents_none hx, contents_some hy, objVals_length] at hq ⊢
      obtain ⟨s', e, c, l, v, w⟩ := moveStep_ok (K := K) h hx hy (s := s) (by simpa using hq)
      exact ⟨s', by rw [bind_ok e]; rfl, by simpa using c, l, v, w⟩
    all_goals
      (first
        | simp only [contents_none hx, contents_none hy]
        | simp only [contents_some hx, contents_none hy]
        | simp only [contents_none hx, contents_some hy]
        | simp only [contents_some hx, contents_some hy])
      exact ⟨s, rfl, by simp, by simp, rfl, fun _ _ => rfl⟩
  | copyAssign x y =>
    simp only [stepE, toStack, Frame.step, effect, callsOutside, callsInside] at hq ⊢
    cases hx : f.objs x <;> cases hy : f.objs y
    case some.some o o' =>
      simp only [contents_some hx, contents_some hy, objVals_length] at hq ⊢
      by_cases hc : o.count = o'.count
      · simp only [if_pos hc] at hq ⊢
        obtain ⟨s', e, c, l, v, w⟩ := assignStep_ok (K := K) h hx (src := ⟨o'.blk, 0⟩) (fun _ => h.lt y o' hy) hq
        refine ⟨s', by rw [bind_ok e]; rfl, c, l, ?_, w⟩
        rw [v, hc, objVals_valuesAt]
      · simp only [if_neg hc]
        exact ⟨s, rfl, by simp, by simp, rfl, fun _ _ => rfl⟩
    all_goals
      (first
        | simp only [contents_none hx, contents_none hy]
        | simp only [contents_some hx, contents_none hy]
        | simp only [contents_none hx, contents_some hy])
      exact ⟨s, rfl, by simp, by simp, rfl, fun _ _ => rfl⟩
  | assignFrom x src =>
    simp only [stepE, toStack, Frame.step, effect, callsOutside, callsInside] at hq ⊢
    cases hx : f.objs x with
    | none =>
      simp only [contents_none hx]
      exact ⟨s, rfl, by simp, by simp, rfl, fun _ _ => rfl⟩
    | some o =>
      simp only [contents_some hx, objVals_length] at hq ⊢
      obtain ⟨s', e, c, l, v, w⟩ := assignStep_ok (K := K) h hx (src := src) (fun hn => source_blk h (hs o hx) hn) hq
      exact ⟨s', by rw [bind_ok e]; rfl, c, l, v, w⟩
  | moveAssign x y =>
    simp only [stepE, toStack, Frame.step, effect, callsOutside, callsInside] at hq ⊢
    cases hx : f.objs x <;> cases hy : f.objs y
    case some.some o o' =>
      simp only [contents_some hx, contents_some hy, objVals_length] at hq ⊢
      by_cases hc : o.count = o'.count
      · simp only [if_pos hc] at hq ⊢
        obtain ⟨s', e, c, l, v⟩ := moveAssigns_ok (K := K) (b := o.blk) (c := o'.blk) (n := o.count) (s := s) (by simpa using hq)
        obtain ⟨w1, w2⟩ := moveAssignStep_ok h hx hy hc v
        refine ⟨s', by rw [bind_ok e]; rfl, by simpa using c, l, ?_, w2⟩
        rw [w1, List.take_of_length_le (by rw [objVals_length]; omega), List.drop_eq_nil_of_le (by rw [objVals_length]),
          List.drop_eq_nil_of_le (by rw [objVals_length]; omega), List.append_nil, List.append_nil]
      · simp only [if_neg hc]
        exact ⟨s, rfl, by simp, by simp, rfl, fun _ _ => rfl⟩
    all_goals
      (first
        | simp only [contents_none hx, contents_none hy]
        | simp only [contents_some hx, contents_none hy]
        | simp only [contents_none hx, contents_some hy])
      exact ⟨s, rfl, by simp, by simp, rfl, fun _ _ => rfl⟩
  | swap x y =>
    simp only [stepE, toStack, Frame.step, effect, callsOutside, callsInside] at hq ⊢
    cases hx : f.objs x <;> cases hy : f.objs y
    case some.some o o' =>
      simp only [contents_some hx, contents_some hy, objVals_length] at hq ⊢
      by_cases hc : o.count = o'.count
      · simp only [if_pos hc, Nat.zero_add] at hq ⊢
        obtain ⟨s', e, c, l, v, w⟩ := swapStep_ok (K := K) h hx hy hc hq
        exact ⟨s', by rw [bind_ok e]; rfl, c, l, v, w⟩
      · simp only [if_neg hc]
        exact ⟨s, rfl, by simp, by simp, rfl, fun _ _ => rfl⟩
    all_goals
      (first
        | simp only [contents_none hx, contents_none hy]
        | simp only [contents_some hx, contents_none hy]
        | simp only [contents_none hx, contents_some hy])
      exact ⟨s, rfl, by simp, by simp, rfl, fun _ _ => rfl⟩
  | destroy x =>
    simp only [stepE, toStack, Frame.step, effect, callsOutside, callsInside]
    cases hx : f.objs x with
    | none => exact ⟨s, rfl, by simp, by simp, (upd_same _ (contents_none hx)).symm, fun _ _ => rfl⟩
    | some o => exact ⟨_, rfl, by simp, rfl, contents_remove s.val, fun _ _ => rfl⟩
  | write x k a =>
    simp only [stepE, toStack, Frame.step, effect, callsOutside, callsInside] at hq ⊢
    cases hx : f.objs x with
    | none =>
      simp only [contents_none hx]
      exact ⟨s, rfl, by simp, by simp, rfl, fun _ _ => rfl⟩
    | some o =>
      simp only [contents_some hx, objVals_length] at hq ⊢
      by_cases hk : k < o.count
      · simp only [if_pos hk, Nat.add_zero] at hq ⊢
        rw [bind_emit, bind_ok (call_ok (by exact quiet_one.1 hq))]
        exact ⟨_, rfl, rfl, rfl, write_contents h hx k s.val a, fun q hq => if_neg fun e => h.out q x o hq hx (congrArg Ptr.blk e)⟩
      · simp only [if_neg hk]
        exact ⟨s, rfl, by simp, by simp, rfl, fun _ _ => rfl⟩

/-- An exception reaches the caller. -/
theorem stepE_fail (h : FrameInv ext f) {op : ThrowOp α} (hs : SourceAlive ext f op) {s : Elems α}
    (hq : ¬ Quiet throws s.calls (callsOutside (contents f s.val) op)) :
    ∃ s' es k, stepE K throws f op s = (.error .exception, s') ∧ s'.log = s.log ++ es ∧
      Respects ty (AllElements ext f) es (AllElements ext f) ∧
      (k < callsOutside (contents f s.val) op ∧ Quiet throws s.calls k ∧ throws (s.calls + k) = true) ∧
      contents f s'.val = partEffect K (contents f s.val) k op ∧ ∀ q, ext q → s'.val q = s.val q := by
  have hg := all_gone h le_rfl
  have same : ∀ s' : Elems α, (∀ q, q.blk < f.next → s'.val q = s.val q) →
      contents f s'.val = contents f s.val ∧ ∀ q, ext q → s'.val q = s.val q := fun s' hv =>
    ⟨contents_congr fun x o hx k _ => hv _ (h.lt x o hx), fun q hq => hv q (h.old q hq)⟩
  have pos := first_throw hq
  cases op with
  | dflt x n => exact absurd quiet_zero hq
  | make x n src =>
    simp only [stepE, partEffect, callsOutside] at hq pos ⊢
    cases hx : f.objs x with
    | some o => simp only [contents_some hx] at hq; exact absurd quiet_zero hq
    | none =>
      simp only [contents_none hx] at hq pos ⊢
      obtain ⟨s', es, e, l, r, v⟩ := build_fail (K := K) (b := f.next) (n := n) (src := src)
        (fun p e hn => by subst e; have := source_blk h hs hn; omega) (s := s) hq (ty := ty) hg
        (fun q e k hk => by subst e; exact all_alive (hs k hk))
      obtain ⟨w1, w2⟩ := same s' fun q hq => v q (by omega)
      exact ⟨s', es, pos.choose, by rw [bind_err e], l, r, pos.choose_spec, w1, w2⟩
  | copy x y =>
    simp only [stepE, partEffect, callsOutside] at hq pos ⊢
    cases hx : f.objs x <;> cases hy : f.objs y
    case none.some o =>
      simp only [contents_none hx, contents_some hy, objVals_length] at hq pos ⊢
      obtain ⟨s', es, e, l, r, v⟩ := build_fail (K := K) (b := f.next) (n := o.count) (src := some ⟨o.blk, 0⟩)
        (fun p e hn => by cases e; have := h.lt y o hy; exact Nat.ne_of_lt this) (s := s) (by simpa using hq) (ty := ty) hg
        (fun q e k hk => by cases e; exact obj_add hy hk)
      obtain ⟨w1, w2⟩ := same s' fun q hq => v q (by omega)
      exact ⟨s', es, pos.choose, by rw [bind_err e], l, r, pos.choose_spec, w1, w2⟩
    all_goals
      (first
        | simp only [contents_none hx, contents_none hy] at hq
        | simp only [contents_some hx, contents_none hy] at hq
        | simp only [contents_none hx, contents_some hy] at hq
        | simp only [contents_some hx, contents_some hy] at hq)
      exact absurd quiet_zero hq
  | move x y =>
    simp only [stepE, partEffect, callsOutside] at hq ⊢
    cases hx : f.objs x <;> cases hy : f.objs y
    case none.some o =>
      simp only [contents_none hx, contents_some hy, objVals_length] at hq ⊢
      obtain ⟨k, s', es, hk, e, l, r, v, q⟩ := moveStack_fail (K := K) (ty := ty) (b := f.next) (c := o.blk) hq hg (fun k hk => obj_alive hy hk)
      refine ⟨s', es, k, by rw [bind_err e], l, r, ⟨hk, q⟩, ?_, fun q hq => ?_⟩
      · rw [contents_upd h (v := s.val) hy (fun z o' j hz hb => by
          rw [v, moved_else (by have := h.lt z o' hz; exact Nat.ne_of_lt this) hb]), v, moved_source]
      · rw [v, moved_else (by have := h.old q hq; omega) (h.out q y o hq hy)]
    all_goals
      (first
        | simp only [contents_none hx, contents_none hy] at hq
        | simp only [contents_some hx, contents_none hy] at hq
        | simp only [contents_none hx, contents_some hy] at hq
        | simp only [contents_some hx, contents_some hy] at hq)
      exact absurd quiet_zero hq
  | copyAssign x y =>
    simp only [stepE, partEffect, callsOutside] at hq pos ⊢
    cases hx : f.objs x <;> cases hy : f.objs y
    case some.some o o' =>
      simp only [contents_some hx, contents_some hy, objVals_length] at hq pos ⊢
      by_cases hc : o.count = o'.count
      · simp only [if_pos hc] at hq pos ⊢
        obtain ⟨s', es, e, l, r, v⟩ := assign_fail (K := K) (f := f) (o := o) (src := ⟨o'.blk, 0⟩) (fun _ => h.lt y o' hy) hq (ty := ty) hg
          (fun k hk => obj_add hy (by omega))
        obtain ⟨w1, w2⟩ := same s' v
        exact ⟨s', es, pos.choose, by rw [bind_err e], l, r, pos.choose_spec, w1, w2⟩
      · simp only [if_neg hc] at hq; exact absurd quiet_zero hq
    all_goals
      (first
        | simp only [contents_none hx, contents_none hy] at hq
        | simp only [contents_some hx, contents_none hy] at hq
        | simp only [contents_none hx, contents_some hy] at hq)
      exact absurd quiet_zero hq
  | assignFrom x src =>
    simp only [stepE, partEffect, callsOutside] at hq pos ⊢
    cases hx : f.objs x with
    | none => simp only [contents_none hx] at hq; exact absurd quiet_zero hq
    | some o =>
      simp only [contents_some hx, objVals_length] at hq pos ⊢
      obtain ⟨s', es, e, l, r, v⟩ := assign_fail (K := K) (f := f) (o := o) (src := src) (fun hn => source_blk h (hs o hx) hn) hq (ty := ty) hg
        (fun k hk => all_alive (hs o hx k hk))
      obtain ⟨w1, w2⟩ := same s' v
      exact ⟨s', es, pos.choose, by rw [bind_err e], l, r, pos.choose_spec, w1, w2⟩
  | moveAssign x y =>
    simp only [stepE, partEffect, callsOutside] at hq ⊢
    cases hx : f.objs x <;> cases hy : f.objs y
    case some.some o o' =>
      simp only [contents_some hx, contents_some hy, objVals_length] at hq ⊢
      by_cases hc : o.count = o'.count
      · simp only [if_pos hc] at hq ⊢
        obtain ⟨k, s', hk, e, l, v, q⟩ := moveAssigns_fail (K := K) (b := o.blk) (c := o'.blk) (n := o.count) (s := s) hq
        obtain ⟨w1, w2⟩ := moveAssignStep_ok h hx hy hc v
        exact ⟨s', _, k, by rw [bind_err e], l,
          copyEvents_use (fun j hj => obj_add hy (by omega)) (fun j hj => obj_add hx (by omega)), ⟨hk, q⟩, w1, w2⟩
      · simp only [if_neg hc] at hq; exact absurd quiet_zero hq
    all_goals
      (first
        | simp only [contents_none hx, contents_none hy] at hq
        | simp only [contents_some hx, contents_none hy] at hq
        | simp only [contents_none hx, contents_some hy] at hq)
      exact absurd quiet_zero hq
  | swap x y => exact absurd quiet_zero hq
  | destroy x => exact absurd quiet_zero hq
  | write x k a =>
    simp only [stepE, partEffect, callsOutside] at hq ⊢
    cases hx : f.objs x with
    | none => simp only [contents_none hx] at hq; exact absurd quiet_zero hq
    | some o =>
      simp only [contents_some hx, objVals_length] at hq ⊢
      by_cases hk : k < o.count
      · simp only [if_pos hk] at hq ⊢
        rw [quiet_one, Bool.not_eq_false] at hq
        rw [bind_emit, bind_err (call_err (by exact hq))]
        exact ⟨_, _, 0, rfl, rfl, .cons (.assign (obj_alive hx hk)) .nil, ⟨by omega, quiet_zero, hq⟩, rfl, fun _ _ => rfl⟩
      · simp only [if_neg hk] at hq; exact absurd quiet_zero hq

/-- An exception meets a function that is declared `noexcept`. -/
theorem stepE_terminate (h : FrameInv ext f) {op : ThrowOp α} (hs : SourceAlive ext f op) {s : Elems α}
    (hq : Quiet throws s.calls (callsOutside (contents f s.val) op))
    (hn : ¬ Quiet throws s.calls (callsOutside (contents f s.val) op + callsInside (contents f s.val) op)) :
    ∃ s', stepE K throws f op s = (.error .terminate, s') := by
  have hn' : ¬ Quiet throws (s.calls + callsOutside (contents f s.val) op) (callsInside (contents f s.val) op) :=
    fun h' => hn (quiet_add.2 ⟨hq, h'⟩)
  cases op with
  | dflt x n =>
    simp only [stepE, callsOutside, callsInside] at hq hn' ⊢
    cases hx : f.objs x with
    | some o => simp only [contents_some hx] at hn'; exact absurd quiet_zero hn'
    | none =>
      simp only [contents_none hx] at hn' ⊢
      obtain ⟨s', es, e, -⟩ := build_fail (K := K) (b := f.next) (n := n) (src := none) (fun p e => by cases e) (s := s)
        (by simpa using hn') (ty := ⟨true⟩) (all_gone h le_rfl) (fun q e => by cases e)
      exact ⟨s', by rw [bind_err (noexcept_err e)]⟩
  | copyAssign x y =>
    simp only [stepE, callsOutside, callsInside] at hq hn' ⊢
    cases hx : f.objs x <;> cases hy : f.objs y
    case some.some o o' =>
      simp only [contents_some hx, contents_some hy, objVals_length] at hq hn' ⊢
      by_cases hc : o.count = o'.count
      · simp only [if_pos hc] at hq hn' ⊢
        obtain ⟨s', e⟩ := assign_err (K := K) (f := f) (o := o) (h.lt x o hx) (src := ⟨o'.blk, 0⟩) (fun _ => h.lt y o' hy) hq hn'
        exact ⟨s', by rw [bind_err e]⟩
      · simp only [if_neg hc] at hn'; exact absurd quiet_zero hn'
    all_goals
      (first
        | simp only [contents_none hx, contents_none hy] at hn'
        | simp only [contents_some hx, contents_none hy] at hn'
        | simp only [contents_none hx, contents_some hy] at hn')
      exact absurd quiet_zero hn'
  | assignFrom x src =>
    simp only [stepE, callsOutside, callsInside] at hq hn' ⊢
    cases hx : f.objs x with
    | none => simp only [contents_none hx] at hn'; exact absurd quiet_zero hn'
    | some o =>
      simp only [contents_some hx, objVals_length] at hq hn' ⊢
      obtain ⟨s', e⟩ := assign_err (K := K) (f := f) (o := o) (h.lt x o hx) (src := src) (fun hn => source_blk h (hs o hx) hn) hq hn'
      exact ⟨s', by rw [bind_err e]⟩
  | swap x y =>
    simp only [stepE, callsOutside, callsInside] at hq hn' ⊢
    cases hx : f.objs x <;> cases hy : f.objs y
    case some.some o o' =>
      simp only [contents_some hx, contents_some hy, objVals_length] at hq hn' ⊢
      by_cases hc : o.count = o'.count
      · simp only [if_pos hc] at hq hn' ⊢
        have l1 := h.lt x o hx
        have l2 := h.lt y o' hy
        obtain ⟨s', e⟩ := swap_err (K := K) (tmp := f.next) (a := o.blk) (b := o'.blk) (by omega) (by omega) hn'
        exact ⟨s', by rw [bind_err e]⟩
      · simp only [if_neg hc] at hn'; exact absurd quiet_zero hn'
    all_goals
      (first
        | simp only [contents_none hx, contents_none hy] at hn'
        | simp only [contents_some hx, contents_none hy] at hn'
        | simp only [contents_none hx, contents_some hy] at hn')
      exact absurd quiet_zero hn'
  | _ => exact absurd quiet_zero hn'

/-! ### Programs -/

/-- One operation that is not terminated keeps the order of the objects. -/
theorem stepE_respects (h : FrameInv ext f) {op : ThrowOp α} (hs : SourceAlive ext f op) {s : Elems α} {f' : Frame} {s' : Elems α}
    (hr : stepE K throws f op s = (.ok f', s') ∨ (stepE K throws f op s = (.error .exception, s') ∧ f' = f)) :
    FrameInv ext f' ∧ ∃ es, s'.log = s.log ++ es ∧ Respects ty (AllElements ext f) es (AllElements ext f') := by
  by_cases h1 : Quiet throws s.calls (callsOutside (contents f s.val) op)
  · by_cases h2 : Quiet throws s.calls (callsOutside (contents f s.val) op + callsInside (contents f s.val) op)
    · obtain ⟨s1, e, -, l, -, -⟩ := stepE_ok (K := K) h hs h2
      rw [e] at hr
      rcases hr with hr | hr
      · cases hr
        obtain ⟨r1, r2⟩ := frame_step (ty := ty) h (sources_one hs)
        exact ⟨r2, _, l, r1⟩
      · cases hr.1
    · obtain ⟨s1, e⟩ := stepE_terminate (K := K) h hs h1 h2
      rw [e] at hr
      rcases hr with hr | hr
      · cases hr
      · cases hr.1
  · obtain ⟨s1, es, k, e, l, r, -, -, -⟩ := stepE_fail (K := K) (ty := ty) h hs h1
    rw [e] at hr
    rcases hr with hr | ⟨hr, rfl⟩
    · cases hr
    · cases hr
      exact ⟨h, es, l, r⟩

theorem runE_respects (h : FrameInv ext f) {ops : List (ThrowOp α)} {s : Elems α} (hs : SourcesAliveE ext K throws f ops s) {f' : Frame}
    {s' : Elems α} (hr : runE K throws f ops s = (some f', s')) :
    FrameInv ext f' ∧ ∃ es, s'.log = s.log ++ es ∧ Respects ty (AllElements ext f) es (AllElements ext f') := by
  induction ops generalizing f s with
  | nil => cases hr; exact ⟨h, [], by simp, .nil⟩
  | cons op ops ih =>
    obtain ⟨h1, h2⟩ := hs
    simp only [runE] at hr
    rcases hst : stepE K throws f op s with ⟨r, s1⟩
    rw [hst] at hr h2
    match r with
    | .ok f1 =>
      obtain ⟨i1, es1, l1, r1⟩ := stepE_respects (ty := ty) h h1 (.inl hst)
      obtain ⟨i2, es2, l2, r2⟩ := ih i1 h2 hr
      exact ⟨i2, es1 ++ es2, by rw [l2, l1, List.append_assoc], respects_append r1 r2⟩
    | .error .exception =>
      obtain ⟨i1, es1, l1, r1⟩ := stepE_respects (ty := ty) h h1 (f' := f) (.inr ⟨hst, rfl⟩)
      obtain ⟨i2, es2, l2, r2⟩ := ih i1 h2 hr
      exact ⟨i2, es1 ++ es2, by rw [l2, l1, List.append_assoc], respects_append r1 r2⟩
    | .error .terminate => cases hr

/-! ### The number of calls -/

/-- The calls of an evaluation are those up to the first one that throws. -/
def Counts (throws : Nat → Bool) {β : Type} (m : EM α β) : Prop := ∀ s : Elems α, match m s with
  | (.ok _, s') => ∃ k, s'.calls = s.calls + k ∧ Quiet throws s.calls k
  | (.error _, s') => ∃ k, s'.calls = s.calls + (k + 1) ∧ Quiet throws s.calls k ∧ throws (s.calls + k) = true

theorem counts_free {β : Type} {m : EM α β} (h : ∀ s, ∃ b s', m s = (.ok b, s') ∧ s'.calls = s.calls) : Counts throws m := by
  intro s
  obtain ⟨b, s', e, c⟩ := h s
  rw [e]
  exact ⟨0, c, quiet_zero⟩

theorem counts_call : Counts throws (call throws : EM α Unit) := by
  intro s
  cases h : throws s.calls with
  | true => rw [call_err h]; exact ⟨0, rfl, quiet_zero, h⟩
  | false => rw [call_ok h]; exact ⟨1, rfl, quiet_one.2 h⟩

theorem counts_bind {β γ : Type} {m : EM α β} {n : β → EM α γ} (hm : Counts throws m) (hn : ∀ b, Counts throws (n b)) :
    Counts throws (m >>= n) := by
  intro s
  have h1 := hm s
  rcases e : m s with ⟨r, s1⟩
  rw [e] at h1
  match r with
  | .error x => rw [bind_err e]; exact h1
  | .ok b =>
    obtain ⟨k, c, q⟩ := h1
    rw [bind_ok e]
    have h2 := hn b s1
    rcases e2 : n b s1 with ⟨r2, s2⟩
    rw [e2, c] at h2
    match r2 with
    | .ok _ =>
      obtain ⟨k2, c2, q2⟩ := h2
      exact ⟨k + k2, by rw [c2, Nat.add_assoc], quiet_add.2 ⟨q, q2⟩⟩
    | .error _ =>
      obtain ⟨k2, c2, q2, t2⟩ := h2
      exact ⟨k + k2, by rw [c2]; omega, quiet_add.2 ⟨q, q2⟩, by rw [← Nat.add_assoc]; exact t2⟩

theorem counts_unwind {β : Type} {m : EM α β} (es : List Event) (h : Counts throws m) : Counts throws (unwind m es) := by
  intro s
  have h1 := h s
  rcases e : m s with ⟨r, s1⟩
  rw [e] at h1
  match r with
  | .error .exception => rw [unwind_err e]; exact h1
  | .error .terminate => simp only [unwind, e]; exact h1
  | .ok b => rw [unwind_ok e]; exact h1

theorem counts_noexcept {β : Type} {m : EM α β} (h : Counts throws m) : Counts throws (isNoexcept m) := by
  intro s
  have h1 := h s
  rcases e : m s with ⟨r, s1⟩
  rw [e] at h1
  match r with
  | .error _ => rw [noexcept_err e]; exact h1
  | .ok b => rw [noexcept_ok e]; exact h1

theorem counts_pure {β : Type} (b : β) : Counts throws (pure b : EM α β) := counts_free fun s => ⟨b, s, rfl, rfl⟩

theorem counts_emit (es : List Event) : Counts throws (emit es : EM α Unit) := counts_free fun _ => ⟨_, _, rfl, rfl⟩

theorem counts_get (p : Ptr) : Counts throws (EM.get p : EM α α) := counts_free fun _ => ⟨_, _, rfl, rfl⟩

theorem counts_put (p : Ptr) (a : α) : Counts throws (put p a) := counts_free fun _ => ⟨_, _, rfl, rfl⟩

theorem counts_each {g : Nat → EM α Unit} (h : ∀ k, Counts throws (g k)) (n : Nat) : Counts throws (each g n) := by
  induction n with
  | zero => exact counts_pure ()
  | succ n ih => exact counts_bind ih fun _ => h n

theorem counts_array {g : Nat → EM α Unit} (b : Nat) (h : ∀ k, Counts throws (g k)) (n : Nat) : Counts throws (constructArray b g n) := by
  induction n with
  | zero => exact counts_pure ()
  | succ n ih => exact counts_bind ih fun _ => counts_unwind _ (h n)

theorem counts_default (p : Ptr) : Counts throws (defaultConstruct K throws p) :=
  counts_bind counts_call fun _ => counts_bind (counts_emit _) fun _ => counts_put _ _

theorem counts_moveConstruct (p q : Ptr) : Counts throws (moveConstruct K throws p q) :=
  counts_bind (counts_emit _) fun _ => counts_bind counts_call fun _ => counts_bind (counts_emit _) fun _ =>
    counts_bind (counts_get _) fun _ => counts_bind (counts_put _ _) fun _ => counts_put _ _

theorem counts_copyAssign (p q : Ptr) : Counts throws (copyAssignE throws p q : EM α Unit) :=
  counts_bind (counts_emit _) fun _ => counts_bind counts_call fun _ => counts_bind (counts_get _) fun _ => counts_put _ _

theorem counts_moveAssign (p q : Ptr) : Counts throws (moveAssignE K throws p q) :=
  counts_bind (counts_emit _) fun _ => counts_bind counts_call fun _ =>
    counts_bind (counts_get _) fun _ => counts_bind (counts_put _ _) fun _ => counts_put _ _

theorem counts_build (b n : Nat) (src : Option Ptr) : Counts throws (buildStackE K throws b n src) := by
  rw [buildStackE.eq_def]
  refine counts_bind (counts_emit _) fun _ => counts_unwind _ (counts_bind (counts_array _ (fun k => counts_default _) _) fun _ => ?_)
  cases src with
  | none => exact counts_pure ()
  | some p => exact counts_unwind _ (counts_each (fun k => counts_copyAssign _ _) _)

theorem counts_move (b n c : Nat) : Counts throws (moveStackE K throws b n c) :=
  counts_bind (counts_emit _) fun _ => counts_unwind _ (counts_array _ (fun _ => counts_moveConstruct _ _) _)

theorem counts_swap (tmp a b n : Nat) : Counts throws (swapStackE K throws tmp a b n) :=
  counts_noexcept (counts_each (fun _ => counts_bind (counts_emit _) fun _ => counts_bind (counts_moveConstruct _ _) fun _ =>
    counts_bind (counts_moveAssign _ _) fun _ => counts_bind (counts_moveAssign _ _) fun _ => counts_emit _) _)

theorem counts_assign (f : Frame) (o : StackObj) (src : Ptr) : Counts throws (assignStackE K throws f o src) :=
  counts_bind (counts_build _ _ _) fun _ => counts_bind (counts_swap _ _ _ _) fun _ => counts_emit _

theorem counts_step (f : Frame) (op : ThrowOp α) : Counts throws (stepE K throws f op) := by
  cases op <;> simp only [stepE] <;> repeat' split
  all_goals first
    | exact counts_pure _
    | exact counts_bind (counts_noexcept (counts_build _ _ _)) fun _ => counts_pure _
    | exact counts_bind (counts_build _ _ _) fun _ => counts_pure _
    | exact counts_bind (counts_move _ _ _) fun _ => counts_pure _
    | exact counts_bind (counts_swap _ _ _ _) fun _ => counts_pure _
    | exact counts_bind (counts_assign _ _ _) fun _ => counts_pure _
    | exact counts_bind (counts_each (fun _ => counts_moveAssign _ _) _) fun _ => counts_pure _
    | exact counts_bind (counts_emit _) fun _ => counts_pure _
    | exact counts_bind (counts_emit _) fun _ => counts_bind counts_call fun _ => counts_bind (counts_put _ _) fun _ => counts_pure _

/-- There is one first call that throws. -/
theorem first_unique {c k k' : Nat} (h : Quiet throws c k) (h' : throws (c + k) = true) (g : Quiet throws c k')
    (g' : throws (c + k') = true) : k = k' := by
  rcases Nat.lt_trichotomy k k' with e | e | e
  · rw [g k e] at h'; cases h'
  · exact e
  · rw [h k' e] at g'; cases g'

end Kwk.Throws
