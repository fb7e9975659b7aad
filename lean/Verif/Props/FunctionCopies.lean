import Verif.Lemmas.FunctionCopies
import Verif.Props.Sequences
import Verif.Props.Effects

/-!
# Property C165: functions that can only be moved
-/

namespace Kwk
open Spec

variable {α β φ : Type}

/-- The full property: the algorithms compile for a function object that can be moved but not copied, if it is given up by the caller. -/
def C165_statement : Prop := ∀ s : Calling, s.compiles .rvalue false = true

/-- **C165** Quantifiers, counts and searches: their answers, and how often they copy the function. -/
theorem C165_reading_partial [Nonempty α] [DecidableEq α] {c : Container} {m : Mem α} {xs : List α} (h : Lists c m xs) (f : α → Bool)
    (ctx : Bool) (g : GivenAs) (n : Nat) :
    viaContext ctx (allOfFn m c f) g n = .ok (xs.all f, n + ofCaller g + 1 + if ctx then 0 else 1) ∧
    viaContext ctx (anyOfFn m c f) g n = .ok (xs.any f, n + ofCaller g + 1 + if ctx then 0 else 1) ∧
    viaContext ctx (noneOfFn m c f) g n = .ok (!xs.any f, n + ofCaller g + 2 + if ctx then 0 else 1) ∧
    viaContext ctx (countIfFn m c f) g n = .ok (xs.countP f, n + ofCaller g + 1 + if ctx then 0 else 1) ∧
    viaContext ctx (findIfFn m c f) g n = .ok ((xs.findIdx? f).bind (place c.shape), n + ofCaller g + 0 + if ctx then 0 else 1) ∧
    viaContext ctx (findIfNotFn m c f) g n =
      .ok ((xs.findIdx? fun x => !f x).bind (place c.shape), n + ofCaller g + 1 + if ctx then 0 else 1) := by
  obtain ⟨-, h1, h2, -, h3, -⟩ := C117_reading h f (Classical.arbitrary α) (fun (a : Nat) _ => a) 0
  obtain ⟨h4, h5, -⟩ := C117_find h f (Classical.arbitrary α)
  have a2 : ∀ g n, anyOfFn m c f g n = .ok (xs.any f, n + ofCaller g + 1) := fun g n => take_twice h2 g n
  refine ⟨via_context (fun g n => take_twice h1 g n) .., via_context a2 .., via_context (fun g n => ?_) .., via_context (fun g n => take_twice h3 g n) ..,
    via_context (fun g n => ?_) .., via_context (fun g n => ?_) ..⟩
  · refine take_then (j := 2) (fun n => ?_) g n
    show (anyOfFn m c f .lvalue n >>= _) = _
    rw [a2]
    rfl
  · exact take_then (j := 0) (fun n => noCopies_ok h4 n) g n
  · refine take_then (j := 1) (fun n => ?_) g n
    refine take_then (j := 0) (fun n => ?_) .lvalue n
    exact take_then (j := 0) (fun n => noCopies_ok (r := findIf m c fun x => !f x) h5 n) .rvalue n

example : viaContext false (noneOfFn exMem exView fun v => decide (v = 3)) .lvalue 0 = .ok (false, 4) :=
  (C165_reading_partial exLists (fun v => decide (v = 3)) false .lvalue 0).2.2.1

/-- **C165** `find_last_if` and `find_last_if_not`. -/
theorem C165_find_last_partial [Nonempty α] [DecidableEq α] {c : Container} (hd : c.Default) {m : Mem α} {xs : List α} (h : Lists c m xs)
    (f : α → Bool) (ctx : Bool) (g : GivenAs) (n : Nat) :
    viaContext ctx (findLastIfFn m c f) g n = .ok ((xs.reverse.findIdx? f).bind fun k => place c.shape (xs.length - 1 - k),
      n + ofCaller g + 1 + if ctx then 0 else 1) ∧
    viaContext ctx (findLastIfNotFn m c f) g n = .ok ((xs.reverse.findIdx? fun x => !f x).bind fun k => place c.shape (xs.length - 1 - k),
      n + ofCaller g + 2 + if ctx then 0 else 1) := by
  have key : ∀ (f : α → Bool) g n, findLastIfFn m c f g n =
      .ok ((xs.reverse.findIdx? f).bind fun k => place c.shape (xs.length - 1 - k), n + ofCaller g + 1) := by
    intro f g n
    refine take_then (j := 1) (fun n => ?_) g n
    have hl := C117_find_last hd h f
    unfold findLastIf at hl
    show (findIfFn m (reverse c) f .lvalue n >>= _) = _
    rw [show findIfFn m (reverse c) f .lvalue n = (findIf m (reverse c) f >>= fun x => pure (x, n + 1)) from rfl]
    cases hr : findIf m (reverse c) f with
    | error e => rw [hr] at hl; cases hl
    | ok r =>
      rw [hr] at hl
      rw [← Except.ok.inj hl]
      rfl
  refine ⟨via_context (key f) .., via_context (fun g n => ?_) ..⟩
  refine take_then (j := 2) (fun n => ?_) g n
  refine take_then (j := 1) (fun n => ?_) .lvalue n
  exact key (fun x => !f x) .rvalue n

example := C165_find_last_partial (c := .ofShape ⟨0, 0⟩ [1]) (ofShape_default (by simp)) (m := fun q => if q = ⟨0, 0⟩ then some (7 : Int) else none)
  (xs := [7]) rfl (fun v => decide (v = 7)) true .rvalue 0

/-- **C165** `reduce` with and without an initial value. -/
theorem C165_reduce_partial [Nonempty α] [DecidableEq α] {c : Container} {m : Mem α} {xs : List α} (h : Lists c m xs) (op : β → α → β)
    (init : β) (op' : α → α → α) (zero : α) (ctx : Bool) (g : GivenAs) (n : Nat) :
    viaContext ctx (reduceFn m c op init) g n = .ok (xs.foldl op init, n + ofCaller g + 0 + if ctx then 0 else 1) ∧
    viaContext ctx (reduceZeroFn m c op' zero) g n = .ok (xs.foldl op' zero, n + ofCaller g + 1 + if ctx then 0 else 1) := by
  have r := (C117_reading h (fun _ => true) (Classical.arbitrary α) op init).1
  have r' := (C117_reading h (fun _ => true) (Classical.arbitrary α) op' zero).1
  refine ⟨via_context (fun g n => take_then (j := 0) (fun n => noCopies_ok r n) g n) .., via_context (fun g n => ?_) ..⟩
  refine take_then (j := 1) (fun n => ?_) g n
  exact take_then (j := 0) (fun n => noCopies_ok r' n) .lvalue n

example : viaContext true (reduceFn exMem exView (fun a e => a * 10 + e) 0) .rvalue 3 = .ok (1234, 3) :=
  (C165_reduce_partial exLists (fun a e => a * 10 + e) 0 (fun a _ => a) 0 true .rvalue 3).1

/-- **C165** Algorithms that write; `transform` copies no function at all. -/
theorem C165_writing_partial [Nonempty α] {c : Container} {m : Mem α} {xs : List α} (hd : Distinct c) (h : Lists c m xs) (f : α → Bool) (v : α)
    (gen : List Int → α) (tr : List α → α) (ctx : Bool) (g : GivenAs) (n : Nat) :
    (∃ m', Lists c m' ((positions c.shape).map gen) ∧ SameOutside c m m' ∧
      viaContext ctx (generateFn m gen c) g n = .ok (m', n + ofCaller g + 1 + if ctx then 0 else 1)) ∧
    (∃ m', Lists c m' (xs.map fun x => if f x then v else x) ∧ SameOutside c m m' ∧
      viaContext ctx (replaceIfFn m c f v) g n = .ok (m', n + ofCaller g + 1 + if ctx then 0 else 1)) ∧
    (∃ m', Lists c m' (xs.map fun x => tr [x]) ∧ SameOutside c m m' ∧ transformFn m tr c [c] n = .ok (m', n)) ∧
    (∀ inp ys, NoClobber c inp → c.shape = inp.shape → Lists inp m ys → ∃ m', SameOutside c m m' ∧
      Lists c m' (List.zipWith (fun y x => if f y then y else x) ys xs) ∧
      viaContext ctx (copyIfFn m f c inp) g n = .ok (m', n + ofCaller g + 1 + if ctx then 0 else 1)) := by
  obtain ⟨-, -, ⟨m1, p1, q1, r1⟩, ⟨m2, p2, q2, r2⟩, -⟩ :=
    C117_writing hd h v v (fun x => x) f gen (fun x : Nat => x) (fun _ => v) 0
  obtain ⟨val, he, hx⟩ := lists_elems h
  refine ⟨⟨m2, q2, r2, via_context (fun g n => take_twice p2 g n) ..⟩, ⟨m1, q1, r1, via_context (fun g n => take_twice p1 g n) ..⟩, ?_, ?_⟩
  · obtain ⟨m', h1, h2, h3⟩ := C36_transform m tr c [c] hd
      (fun p hp => ⟨_, he p hp⟩) (by intro c' hc'; simp at hc'; subst hc'; exact noClobber_self hd)
      (fun p => [val p]) (by intro p hp; simp [he p hp, pure, Except.pure, bind, Except.bind])
    refine ⟨m', ?_, h3, noCopies_ok h1 n⟩
    rw [hx, List.map_map]
    exact elems_lists h2
  · intro inp ys hc hs hi
    obtain ⟨src, hsrc, hy⟩ := lists_elems hi
    obtain ⟨m', h1, h2, h3⟩ := C37_copy_if m f c inp hd (fun p hp => ⟨_, he p hp⟩) hc src (fun p hp => hsrc p (hs ▸ hp))
    refine ⟨m', h3, ?_, via_context (fun g n => take_twice h1 g n) ..⟩
    rw [hx, hy, ← hs, List.zipWith_map, List.zipWith_self]
    refine elems_lists fun p hp => ?_
    obtain ⟨a, b⟩ := h2 p hp
    cases hf : f (src p) with
    | true => simpa [hf] using a hf
    | false => simpa [hf, he p hp] using b hf

example := (C165_writing_partial (exDistinct) exLists (fun v => decide (v = 3)) 9 (fun _ => 1) List.sum true .rvalue 0).2.2.1

/-- **C165** `for_each`: over a shape the function is always copied, over containers if it is a variable of the caller. -/
theorem C165_for_each_partial (shape : φ → List Int → Res φ) (elems : φ → List Ptr → Mem α → Res (φ × Mem α))
    (index : φ → Ptr → List Int → Mem α → Res (φ × Mem α)) (f f' : φ) (c : Container) (cs : List Container) (m m' : Mem α)
    (g : GivenAs) (n : Nat) :
    ((positions c.shape).foldlM shape f = .ok f' →
      forEachShapeFn true shape f c.shape g n = .ok (⟨some f', f⟩, n + ofCaller g + 1) ∧
      forEachShapeFn false shape f c.shape g n = .ok (⟨none, f⟩, n + ofCaller g + 1)) ∧
    ((positions c.shape).foldlM (fun (fm : φ × Mem α) p => elems fm.1 ((c :: cs).map fun c => c.addr p) fm.2) (f, m) = .ok (f', m') →
      forEachFn elems f c cs m g n = .ok ((⟨some f', f'⟩, m'), n + ofCaller g)) ∧
    ((positions c.shape).foldlM (fun (fm : φ × Mem α) p => index fm.1 (c.addr p) p fm.2) (f, m) = .ok (f', m') →
      forEachIndexCtxFn index f c m g n = .ok ((⟨some f', f'⟩, m'), n + ofCaller g) ∧
      forEachIndexFn index f c m g n = .ok ((⟨some f', f⟩, m'), n + ofCaller g + 1)) := by
  have late : ∀ {ρ : Type} {r : Res ρ} {x : ρ} (_ : r = .ok x) (g : GivenAs) (n : Nat),
      (noCopies r >>= fun x => (takeValue g >>= fun _ => pure x : Copying ρ) : Copying ρ) n = .ok (x, n + ofCaller g) := by
    intro ρ r x h g n
    rw [h]
    cases g <;> rfl
  refine ⟨fun h => ⟨take_twice (C73_for_each_shape_ctx shape f c.shape f' h) g n, take_twice ?_ g n⟩,
    fun h => late (C73_for_each_elements elems f c cs m f' m' h) g n, fun h => ?_⟩
  · show forEachShape shape f c.shape = _
    rw [forEachShape, C73_for_each_shape_ctx shape f c.shape f' h]
    rfl
  · have hc : ∀ g n, forEachIndexCtxFn index f c m g n = .ok ((⟨some f', f'⟩, m'), n + ofCaller g) :=
      fun g n => late (C73_for_each_index index f c m f' m' h).1 g n
    refine ⟨hc g n, ?_⟩
    unfold forEachIndexFn
    rw [takeValue_then]
    show (forEachIndexCtxFn index f c m .lvalue (n + ofCaller g) >>= _) = _
    rw [hc]
    rfl

example : forEachShapeFn true (fun (n : Int) p => .ok (10 * n + p.sum)) 0 [2, 2] .rvalue 0 = .ok (⟨some 112, 0⟩, 1) :=
  ((C165_for_each_partial (fun (n : Int) p => .ok (10 * n + p.sum)) (fun n _ m => .ok (n, m)) (fun n _ _ m => .ok (n, m)) 0 112
    (.ofShape ⟨0, 0⟩ [2, 2]) [] exTwo exTwo .rvalue 0).1 rfl).1

/-- **C165** Orders of searches in ordered containers. -/
theorem C165_orders_partial [Nonempty α] (md : Mode) {c : Container} (hne : c.shape ≠ []) (hn : NonNeg c.shape) {m : Mem α} {xs : List α}
    (h : Lists c m xs) (lt : α → α → Bool) (v : α) (ctx : Bool) (g : GivenAs) (n : Nat) :
    (xs.Pairwise (fun a b => lt b v = true → lt a v = true) →
      viaContext ctx (lowerBoundFn md m c v lt) g n =
        .ok (place c.shape (xs.countP fun e => lt e v), n + ofCaller g + 0 + if ctx then 0 else 1)) ∧
    (xs.Pairwise (fun a b => lt v a = true → lt v b = true) →
      viaContext ctx (upperBoundFn md m c v lt) g n =
        .ok (place c.shape (xs.countP fun e => !lt v e), n + ofCaller g + 0 + if ctx then 0 else 1)) ∧
    (StrictWeak lt → xs.Pairwise (fun a b => lt b a = false) →
      viaContext ctx (binarySearchFn md m c v lt) g n =
        .ok (xs.any fun x => !lt x v && !lt v x, n + ofCaller g + 1 + if ctx then 0 else 1)) := by
  refine ⟨fun hp => via_context (fun g n => ?_) .., fun hp => via_context (fun g n => ?_) .., fun hlt hs => via_context (fun g n => ?_) ..⟩
  · exact take_then (j := 0) (fun n => (C117_bounds md h hne hn v n).1 lt hp) g n
  · exact take_then (j := 0) (fun n => (C117_bounds md h hne hn v n).2 lt hp) g n
  · unfold binarySearchFn lowerBoundFn
    rw [takeValue_then]
    exact C117_binary_search md h hne hn lt hlt hs v (n + ofCaller g + 1)

example : viaContext false (lowerBoundFn .checked exMem exView 3 fun a b => decide (a < b)) .rvalue 0 = .ok (some [1, 0], 1) :=
  (C165_orders_partial .checked (by decide) (by decide) exLists (fun a b => decide (a < b)) 3 false .rvalue 0).1 (by decide)

/-- **C165** Functions of the sums over two containers. -/
theorem C165_sums_partial [Nonempty α] {γ : Type} {a b : Container} {m : Mem α} {xs ys : List α} (hs : a.shape = b.shape) (ha : Lists a m xs)
    (hb : Lists b m ys) (R : β → γ → β) (T : α → α → γ) (init : β) (md : Mode) (ctx : Bool) (g : GivenAs) (n : Nat) :
    viaContextTwo ctx (transformReduceFn m a b init R T) g n =
      .ok ((List.zipWith T xs ys).foldl R init, n + 2 * ofCaller g + if ctx then 0 else 2) ∧
    viaContext ctx (transformReduceSumFn m a b init R T) g n =
      .ok ((List.zipWith T xs ys).foldl R init, n + ofCaller g + 1 + if ctx then 0 else 1) ∧
    viaContextTwo ctx (innerProductFn md m a b init R T) g n =
      .ok ((List.zipWith T xs ys).foldl R init, n + 2 * ofCaller g + if ctx then 0 else 2) := by
  obtain ⟨h1, h2⟩ := C117_reading_two hs ha hb R T init md
  refine ⟨via_context_two (fun g n => take_both h1 g n) .., via_context (fun g n => ?_) .., via_context_two (fun g n => take_both h2 g n) ..⟩
  refine take_then (j := 1) (fun n => ?_) g n
  refine take_then (j := 1) (fun n => ?_) .rvalue n
  exact take_then (j := 0) (fun n => noCopies_ok h1 n) .lvalue n

example : viaContextTwo false (innerProductFn .checked exMem exView exView 0 (· + ·) (· * ·)) .lvalue 0 = .ok (30, 4) :=
  (C165_sums_partial rfl exLists exLists (· + ·) (· * ·) 0 .checked false .lvalue 0).2.2

/-- **C165** Functions of the scans. -/
theorem C165_scans_partial [Nonempty α] {out inp : Container} {m : Mem α} {xs : List α} (hs : out.shape = inp.shape) (hd : Distinct out)
    (hv : Valid out m) (hc : NoClobber out inp) (hx : Lists inp m xs) (init : α) (f1 : α → β → α) (f2 : α → β) (f : α → α → α)
    (ctx : Bool) (g : GivenAs) (n : Nat) :
    (∃ m', Lists out m' ((xs.map f2).scanl f1 init).tail ∧ SameOutside out m m' ∧
      viaContextTwo ctx (transformInclusiveFn m inp out init f1 f2) g n = .ok (m', n + 2 * ofCaller g + if ctx then 0 else 2)) ∧
    (∃ m', Lists out m' (xs.scanl f init).tail ∧ SameOutside out m m' ∧
      viaContext ctx (inclusiveScanFn m inp out init f) g n = .ok (m', n + ofCaller g + 1 + if ctx then 0 else 1)) ∧
    ((∀ p, InBox out.shape p → out.addr p ≠ inp.addr p) →
      (∃ m', Lists out m' ((xs.map f2).scanl f1 init).dropLast ∧ SameOutside out m m' ∧
        viaContextTwo ctx (transformExclusiveFn m inp out init f1 f2) g n = .ok (m', n + 2 * ofCaller g + if ctx then 0 else 2)) ∧
      (∃ m', Lists out m' (xs.scanl f init).dropLast ∧ SameOutside out m m' ∧
        viaContext ctx (exclusiveScanFn m inp out init f) g n = .ok (m', n + ofCaller g + 1 + if ctx then 0 else 1))) := by
  obtain ⟨⟨m1, p1, q1, r1⟩, he⟩ := C117_scans hs hd hv hc hx init f1 f2
  obtain ⟨⟨m2, p2, q2, r2⟩, he'⟩ := C117_scans hs hd hv hc hx init f fun e => e
  rw [List.map_id'] at q2
  have passed : ∀ {r : Res (Mem α)} {x : Mem α} (_ : r = .ok x) (g : GivenAs) (n : Nat), (takeValue g >>= fun _ =>
      (takeValue .lvalue >>= fun _ => (takeValue .rvalue >>= fun _ => noCopies r : Copying (Mem α)) : Copying (Mem α)) : Copying (Mem α)) n =
        .ok (x, n + ofCaller g + 1) := by
    intro r x h g n
    rw [takeValue_then, takeValue_then, takeValue_then, noCopies_ok h]
    rfl
  refine ⟨⟨m1, q1, r1, via_context_two (fun g n => take_both p1 g n) ..⟩, ⟨m2, q2, r2, via_context (fun g n => passed p2 g n) ..⟩, fun ho => ?_⟩
  obtain ⟨m3, p3, q3, r3⟩ := he ho
  obtain ⟨m4, p4, q4, r4⟩ := he' ho
  rw [List.map_id'] at q4
  exact ⟨⟨m3, q3, r3, via_context_two (fun g n => take_both p3 g n) ..⟩, ⟨m4, q4, r4, via_context (fun g n => passed p4 g n) ..⟩⟩

private theorem one_distinct (a : Ptr) : Distinct (.ofShape a [1]) := by
  intro p q hp hq _
  have hp := mem_positions.2 hp
  have hq := mem_positions.2 hq
  rw [show positions (Container.ofShape a [1]).shape = [[0]] from rfl] at hp hq
  rw [List.mem_singleton.1 hp, List.mem_singleton.1 hq]

private theorem one_at {a : Ptr} {p : List Int} (hp : InBox (Container.ofShape a [1]).shape p) : p = [0] := by
  have hp := mem_positions.2 hp
  rwa [show positions (Container.ofShape a [1]).shape = [[0]] from rfl, List.mem_singleton] at hp

example := C165_scans_partial (out := .ofShape ⟨1, 0⟩ [1]) (inp := .ofShape ⟨0, 0⟩ [1]) (m := fun q => if q.off = 0 then some (7 : Int) else none)
  (xs := [7]) rfl (one_distinct _) (fun p hp => by rw [one_at hp]; exact ⟨7, rfl⟩) (fun p q hp hq _ => by rw [one_at hp, one_at hq]; decide) rfl
  1 (· + ·) (· * 2) (· + ·) false .lvalue 0

private theorem run_fn {ρ : Type} {x : Copying ρ} {n n' : Nat} {r : ρ} (h : x n = .ok (r, n')) :
    (x >>= fun _ => pure () : Copying Unit) n = .ok ((), n') := by
  show (x n >>= _) = _
  rw [h]
  rfl

private theorem all_steps (step : φ → φ) (ps : List (List Int)) (st : φ) (m : Mem α) :
    ∃ st', ps.foldlM (fun (fm : φ × Mem α) _ => (.ok (step fm.1, fm.2) : Res (φ × Mem α))) (st, m) = .ok (st', m) := by
  induction ps generalizing st with
  | nil => exact ⟨st, rfl⟩
  | cons p ps ih => exact ih (step st)

/-- **C165** A call compiles for a function without copy constructor exactly if no such call ever copies its function; with one, all
compile. -/
theorem C165_iff (s : Calling) (g : GivenAs) : (s.compiles g false = true ↔ NeverCopiesFunction s g) ∧ s.compiles g true = true := by
  refine ⟨⟨?_, ?_⟩, by cases s <;> rfl⟩
  · intro hc c o m xs f op v gen tr st step lt md n hne hnn hd hdi h hlt hs ho hdo hvo hco
    have h0 : s.places = 0 := by
      unfold Calling.compiles at hc
      simp at hc
      exact hc.1
    by_cases ht : s.takes = true
    · have hg : g = .rvalue := by
        unfold Calling.compiles at hc
        simp [ht] at hc
        cases g <;> simp_all
      subst hg
      obtain ⟨f2, e2⟩ := all_steps step (positions c.shape) st m
      have fe := C165_for_each_partial (fun (s : Nat) _ => .ok (step s)) (fun s _ (m : Mem Int) => .ok (step s, m))
        (fun s _ _ m => .ok (step s, m)) st f2 c [] m m .rvalue n
      rcases s with ctx | ctx | ctx | ctx | ctx | ctx | ctx | ctx | ⟨ctx, init⟩ | ctx | ctx | ctx | ctx | ctx | ctx | ctx | ctx | ctx | ctx | ⟨ctx, b⟩ | ctx |
        ⟨ctx, b⟩ | ⟨ctx, b⟩
      case findIf =>
        cases ctx
        · cases h0
        · exact run_fn (C165_reading_partial h f true .rvalue n).2.2.2.2.1
      case reduce =>
        cases ctx <;> cases init <;> try cases h0
        exact run_fn (C165_reduce_partial h op v op v true .rvalue n).1
      case transform => cases ht
      case forEach => exact run_fn (fe.2.1 e2)
      case forEachIndex =>
        cases ctx
        · cases h0
        · exact run_fn (fe.2.2 e2).1
      case forEachShape => cases h0
      case lowerBound =>
        cases ctx
        · cases h0
        · exact run_fn ((C165_orders_partial md hne hnn h lt v true .rvalue n).1 (sorted_below hlt hs v))
      case upperBound =>
        cases ctx
        · cases h0
        · exact run_fn ((C165_orders_partial md hne hnn h lt v true .rvalue n).2.1 (sorted_above hlt hs v))
      case transformReduce =>
        cases ctx <;> cases b <;> try cases h0
        exact run_fn (C165_sums_partial rfl h h op op v md true .rvalue n).1
      case innerProduct =>
        cases ctx
        · cases h0
        · exact run_fn (C165_sums_partial rfl h h op op v md true .rvalue n).2.2
      case exclusiveScan =>
        cases ctx <;> cases b <;> try cases h0
        obtain ⟨m', -, -, h1⟩ := ((C165_scans_partial ho hdo hvo (fun p q hp hq _ => hco q p hq (ho ▸ hp)) h v op (fun e => e) op true
          .rvalue n).2.2 fun p hp => hco p p hp (ho ▸ hp)).1
        exact run_fn h1
      case inclusiveScan =>
        cases ctx <;> cases b <;> try cases h0
        obtain ⟨m', -, -, h1⟩ := (C165_scans_partial ho hdo hvo (fun p q hp hq _ => hco q p hq (ho ▸ hp)) h v op (fun e => e) op true
          .rvalue n).1
        exact run_fn h1
      all_goals (cases ctx <;> cases h0)
    · cases s with
      | transform ctx =>
        obtain ⟨m', -, -, h1⟩ := (C165_writing_partial hdi h f v gen tr true g n).2.2.1
        exact run_fn h1
      | _ => exact absurd rfl ht
  · intro h
    have h0 := h (.ofShape ⟨0, 0⟩ [1]) (.ofShape ⟨1, 0⟩ [1]) (fun q => if q.off = 0 then some 7 else none) [7] (fun _ => true) (fun a _ => a) 7
      (fun _ => 1) (fun _ => 1) 0 (fun n => n) (fun a b => decide (a < b)) .checked 0 (by decide) (by decide) (ofShape_default (by simp))
      (one_distinct _) rfl ⟨by simp, fun a b c => by simp; omega, fun a b c => by simp; omega⟩ (by simp) rfl (one_distinct _)
      (fun p hp => by rw [one_at hp]; exact ⟨7, rfl⟩) (fun p q hp hq => by rw [one_at hp, one_at hq]; decide)
    revert h0
    cases g <;> rcases s with (_ | _) | (_ | _) | (_ | _) | (_ | _) | (_ | _) | (_ | _) | (_ | _) | (_ | _) | ⟨_ | _, _ | _⟩ | (_ | _) |
        (_ | _) | (_ | _) | (_ | _) | (_ | _) | (_ | _) | (_ | _) | (_ | _) | (_ | _) | (_ | _) | ⟨_ | _, _ | _⟩ | (_ | _) |
        ⟨_ | _, _ | _⟩ | ⟨_ | _, _ | _⟩ <;>
      first
        | exact fun _ => rfl
        | exact fun h => absurd (congrArg (fun r : Res (Unit × Nat) => match r with | .ok x => x.2 | .error _ => 0) h) (by decide +kernel)

example : ¬ NeverCopiesFunction (.allOf true) .rvalue := fun h => absurd ((C165_iff _ _).1.2 h) (by decide)

/-- **C165** is false: `all_of` captures its function by copy. -/
theorem C165_not : ¬ C165_statement := fun h => absurd (h (.allOf true)) (by decide)

/-- **C165** The calls that compile for a function without copy constructor that is given up: `transform`, `for_each` over containers, and
with a context `find_if`, `reduce` with an initial value, `for_each_index`, `lower_bound`, `upper_bound`, `inner_product`,
`transform_reduce` with two functions and the two `transform_…_scan`; if the function is a variable, only `transform`. -/
theorem C165_which_partial (s : Calling) :
    (s.compiles .rvalue false = true ↔ (∃ ctx, s = .transform ctx ∨ s = .forEach ctx) ∨
      s ∈ [.findIf true, .reduce true true, .forEachIndex true, .lowerBound true, .upperBound true, .innerProduct true,
        .transformReduce true true, .exclusiveScan true true, .inclusiveScan true true]) ∧
    (s.compiles .lvalue false = true ↔ ∃ ctx, s = .transform ctx) := by
  rcases s with (_ | _) | (_ | _) | (_ | _) | (_ | _) | (_ | _) | (_ | _) | (_ | _) | (_ | _) | ⟨_ | _, _ | _⟩ | (_ | _) |
    (_ | _) | (_ | _) | (_ | _) | (_ | _) | (_ | _) | (_ | _) |
    (_ | _) | (_ | _) | (_ | _) | ⟨_ | _, _ | _⟩ | (_ | _) |
    ⟨_ | _, _ | _⟩ | ⟨_ | _, _ | _⟩ <;> decide

example : Calling.compiles (.forEach false) .rvalue false = true := (C165_which_partial _).1.2 (.inl ⟨false, .inr rfl⟩)

end Kwk
