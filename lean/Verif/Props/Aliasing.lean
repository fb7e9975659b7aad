import Verif.Props.Overlap

/-!
# Property C119: algorithms on arguments that share memory

Exactly when the result of an algorithm with an output is, for all contents and functions, the one that its inputs determined
before the call.
-/

namespace Kwk
open Spec

variable {α : Type}

namespace Spec

/-- After `transform`, `out` holds the images of what the inputs held before. -/
def Transformed (f : List α → α) (out : Container) (ins : List Container) (m : Mem α) : Prop :=
  ∃ m', transform m f out ins = .ok m' ∧ SameOutside out m m' ∧
    ∀ p, InBox out.shape p → ∃ vs, ins.mapM (fun c => c.get m p) = .ok vs ∧ out.get m' p = .ok (f vs)

/-- After `copy_if`, `out` holds the elements of `inp` that satisfied `f` before, and its own former elements elsewhere. -/
def CopiedIf (f : α → Bool) (out inp : Container) (m : Mem α) : Prop :=
  ∃ m', copyIf m f out inp = .ok m' ∧ SameOutside out m m' ∧
    ∀ p, InBox out.shape p → ∃ v, inp.get m p = .ok v ∧ out.get m' p = if f v then .ok v else out.get m p

/-- After a scan the element of `out` of rank `k` is the fold of the first `k + d` elements that `inp` held before; `d` is 0 or 1. -/
def Scanned (d : Nat) (run : Res (Mem α)) (f1 : α → α → α) (f2 : α → α) (init : α) (inp out : Container) (m : Mem α)
    (val : List Int → α) : Prop :=
  ∃ m', run = .ok m' ∧ SameOutside out m m' ∧ ∀ (k : Nat) p, (positions out.shape)[k]? = some p →
    out.get m' p = .ok ((((positions inp.shape).take (k + d)).map fun p => f2 (val p)).foldl f1 init)

end Spec

private theorem all_valid {m : Mem α} (hm : ∀ a, (m a).isSome) (c : Container) (p : List Int) : ∃ v, c.get m p = .ok v := by
  obtain ⟨v, hv⟩ := Option.isSome_iff_exists.1 (hm (c.addr p))
  exact ⟨v, get_ok_iff.2 hv⟩

private theorem mapM_load_all (m : Mem α) (l : List Ptr) (hm : ∀ a ∈ l, (m a).isSome) :
    ∃ vs, l.mapM (fun i => load m i) = .ok vs ∧ ∀ a ∈ l, ∃ v ∈ vs, m a = some v := by
  induction l with
  | nil => exact ⟨[], rfl, by simp⟩
  | cons x l ih =>
    obtain ⟨vs, h1, h2⟩ := ih fun a ha => hm a (by simp [ha])
    obtain ⟨v, hv⟩ := Option.isSome_iff_exists.1 (hm x (by simp))
    refine ⟨v :: vs, ?_, ?_⟩
    · rw [List.mapM_cons, load_ok hv, h1]; rfl
    · intro a ha
      rcases List.mem_cons.1 ha with rfl | ha
      · exact ⟨v, by simp, hv⟩
      · obtain ⟨w, hw, e⟩ := h2 a ha
        exact ⟨w, by simp [hw], e⟩

private theorem mapM_const (a : α) (ins : List Container) (p : List Int) :
    ins.mapM (fun c => c.get (fun _ => some a) p) = .ok (List.replicate ins.length a) := by
  induction ins with
  | nil => rfl
  | cons c ins ih =>
    rw [List.mapM_cons, ih]
    rfl

/-- **C119** (transform) `transform(f, out, in...)` is right for all functions and contents if and only if no element of an input
is stored where an earlier element of `out` is. -/
theorem C119_transform (out : Container) (ins : List Container) (hd : Distinct out) {a b : α} (hab : a ≠ b) :
    (∀ (f : List α → α) (m : Mem α), Valid out m → (∀ c ∈ ins, ∀ p, InBox out.shape p → ∃ v, c.get m p = .ok v) →
      Transformed f out ins m) ↔
    ∀ c ∈ ins, ∀ p q, InBox out.shape p → InBox out.shape q → q < p → out.addr q ≠ c.addr p := by
  constructor
  · intro hall c hc p q hp hq hlt e
    classical
    let m : Mem α := fun _ => some a
    let f : List α → α := fun vs => if ∀ v ∈ vs, v = a then b else a
    obtain ⟨m', h1, h2, h3⟩ := hall f m (fun _ _ => ⟨a, rfl⟩) (fun _ _ _ _ => ⟨a, rfl⟩)
    have right : ∀ r, InBox out.shape r → m' (out.addr r) = some b := by
      intro r hr
      obtain ⟨vs, g1, g2⟩ := h3 r hr
      rw [mapM_const] at g1
      cases g1
      rw [get_ok_iff.1 g2]
      simp only [f]
      rw [if_pos fun v hv => (List.mem_replicate.1 hv).2]
    obtain ⟨s', m'', g1, -, -, g4⟩ := cells_run out m () hd (fun _ _ => ⟨a, rfl⟩)
      (fun p sm => do
        let vs ← (ins.map fun c => c.addr p).mapM (fun i => load sm.2 i)
        let m ← store sm.2 (out.addr p) (f vs)
        pure ((), m)) (by
      intro p _ s m1 hm
      obtain ⟨vs, e1, -⟩ := mapM_load_all m1 (ins.map fun c => c.addr p) fun x _ => by rw [hm]; rfl
      refine ⟨(), some (f vs), ?_⟩
      simp only [e1]
      show (do let m ← store m1 (out.addr p) (f vs); pure ((), m)) = _
      rw [store_ok (by rw [hm]; rfl)]
      rfl)
    have e0 : transform m f out ins = .ok m'' := by unfold transform mapCtx; rw [g1]; rfl
    rw [h1] at e0
    cases e0
    obtain ⟨s1, m1, s2, m2, -, k2, -, k4, k5, -, k7⟩ := g4 p _ (getElem?_rank hp)
    obtain ⟨vs, e1, e2⟩ := mapM_load_all m1 (ins.map fun c => c.addr p) fun x _ => by rw [k5]; rfl
    obtain ⟨v, hv, ev⟩ := e2 _ (List.mem_map_of_mem hc)
    rw [← e, k7 q hq hlt, right q hq] at ev
    cases ev
    simp only [e1] at k2
    have k2' : (do let m ← store m1 (out.addr p) (f vs); pure ((), m) : Res (Unit × Mem α)) = .ok (s2, m2) := k2
    rw [store_ok (by rw [k5]; rfl)] at k2'
    cases k2'
    rw [right p hp, wr_self] at k4
    simp only [f] at k4
    rw [if_neg fun h => hab (h b hv).symm] at k4
    exact hab (Option.some.inj k4)
  · intro h f m hv hins
    have hvals : ∀ p, InBox out.shape p → ∃ vs, ins.mapM (fun c => c.get m p) = .ok vs := by
      intro p hp
      have : ∀ l : List Container, (∀ c ∈ l, ∃ v, c.get m p = .ok v) → ∃ vs, l.mapM (fun c => c.get m p) = .ok vs := by
        intro l
        induction l with
        | nil => exact fun _ => ⟨[], rfl⟩
        | cons c l ih =>
          intro hl
          obtain ⟨vs, e⟩ := ih fun c hc => hl c (by simp [hc])
          obtain ⟨v, ev⟩ := hl c (by simp)
          exact ⟨v :: vs, by rw [List.mapM_cons, ev, e]; rfl⟩
      exact this ins fun c hc => hins c hc p hp
    classical
    obtain ⟨m', h1, h2, h3⟩ := C36_transform m f out ins hd hv h
      (fun p => if hp : InBox out.shape p then (hvals p hp).choose else []) (fun p hp => by
        rw [dif_pos hp]; exact (hvals p hp).choose_spec)
    refine ⟨m', h1, h3, fun p hp => ⟨_, (hvals p hp).choose_spec, ?_⟩⟩
    rw [h2 p hp, dif_pos hp]

/-- A vector may be transformed in place and to lower cells, but not to higher ones. -/
example : (∀ p q, InBox [3] p → InBox [3] q → q < p →
      (Container.ofShape ⟨0, 0⟩ [3]).addr q ≠ (Container.ofShape ⟨0, 1⟩ [3]).addr p) ∧
    (Container.ofShape ⟨0, 1⟩ [3]).addr [0] = (Container.ofShape ⟨0, 0⟩ [3]).addr [1] := by
  refine ⟨fun p q hp hq hlt e => ?_, by decide⟩
  obtain ⟨x, p, rfl, hx, hp⟩ := inBox_cons_left hp
  obtain ⟨y, q, rfl, hy, hq⟩ := inBox_cons_left hq
  rw [inBox_nil] at hp hq
  subst hp hq
  simp [Container.addr, Container.ofShape, Container.index, asStride, Ptr.add] at e
  have : y < x := by
    cases hlt with
    | rel h => exact h
    | cons h => cases h
  omega

/-- **C119** (copy_if) `copy_if(f, out, in)` is right for all predicates and contents if and only if `copy(out, in)` is for all
contents: no element of `in` is stored where an earlier element of `out` is, unless that one is copied from the same cell. -/
theorem C119_copy_if (out inp : Container) (hs : out.shape = inp.shape) (hd : Distinct out) {a b : α} (hab : a ≠ b) :
    (∀ (f : α → Bool) (m : Mem α), Valid out m → Valid inp m → CopiedIf f out inp m) ↔
    ∀ p q, InBox out.shape p → InBox out.shape q → q < p → out.addr q = inp.addr p → inp.addr q = inp.addr p := by
  constructor
  · intro hall
    refine (C118_exact_partial out inp hs hd hab).1 fun m hv hi => ?_
    obtain ⟨m', h1, h2, h3⟩ := hall (fun _ => true) m hv hi
    refine ⟨m', ?_, h2, fun p hp => ?_⟩
    · rw [← h1]
      unfold copy transform copyIf mapCtx
      congr 1
      congr 1
      funext p sm
      simp only [List.map_cons, List.map_nil, List.mapM_cons, List.mapM_nil, List.headD_cons, if_true]
      cases load sm.2 (inp.addr p) <;> rfl
    · obtain ⟨v, e1, e2⟩ := h3 p hp
      rw [e2, if_pos rfl, e1]
  · intro h f m hv hi
    have hsome : ∀ p, InBox out.shape p → (m (inp.addr p)).isSome := fun p hp => by
      obtain ⟨v, e⟩ := hi p (hs ▸ hp)
      exact isSome_of_get e
    obtain ⟨s', m', g1, g2, -, g4⟩ := cells_run out m () hd hv
      (fun p sm => do
        let v ← load sm.2 (inp.addr p)
        if f v then do
          let m ← store sm.2 (out.addr p) v
          pure ((), m)
        else pure ((), sm.2)) (by
      intro p hp s m1 hm
      obtain ⟨v, ev⟩ := Option.isSome_iff_exists.1 ((hm _).trans (hsome p hp))
      refine ⟨(), if f v then some v else none, ?_⟩
      simp only [load_ok ev]
      show (if f v then (do let m ← store m1 (out.addr p) v; pure ((), m)) else pure ((), m1) : Res (Unit × Mem α)) = _
      by_cases hf : f v = true
      · rw [if_pos hf, if_pos hf, store_ok (by
          rw [hm]; obtain ⟨w, e⟩ := hv p hp; exact isSome_of_get e)]
        rfl
      · rw [if_neg hf, if_neg hf]; rfl)
    have key : ∀ p, InBox out.shape p → ∃ v, m (inp.addr p) = some v ∧
        m' (out.addr p) = if f v then some v else m (out.addr p) := by
      refine box_induction fun p hp ih => ?_
      obtain ⟨v, ev⟩ := Option.isSome_iff_exists.1 (hsome p hp)
      refine ⟨v, ev, ?_⟩
      obtain ⟨s1, m1, s2, m2, -, k2, -, k4, k5, k6, k7⟩ := g4 p _ (getElem?_rank hp)
      have hread : m1 (inp.addr p) = some v := by
        by_cases hq : ∃ q, InBox out.shape q ∧ q < p ∧ out.addr q = inp.addr p
        · obtain ⟨q, hq, hlt, e⟩ := hq
          obtain ⟨w, e1, e2⟩ := ih q hq hlt
          rw [h p q hp hq hlt e, ev] at e1
          cases e1
          rw [← e, k7 q hq hlt, e2, e, ev]
          split <;> rfl
        · rw [k6 _ fun q hq' hlt e => hq ⟨q, hq', hlt, e⟩, ev]
      have hout : m1 (out.addr p) = m (out.addr p) :=
        k6 _ fun q hq hlt e => by
          rw [hd q p hq hp e] at hlt
          exact lt_irrefl _ hlt
      simp only [load_ok hread] at k2
      have k2' : (if f v then (do let m ← store m1 (out.addr p) v; pure ((), m)) else pure ((), m1) : Res (Unit × Mem α)) =
        .ok (s2, m2) := k2
      by_cases hf : f v = true
      · rw [if_pos hf, store_ok (by rw [k5]; obtain ⟨w, e⟩ := hv p hp; exact isSome_of_get e)] at k2'
        cases k2'
        rw [← k4, wr_self, if_pos hf]
      · rw [if_neg hf] at k2'
        cases k2'
        rw [← k4, hout, if_neg hf]
    refine ⟨m', ?_, g2, fun p hp => ?_⟩
    · unfold copyIf mapCtx
      simp only [List.map_cons, List.map_nil, List.headD_cons]
      rw [g1]; rfl
    · obtain ⟨v, e1, e2⟩ := key p hp
      refine ⟨v, get_ok_iff.2 e1, ?_⟩
      by_cases hf : f v = true
      · rw [if_pos hf] at e2 ⊢
        exact get_ok_iff.2 e2
      · rw [if_neg hf] at e2 ⊢
        unfold Container.get load
        rw [e2]

/-- Moving the elements above 2 one cell down is right; moving them one cell up copies the first of them over all the others. -/
example : ((do
      let m ← copyIf (oneBlock 0 [1, 5, 7, 9]) (fun v => decide (2 < v)) (.ofShape ⟨0, 0⟩ [3]) (.ofShape ⟨0, 1⟩ [3])
      reduce m (.ofShape ⟨0, 0⟩ [4]) (fun a e => a ++ [e]) []) : Res (List Int)) = .ok [5, 7, 9, 9] ∧
    ((do
      let m ← copyIf (oneBlock 0 [3, 5, 7, 9]) (fun v => decide (2 < v)) (.ofShape ⟨0, 1⟩ [3]) (.ofShape ⟨0, 0⟩ [3])
      reduce m (.ofShape ⟨0, 0⟩ [4]) (fun a e => a ++ [e]) []) : Res (List Int)) = .ok [3, 3, 3, 3] := by decide +kernel

/-- **C119** (inclusive scan) `transform_inclusive_scan(in, out, init, f1, f2)` is right for all functions, initial values and
contents if and only if no element of `in` is stored where an earlier element of `out` is. -/
theorem C119_inclusive_scan (out inp : Container) (hs : out.shape = inp.shape) (hd : Distinct out) {a b : α} (hab : a ≠ b) :
    (∀ (f1 : α → α → α) (f2 : α → α) (init : α) (m : Mem α) (val : List Int → α), Valid out m → Elems inp m val →
      Scanned 1 (transformInclusiveScan m inp out init f1 f2) f1 f2 init inp out m val) ↔
    ∀ p q, InBox out.shape p → InBox out.shape q → q < p → out.addr q ≠ inp.addr p := by
  constructor
  · intro hall p q hp hq hlt e
    classical
    let m : Mem α := fun _ => some a
    let f1 : α → α → α := fun _ v => if v = a then b else a
    obtain ⟨m', h1, h2, h3⟩ := hall f1 (fun v => v) b m (fun _ => a) (fun _ _ => ⟨a, rfl⟩) (fun _ _ => rfl)
    have right : ∀ r, InBox out.shape r → m' (out.addr r) = some b := by
      intro r hr
      have := h3 _ r (getElem?_rank hr)
      rw [get_ok_iff.1 this]
      congr 1
      rw [List.map_const', ]
      have : ∀ n, (List.replicate n a).foldl f1 b = b := by
        intro n
        induction n with
        | zero => rfl
        | succ n ih => rw [List.replicate_succ, List.foldl_cons]; simpa [f1] using ih
      exact this _
    obtain ⟨s', m'', g1, -, -, g4⟩ := cells_run out m b hd (fun _ _ => ⟨a, rfl⟩)
      (fun p sm => do
        let v ← load sm.2 (inp.addr p)
        let m ← store sm.2 (out.addr p) (f1 sm.1 v)
        pure (f1 sm.1 v, m)) (by
      intro p _ s m1 hm
      obtain ⟨v, ev⟩ := Option.isSome_iff_exists.1 ((hm (inp.addr p)).trans rfl)
      refine ⟨f1 s v, some (f1 s v), ?_⟩
      simp only [load_ok ev]
      show (do let m ← store m1 (out.addr p) (f1 s v); pure (f1 s v, m)) = _
      rw [store_ok (by rw [hm]; rfl)]
      rfl)
    have e0 : transformInclusiveScan m inp out b f1 (fun v => v) = .ok m'' := by
      unfold transformInclusiveScan mapCtx
      simp only [List.map_cons, List.map_nil, List.headD_cons]
      rw [← hs, g1]; rfl
    rw [h1] at e0
    cases e0
    obtain ⟨s1, m1, s2, m2, -, k2, -, k4, k5, -, k7⟩ := g4 p _ (getElem?_rank hp)
    have hread : m1 (inp.addr p) = some b := by rw [← e, k7 q hq hlt, right q hq]
    simp only [load_ok hread] at k2
    have k2' : (do let m ← store m1 (out.addr p) (f1 s1 b); pure (f1 s1 b, m) : Res (α × Mem α)) = .ok (s2, m2) := k2
    rw [store_ok (by rw [k5]; rfl)] at k2'
    cases k2'
    rw [right p hp, wr_self] at k4
    simp only [f1] at k4
    rw [if_neg hab.symm] at k4
    exact hab (Option.some.inj k4)
  · intro h f1 f2 init m val hv he
    obtain ⟨m', h1, h2, h3⟩ := C39_inclusive_scan m inp out hs hd hv h val he init f1 f2
    exact ⟨m', h1, h2, fun k p hp => h3 k p (hs ▸ hp)⟩

/-- The sums of a vector may replace it, but not be written one cell further on. -/
example : ((do
      let m ← transformInclusiveScan (oneBlock 0 [1, 5, 7, 9]) (.ofShape ⟨0, 0⟩ [4]) (.ofShape ⟨0, 0⟩ [4]) 0 (· + ·) id
      reduce m (.ofShape ⟨0, 0⟩ [4]) (fun a e => a ++ [e]) []) : Res (List Int)) = .ok [1, 6, 13, 22] ∧
    ((do
      let m ← transformInclusiveScan (oneBlock 0 [1, 5, 7, 9]) (.ofShape ⟨0, 0⟩ [3]) (.ofShape ⟨0, 1⟩ [3]) 0 (· + ·) id
      reduce m (.ofShape ⟨0, 0⟩ [4]) (fun a e => a ++ [e]) []) : Res (List Int)) = .ok [1, 1, 2, 4] := by decide +kernel

/-- **C119** (exclusive scan) `transform_exclusive_scan(in, out, init, f1, f2)` is right for all functions, initial values and
contents if and only if no element of `in`, except the last, is stored where an earlier element of `out` or the one
of the same position is.  So it never works in place on two elements or more. -/
theorem C119_exclusive_scan (out inp : Container) (hs : out.shape = inp.shape) (hd : Distinct out) {a b : α} (hab : a ≠ b) :
    (∀ (f1 : α → α → α) (f2 : α → α) (init : α) (m : Mem α) (val : List Int → α), Valid out m → Elems inp m val →
      Scanned 0 (transformExclusiveScan m inp out init f1 f2) f1 f2 init inp out m val) ↔
    ∀ p q r, InBox out.shape p → InBox out.shape q → InBox out.shape r → q ≤ p → p < r → out.addr q ≠ inp.addr p := by
  have next : ∀ {p r}, InBox out.shape p → InBox out.shape r → p < r →
      ∃ (k : Nat) (p' : List Int), (positions out.shape)[k]? = some p ∧ (positions out.shape)[k + 1]? = some p' := by
    intro p r hp hr hlt
    have h1 := getElem?_rank hp
    have h2 := getElem?_rank hr
    rw [← lin_lt_iff hp hr] at hlt
    have hk : (linearize (sfx out.shape) p).toNat + 1 < (positions out.shape).length := by
      have := (List.getElem?_eq_some_iff.1 h2).1
      have := (lin_bounds hp).1
      omega
    exact ⟨_, _, h1, List.getElem?_eq_getElem hk⟩
  constructor
  · intro hall p q r hp hq hr hle hlt e
    classical
    let m : Mem α := fun _ => some a
    let f1 : α → α → α := fun _ v => if v = a then b else a
    obtain ⟨m', h1, h2, h3⟩ := hall f1 (fun v => v) b m (fun _ => a) (fun _ _ => ⟨a, rfl⟩) (fun _ _ => rfl)
    have right : ∀ r, InBox out.shape r → m' (out.addr r) = some b := by
      intro r hr
      have := h3 _ r (getElem?_rank hr)
      rw [get_ok_iff.1 this]
      congr 1
      rw [List.map_const']
      have : ∀ n, (List.replicate n a).foldl f1 b = b := by
        intro n
        induction n with
        | zero => rfl
        | succ n ih => rw [List.replicate_succ, List.foldl_cons]; simpa [f1] using ih
      exact this _
    obtain ⟨s', m'', g1, -, -, g4⟩ := cells_run out m b hd (fun _ _ => ⟨a, rfl⟩)
      (fun p sm => do
        let m ← store sm.2 (out.addr p) sm.1
        let v ← load m (inp.addr p)
        pure (f1 sm.1 v, m)) (by
      intro p _ s m1 hm
      have hw : ∀ x, (wr m1 (out.addr p) (some s) x).isSome := fun x => by
        rw [wr_isSome _ _ (by rw [hm]; rfl), hm]; rfl
      obtain ⟨v, ev⟩ := Option.isSome_iff_exists.1 (hw (inp.addr p))
      refine ⟨f1 s v, some s, ?_⟩
      show (do let m ← store m1 (out.addr p) s; let v ← load m (inp.addr p); pure (f1 s v, m)) = _
      rw [store_ok (by rw [hm]; rfl)]
      show (do let v ← load (wr m1 (out.addr p) (some s)) (inp.addr p); pure (f1 s v, wr m1 (out.addr p) (some s))) = _
      rw [load_ok ev]
      rfl)
    have e0 : transformExclusiveScan m inp out b f1 (fun v => v) = .ok m'' := by
      unfold transformExclusiveScan mapCtx
      simp only [List.map_cons, List.map_nil, List.headD_cons]
      rw [← hs, g1]; rfl
    rw [h1] at e0
    cases e0
    obtain ⟨k, p', hk, hk'⟩ := next hp hr hlt
    obtain ⟨s1, m1, s2, m2, k1, k2, -, k4, k5, -, k7⟩ := g4 p k hk
    obtain ⟨t1, n1, t2, n2, j1, j2, -, j4, j5, -, -⟩ := g4 p' (k + 1) hk'
    have htake : (positions out.shape).take (k + 1) = (positions out.shape).take k ++ [p] := by
      rw [List.take_add_one, hk]; rfl
    rw [htake, List.foldlM_append, k1] at j1
    have j1' : (List.foldlM (fun sm p => (do
        let m ← store sm.2 (out.addr p) sm.1
        let v ← load m (inp.addr p)
        pure (f1 sm.1 v, m) : Res (α × Mem α))) (s1, m1) [p]) = .ok (t1, n1) := j1
    rw [List.foldlM_cons, k2] at j1'
    cases j1'
    have hstore : (do let m ← store m1 (out.addr p) s1; let v ← load m (inp.addr p); pure (f1 s1 v, m) : Res (α × Mem α)) =
      .ok (s2, m2) := k2
    rw [store_ok (by rw [k5]; rfl)] at hstore
    have hw : m2 = wr m1 (out.addr p) (some s1) ∧ ∀ v, wr m1 (out.addr p) (some s1) (inp.addr p) = some v → s2 = f1 s1 v := by
      have hs2 : (do let v ← load (wr m1 (out.addr p) (some s1)) (inp.addr p); pure (f1 s1 v, wr m1 (out.addr p) (some s1)) :
        Res (α × Mem α)) = .ok (s2, m2) := hstore
      cases hv : wr m1 (out.addr p) (some s1) (inp.addr p) with
      | none =>
        exfalso
        have := wr_isSome m1 (some s1) (show (m1 (out.addr p)).isSome by rw [k5]; rfl) (inp.addr p)
        rw [hv, k5] at this
        cases this
      | some v =>
        rw [load_ok hv] at hs2
        cases hs2
        exact ⟨rfl, fun w hw => by cases hw; rfl⟩
    have hread : wr m1 (out.addr p) (some s1) (inp.addr p) = some b := by
      rw [← e, ← hw.1]
      rcases hle.lt_or_eq with hlt' | rfl
      · rw [hw.1, wr_other _ _ (fun e' => by
          rw [hd p q hp hq e'] at hlt'
          exact lt_irrefl _ hlt'), k7 q hq hlt', right q hq]
      · rw [k4, right q hq]
    have ht1 : s2 = a := by
      rw [hw.2 _ hread]
      simp only [f1]
      rw [if_neg hab.symm]
    have hp' : InBox out.shape p' := mem_positions.1 (List.mem_of_getElem? hk')
    rw [right p' hp'] at j4
    have j2' : (do let m ← store m2 (out.addr p') s2; let v ← load m (inp.addr p'); pure (f1 s2 v, m) : Res (α × Mem α)) =
      .ok (t2, n2) := j2
    rw [store_ok (by rw [j5]; rfl)] at j2'
    have j3 : (do let v ← load (wr m2 (out.addr p') (some s2)) (inp.addr p'); pure (f1 s2 v, wr m2 (out.addr p') (some s2)) :
        Res (α × Mem α)) = .ok (t2, n2) := j2'
    cases hl : load (wr m2 (out.addr p') (some s2)) (inp.addr p') with
    | error x => rw [hl] at j3; cases j3
    | ok v =>
      rw [hl] at j3
      cases j3
      rw [wr_self] at j4
      simp only [ht1] at j4
      exact hab (Option.some.inj j4)
  · intro h f1 f2 init m val hv he
    have hsome : ∀ p, InBox out.shape p → (m (inp.addr p)).isSome := fun p hp => isSome_of_get (he p (hs ▸ hp))
    obtain ⟨s', m', g1, g2, -, g4⟩ := cells_run out m init hd hv
      (fun p sm => do
        let m ← store sm.2 (out.addr p) sm.1
        let v ← load m (inp.addr p)
        pure (f1 sm.1 (f2 v), m)) (by
      intro p hp s m1 hm
      have ho : (m1 (out.addr p)).isSome := by rw [hm]; obtain ⟨w, e⟩ := hv p hp; exact isSome_of_get e
      have hw : (wr m1 (out.addr p) (some s) (inp.addr p)).isSome := by
        rw [wr_isSome _ _ ho, hm]; exact hsome p hp
      obtain ⟨v, ev⟩ := Option.isSome_iff_exists.1 hw
      refine ⟨f1 s (f2 v), some s, ?_⟩
      show (do let m ← store m1 (out.addr p) s; let v ← load m (inp.addr p); pure (f1 s (f2 v), m)) = _
      rw [store_ok ho]
      show (do let v ← load (wr m1 (out.addr p) (some s)) (inp.addr p); pure (f1 s (f2 v), wr m1 (out.addr p) (some s))) = _
      rw [load_ok ev]
      rfl)
    have run : ∀ (k : Nat) p, (positions out.shape)[k]? = some p → ∀ s1 m1,
        ((positions out.shape).take k).foldlM (fun sm p => (do
          let m ← store sm.2 (out.addr p) sm.1
          let v ← load m (inp.addr p)
          pure (f1 sm.1 (f2 v), m) : Res (α × Mem α))) (init, m) = .ok (s1, m1) →
        s1 = ((((positions out.shape).take k).map fun p => f2 (val p)).foldl f1 init) := by
      intro k
      induction k with
      | zero => intro p _ s1 m1 e; cases e; rfl
      | succ k ih =>
        intro p' hk' s1 m1 e
        have hlt : k < (positions out.shape).length := by
          have := (List.getElem?_eq_some_iff.1 hk').1
          omega
        have hk := List.getElem?_eq_getElem hlt
        generalize (positions out.shape)[k] = p at hk
        have hp := mem_positions.1 (List.mem_of_getElem? hk)
        have hp' := mem_positions.1 (List.mem_of_getElem? hk')
        have hpp : p < p' := by
          rw [← lin_lt_iff hp hp', ← positions_rank hk, ← positions_rank hk']
          omega
        obtain ⟨t1, n1, t2, n2, j1, j2, -, -, j5, j6, -⟩ := g4 p k hk
        have ht := ih p hk t1 n1 j1
        have htake : (positions out.shape).take (k + 1) = (positions out.shape).take k ++ [p] := by
          rw [List.take_add_one, hk]; rfl
        rw [htake, List.foldlM_append, j1] at e
        have e' : (List.foldlM (fun sm p => (do
          let m ← store sm.2 (out.addr p) sm.1
          let v ← load m (inp.addr p)
          pure (f1 sm.1 (f2 v), m) : Res (α × Mem α))) (t1, n1) [p]) = .ok (s1, m1) := e
        rw [List.foldlM_cons, j2] at e'
        cases e'
        have j2' : (do let m ← store n1 (out.addr p) t1; let v ← load m (inp.addr p); pure (f1 t1 (f2 v), m) : Res (α × Mem α)) =
          .ok (s1, m1) := j2
        rw [store_ok (by rw [j5]; obtain ⟨w, e⟩ := hv p hp; exact isSome_of_get e)] at j2'
        have hread : wr n1 (out.addr p) (some t1) (inp.addr p) = some (val p) := by
          rw [wr_other _ _ (h p p p' hp hp hp' (le_refl _) hpp),
            j6 _ fun q hq hqp => h p q p' hp hq hp' hqp.le hpp]
          exact get_ok_iff.1 (he p (hs ▸ hp))
        have j3 : (do let v ← load (wr n1 (out.addr p) (some t1)) (inp.addr p); pure (f1 t1 (f2 v), wr n1 (out.addr p) (some t1)) :
          Res (α × Mem α)) = .ok (s1, m1) := j2'
        rw [load_ok hread] at j3
        cases j3
        rw [htake, List.map_append, List.foldl_append, ← ht]
        rfl
    refine ⟨m', ?_, g2, fun k p hk => ?_⟩
    · unfold transformExclusiveScan mapCtx
      simp only [List.map_cons, List.map_nil, List.headD_cons]
      rw [← hs, g1]; rfl
    · obtain ⟨s1, m1, s2, m2, k1, k2, -, k4, k5, -, -⟩ := g4 p k hk
      have hp := mem_positions.1 (List.mem_of_getElem? hk)
      have hs1 := run k p hk s1 m1 k1
      have k2' : (do let m ← store m1 (out.addr p) s1; let v ← load m (inp.addr p); pure (f1 s1 (f2 v), m) : Res (α × Mem α)) =
        .ok (s2, m2) := k2
      rw [store_ok (by rw [k5]; obtain ⟨w, e⟩ := hv p hp; exact isSome_of_get e)] at k2'
      have k3 : (do let v ← load (wr m1 (out.addr p) (some s1)) (inp.addr p); pure (f1 s1 (f2 v), wr m1 (out.addr p) (some s1)) :
          Res (α × Mem α)) = .ok (s2, m2) := k2'
      rw [get_ok_iff, ← k4, Nat.add_zero, ← hs, ← hs1]
      cases hl : load (wr m1 (out.addr p) (some s1)) (inp.addr p) with
      | error x => rw [hl] at k3; cases k3
      | ok v =>
        rw [hl] at k3
        cases k3
        rw [wr_self]

/-- The last element may be overwritten: scanning two elements into the cells before them. -/
example : ((do
    let m ← transformExclusiveScan (oneBlock 0 [0, 5, 7]) (.ofShape ⟨0, 1⟩ [2]) (.ofShape ⟨0, 0⟩ [2]) 1 (· + ·) id
    reduce m (.ofShape ⟨0, 0⟩ [2]) (fun a e => a ++ [e]) []) : Res (List Int)) = .ok [1, 6] := by decide +kernel

end Kwk
