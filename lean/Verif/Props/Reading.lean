import Verif.Lemmas.Container
import Verif.Lemmas.Rank
import Verif.Lemmas.Witnesses

/-!
# Properties C23-C26, C28, C29, C50, C76: reading algorithms, accessors

`Elems c m val` (Spec/Layout.lean): in memory `m` the element of container `c` at each position `p`
reads as `val p`.  This covers every layout.
-/

namespace Kwk
open Spec

variable {α β γ : Type}

/-- A 2x2 view of column-major data, used in the examples: elements 1 2 / 3 4 stored as 1 3 2 4. -/
def exView : Container := Container.ofStrides ⟨0, 0⟩ [2, 2] [1, 2]

/-- Memory of the examples. -/
def exMem : Mem Int := oneBlock 0 [1, 3, 2, 4]

/-- Contents of the example view. -/
def exVal : List Int → Int := fun p => 1 + 2 * p.headD 0 + p.tail.headD 0

theorem exElems : Elems exView exMem exVal := by
  intro p hp
  have : p ∈ positions exView.shape := mem_positions.2 hp
  have hall : ∀ p ∈ positions exView.shape, exView.get exMem p = .ok (exVal p) := by decide
  exact hall p this

/-- **C23** `reduce` is the left fold over the elements in lexicographic order, and leaves the
memory as it was. -/
theorem C23_reduce_left_fold (m : Mem α) (c : Container) (val : List Int → α) (h : Elems c m val)
    (f : β → α → β) (init : β) :
    reduceRun m c f init = .ok (((positions c.shape).map val).foldl f init, m) ∧
    reduce m c f init = .ok (((positions c.shape).map val).foldl f init) :=
  ⟨reduceRun_eq f init h, reduce_eq f init h⟩

example : reduce exTwo exIn (fun a x => 10 * a + x) 0 = .ok 1234 := (C23_reduce_left_fold exTwo exIn exInVal exIn_elems _ _).2

/-- **C23** (empty container) `init` is returned when some extent is zero. -/
theorem C23_reduce_empty (m : Mem α) (c : Container) (h0 : (0 : Int) ∈ c.shape)
    (f : β → α → β) (init : β) : reduce m c f init = .ok init := by
  unfold reduce reduceRun mapCtx
  rw [loopState_eq, positions_eq_nil ⟨0, h0, le_refl _⟩]; rfl

example : reduce exTwo (Container.ofShape ⟨0, 0⟩ [2, 0, 3]) (fun a x => 10 * a + x) 7 = .ok 7 := C23_reduce_empty _ _ (by decide) _ _

/-- **C23** (default sum) `reduce(c)` is the sum of the elements. -/
theorem C23_reduce_sum (m : Mem Int) (c : Container) (val : List Int → Int) (h : Elems c m val) :
    reduceSum m c = .ok ((positions c.shape).map val).sum := by
  rw [reduceSum, reduce_eq _ _ h, foldl_add_init]; simp

example : reduce exMem exView (fun a e => a * 10 + e) 0 = .ok 1234 := by decide

/-- **C24** `all_of`, `any_of`, `none_of` are the quantifiers over the elements. -/
theorem C24_quantifiers (m : Mem α) (c : Container) (val : List Int → α) (h : Elems c m val)
    (f : α → Bool) :
    ∃ a b n, allOf m c f = .ok a ∧ anyOf m c f = .ok b ∧ noneOf m c f = .ok n ∧
      (a = true ↔ ∀ p, InBox c.shape p → f (val p) = true) ∧
      (b = true ↔ ∃ p, InBox c.shape p ∧ f (val p) = true) ∧
      (n = true ↔ ∀ p, InBox c.shape p → f (val p) = false) := by
  refine ⟨(positions c.shape).all fun p => f (val p), (positions c.shape).any fun p => f (val p),
    !(positions c.shape).any fun p => f (val p), ?_, anyOf_eq f h, ?_, ?_, ?_, ?_⟩
  · rw [allOf, reduce_eq _ _ h, foldl_and]; simp [List.all_map, Function.comp_def]
  · rw [noneOf, anyOf_eq f h]; rfl
  · rw [List.all_eq_true]; simp [mem_positions]
  · rw [List.any_eq_true]; simp [mem_positions]
  · rw [Bool.not_eq_true', List.any_eq_false]; simp [mem_positions]

example := C24_quantifiers exTwo exIn exInVal exIn_elems fun x => x > 2

/-- **C24** (empty container) The answers are `true`, `false`, `true`. -/
theorem C24_quantifiers_empty (m : Mem α) (c : Container) (h0 : (0 : Int) ∈ c.shape) (f : α → Bool) :
    allOf m c f = .ok true ∧ anyOf m c f = .ok false ∧ noneOf m c f = .ok true := by
  refine ⟨C23_reduce_empty m c h0 _ _, C23_reduce_empty m c h0 _ _, ?_⟩
  rw [noneOf, show anyOf m c f = .ok false from C23_reduce_empty m c h0 _ _]; rfl

example : allOf exMem exView (· < 5) = .ok true ∧ anyOf exMem exView (· = 3) = .ok true ∧
    noneOf exMem exView (· = 3) = .ok false := by decide

/-- **C25** `count_if` and `count` give the number of matching positions. -/
theorem C25_count (m : Mem α) [DecidableEq α] (c : Container) (val : List Int → α) (h : Elems c m val)
    (f : α → Bool) (v : α) :
    countIf m c f = .ok (Set.ncard {p | InBox c.shape p ∧ f (val p) = true}) ∧
    count m c v = .ok (Set.ncard {p | InBox c.shape p ∧ val p = v}) := by
  have key : ∀ g : α → Bool, ((positions c.shape).map val).countP g =
      Set.ncard {p | InBox c.shape p ∧ g (val p) = true} := by
    intro g
    have hset : {p | InBox c.shape p ∧ g (val p) = true} =
        (((positions c.shape).filter fun p => g (val p)).toFinset : Set (List Int)) := by
      ext p; simp [mem_positions]
    rw [hset, Set.ncard_coe_finset, List.toFinset_card_of_nodup ((positions_nodup _).filter _),
      ← List.countP_eq_length_filter, List.countP_map]
    rfl
  constructor
  · rw [countIf, reduce_eq _ _ h, foldl_count, key]; simp
  · have := foldl_count ((positions c.shape).map val) (fun e => decide (e = v)) 0
    simp only [decide_eq_true_eq] at this
    rw [count, reduce_eq _ _ h, this, key]; simp

example := C25_count exTwo exIn exInVal exIn_elems (fun x => x > 2) 3

/-- **C25** (complement) The elements that satisfy `f` and those that do not add up to `numel`. -/
theorem C25_count_complement (m : Mem α) (c : Container) (val : List Int → α) (h : Elems c m val)
    (hne : c.shape ≠ []) (hs : NonNeg c.shape) (f : α → Bool) :
    ∃ a b, countIf m c f = .ok a ∧ countIf m c (fun x => !f x) = .ok b ∧
      ((a + b : Nat) : Int) = c.numel := by
  refine ⟨_, _, by rw [countIf, reduce_eq _ _ h, foldl_count],
    by rw [countIf, reduce_eq _ _ h, foldl_count], ?_⟩
  rw [Container.numel, numel_eq_prod hne, ← positions_length hs]
  have := List.length_eq_countP_add_countP (l := (positions c.shape).map val) f
  simp only [List.length_map] at this
  simp only [Nat.zero_add]
  rw [this]
  congr 3
  funext x; simp

example : countIf exMem exView (fun x => x % 2 == 0) = .ok 2 ∧ count exMem exView 4 = .ok 1 := by decide

/-- **C26** `find_if`, `find`, `find_if_not` return the first match. -/
theorem C26_find_first (m : Mem α) [DecidableEq α] (c : Container) (val : List Int → α)
    (h : Elems c m val) (f : α → Bool) (v : α) :
    (∃ r, findIf m c f = .ok r ∧ IsFirst c.shape (fun p => f (val p) = true) r) ∧
    (∃ r, find m c v = .ok r ∧ IsFirst c.shape (fun p => val p = v) r) ∧
    (∃ r, findIfNot m c f = .ok r ∧ IsFirst c.shape (fun p => f (val p) = false) r) := by
  refine ⟨⟨_, findIf_eq f h, isFirst_find? _ _⟩, ⟨_, findIf_eq _ h, ?_⟩, ⟨_, findIf_eq _ h, ?_⟩⟩
  · have := isFirst_find? c.shape fun p => decide (val p = v)
    simpa using this
  · have := isFirst_find? c.shape fun p => !f (val p)
    simpa using this

example : find exMem exView 3 = .ok (some [1, 0]) ∧ find exMem exView 9 = .ok none := by decide

/-- **C28** `find_first_of` returns the first element that belongs to the values. -/
theorem C28_find_first_of (m : Mem α) [DecidableEq α] (c vs : Container) (val vval : List Int → α)
    (h : Elems c m val) (hv : Elems vs m vval) :
    ∃ r, findFirstOf m c vs = .ok r ∧
      IsFirst c.shape (fun p => ∃ q, InBox vs.shape q ∧ vval q = val p) r := by
  refine ⟨(positions c.shape).find? fun p => (positions vs.shape).any fun q => decide (vval q = val p),
    ?_, ?_⟩
  · rw [findFirstOf, findIfM_eq]
    exact firstHit_pure _ _ _ val (fun e => (positions vs.shape).any fun q => decide (vval q = e))
      (fun p hp => h p (mem_positions.1 hp)) (fun p _ => anyOf_eq (fun x => decide (x = val p)) hv)
  · have := isFirst_find? c.shape fun p => (positions vs.shape).any fun q => decide (vval q = val p)
    simpa [mem_positions] using this

example : findFirstOf exMem exView (Container.ofShape ⟨0, 2⟩ [2]) = .ok (some [0, 1]) := by decide

/-- **C29** `transform_reduce` and `inner_product` fold pairwise, in lexicographic order, on two
containers whose elements at the positions of the first one can be read. -/
theorem C29_pairwise_fold (md : Mode) (m : Mem α) (c1 c2 : Container) (val1 val2 : List Int → α)
    (hshape : c1.shape = c2.shape) (h1 : Elems c1 m val1) (h2 : Elems c2 m val2)
    (init : β) (R : β → γ → β) (T : α → α → γ) :
    let expected := ((positions c1.shape).map fun p => T (val1 p) (val2 p)).foldl R init
    transformReduce m c1 c2 init R T = .ok expected ∧
    innerProduct md m c1 c2 init R T = .ok expected := by
  intro expected
  have hrun : loopState (fun is (sm : β × Mem α) => do
      let v1 ← load sm.2 (c1.addr is)
      let v2 ← load sm.2 (c2.addr is)
      pure (R sm.1 (T v1 v2), sm.2)) c1.shape (init, m) = .ok (expected, m) := by
    rw [loopState_eq, foldlM_read _ (fun p a => R a (T (val1 p) (val2 p)))]
    · rw [← List.foldl_map (f := fun p => T (val1 p) (val2 p)) (g := R)]
    · intro p hp s
      simp only [elems_mem h1 hp, elems_mem h2 (hshape ▸ hp)]; rfl
  constructor
  · unfold transformReduce mapCtx
    simp only [List.map_cons, List.map_nil, List.headD_cons]
    rw [hrun]; rfl
  · unfold innerProduct mapCtx
    have hassert : kwkAssert md (shapeEq c1.shape c2.shape) = .ok () := by
      have : shapeEq c1.shape c2.shape = true := by
        rw [← hshape, shapeEq_iff]
        intro x hx
        simp only [min_self] at hx
        exact (zip_eq_iff (b := compress c1.shape.length c1.shape) rfl).2 rfl x hx
      rw [this]; cases md <;> rfl
    rw [hassert]
    simp only [List.map_cons, List.map_nil, List.headD_cons]
    show (loopState _ _ _ >>= _) = _
    rw [hrun]; rfl

example := C29_pairwise_fold .checked exTwo exIn exIn exInVal exInVal rfl exIn_elems exIn_elems 0 (fun a x => a + x) fun x y => x * y

/-- **C29** (rejection) In a checked build `inner_product` rejects containers of the same order and
different extents, before reading anything; hence what it accepts at equal order is
covered by `C29_pairwise_fold`. -/
theorem C29_inner_product_rejects (m : Mem α) (c1 c2 : Container) (hl : c1.shape.length = c2.shape.length)
    (hshape : c1.shape ≠ c2.shape) (init : β) (R : β → γ → β) (T : α → α → γ) :
    innerProduct .checked m c1 c2 init R T = .error .assertion := by
  have : shapeEq c1.shape c2.shape = false := by
    rw [Bool.eq_false_iff]
    intro h
    rw [shapeEq_iff, ← hl, min_self, compress_self,
      show compress c1.shape.length c2.shape = c2.shape by rw [hl, compress_self]] at h
    exact hshape ((zip_eq_iff hl).1 h)
  unfold innerProduct
  rw [this]; rfl

example : innerProduct .checked exMem exView (Container.ofShape ⟨0, 0⟩ [2, 2]) 0 (· + ·) (· * ·)
    = .ok (1 * 1 + 2 * 3 + 3 * 2 + 4 * 4) := by decide

/-- **C50** The specialised accessors give the address of the general stride formula, and report
the strides that they use. -/
theorem C50_accessors_agree (c : Container) (h : c.WF) (p : List Int)
    (hp : p.length = c.shape.length) :
    c.addr p = c.base.add (linearize c.stride p) ∧ c.stride = c.strides := by
  refine ⟨?_, stride_eq h⟩
  rw [Container.addr, index_eq h hp, stride_eq h]

example := C50_accessors_agree exIn exIn_default.toWF [1, 0] rfl

/-- **C50** (default) Without explicit strides the address is the data address plus the linear
index. -/
theorem C50_default_address (md : Mode) (c : Container) (h : c.Default) (p : List Int)
    (hp : InBox c.shape p) :
    ∃ k, linearIndex md c.shape p = .ok k ∧ c.addr p = c.base.add k :=
  ⟨_, linearIndex_ok md hp, addr_default h hp⟩

example := C50_default_address .checked exOut exOut_default [1, 0] (by decide)

/-- **C50** (built) A container built without strides puts its elements in row-major order from its data
address; one built with strides puts position `p` at the dot product of `p` with them. -/
theorem C50_built_address (b : Ptr) (s : Shape) (hs : s ≠ []) :
    (∀ p (k : Nat), (positions s)[k]? = some p → (Container.ofShape b s).addr p = b.add k) ∧
    ∀ st p, st.length = s.length → p.length = s.length →
      (Container.ofStrides b s st).addr p = b.add (st.zipWith (· * ·) p).sum ∧
      (Container.ofStrides b s st).stride = st := by
  refine ⟨?_, ?_⟩
  · intro p k hk
    have hp : InBox s p := mem_positions.1 (List.mem_of_getElem? hk)
    have h := addr_default (ofShape_default (b := b) hs) hp
    rw [h]
    have hr := positions_getElem? hp
    have hlt : k < (positions s).length := by
      by_contra hc
      rw [List.getElem?_eq_none (by omega)] at hk; exact absurd hk (by simp)
    have := (List.getElem?_inj hlt (positions_nodup s)).1 (hk.trans hr.symm)
    have hb := (lin_bounds hp).1
    simp only [Container.ofShape]
    congr 1
    omega
  · intro st p hl hp
    have hw : (Container.ofStrides b s st).WF := ⟨hs, hl, fun h => absurd h (by simp [Container.ofStrides])⟩
    have h := C50_accessors_agree _ hw p hp
    refine ⟨?_, h.2⟩
    rw [h.1, h.2, linearize_eq_sum]
    rfl

example : (Container.ofShape ⟨0, 0⟩ [3, 4]).addr [2, 1] = ⟨0, 9⟩ ∧ exView.addr [0, 1] = ⟨0, 2⟩ := by
  decide

/-- **C76** The size queries of a container: `size` is `numel`, the number of its positions; `empty` means
that there are none; `dim<I>` is the extent of axis `I`, and 1 past the last axis. -/
theorem C76_size_queries (c : Container) (hne : c.shape ≠ []) (hs : NonNeg c.shape) :
    c.size = c.numel ∧ c.numel = (positions c.shape).length ∧
    (c.empty = true ↔ ∀ p, ¬ InBox c.shape p) ∧
    (∀ i, (h : i < c.shape.length) → c.dim i = c.shape[i]) ∧ ∀ i, c.shape.length ≤ i → c.dim i = 1 := by
  have h1 : c.size = c.numel := by
    unfold Container.size Container.numel
    split
    · next e => rw [e, numel_eq_prod (by simp)]; simp
    · rfl
  have h2 : c.numel = (positions c.shape).length := by
    rw [positions_length hs, Container.numel, numel_eq_prod hne]
  refine ⟨h1, h2, ?_, ?_, ?_⟩
  · rw [Container.empty, beq_iff_eq, h1, h2]
    constructor
    · intro h p hp
      have : positions c.shape = [] := List.length_eq_zero_iff.1 (by omega)
      have h3 := mem_positions.2 hp
      rw [this] at h3; simp at h3
    · intro h
      have : positions c.shape = [] := List.eq_nil_iff_forall_not_mem.2 fun p hp => h p (mem_positions.1 hp)
      rw [this]; rfl
  · intro i h; simp [Container.dim, h]
  · intro i h; simp [Container.dim, h]

example : (Container.ofShape ⟨0, 0⟩ [3, 4]).size = 12 ∧ (Container.ofShape ⟨0, 0⟩ [3, 4]).dim 1 = 4 ∧
    (Container.ofShape ⟨0, 0⟩ [3, 4]).dim 2 = 1 ∧ (Container.ofShape ⟨0, 0⟩ [3, 0]).empty = true := by decide

end Kwk
