import Verif.Lemmas.Mirror
import Verif.Props.Reading

/-!
# Properties C27 and C46: `reverse` and searching for the last match

`reverse(c)` moves the data pointer by `numel - 1` elements, which is the last element of `c` only if
`c` is contiguous.  The theorems therefore ask that the last position of `c` is stored `numel - 1`
elements after `get_data()`; `C46_default_corner` shows this for every container with the default
layout.  Without it the claims are false (`C27_strided_wrong`, `C46_strided_wrong`).
-/

namespace Kwk
open Spec

variable {α : Type}

/-- The hypothesis on the layout holds for every default layout. -/
theorem C46_default_corner {c : Container} (h : c.Default) (hne : ∃ p, InBox c.shape p) :
    c.addr (corner c.shape) = c.base.add (c.numel - 1) := by
  obtain ⟨p, hp⟩ := hne
  have hc : InBox c.shape (corner c.shape) := corner_inBox hp.pos
  rw [addr_default h hc, linearize_corner, Container.numel, numel_eq_prod h.ne]

example : exIn.addr (corner exIn.shape) = exIn.base.add 3 := C46_default_corner exIn_default ⟨[0, 0], by decide⟩

/-- **C46** (partial) `reverse(c)` has the shape of `c` and its element at `p` is, in the same cell,
the element of `c` at `shape - 1 - p`.  Missing: non contiguous containers
(`C46_strided_wrong`), and reversing twice (`C46_reverse_twice`, `C46_reverse_twice_wrong`). -/
theorem C46_reverse_partial {c : Container} (h : c.WF)
    (hcorner : c.addr (corner c.shape) = c.base.add (c.numel - 1)) :
    (reverse c).shape = c.shape ∧
    ∀ p, InBox c.shape p → (reverse c).addr p = c.addr (mirror c.shape p) ∧
      ∀ m : Mem α, (reverse c).get m p = c.get m (mirror c.shape p) := by
  refine ⟨rfl, fun p hp => ?_⟩
  have e : (reverse c).addr p = c.addr (mirror c.shape p) := by
    rw [reverse_addr h hp, addr_eq h (mirror_inBox hp), linearize_mirror _ hp.length]
    have hc : linearize c.strides (corner c.shape) = c.numel - 1 := by
      have := congrArg Ptr.off hcorner
      unfold Container.addr at this
      rw [index_eq h (by simp [corner])] at this
      simp only [Ptr.add] at this
      omega
    rw [hc]
  exact ⟨e, fun m => by unfold Container.get; rw [e]⟩

example := (C46_reverse_partial (α := Int) exIn_default.toWF (by decide)).2 [1, 0] (by decide)

/-- **C46** (exactly when) For a non-empty well-formed container, `reverse(c)` shows the cells of `c` at the mirrored
positions if and only if the last position of `c` is stored `numel - 1` elements after `get_data()`. -/
theorem C46_reverse_exact_partial {c : Container} (h : c.WF) (hne : ∃ p, InBox c.shape p) :
    (∀ p, InBox c.shape p → (reverse c).addr p = c.addr (mirror c.shape p)) ↔
      c.addr (corner c.shape) = c.base.add (c.numel - 1) := by
  constructor
  · intro hh
    obtain ⟨p, hp⟩ := hne
    have := hh p hp
    rw [reverse_addr h hp, addr_eq h (mirror_inBox hp), linearize_mirror _ hp.length] at this
    unfold Container.addr
    rw [index_eq h (by simp [corner])]
    have := congrArg Ptr.off this
    simp only [Ptr.add] at this ⊢
    congr 1
    omega
  · intro hc p hp
    exact ((C46_reverse_partial (α := Unit) h hc).2 p hp).1

example := mt (C46_reverse_exact_partial (c := .ofStrides ⟨0, 0⟩ [2, 2] [3, 1]) ⟨by decide, rfl, nofun⟩ ⟨[0, 0], by decide⟩).1 (by decide)

/-- Reversing twice gives back the shape and the strides, but an address shifted by
`2 * (numel - 1)` elements. -/
theorem C46_reverse_twice {c : Container} (h : c.WF) :
    (reverse (reverse c)).shape = c.shape ∧ (reverse (reverse c)).strides = c.strides ∧
    ∀ p, InBox c.shape p → (reverse (reverse c)).addr p = (c.addr p).add (2 * (c.numel - 1)) := by
  have hw : (reverse c).WF := ofStrides_WF h.ne (by simp [stride_eq h, h.len])
  refine ⟨rfl, ?_, fun p hp => ?_⟩
  · show (List.map _ (reverse c).stride) = _
    rw [stride_eq hw]
    show (List.map _ (List.map _ c.stride)) = _
    rw [stride_eq h]
    simp
  · rw [reverse_addr hw hp, addr_eq h hp]
    simp only [reverse, Container.ofStrides, stride_eq h, linearize_neg, Ptr.add, Container.numel]
    congr 1; ring

example := C46_reverse_twice exIn_default.toWF

/-- **C46** (negation) `reverse(reverse(c))` of a two element vector addresses memory outside of the
vector. -/
theorem C46_reverse_twice_wrong :
    (reverse (reverse (.ofShape ⟨0, 0⟩ [2]))).get (oneBlock 0 [1, 2]) [0] = (.error .outOfBounds : Res Int) := by
  decide

/-- **C46** (negation) On a view of every second element, `reverse` shows elements that are not in
the view. -/
theorem C46_strided_wrong :
    let c := Container.ofStrides ⟨0, 0⟩ [3] [2]
    let m : Mem Int := oneBlock 0 [1, 2, 3, 4, 5]
    reduce m c (fun a e => a ++ [e]) [] = .ok [1, 3, 5] ∧
    (reverse c).get m [0] = .ok 3 ∧ (reverse c).get m [2] = .error .outOfBounds := by
  decide

/-- **C46** The full property. -/
def C46_statement : Prop :=
  ∀ c : Container, c.WF → (reverse c).shape = c.shape ∧
    ∀ p, InBox c.shape p → (reverse c).addr p = c.addr (mirror c.shape p) ∧ (reverse (reverse c)).addr p = c.addr p

theorem C46_statement_false : ¬ C46_statement := by
  intro h
  exact absurd ((h (.ofStrides ⟨0, 0⟩ [3] [2]) ⟨by decide, rfl, by decide⟩).2 [0] (by decide)).1 (by decide)

/-- **C46** Reversing twice fails for default layouts too. -/
theorem C46_twice_false : ¬ ∀ c : Container, c.Default → ∀ p, InBox c.shape p → (reverse (reverse c)).addr p = c.addr p := by
  intro h
  exact absurd (h (.ofShape ⟨0, 0⟩ [2]) (ofShape_default (by decide)) [0] (by decide)) (by decide)

example : reduce (oneBlock 0 [1, 2, 3, 4, 5, 6]) (reverse (.ofShape ⟨0, 0⟩ [2, 3])) (fun a e => a ++ [e]) [] =
    (.ok [6, 5, 4, 3, 2, 1] : Res (List Int)) := by decide

/-- **C27** (partial) `find_last_if`, `find_last` and `find_last_if_not` return the last match.
Missing: containers that are not contiguous, for which the claim is false (`C27_strided_wrong`). -/
theorem C27_find_last_partial (m : Mem α) [DecidableEq α] (c : Container) (hw : c.WF)
    (hcorner : c.addr (corner c.shape) = c.base.add (c.numel - 1)) (val : List Int → α)
    (h : Elems c m val) (f : α → Bool) (v : α) :
    (∃ r, findLastIf m c f = .ok r ∧ IsLast c.shape (fun p => f (val p) = true) r) ∧
    (∃ r, findLast m c v = .ok r ∧ IsLast c.shape (fun p => val p = v) r) ∧
    (∃ r, findLastIfNot m c f = .ok r ∧ IsLast c.shape (fun p => f (val p) = false) r) := by
  have hr : Elems (reverse c) m (fun p => val (mirror c.shape p)) := by
    intro p hp
    rw [((C46_reverse_partial hw hcorner).2 p hp).2 m]
    exact h _ (mirror_inBox hp)
  have key : ∀ g : α → Bool, findLastIf m c g =
      .ok (((positions c.shape).find? fun p => g (val (mirror c.shape p))).map fun p => mirror c.shape p) := by
    intro g
    unfold findLastIf
    rw [findIf_eq g hr]
    rfl
  refine ⟨⟨_, key f, isLast_mirror _ _⟩, ⟨_, key _, ?_⟩, ⟨_, key _, ?_⟩⟩
  · have := isLast_mirror c.shape fun p => decide (val p = v)
    simpa using this
  · have := isLast_mirror c.shape fun p => !f (val p)
    simpa using this

example := C27_find_last_partial exTwo exIn exIn_default.toWF (by decide) exInVal exIn_elems (fun x => x < 3) 3

/-- **C27** (default layout) The hypothesis of `C27_find_last_partial` holds for every non-empty
container with default layout; the empty case is covered too. -/
theorem C27_find_last_default (m : Mem α) [DecidableEq α] (c : Container) (hw : c.Default)
    (val : List Int → α) (h : Elems c m val) (f : α → Bool) (v : α) :
    (∃ r, findLastIf m c f = .ok r ∧ IsLast c.shape (fun p => f (val p) = true) r) ∧
    (∃ r, findLast m c v = .ok r ∧ IsLast c.shape (fun p => val p = v) r) ∧
    (∃ r, findLastIfNot m c f = .ok r ∧ IsLast c.shape (fun p => f (val p) = false) r) := by
  by_cases hne : ∃ p, InBox c.shape p
  · exact C27_find_last_partial m c hw.toWF (C46_default_corner hw hne) val h f v
  · have hno : ∀ p, ¬ InBox c.shape p := fun p hp => hne ⟨p, hp⟩
    have key : ∀ g : α → Bool, findLastIf m c g = .ok none := by
      intro g
      unfold findLastIf
      rw [findIf_eq (c := reverse c) (val := val) g (fun p hp => absurd hp (hno p))]
      have : positions (reverse c).shape = [] :=
        List.eq_nil_iff_forall_not_mem.2 fun p hp => hno p (mem_positions.1 hp)
      rw [this]; rfl
    have hl : ∀ P, IsLast c.shape P none :=
      fun P => ⟨⟨fun _ p hp => absurd hp (hno p), fun _ => rfl⟩,
        fun p => ⟨fun e => (by cases e), fun ⟨hb, _⟩ => absurd hb (hno p)⟩⟩
    exact ⟨⟨none, key _, hl _⟩, ⟨none, key _, hl _⟩, ⟨none, key _, hl _⟩⟩

example := C27_find_last_default exTwo exIn exIn_default exInVal exIn_elems (fun x => x < 3) 3

/-- **C27** (exactly when) For a non-empty well-formed container, `find_last_if` gives the last match for all contents and
predicates if and only if the last position of the container is stored `numel - 1` elements after `get_data()`. -/
theorem C27_find_last_exact_partial {c : Container} (hw : c.WF) (hne : ∃ p, InBox c.shape p) :
    (∀ (m : Mem Ptr) (val : List Int → Ptr) (f : Ptr → Bool), Elems c m val →
      ∃ r, findLastIf m c f = .ok r ∧ IsLast c.shape (fun p => f (val p) = true) r) ↔
    c.addr (corner c.shape) = c.base.add (c.numel - 1) := by
  constructor
  · intro h
    obtain ⟨r, h1, h2⟩ := h some c.addr (fun a => decide (a = c.addr (corner c.shape))) (fun p _ => rfl)
    obtain ⟨p0, hp0⟩ := hne
    have hc : InBox c.shape (corner c.shape) := corner_inBox hp0.pos
    have hr : r = some (corner c.shape) := by
      rw [h2.2]
      refine ⟨hc, by simp, fun q hq hlt => ?_⟩
      have e1 := lin_bounds hq
      have e2 := (lin_lt_iff hc hq).2 hlt
      rw [linearize_corner] at e2
      omega
    subst hr
    have hel : Elems (reverse c) (some : Mem Ptr) (reverse c).addr := fun p _ => rfl
    unfold findLastIf at h1
    rw [findIf_eq _ hel] at h1
    have h1 := Except.ok.inj h1
    obtain ⟨q, hq, hm⟩ := Option.map_eq_some_iff.1 h1
    have hP := List.find?_some hq
    have hqb : InBox c.shape q := mem_positions.1 (List.mem_of_find?_eq_some hq)
    have hq0 : linearize c.strides q = 0 := by
      have hm' : mirror c.shape q = corner c.shape := hm
      have := linearize_mirror c.strides (hqb.length)
      rw [hm'] at this
      omega
    have hP' : (reverse c).addr q = c.addr (corner c.shape) := by simpa using hP
    rw [← hP', reverse_addr hw hqb, hq0]
    congr 1
    omega
  · intro hc m val f h
    exact (@C27_find_last_partial Ptr m _ c hw hc val h f c.base).1

example := (C27_find_last_exact_partial (c := exIn) exIn_default.toWF ⟨[0, 0], by decide⟩).2 (by decide)

/-- **C27** (negation) On a view of every second element of `1 2 3 4 5`, the last element equal to
`5` is not found: the search reads outside of the view. -/
theorem C27_strided_wrong :
    let c := Container.ofStrides ⟨0, 0⟩ [3] [2]
    let m : Mem Int := oneBlock 0 [1, 2, 3, 4, 5]
    find m c 5 = .ok (some [2]) ∧ findLast m c 5 = .error .outOfBounds ∧
    findLast m c 1 = .ok (some [1]) := by
  decide

/-- **C27** The full property (elements of type `int`). -/
def C27_statement : Prop :=
  ∀ (m : Mem Int) (c : Container), c.WF → ∀ val : List Int → Int, Elems c m val → ∀ (f : Int → Bool) (v : Int),
    (∃ r, findLastIf m c f = .ok r ∧ IsLast c.shape (fun p => f (val p) = true) r) ∧
    (∃ r, findLast m c v = .ok r ∧ IsLast c.shape (fun p => val p = v) r) ∧
    (∃ r, findLastIfNot m c f = .ok r ∧ IsLast c.shape (fun p => f (val p) = false) r)

theorem C27_statement_false : ¬ C27_statement := by
  intro h
  have hn := C27_strided_wrong.2.1
  obtain ⟨-, ⟨r, hr, -⟩, -⟩ := h (oneBlock 0 [1, 2, 3, 4, 5]) (.ofStrides ⟨0, 0⟩ [3] [2]) ⟨by decide, rfl, by decide⟩ (fun p => 1 + 2 * p.headD 0)
    (by
      intro p hp
      match p, hp with
      | [i], hp =>
        have : i = 0 ∨ i = 1 ∨ i = 2 := by
          have := (inBox_cons.1 hp).1; omega
        rcases this with rfl | rfl | rfl <;> decide)
    (fun _ => true) 5
  rw [hr] at hn
  cases hn

example : findLast (oneBlock 0 [1, 2, 1, 2]) (.ofShape ⟨0, 0⟩ [2, 2]) (1 : Int) = .ok (some [1, 0]) := by
  decide

end Kwk
