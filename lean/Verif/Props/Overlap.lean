import Verif.Lemmas.Overlap
import Verif.Props.Sequences

/-!
# Property C118: copying between containers that share memory
-/

namespace Kwk
open Spec

variable {α : Type}

namespace Spec

/-- After the copy, `out` holds what `inp` held before it. -/
def Copied (out inp : Container) (m : Mem α) (dflt : α) : Prop :=
  ∃ m', copy m out inp dflt = .ok m' ∧ SameOutside out m m' ∧ ∀ p, InBox out.shape p → out.get m' p = inp.get m p

end Spec

/-- Full statement of **C118**: between containers of one shape, whose positions are different cells, `copy` leaves in `out` what
`inp` held before the call, whatever memory they share. -/
def C118_statement : Prop :=
  ∀ (out inp : Container) (m : Mem Int), out.shape = inp.shape → Distinct out → Distinct inp → Valid out m → Valid inp m →
    Copied out inp m 0

/-- What `copy` does, whatever the containers share. -/
private theorem copy_run (out inp : Container) (m : Mem α) (hd : Distinct out) (hv : Valid out m)
    (hi : ∀ p, InBox out.shape p → ∃ v, inp.get m p = .ok v) (dflt : α) :
    ∃ m', copy m out inp dflt = .ok m' ∧ SameOutside out m m' ∧ ∀ p, InBox out.shape p →
      ((∀ q, InBox out.shape q → q < p → out.addr q ≠ inp.addr p) → m' (out.addr p) = m (inp.addr p)) ∧
      ∀ q, InBox out.shape q → q < p → out.addr q = inp.addr p → m' (out.addr p) = m' (out.addr q) := by
  have hmem : ∀ {p}, p ∈ positions out.shape → InBox out.shape p := fun h => mem_positions.1 h
  obtain ⟨m', h1, h2, h3⟩ := move_run inp.addr out.addr (positions out.shape) m
    ((positions_nodup out.shape).imp_of_mem fun hp hq hne e => hne (hd _ _ (hmem hp) (hmem hq) e))
    (fun p hp => by obtain ⟨v, h⟩ := hi p (hmem hp); exact isSome_of_get h)
    (fun p hp => by obtain ⟨v, h⟩ := hv p (hmem hp); exact isSome_of_get h)
  refine ⟨m', ?_, fun a ha => h2 a fun p hp => ha p (hmem hp), fun p hp => ?_⟩
  · unfold copy transform mapCtx
    rw [loopState_eq]
    have : (fun (s : Unit × Mem α) (p : List Int) => (do
        let vs ← (([inp].map fun c => c.addr p).mapM fun i => load s.2 i)
        let m ← store s.2 (out.addr p) (vs.headD dflt)
        pure ((), m) : Res (Unit × Mem α))) = moveStep inp.addr out.addr := by
      funext s p
      unfold moveStep
      simp only [List.map_cons, List.map_nil, List.mapM_cons, List.mapM_nil]
      cases load s.2 (inp.addr p) <;> rfl
    rw [this, h1]
    rfl
  · obtain ⟨l1, l2, e⟩ := List.append_of_mem (mem_positions.2 hp)
    have hs := positions_sorted out.shape
    rw [e, List.pairwise_append] at hs
    have hbefore : ∀ q, q ∈ l1 ↔ InBox out.shape q ∧ q < p := by
      intro q
      constructor
      · intro hq
        exact ⟨hmem (by rw [e]; simp [hq]), hs.2.2 q hq p (by simp)⟩
      · rintro ⟨hb, hlt⟩
        have := mem_positions.2 hb
        rw [e, List.mem_append, List.mem_cons] at this
        rcases this with h | rfl | h
        · exact h
        · exact absurd hlt (lt_irrefl _)
        · exact absurd (lt_trans hlt ((List.pairwise_cons.1 hs.2.1).1 q h)) (lt_irrefl _)
    obtain ⟨g1, g2⟩ := h3 l1 p l2 e
    exact ⟨fun hq => g1 fun q hm => hq q ((hbefore q).1 hm).1 ((hbefore q).1 hm).2,
      fun q hq hlt hqe => g2 q ((hbefore q).2 ⟨hq, hlt⟩) hqe⟩

theorem box_induction {s : Shape} {Q : List Int → Prop}
    (h : ∀ p, InBox s p → (∀ q, InBox s q → q < p → Q q) → Q p) : ∀ p, InBox s p → Q p := by
  have gen : ∀ (n k : Nat) p, k < n → (positions s)[k]? = some p → Q p := by
    intro n
    induction n with
    | zero => intro k p hk; omega
    | succ n ih =>
      intro k p hk hp
      refine h p (mem_positions.1 (List.mem_of_getElem? hp)) fun q hq hlt => ?_
      obtain ⟨j, hj, e⟩ := List.mem_iff_getElem.1 (mem_positions.2 hq)
      obtain ⟨hk', e'⟩ := List.getElem?_eq_some_iff.1 hp
      have hjk : j < k := by
        by_contra hle
        have hs := List.pairwise_iff_getElem.1 (positions_sorted s)
        rcases Nat.lt_or_ge k j with hkj | hkj
        · have := hs k j hk' hj hkj
          rw [e, e'] at this
          exact absurd (lt_trans hlt this) (lt_irrefl _)
        · obtain rfl : j = k := by omega
          rw [← e, ← e'] at hlt
          exact absurd hlt (lt_irrefl _)
      exact ih j q (by omega) (List.getElem?_eq_some_iff.2 ⟨hj, e⟩)
  intro p hp
  exact gen _ _ p (Nat.lt_succ_self _) (getElem?_rank hp)

/-- **C118** (partial) `copy` is right if no element of `inp` is stored where an earlier element of `out` is, except in a cell that
the earlier element is copied from itself.  Missing: other overlaps, where it is wrong (`C118_exact_partial`). -/
theorem C118_overlap_partial (out inp : Container) (m : Mem α) (hs : out.shape = inp.shape) (hd : Distinct out) (hv : Valid out m)
    (hi : Valid inp m) (dflt : α)
    (h : ∀ p q, InBox out.shape p → InBox out.shape q → q < p → out.addr q = inp.addr p → inp.addr q = inp.addr p) :
    Copied out inp m dflt := by
  obtain ⟨m', h1, h2, h3⟩ := copy_run out inp m hd hv (fun p hp => hi p (hs ▸ hp)) dflt
  refine ⟨m', h1, h2, fun p hp => ?_⟩
  have key : ∀ p, InBox out.shape p → m' (out.addr p) = m (inp.addr p) := by
    refine box_induction fun p hp ih => ?_
    obtain ⟨g1, g2⟩ := h3 p hp
    by_cases hq : ∃ q, InBox out.shape q ∧ q < p ∧ out.addr q = inp.addr p
    · obtain ⟨q, hq, hlt, e⟩ := hq
      rw [g2 q hq hlt e, ih q hq hlt, h p q hp hq hlt e]
    · exact g1 fun q hq' hlt e => hq ⟨q, hq', hlt, e⟩
  unfold Container.get load
  rw [key p hp]

example := C118_overlap_partial exIn exIn exTwo rfl exIn_distinct exIn_valid exIn_valid 0 fun _ _ _ _ _ h => h ▸ h.symm ▸ rfl

/-- **C118** (exactly when) `copy` is right for all contents if and only if no element of `inp` is stored where an earlier element
of `out` is, except in a cell that the earlier element is copied from itself. -/
theorem C118_exact_partial (out inp : Container) (hs : out.shape = inp.shape) (hd : Distinct out) {a b : α} (hab : a ≠ b) :
    (∀ m : Mem α, Valid out m → Valid inp m → Copied out inp m a) ↔
    ∀ p q, InBox out.shape p → InBox out.shape q → q < p → out.addr q = inp.addr p → inp.addr q = inp.addr p := by
  refine ⟨fun hall => ?_, fun h m hv hi => C118_overlap_partial out inp m hs hd hv hi a h⟩
  have key : ∀ p, InBox out.shape p → ∀ q, InBox out.shape q → q < p → out.addr q = inp.addr p →
      inp.addr q = inp.addr p := by
    intro p hp q hq hlt e
    by_contra hne
    classical
    let m : Mem α := fun x => if x = inp.addr q then some a else some b
    have hm : ∀ x, (m x).isSome := by intro x; simp only [m]; split <;> rfl
    have hval : ∀ c : Container, Valid c m := fun c r _ => by
      obtain ⟨v, hv⟩ := Option.isSome_iff_exists.1 (hm (c.addr r))
      exact ⟨v, get_ok_iff.2 hv⟩
    obtain ⟨m', h1, h2, h3⟩ := copy_run out inp m hd (hval out) (fun r hr => hval inp r (hs ▸ hr)) a
    obtain ⟨m'', h1', -, hc⟩ := hall m (hval _) (hval _)
    rw [h1] at h1'
    cases h1'
    have ok : ∀ r, InBox out.shape r → m' (out.addr r) = m (inp.addr r) := by
      intro r hr
      obtain ⟨v, hv⟩ := Option.isSome_iff_exists.1 (hm (inp.addr r))
      have := hc r hr
      rw [get_ok_iff.2 hv] at this
      rw [get_ok_iff.1 this, hv]
    have h4 := (h3 p hp).2 q hq hlt e
    rw [ok p hp, ok q hq] at h4
    simp only [m, if_neg (Ne.symm hne), if_true] at h4
    exact hab (Option.some.inj h4).symm
  exact fun p q hp hq hlt e => key p hp q hq hlt e

example := (C118_exact_partial exOut exIn rfl exOut_distinct (by decide : (1 : Int) ≠ 2)).2 fun p q hp hq _ h =>
  absurd h (ex_disjoint q p hq hp)

/-- **C118** (exactly when) A vector of `n` elements copied from cell `j` on to cell `i` on, in one block: right exactly if the
elements move down or do not overlap.  Moving up by fewer than `n` cells repeats elements. -/
theorem C118_shift_partial {a b : α} (hab : a ≠ b) (blk : Nat) (i j n : Int) :
    (∀ m : Mem α, Valid (.ofShape ⟨blk, i⟩ [n]) m → Valid (.ofShape ⟨blk, j⟩ [n]) m →
      Copied (.ofShape ⟨blk, i⟩ [n]) (.ofShape ⟨blk, j⟩ [n]) m a) ↔ i ≤ j ∨ j + n ≤ i := by
  have haddr : ∀ (o e k : Int), (Container.ofShape ⟨blk, o⟩ [e]).addr [k] = ⟨blk, o + k⟩ := by
    intro o e k
    simp [Container.addr, Container.ofShape, Container.index, asStride, Ptr.add]
  rw [C118_exact_partial (.ofShape ⟨blk, i⟩ [n]) (.ofShape ⟨blk, j⟩ [n]) rfl (default_distinct (ofShape_default (by simp))) hab]
  constructor
  · intro h
    by_contra hc
    have := h [i - j] [0] (inBox_cons.2 ⟨by omega, by simp [InBox]⟩) (inBox_cons.2 ⟨by omega, by simp [InBox]⟩)
      (List.Lex.rel (by omega)) (by rw [haddr, haddr]; congr 1; omega)
    rw [haddr, haddr] at this
    injection this with _ this
    omega
  · intro h p q hp hq hlt e
    obtain ⟨x, p, rfl, hx, hp⟩ := inBox_cons_left hp
    obtain ⟨y, q, rfl, hy, hq⟩ := inBox_cons_left hq
    rw [inBox_nil] at hp hq
    subst hp hq
    rw [haddr, haddr] at e
    injection e with _ e
    have : y < x := by
      cases hlt with
      | rel h => exact h
      | cons h => cases h
    omega

/-- Moving up by one repeats the first element. -/
example : ((do
    let m ← copy (oneBlock 0 [1, 2, 3, 4]) (.ofShape ⟨0, 1⟩ [3]) (.ofShape ⟨0, 0⟩ [3]) 0
    reduce m (.ofShape ⟨0, 0⟩ [4]) (fun a e => a ++ [e]) []) : Res (List Int)) = .ok [1, 1, 1, 1] ∧
    ((do
    let m ← copy (oneBlock 0 [1, 2, 3, 4]) (.ofShape ⟨0, 0⟩ [3]) (.ofShape ⟨0, 1⟩ [3]) 0
    reduce m (.ofShape ⟨0, 0⟩ [4]) (fun a e => a ++ [e]) []) : Res (List Int)) = .ok [2, 3, 4, 4] := by decide +kernel

/-- **C118** (partial) `copy(c, reverse(c))` does not reverse `c`: the elements of the second half stay and are mirrored on the
first half. -/
theorem C118_reverse_partial [Nonempty α] {c : Container} (h : c.Default) {m : Mem α} {xs : List α} (hx : Lists c m xs) (dflt : α) :
    ∃ m' ys, copy m c (reverse c) dflt = .ok m' ∧ SameOutside c m m' ∧ Lists c m' ys ∧ ys.length = xs.length ∧
      ∀ (k : Nat), k < xs.length → ys[k]? = xs[max k (xs.length - 1 - k)]? := by
  obtain ⟨val, he, hxv⟩ := lists_elems hx
  have hlen := lists_length hx
  have hd := default_distinct h
  have hrev : ∀ p, InBox c.shape p → (reverse c).addr p = c.addr (mirror c.shape p) := fun p hp =>
    ((C46_reverse_partial (α := α) h.toWF (C46_default_corner h ⟨p, hp⟩)).2 p hp).1
  obtain ⟨m', h1, h2, h3⟩ := copy_run c (reverse c) m hd (fun p hp => ⟨_, he p hp⟩)
    (fun p hp => ⟨val (mirror c.shape p), by
      have := he _ (mirror_inBox hp)
      unfold Container.get at this ⊢
      rwa [hrev p hp]⟩) dflt
  have hvalid : Valid c m' := by
    intro p hp
    obtain ⟨m'', e1, _, e3⟩ := (C40_safe_inputs (β := Unit) m c (reverse c) [reverse c] (fun p hp => ⟨_, he p hp⟩)
      (fun p hp => ⟨val (mirror c.shape p), by
        have := he _ (mirror_inBox hp)
        unfold Container.get at this ⊢
        rwa [hrev p hp]⟩)
      (by
        intro c' hc' p hp
        rw [List.mem_singleton] at hc'
        subst hc'
        refine ⟨val (mirror c.shape p), ?_⟩
        have := he _ (mirror_inBox hp)
        unfold Container.get at this ⊢
        rwa [hrev p hp]) rfl (fun vs => vs.headD dflt) (fun _ => true) dflt (fun a _ => a) (fun _ => ())) _ (List.mem_cons_self)
    have h1' : transform m (fun vs => vs.headD dflt) c [reverse c] = .ok m' := h1
    rw [h1'] at e1
    cases e1
    have := e3 (c.addr p)
    rw [isSome_of_get (he p hp)] at this
    obtain ⟨v, hv⟩ := Option.isSome_iff_exists.1 this
    exact ⟨v, get_ok_iff.2 hv⟩
  obtain ⟨ys, hy⟩ := (C117_sequence c m').1.1 hvalid
  have hylen := lists_length hy
  refine ⟨m', ys, h1, h2, hy, by rw [hylen, hlen], fun k hk => ?_⟩
  have cell : ∀ (mm : Mem α) zs, Lists c mm zs → ∀ (j : Nat) p, (positions c.shape)[j]? = some p → zs[j]? = mm (c.addr p) := by
    intro mm zs hz j p hp
    obtain ⟨v, g1, g2⟩ := (C117_sequence c mm).2.2.2 zs hz j p hp
    rw [g1, get_ok_iff.1 g2]
  rw [hlen] at hk
  have lt_iff : ∀ (i j : Nat) p q, (positions c.shape)[i]? = some p → (positions c.shape)[j]? = some q → (p < q ↔ i < j) := by
    intro i j p q hp hq
    have b1 := mem_positions.1 (List.mem_of_getElem? hp)
    have b2 := mem_positions.1 (List.mem_of_getElem? hq)
    rw [← lin_lt_iff b1 b2, ← positions_rank hp, ← positions_rank hq]
    omega
  have back : ∀ (j : Nat) p, (positions c.shape)[j]? = some p →
      (reverse c).addr p = c.addr (mirror c.shape p) ∧
      (positions c.shape)[(positions c.shape).length - 1 - j]? = some (mirror c.shape p) :=
    fun j p hp => ⟨hrev p (mem_positions.1 (List.mem_of_getElem? hp)), place_mirror hp⟩
  have low : ∀ (j : Nat), j < (positions c.shape).length → j ≤ (positions c.shape).length - 1 - j →
      ys[j]? = xs[(positions c.shape).length - 1 - j]? := by
    intro j hj hle
    have hp := List.getElem?_eq_getElem hj
    obtain ⟨e1, e2⟩ := back j _ hp
    rw [cell m' ys hy j _ hp, cell m xs hx _ _ e2, ← e1]
    refine (h3 _ (mem_positions.1 (List.mem_of_getElem? hp))).1 fun q hq hlt e => ?_
    rw [e1] at e
    have := hd _ _ hq (mem_positions.1 (List.mem_of_getElem? e2)) e
    rw [this, lt_iff _ _ _ _ e2 hp] at hlt
    omega
  rw [hlen]
  rcases Nat.lt_or_ge ((positions c.shape).length - 1 - k) k with hlt | hge
  · rw [Nat.max_eq_left hlt.le]
    have hp := List.getElem?_eq_getElem hk
    obtain ⟨e1, e2⟩ := back k _ hp
    have hlow := low ((positions c.shape).length - 1 - k) (by omega) (by omega)
    rw [show (positions c.shape).length - 1 - ((positions c.shape).length - 1 - k) = k by omega] at hlow
    rw [← hlow, cell m' ys hy k _ hp, cell m' ys hy _ _ e2]
    exact (h3 _ (mem_positions.1 (List.mem_of_getElem? hp))).2 _ (mem_positions.1 (List.mem_of_getElem? e2))
      ((lt_iff _ _ _ _ e2 hp).2 hlt) e1.symm
  · rw [Nat.max_eq_right hge]
    exact low k hk hge

example : ((do
    let m ← copy (oneBlock 0 [1, 2, 3, 4, 5]) (.ofShape ⟨0, 0⟩ [5]) (reverse (.ofShape ⟨0, 0⟩ [5])) 0
    reduce m (.ofShape ⟨0, 0⟩ [5]) (fun a e => a ++ [e]) []) : Res (List Int)) = .ok [5, 4, 3, 4, 5] := by decide +kernel

/-- **C118** is false: moving three elements up by one cell. -/
theorem C118_overlap_false : ¬ C118_statement := by
  intro h
  have h3 := (C118_shift_partial (α := Int) (a := 0) (b := 1) (by decide) 0 1 0 3).1 fun m hv hi =>
    h _ _ m rfl (default_distinct (ofShape_default (by simp))) (default_distinct (ofShape_default (by simp))) hv hi
  omega

end Kwk
