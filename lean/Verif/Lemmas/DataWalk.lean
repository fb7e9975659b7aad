import Verif.Spec.Arrays
import Verif.Props.Walk
import Verif.Props.Sequences

/-! # Lemmas: algorithms on the elements of containers of all integer types -/

namespace Kwk
open Spec

variable {α β γ σ : Type}

/-! ## The same cells -/

/-- At the positions of the box `s`, given as counters of its types, the container has its elements where `b` has them. -/
def SameCells (s : List Coord) (c : DataT) (b : Container) : Prop :=
  ∀ p, InBox (vals s) p → c.addr (typedAs s p) = .ok (b.addr p)

theorem loopFuel_gt {s : List Coord} : 0 < loopFuel s ∧ ∀ d ∈ s, d.value < loopFuel s := by
  refine ⟨by unfold loopFuel; omega, ?_⟩
  unfold loopFuel
  induction s with
  | nil => simp
  | cons d s ih =>
    intro e he
    simp only [List.map_cons, List.foldr_cons]
    rcases List.mem_cons.1 he with rfl | he
    · omega
    · have := ih e he
      omega

theorem addrs_ok {s : List Coord} {cs : List DataT} {bs : List Container} (h : List.Forall₂ (SameCells s) cs bs) {p : List Int}
    (hp : InBox (vals s) p) : cs.mapM (fun c => c.addr (typedAs s p)) = .ok (bs.map fun b => b.addr p) := by
  induction h with
  | nil => rfl
  | cons h _ ih =>
    rw [List.mapM_cons, h p hp, ih]
    rfl

/-- What stands for a container in the model without types. -/
structure Stands (c : DataT) (b : Container) : Prop where
  fits : ∀ d ∈ c.shape, d.type.Fits d.value
  shape : vals c.shape = b.shape
  cells : SameCells c.shape c b

theorem mapCtxD_eq {c0 : DataT} {b0 : Container} (h0 : Stands c0 b0) {cs : List DataT} {bs : List Container}
    (h : List.Forall₂ (SameCells c0.shape) cs bs) (f : Ptr → List Ptr → σ × Mem α → Res (σ × Mem α)) (s : σ) (m : Mem α) :
    mapCtxD f c0 cs s m = mapCtx f b0 bs s m := by
  unfold mapCtxD mapCtx loopState
  rw [(C60_loops_terminate (σ := σ × Mem α) c0.shape h0.fits _ loopFuel_gt.1 loopFuel_gt.2).1, forEach_eq, forEach_eq, ← h0.shape]
  rw [runAll_congr]
  intro p hp
  have hp := mem_positions.1 hp
  funext sm
  rw [h0.cells p hp, addrs_ok h hp]
  rfl

theorem mapIndexCtxD_eq {c : DataT} {b : Container} (h : Stands c b) (f : Ptr → List Coord → σ × Mem α → Res (σ × Mem α)) (s : σ)
    (m : Mem α) : mapIndexCtxD f c s m = mapIndexCtx (fun a is => f a (typedAs c.shape is)) b s m := by
  unfold mapIndexCtxD mapIndexCtx loopState
  rw [(C60_loops_terminate (σ := σ × Mem α) c.shape h.fits _ loopFuel_gt.1 loopFuel_gt.2).1, forEach_eq, forEach_eq, ← h.shape]
  rw [runAll_congr]
  intro p hp
  have hp := mem_positions.1 hp
  funext sm
  rw [h.cells p hp]
  rfl

theorem reduceD_eq {c : DataT} {b : Container} (h : Stands c b) (m : Mem α) (f : β → α → β) (init : β) :
    reduceD m c f init = reduce m b f init := by
  unfold reduceD reduce reduceRun
  rw [mapCtxD_eq h .nil]

/-! ## Searching -/

theorem findIfD_eq {c : DataT} {b : Container} (h : Stands c b) (m : Mem α) (f : α → Res Bool) :
    findIfD m c f = (findIfM (m := Res) (fun is => b.get m is) f b.shape).map (·.map fun p => storePosition (typedAs c.shape p)) := by
  unfold findIfD findIfM
  rw [(C60_loops_terminate (σ := List Int) c.shape h.fits _ loopFuel_gt.1 loopFuel_gt.2).2, forUntil_eq, forUntil_eq, ← h.shape]
  have key : ∀ (l : List (List Int)), (∀ p ∈ l, InBox (vals c.shape) p) → ∀ (x y : List Int),
      (match runUntil (m := StateT (List Int) Res) (fun is => fun pos => do
        let a ← c.addr (typedAs c.shape is)
        let v ← load m a
        if (← f v) then pure (true, storePosition (typedAs c.shape is)) else pure (false, pos)) l x with
        | .error e => .error e
        | .ok r => .ok (if r.1 then some r.2 else none)) =
      (match runUntil (m := StateT (List Int) Res) (fun is => do
        let v ← (b.get m is : Res α)
        if (← f v) then
          set is
          pure true
        else pure false) l y with
        | .error e => (.error e : Res (Option (List Int)))
        | .ok r => .ok ((if r.1 then some r.2 else none).map fun p => storePosition (typedAs c.shape p))) := by
    intro l
    induction l with
    | nil => intro _ x y; rfl
    | cons p l ih =>
      intro hl x y
      have hp := hl p (by simp)
      have ih := ih (fun q hq => hl q (by simp [hq]))
      rw [runUntil, runUntil]
      simp only [bind, StateT.bind, Except.bind, h.cells p hp, Container.get, StateT.lift, liftM, monadLift, MonadLift.monadLift]
      cases load m (b.addr p) with
      | error e => rfl
      | ok v =>
        simp only
        cases hf : f v with
        | error e => simp [pure, Except.pure, hf]
        | ok t =>
          simp only [pure, Except.pure, hf]
          cases t with
          | true => rfl
          | false => exact ih x y
  have := key (positions (vals c.shape)) (fun p hp => mem_positions.1 hp) [] []
  simp only [bind, Except.bind]
  simp only [bind, Except.bind] at this
  revert this
  generalize runUntil (m := StateT (List Int) Res) _ _ _ = A
  generalize runUntil (m := StateT (List Int) Res) _ _ _ = B
  intro this
  cases A <;> cases B <;> simp_all [Except.map, pure, Except.pure]

/-! ## Default layout -/

/-- The model without types of a default-layout container. -/
def plainOf (c : DataT) : Container := Container.ofShape c.base (vals c.shape)

theorem plain_default {c : DataT} (h : DefaultD c) : (plainOf c).Default := ofShape_default (by simpa using h.1)

theorem default_bound {c : DataT} (h : DefaultD c) : (vals c.shape).prod < 2 ^ 63 := by
  rcases h.2.2.2 with h | h
  · exact lt_trans h (by norm_num)
  · exact h.2

theorem plain_addr {c : DataT} (h : DefaultD c) {p : List Int} (hp : InBox (vals c.shape) p) :
    (plainOf c).addr p = ⟨c.base.blk, c.base.off + linearize (sfx (vals c.shape)) p⟩ := addr_default (plain_default h) hp

theorem ptrAdd_small {off k : Int} {t : IntType} (h0 : 0 ≤ k) (h1 : k < 2 ^ 63) : ptrAdd off ⟨t, k⟩ = off + k := by
  unfold ptrAdd
  norm_num at h1
  rw [IntType.wrap_fits (t := .i64) (i64_fits.2 ⟨by simp only; omega, by simp only; omega⟩)]

/-- The offset computed by the accessor. -/
theorem default_index {c : DataT} (h : DefaultD c) {p : List Coord} (hp : InBox (vals c.shape) (vals p))
    (hf : ∀ i ∈ p, i.type.Fits i.value) :
    ∃ t, c.index p = .ok ⟨t, linearize (sfx (vals c.shape)) (vals p)⟩ := by
  obtain ⟨hne, hst, hs, hsz⟩ := h
  have hb := lin_bounds hp
  have key : ∃ t, linearizeT c.strides p = .ok ⟨t, linearize (sfx (vals c.shape)) (vals p)⟩ := by
    rcases hsz with h | ⟨h1, h2⟩
    · obtain ⟨t, k, e1, e2⟩ := C70_mixed_index .unchecked hp (by simp) (by norm_num at h; exact h)
      rw [linearIndex_ok .unchecked hp] at e2
      obtain rfl := Except.ok.inj e2
      refine ⟨t, ?_⟩
      unfold linearIndexT at e1
      rw [hst] at e1
      exact e1
    · obtain ⟨⟨t, e1⟩, -⟩ := C146_index_partial .unchecked h1 h2 hp hf (by simp)
      refine ⟨t, ?_⟩
      unfold linearIndexT at e1
      rw [hst] at e1
      rw [← rowPlace_eq]
      exact e1
  unfold DataT.index
  split
  · exact key
  · split
    · next d i e1 e2 =>
      rw [e2]
      exact ⟨i.type, by simp [sfx, linearize]; rfl⟩
    · next d i e1 e2 =>
      rw [e2] at hst hp
      cases hst' : c.strides with
      | nil => rw [hst'] at hst; cases hst
      | cons g gs =>
        rw [hst'] at hst
        obtain ⟨rfl, rfl⟩ := List.cons.inj (Except.ok.inj hst).symm
        obtain ⟨⟨h1, h2⟩, -⟩ := inBox_cons.1 hp
        have hi := hf i (by simp)
        obtain ⟨g1, -⟩ := natural_op (f := (· * ·)) (a := i) (b := fixedOne) ⟨h1, hi⟩ ⟨by decide, by decide⟩
          (by show 0 ≤ i.value * 1; simpa using h1) (by
            show (i.type.common fixedOne.type).Fits (i.value * 1)
            rw [mul_one]; exact (common_fits_nonneg hi h1).1)
        refine ⟨i.type.common fixedOne.type, ?_⟩
        simp only [List.headD_cons]
        rw [e2]
        refine g1.trans ?_
        simp [sfx, linearize, fixedOne]
    · next d0 d1 i1 i0 e1 e2 =>
      rw [e2] at hp hb hsz hs ⊢
      rcases hsz with h | ⟨h1, h2⟩
      · obtain ⟨t, k, g1, g2⟩ := C70_mixed_index_2d .unchecked (d0 := d0) (d1 := d1) (i1 := i1) (i0 := i0) hp (by simpa using h)
        obtain rfl := Except.ok.inj ((linearIndex_ok .unchecked hp).symm.trans g2)
        exact ⟨t, g1⟩
      · obtain ⟨⟨a1, a2⟩, hp⟩ := inBox_cons.1 hp
        obtain ⟨⟨a3, a4⟩, -⟩ := inBox_cons.1 hp
        simp only at a1 a2 a3 a4
        simp only [vals, List.map_cons, List.map_nil, sfx, linearize_cons, linearize_nil_left, List.prod_cons, List.prod_nil, mul_one,
          one_mul] at hb h2
        have hm : 0 ≤ i1.value * d1.value := mul_nonneg a1 (by omega)
        rw [mul_comm d1.value] at hb
        have w1 := h1 d1 (by simp)
        have b1 := IntType.common_bits_ge i1.type d1.type
        obtain ⟨g1, n1⟩ := natural_op (f := (· * ·)) (a := i1) (b := d1) ⟨a1, hf i1 (by simp)⟩ ⟨by omega, (hs d1 (by simp)).2⟩ hm
          (IntType.fits_of_bits64 (by omega) hm (by omega))
        have b2 := IntType.common_bits_ge i0.type (i1.type.common d1.type)
        obtain ⟨g2, -⟩ := natural_op (f := (· + ·)) (a := i0) (b := ⟨i1.type.common d1.type, i1.value * d1.value⟩)
          ⟨a3, hf i0 (by simp)⟩ n1 (by simp only; omega) (IntType.fits_of_bits64 (by simp only; omega) (by simp only; omega)
            (by simp only; omega))
        refine ⟨i0.type.common (i1.type.common d1.type), ?_⟩
        unfold index2T
        rw [show constMul i1 d1 = _ from g1]
        refine Eq.trans (show _ = constAdd _ _ from rfl) (g2.trans ?_)
        simp only [vals, List.map_cons, List.map_nil, sfx, linearize_cons, linearize_nil_left, List.prod_cons, List.prod_nil, mul_one,
          one_mul]
        congr 2
        ring
    · exact key

theorem default_cells {s : List Coord} (hs : ∀ d ∈ s, d.type.Fits d.value) {c : DataT} (h : DefaultD c) (he : vals c.shape = vals s) :
    SameCells s c (plainOf c) := by
  intro p hp
  have hv : vals (typedAs s p) = p := typedAs_vals (by simpa using hp.length_eq.symm)
  obtain ⟨t, e⟩ := default_index h (p := typedAs s p) (by rw [hv, he]; exact hp)
    fun i hi => (typedAs_number (P := fun _ => True) (fun d hd => ⟨trivial, hs d hd⟩) hp i hi).2
  rw [hv] at e
  have hp' : InBox (vals c.shape) p := by rw [he]; exact hp
  have hb := lin_bounds hp'
  have hbd := default_bound h
  unfold DataT.addr
  rw [e, plain_addr h hp']
  show Except.ok _ = Except.ok _
  rw [ptrAdd_small hb.1 (by omega)]

theorem default_stands {c : DataT} (h : DefaultD c) : Stands c (plainOf c) :=
  ⟨fun d hd => (h.2.2.1 d hd).2, rfl, default_cells (fun d hd => (h.2.2.1 d hd).2) h rfl⟩

theorem default_nonNeg {c : DataT} (h : DefaultD c) : NonNeg (vals c.shape) := by
  intro v hv
  obtain ⟨d, hd, rfl⟩ := List.mem_map.1 hv
  exact (h.2.2.1 d hd).1

/-- Values one after the other are the elements in row-major order. -/
theorem array_lists {c : DataT} (h : DefaultD c) {m : Mem α} {xs : List α} (hl : (xs.length : Int) = (vals c.shape).prod) :
    ArrayAt m c.base xs ↔ Lists (plainOf c) m xs := by
  have hpl := positions_length (default_nonNeg h)
  constructor
  · intro ha
    refine lists_of (by show _ = (positions (vals c.shape)).length; omega) fun k p hk => ?_
    have hlt := (List.getElem?_eq_some_iff.1 hk).1
    have hlt' : k < xs.length := by
      have : k < (positions (vals c.shape)).length := hlt
      omega
    refine ⟨xs[k], List.getElem?_eq_getElem hlt', ?_⟩
    have hp : InBox (vals c.shape) p := mem_positions.1 (List.mem_of_getElem? hk)
    rw [get_ok_iff, plain_addr h hp, ← positions_rank (show (positions (vals c.shape))[k]? = some p from hk)]
    exact ha k hlt'
  · intro hx k hk
    have hlt : k < (positions (vals c.shape)).length := by omega
    have e := List.getElem?_eq_getElem hlt
    have hp : InBox (vals c.shape) (positions (vals c.shape))[k] := mem_positions.1 (List.getElem_mem hlt)
    have := congrArg (·[k]?) (show rowMajor (plainOf c) m = _ from hx)
    simp only [rowMajor] at this
    rw [List.getElem?_map, show (positions (plainOf c).shape)[k]? = some _ from e, List.getElem?_map, List.getElem?_eq_getElem hk] at this
    simp only [Option.map_some, Option.some.injEq] at this
    rw [get_ok_iff, plain_addr h hp, ← positions_rank e] at this
    exact this

theorem holds_lists {c : DataT} {m : Mem α} {xs : List α} (h : HoldsD c m xs) : Lists (plainOf c) m xs :=
  (array_lists h.1 h.2.1).1 h.2.2

theorem outside_but {c : DataT} (h : DefaultD c) {m m' : Mem α} (hm : SameOutside (plainOf c) m m') :
    SameBut c.base (vals c.shape).prod m m' := by
  intro q hq
  refine hm q fun p hp e => hq ?_
  rw [plain_addr h hp] at e
  subst e
  have := lin_bounds (show InBox (vals c.shape) p from hp)
  exact ⟨rfl, by simp only; omega, by simp only; omega⟩

end Kwk
