import Verif.Spec.AxisOps
import Verif.Lemmas.TypedShape
import Verif.Lemmas.Reader
import Verif.Props.Axes

/-!
# Properties C114 and C115: the container concepts, and axes as values
-/

namespace Kwk
open Spec

/-! ## C114 -/

variable {τ : Type} [DecidableEq τ]

/-- **C114** `concepts::container<T, settings...>` accepts `T` iff `T` has the wanted value type, and its shape type has
the order of the wanted one and all its compile-time extents, in the same places. -/
theorem C114_container (t : ContainerType τ) (w : Wanted τ) :
    isContainer t w = true ↔ (∀ u, w.elem = some u → t.elem = u) ∧
      ∀ e, w.size = some e → e.length = t.shape.length ∧
        ∀ (i : Nat) (a b : Axis) (x : Int), e[i]? = some a → t.shape[i]? = some b → a.content = .static x →
          b.content = .static x := by
  unfold isContainer
  rw [Bool.and_eq_true, decide_eq_true_eq, C62_is_similar]
  refine and_congr ?_ ?_
  · cases w.elem <;> simp
  · cases w.size with
    | none =>
      simp only [Option.getD_none, true_and, reduceCtorEq, false_implies, implies_true, iff_true]
      intro i a b x ha hb hx
      rw [ha] at hb; cases hb; exact hx
    | some e =>
      simp only [Option.getD_some, Option.some.injEq]
      exact ⟨fun h e' he => he ▸ h, fun h => h e rfl⟩

example := (C114_container ⟨0, normalizeExtents [.int 2, .joker], .view⟩ ⟨some 0, some (normalizeExtents [.int 2, .joker])⟩).1 (by decide)

/-- **C114** (categories) A container is accepted either as a table or as a view, never as both. -/
theorem C114_categories (t : ContainerType τ) (w : Wanted τ) :
    (isContainer t w = true ↔ (isTable t w = true ∨ isView t w = true)) ∧ ¬ (isTable t w = true ∧ isView t w = true) := by
  unfold isTable isView
  cases isContainer t w <;> cases t.kind <;> simp

/-- The tests of the library: `shape<5,5,_>` is accepted for `shape<5,_,_>`, `_3D` is not. -/
example : isContainer (τ := Nat) ⟨0, normalizeExtents [.int 5, .int 5, .joker], .view⟩ { size := some (normalizeExtents [.int 5, .joker, .joker]) } =
      true ∧
    isContainer (τ := Nat) ⟨0, normalizeExtents [.joker, .joker, .joker], .view⟩ { size := some (normalizeExtents [.int 5, .joker, .joker]) } =
      false ∧
    isContainer (τ := Nat) ⟨0, normalizeExtents [.joker], .view⟩ { elem := some 1 } = false ∧
    isTable (τ := Nat) ⟨0, normalizeExtents [.joker], .view⟩ {} = false ∧ isView (τ := Nat) ⟨0, normalizeExtents [.joker], .view⟩ {} = true := by
  decide

/-! Full property C114 also asks that the shape of an accepted container can be represented as the wanted one.  False when the
names of the axes are others: `C114_names_false`. -/

private theorem similar_consistent {e d : Desc} {s : Prefilled} (hl : e.length = d.length)
    (hx : ∀ (i : Nat) (a b : Axis) (x : Int), e[i]? = some a → d[i]? = some b → a.content = .static x → b.content = .static x)
    (hs : s.desc = d) : List.Forall₂ Consistent e (s.values.map .val) := by
  rw [List.forall₂_iff_get]
  refine ⟨by simp [values_length, hs, hl], ?_⟩
  intro i h1 h2 x v hx1 hv
  have h3 : i < d.length := by omega
  have hxs := hx i _ _ x (List.getElem?_eq_getElem h1) (List.getElem?_eq_getElem h3) hx1
  have hstor : hasStorage s.desc i = false := by
    rw [hs, hasStorage_eq, List.getElem?_eq_getElem h3]
    simp [Axis.isDynamic, hxs]
  simp only [List.get_eq_getElem, List.getElem_map, Arg.val.injEq, Prefilled.values, List.getElem_range] at hv
  rw [get_static hstor, hs, List.getD_eq_getElem?_getD, List.getElem?_map, List.getElem?_eq_getElem h3] at hv
  simp only [Option.map_some, Option.getD_some, hxs] at hv
  exact hv.symm

/-- **C114** (partial) The shape of a container accepted for the shape type `e`, with the same names, converts to `e`, whatever its
extents are, and keeps them.  Missing: other names, for which it is false; run-time extents that the types of `e` do not represent. -/
theorem C114_represented_partial (md : Mode) (t : ContainerType τ) (w : Wanted τ) (e : Desc) (hw : w.size = some e) (he : e ≠ [])
    (ha : isContainer t w = true) (hn : e.map (·.id) = t.shape.map (·.id)) (s : Prefilled) (hs : s.desc = t.shape)
    (hf : List.Forall₂ (Storable 0) e (s.values.map .val)) :
    isConstructibleFrom e t.shape = true ∧
      ∃ r, convertPrefilled md e s = .ok r ∧ r.desc = e ∧ r.values = s.values := by
  obtain ⟨hl, hx⟩ := ((C114_container t w).1 ha).2 e hw
  have hsim : isSimilar e t.shape = true := (C62_is_similar e t.shape).2 ⟨hl, hx⟩
  have hcv : convertShape e.length s.values = s.values := by
    rw [convertShape, if_pos (by rw [values_length, hs, hl])]
  refine ⟨?_, ?_⟩
  · rw [isConstructibleFrom, if_pos hl, Bool.and_eq_true]
    refine ⟨?_, (C110_similar_compatible e t.shape hsim).1⟩
    rw [isEquivalent, if_pos hl, List.all_eq_true]
    intro p hp
    obtain ⟨k, hk, e1⟩ := List.mem_iff_getElem.1 hp
    rw [List.getElem_zip] at e1
    simp only [List.length_zip] at hk
    have := congrArg (fun l => l[k]?) hn
    simp only [List.getElem?_map, List.getElem?_eq_getElem (show k < e.length by omega),
      List.getElem?_eq_getElem (show k < t.shape.length by omega), Option.map_some, Option.some.injEq] at this
    rw [← e1]
    exact decide_eq_true this
  · have hsd : s.desc ≠ [] := by
      rw [hs]; intro e0; rw [e0] at hl; exact he (List.length_eq_zero_iff.1 hl)
    have hc : List.Forall₂ Consistent e ((convertShape e.length s.values).map .val) := by
      rw [hcv]; exact similar_consistent hl hx hs
    obtain ⟨r, h1, h2, -, h3⟩ := (C18_conversion md e s he hsd (by rw [hcv]; exact hf)).1 hc
    exact ⟨r, h1, h2, by rw [h3, hcv]⟩

example : ∃ r, convertPrefilled .checked (normalizeExtents [.int 5, .joker]) ⟨normalizeExtents [.int 5, .joker], [3]⟩ = .ok r ∧
    r.values = [5, 3] := ⟨_, rfl, by decide⟩

/-- **C114** (exact condition) The shape of an accepted container converts to the wanted shape type and keeps its extents exactly if
the names of the axes are the wanted ones and the wanted types represent the extents. -/
theorem C114_exact_partial (md : Mode) (t : ContainerType τ) (w : Wanted τ) (e : Desc) (hw : w.size = some e) (he : e ≠ [])
    (ha : isContainer t w = true) (s : Prefilled) (hs : s.desc = t.shape) (hp : ProperTypes e) :
    (isConstructibleFrom e t.shape = true ∧ ∃ r, convertPrefilled md e s = .ok r ∧ r.desc = e ∧ r.values = s.values) ↔
      e.map (·.id) = t.shape.map (·.id) ∧ List.Forall₂ (Storable 0) e (s.values.map .val) := by
  refine ⟨fun ⟨h1, r, h2, _, h3⟩ => ?_, fun ⟨hn, hf⟩ => C114_represented_partial md t w e hw he ha hn s hs hf⟩
  obtain ⟨hl, hx⟩ := ((C114_container t w).1 ha).2 e hw
  have hcv : convertShape e.length s.values = s.values := by
    rw [convertShape, if_pos (by rw [values_length, hs, hl])]
  constructor
  · rw [isConstructibleFrom, if_pos hl, Bool.and_eq_true, isEquivalent, if_pos hl, List.all_eq_true] at h1
    refine List.ext_getElem (by simpa using hl) fun i h4 h5 => ?_
    have h4 : i < e.length := by simpa using h4
    have h5 : i < t.shape.length := by simpa using h5
    have := h1.1 (e[i], t.shape[i]) (by
      rw [← List.getElem_zip (h := by simp; omega)]; exact List.getElem_mem _)
    simpa using this
  · have hc : List.Forall₂ Consistent e ((convertShape e.length s.values).map .val) := by
      rw [hcv]; exact similar_consistent hl hx hs
    obtain ⟨r', g1, -, g2, -⟩ := C18_converted md e s hp hc
    rw [g1] at h2
    cases h2
    rw [hcv] at g2
    exact g2.1 h3

example : (convertPrefilled .checked (normalizeExtents [.int 5, .type .u8]) ⟨normalizeExtents [.int 5, .joker], [300]⟩).map (·.values) =
    .ok [5, 44] := by decide

/-- **C114** (negation) A container with axes `height, width` is accepted where `width, height` are wanted, but its shape does not
convert. -/
theorem C114_names_false :
    let wh := normalizeExtents [.axis (.named "width") none, .axis (.named "height") none]
    let hw := normalizeExtents [.axis (.named "height") none, .axis (.named "width") none]
    isContainer (τ := Nat) ⟨0, hw, .table⟩ { size := some wh } = true ∧ isConstructibleFrom wh hw = false := by decide

/-- **C114** The full property (value types numbered). -/
def C114_statement : Prop :=
  ∀ (md : Mode) (t : ContainerType Nat) (w : Wanted Nat),
    (isContainer t w = true ↔ (∀ u, w.elem = some u → t.elem = u) ∧
      ∀ e, w.size = some e → e.length = t.shape.length ∧
        ∀ (i : Nat) (a b : Axis) (x : Int), e[i]? = some a → t.shape[i]? = some b → a.content = .static x →
          b.content = .static x) ∧
    ((isContainer t w = true ↔ (isTable t w = true ∨ isView t w = true)) ∧ ¬ (isTable t w = true ∧ isView t w = true)) ∧
    (∀ e, w.size = some e → e ≠ [] → isContainer t w = true → ∀ s : Prefilled, s.desc = t.shape →
      List.Forall₂ (Storable 0) e (s.values.map .val) →
      isConstructibleFrom e t.shape = true ∧ ∃ r, convertPrefilled md e s = .ok r ∧ r.desc = e ∧ r.values = s.values)

theorem C114_statement_false : ¬ C114_statement := by
  intro h
  have := ((h .checked ⟨0, normalizeExtents [.axis (.named "height") none, .axis (.named "width") none], .table⟩
    { size := some (normalizeExtents [.axis (.named "width") none, .axis (.named "height") none]) }).2.2 _ rfl (by decide)
    C114_names_false.1 ⟨normalizeExtents [.axis (.named "height") none, .axis (.named "width") none], [2, 3]⟩ rfl
    (.cons (fun t ht => by cases ht; decide) (.cons (fun t ht => by cases ht; decide) .nil))).1
  exact absurd this (by decide)

/-! ## C115 -/

private theorem code_named {a : AxisId} : a.code = none ↔ Named a := by cases a <;> simp [AxisId.code, Named]

private theorem ofCode_code {a : AxisId} {i : Int} (h : a.code = some i) : AxisId.ofCode i = a := by
  cases a with
  | implicit n =>
    simp only [AxisId.code, Option.some.injEq] at h
    subst h
    rw [AxisId.ofCode, if_pos (by omega)]
    congr 1; omega
  | along n =>
    simp only [AxisId.code, Option.some.injEq] at h
    subst h
    rw [AxisId.ofCode, if_neg (by omega)]
    congr 1
  | named s => simp [AxisId.code] at h

private theorem before_code {a b : AxisId} {i j : Int} (ha : a.code = some i) (hb : b.code = some j) : Before a b ↔ i < j := by
  cases a <;> cases b <;> simp [AxisId.code] at ha hb <;> subst ha <;> subst hb <;> simp [Before] <;> omega

private theorem mergeId_cases (a b : AxisId) :
    (Named b ∧ mergeId a b = b) ∨ (¬ Named b ∧ Named a ∧ mergeId a b = a) ∨
      (¬ Named b ∧ ¬ Named a ∧ (mergeId a b = a ∧ ¬ Before b a ∨ mergeId a b = b ∧ ¬ Before a b)) := by
  simp only [← code_named]
  unfold mergeId
  cases ha : a.code with
  | none => cases hb : b.code <;> simp
  | some i =>
    cases hb : b.code with
    | none => simp
    | some j =>
      refine .inr (.inr ⟨by simp, by simp, ?_⟩)
      rw [before_code ha hb, before_code hb ha]
      simp only
      by_cases hij : j < i
      · right; rw [min_eq_left (by omega), ofCode_code hb]; exact ⟨rfl, by omega⟩
      · left; rw [min_eq_right (by omega), ofCode_code ha]; exact ⟨rfl, by omega⟩

private theorem before_trans_not {a b c : AxisId} (ha : ¬ Named a) (hb : ¬ Named b) (hc : ¬ Named c) (h1 : ¬ Before a b)
    (h2 : ¬ Before b c) : ¬ Before a c := by
  rw [← code_named] at ha hb hc
  obtain ⟨i, hi⟩ := Option.ne_none_iff_exists'.1 ha
  obtain ⟨j, hj⟩ := Option.ne_none_iff_exists'.1 hb
  obtain ⟨k, hk⟩ := Option.ne_none_iff_exists'.1 hc
  rw [before_code hi hj] at h1
  rw [before_code hj hk] at h2
  rw [before_code hi hk]
  omega

private theorem before_irrefl (a : AxisId) : ¬ Before a a := by cases a <;> simp [Before]

/-- One more axis. -/
private theorem namesGroup_snoc {l : List AxisId} {r : AxisId} (h : NamesGroup l r) (b : AxisId) : NamesGroup (l ++ [b]) (mergeId r b) := by
  obtain ⟨hm, h⟩ := h
  rcases mergeId_cases r b with ⟨hb, e⟩ | ⟨hb, hr, e⟩ | ⟨hb, hr, h2⟩
  · rw [e]
    exact ⟨by simp, .inl ⟨hb, l, [], rfl, by simp⟩⟩
  · rw [e]
    refine ⟨by simp [hm], .inl ⟨hr, ?_⟩⟩
    rcases h with ⟨-, xs, ys, rfl, hy⟩ | ⟨h0, -⟩
    · refine ⟨xs, ys ++ [b], by simp, ?_⟩
      intro y hy'
      rcases List.mem_append.1 hy' with h | h
      · exact hy y h
      · rw [List.mem_singleton.1 h]; exact hb
    · exact absurd hr (h0 r hm)
  · rcases h with ⟨h0, -⟩ | ⟨h0, h1⟩
    · exact absurd h0 hr
    · have hall : ∀ x ∈ l ++ [b], ¬ Named x := by
        intro x hx
        rcases List.mem_append.1 hx with h | h
        · exact h0 x h
        · rw [List.mem_singleton.1 h]; exact hb
      rcases h2 with ⟨e, h2⟩ | ⟨e, h2⟩ <;> rw [e]
      · refine ⟨by simp [hm], .inr ⟨hall, ?_⟩⟩
        intro x hx
        rcases List.mem_append.1 hx with h | h
        · exact h1 x h
        · rw [List.mem_singleton.1 h]; exact h2
      · refine ⟨by simp, .inr ⟨hall, ?_⟩⟩
        intro x hx
        rcases List.mem_append.1 hx with h | h
        · exact before_trans_not (h0 x h) hr hb (h1 x h) h2
        · rw [List.mem_singleton.1 h]; exact before_irrefl b

private theorem merge_fold (as : List AxisVal) : ∀ (a : AxisVal) (ids : List AxisId), NamesGroup ids a.id →
    (∀ c, a.value = some c → GoodExtent c) → (∀ x ∈ as, ∀ c, x.value = some c → GoodExtent c) →
    max 1 ((a.value.map (·.value)).getD 1) * paddedCount (as.filterMap fun x => x.value.map (·.value)) < 2147483648 →
    ∃ r, as.foldlM mergeAxes a = .ok r ∧ NamesGroup (ids ++ as.map (·.id)) r.id ∧
      ((a.value = none ∨ ∃ x ∈ as, x.value = none) → r.value = none) ∧
      ∀ c, a.value = some c → (∀ x ∈ as, x.value ≠ none) →
        r.value.map (·.value) = some (c.value * (as.filterMap fun x => x.value.map (·.value)).prod) := by
  induction as with
  | nil =>
    intro a ids hn _ _ _
    exact ⟨a, rfl, by simpa using hn, by simp, fun c hc _ => by rw [hc]; simp⟩
  | cons b as ih =>
    intro a ids hn ha hs hp
    have hs' : ∀ x ∈ as, ∀ c, x.value = some c → GoodExtent c := fun x hx => hs x (List.mem_cons_of_mem _ hx)
    have hP := paddedCount_pos (as.filterMap fun x => x.value.map (·.value))
    have hn' := namesGroup_snoc hn b.id
    have hid : ids ++ [b.id] ++ as.map (·.id) = ids ++ (b :: as).map (·.id) := by simp
    rw [List.foldlM_cons]
    by_cases hj : a.value = none ∨ b.value = none
    · have e : mergeAxes a b = .ok ⟨mergeId a.id b.id, none⟩ := by
        unfold mergeAxes
        have : mulValue a.value b.value = .ok none := by
          rcases hj with h | h
          · rw [h]; rfl
          · rw [h]; cases a.value <;> rfl
        rw [this]; rfl
      rw [e]
      have hb : max 1 (((none : Option Coord).map (·.value)).getD 1) * paddedCount (as.filterMap fun x => x.value.map (·.value)) <
          2147483648 := by
        have : paddedCount (as.filterMap fun x => x.value.map (·.value)) ≤
            paddedCount ((b :: as).filterMap fun x => x.value.map (·.value)) := by
          rw [List.filterMap_cons]
          cases b.value.map (·.value) with
          | none => exact le_refl _
          | some v =>
            simp only
            rw [paddedCount_cons]
            have : (1 : Int) ≤ max 1 v := le_max_left _ _
            nlinarith
        have h1 : (1 : Int) ≤ max 1 ((a.value.map (·.value)).getD 1) := le_max_left _ _
        simp only [Option.map_none, Option.getD_none, max_self, one_mul]
        nlinarith
      obtain ⟨r, h1, h2, h3, -⟩ := ih ⟨mergeId a.id b.id, none⟩ _ hn' (by simp) hs' hb
      refine ⟨r, h1, hid ▸ h2, fun _ => h3 (.inl rfl), ?_⟩
      intro c hc h0
      rcases hj with h | h
      · rw [h] at hc; cases hc
      · exact absurd h (h0 b (by simp))
    · obtain ⟨c, hc⟩ := Option.ne_none_iff_exists'.1 (fun h => hj (.inl h))
      obtain ⟨d, hd⟩ := Option.ne_none_iff_exists'.1 (fun h => hj (.inr h))
      have gc := ha c hc
      have gd := hs b (by simp) d hd
      simp only [List.filterMap_cons, hc, hd, Option.map_some, Option.getD_some] at hp ⊢
      rw [paddedCount_cons] at hp
      generalize hPP : paddedCount (as.filterMap fun x => x.value.map (·.value)) = P at *
      have m1 : (1 : Int) ≤ max 1 c.value := le_max_left _ _
      have m2 : (1 : Int) ≤ max 1 d.value := le_max_left _ _
      have m3 : c.value ≤ max 1 c.value := le_max_right _ _
      have m4 : d.value ≤ max 1 d.value := le_max_right _ _
      obtain ⟨r, er, hr, gr⟩ := foldlM_constMul_nonneg (hs := [d]) gc (by simpa [vals, NonNeg] using gd.nonneg)
        (by
          show max 1 c.value * paddedCount [d.value] < _
          rw [paddedCount_cons]
          simp only [paddedCount, List.map_nil, List.prod_nil, mul_one]
          nlinarith [mul_nonneg (show (0:Int) ≤ max 1 c.value * max 1 d.value by nlinarith) (show (0:Int) ≤ P - 1 by omega)])
      simp only [vals, List.map_cons, List.map_nil, List.prod_cons, List.prod_nil, mul_one] at hr
      have er' : constMul c d = .ok r := by
        rw [List.foldlM_cons] at er
        cases h : constMul c d with
        | error x => rw [h] at er; cases er
        | ok y => rw [h] at er; cases er; rfl
      have e : mergeAxes a b = .ok ⟨mergeId a.id b.id, some r⟩ := by
        unfold mergeAxes
        rw [hc, hd]
        simp only [mulValue, er']
        rfl
      rw [e]
      have hb : max 1 (((some r : Option Coord).map (·.value)).getD 1) * P < 2147483648 := by
        simp only [Option.map_some, Option.getD_some, hr]
        have : max 1 (c.value * d.value) ≤ max 1 c.value * max 1 d.value :=
          max_le (by nlinarith) (mul_le_mul m3 m4 gd.nonneg (by omega))
        nlinarith
      rw [← hPP] at hb
      obtain ⟨q, h1, h2, h3, h4⟩ := ih ⟨mergeId a.id b.id, some r⟩ _ hn' (by rintro _ ⟨⟩; exact gr) hs' (by simpa [hPP] using hb)
      refine ⟨q, h1, hid ▸ h2, ?_, ?_⟩
      · rintro (h | ⟨x, hx, h⟩)
        · cases h
        · rcases List.mem_cons.1 hx with rfl | hx
          · rw [hd] at h; cases h
          · exact h3 (.inr ⟨x, hx, h⟩)
      · rintro _ ⟨⟩ h0
        rw [h4 r rfl (fun x hx => h0 x (List.mem_cons_of_mem _ hx)), hr, List.prod_cons]
        congr 1; ring

/-- **C115** (merging) Merging axes one after the other gives the axis with the last name among them, or, without names, the
first of them in the order `… implicit<1>, implicit<0>, along<0>, along<1> …`; its value is the product of their values, and is unknown as soon as
one of them is. -/
theorem C115_merge (a : AxisVal) (as : List AxisVal)
    (hg : ∀ x ∈ a :: as, ∀ c, x.value = some c → 0 < c.type.bits ∧ c.type.Fits c.value ∧ 0 ≤ c.value)
    (hp : paddedCount ((a :: as).filterMap fun x => x.value.map (·.value)) < 2 ^ 31) :
    ∃ r, as.foldlM mergeAxes a = .ok r ∧ NamesGroup ((a :: as).map (·.id)) r.id ∧
      ((∃ x ∈ a :: as, x.value = none) → r.value = none) ∧
      ((∀ x ∈ a :: as, x.value ≠ none) →
        r.value.map (·.value) = some ((a :: as).filterMap fun x => x.value.map (·.value)).prod) := by
  have hg' : ∀ x ∈ a :: as, ∀ c, x.value = some c → GoodExtent c :=
    fun x hx c hc => ⟨(hg x hx c hc).1, (hg x hx c hc).2.1, (hg x hx c hc).2.2⟩
  have h0 : NamesGroup [a.id] a.id := by
    refine ⟨by simp, ?_⟩
    by_cases h : Named a.id
    · exact .inl ⟨h, [], [], rfl, by simp⟩
    · exact .inr ⟨by simpa using h, by simpa using before_irrefl _⟩
  have hb : max 1 ((a.value.map (·.value)).getD 1) * paddedCount (as.filterMap fun x => x.value.map (·.value)) < 2147483648 := by
    rw [List.filterMap_cons] at hp
    cases hv : a.value with
    | none => rw [hv] at hp; simpa using hp
    | some c =>
      rw [hv] at hp
      simp only [Option.map_some, paddedCount_cons] at hp
      simpa using hp
  obtain ⟨r, h1, h2, h3, h4⟩ := merge_fold as a [a.id] h0 (hg' a (by simp)) (fun x hx => hg' x (List.mem_cons_of_mem _ hx)) hb
  refine ⟨r, h1, by simpa using h2, ?_, ?_⟩
  · rintro ⟨x, hx, h⟩
    rcases List.mem_cons.1 hx with rfl | hx
    · exact h3 (.inl h)
    · exact h3 (.inr ⟨x, hx, h⟩)
  · intro hall
    obtain ⟨c, hc⟩ := Option.ne_none_iff_exists'.1 (hall a (by simp))
    rw [h4 c hc (fun x hx => hall x (List.mem_cons_of_mem _ hx)), List.filterMap_cons, hc]
    simp

/-- `implicit<2>[3], along<1>[4], along<0>[5]`; `width[3], along<0>[4]`; `width[3], height[_], implicit<0>[2]`. -/
example : [⟨.along 1, some ⟨.i32, 4⟩⟩, ⟨.along 0, some ⟨.i16, 5⟩⟩].foldlM mergeAxes ⟨.implicit 2, some ⟨.u8, 3⟩⟩ =
      .ok ⟨.implicit 2, some ⟨.i32, 60⟩⟩ ∧
    mergeAxes ⟨.named "width", some ⟨.i32, 3⟩⟩ ⟨.along 0, some ⟨.i32, 4⟩⟩ = .ok ⟨.named "width", some ⟨.i32, 12⟩⟩ ∧
    [⟨.named "height", none⟩, ⟨.implicit 0, some ⟨.i32, 2⟩⟩].foldlM mergeAxes ⟨.named "width", some ⟨.i32, 3⟩⟩ =
      .ok ⟨.named "height", none⟩ := by decide

/-- **C115** (equality) Two axes are equal iff they are the same axis and both extents are unknown, or both are known and equal. -/
theorem C115_equal (a b : AxisVal) (ha : ∀ c, a.value = some c → 0 < c.type.bits ∧ c.type.Fits c.value ∧ 0 ≤ c.value)
    (hb : ∀ c, b.value = some c → 0 < c.type.bits ∧ c.type.Fits c.value ∧ 0 ≤ c.value) :
    axisEq a b = true ↔ a.id = b.id ∧ a.value.map (·.value) = b.value.map (·.value) := by
  unfold axisEq
  rw [Bool.and_eq_true, decide_eq_true_eq]
  refine and_congr_right fun _ => ?_
  cases ea : a.value with
  | none => cases eb : b.value <;> simp [valueEq]
  | some c =>
    cases eb : b.value with
    | none => simp [valueEq]
    | some d =>
      obtain ⟨a1, a2, a3⟩ := ha c ea
      obtain ⟨b1, b2, b3⟩ := hb d eb
      rw [valueEq, eqT_nonneg a1 b1 a2 b2 a3 b3, decide_eq_true_eq]
      simp

example : axisEq ⟨.named "width", some ⟨.u8, 3⟩⟩ ⟨.named "width", some ⟨.i64, 3⟩⟩ = true ∧
    axisEq ⟨.named "width", some ⟨.u8, 3⟩⟩ ⟨.named "height", some ⟨.u8, 3⟩⟩ = false ∧
    axisEq ⟨.along 0, none⟩ ⟨.along 0, some ⟨.u8, 3⟩⟩ = false ∧ axisEq ⟨.along 0, none⟩ ⟨.along 0, none⟩ = true := by decide

private theorem toString_int_inj {i j : Int} (h : toString i = toString j) : i = j := by
  have e1 := read_int i false 0
  have e2 := read_int j false 0
  rw [h, e2] at e1
  exact_mod_cast (Option.some.inj e1).symm

/-- The characters before the first `c` do not depend on what follows. -/
private theorem cut_first {c : Char} {x y u v : List Char} (hx : c ∉ x) (hy : c ∉ y) (h : x ++ c :: u = y ++ c :: v) : x = y ∧ u = v := by
  induction x generalizing y with
  | nil =>
    cases y with
    | nil => simpa using h
    | cons d y => simp only [List.nil_append, List.cons_append, List.cons.injEq] at h; exact absurd (h.1 ▸ by simp) hy
  | cons d x ih =>
    cases y with
    | nil => simp only [List.nil_append, List.cons_append, List.cons.injEq] at h; exact absurd (h.1 ▸ by simp) hx
    | cons d' y =>
      simp only [List.cons_append, List.cons.injEq] at h
      obtain ⟨rfl, h⟩ := h
      simp only [List.mem_cons, not_or] at hx hy
      obtain ⟨rfl, rfl⟩ := ih hx.2 hy.2 h
      exact ⟨rfl, rfl⟩

private theorem int_chars (i : Int) : ∀ c ∈ (toString i).toList, c.isDigit = true ∨ c = '-' := by
  intro c hc
  cases i with
  | ofNat n =>
    rw [Int.toString_eq_repr] at hc
    simp only [Int.repr, Nat.toList_repr] at hc
    exact .inl (Nat.isDigit_of_mem_toDigits (by decide) (by decide) hc)
  | negSucc n =>
    rw [Int.toString_eq_repr] at hc
    simp only [Int.repr, String.toList_append, List.mem_append, Nat.toList_repr] at hc
    rcases hc with h | h
    · right; simpa using h
    · exact .inl (Nat.isDigit_of_mem_toDigits (by decide) (by decide) h)

private theorem int_noBracket (i : Int) {c : Char} (h1 : c.isDigit = false) (h2 : c ≠ '-') : c ∉ (toString i).toList := by
  intro h
  rcases int_chars i c h with h | h
  · rw [h] at h1; cases h1
  · exact h2 h

private theorem implicit_text (n : Nat) : (AxisId.implicit n).text = "implicit<" ++ toString (n : Int) ++ ">" := by
  unfold AxisId.text
  simp only [AxisId.code]
  rw [if_pos (by omega), show -(-(n : Int) - 1) - 1 = n by omega]

private theorem along_text (n : Nat) : (AxisId.along n).text = "along<" ++ toString (n : Int) ++ ">" := by
  unfold AxisId.text
  simp only [AxisId.code]
  rw [if_neg (by omega)]

private theorem id_noBracket {a : AxisId} (h : PlainName a) : '[' ∉ a.text.toList := by
  cases a with
  | implicit n =>
    rw [implicit_text]
    simp only [String.toList_append, List.mem_append, not_or]
    exact ⟨⟨by decide, int_noBracket _ (by decide) (by decide)⟩, by decide⟩
  | along n =>
    rw [along_text]
    simp only [String.toList_append, List.mem_append, not_or]
    exact ⟨⟨by decide, int_noBracket _ (by decide) (by decide)⟩, by decide⟩
  | named s => exact h.1

private theorem id_text_inj {a b : AxisId} (ha : PlainName a) (hb : PlainName b) (h : a.text = b.text) : a = b := by
  have hi : ∀ n : Nat, '<' ∈ (AxisId.implicit n).text.toList := by
    intro n; rw [implicit_text]; simp only [String.toList_append, List.mem_append]; exact .inl (.inl (by decide))
  have hl : ∀ n : Nat, '<' ∈ (AxisId.along n).text.toList := by
    intro n; rw [along_text]; simp only [String.toList_append, List.mem_append]; exact .inl (.inl (by decide))
  have num : ∀ (p : String) (m n : Nat), p ++ toString (m : Int) ++ ">" = p ++ toString (n : Int) ++ ">" → m = n := by
    intro p m n h
    have h := congrArg String.toList h
    simp only [String.toList_append, List.append_assoc] at h
    have := List.append_cancel_right (List.append_cancel_left h)
    exact_mod_cast toString_int_inj (String.toList_inj.1 this)
  have diff : ∀ m n : Nat, (AxisId.implicit m).text ≠ (AxisId.along n).text := by
    intro m n h
    rw [implicit_text, along_text] at h
    have h := congrArg (fun s => s.toList.head?) h
    simp only [String.toList_append] at h
    exact absurd h (by simp)
  cases a with
  | implicit m =>
    cases b with
    | implicit n => rw [implicit_text, implicit_text] at h; rw [num _ m n h]
    | along n => exact absurd h (diff m n)
    | named s => exact absurd (show '<' ∈ s.toList from (show (AxisId.implicit m).text = s from h) ▸ hi m) hb.2
  | along m =>
    cases b with
    | implicit n => exact absurd h.symm (diff n m)
    | along n => rw [along_text, along_text] at h; rw [num _ m n h]
    | named s => exact absurd (show '<' ∈ s.toList from (show (AxisId.along m).text = s from h) ▸ hl m) hb.2
  | named s =>
    cases b with
    | implicit n => exact absurd (show '<' ∈ s.toList from (show s = (AxisId.implicit n).text from h) ▸ hi n) ha.2
    | along n => exact absurd (show '<' ∈ s.toList from (show s = (AxisId.along n).text from h) ▸ hl n) ha.2
    | named t => exact congrArg _ h

private theorem value_text_inj {a b : Option Coord} (h : valueText a = valueText b) : a.map (·.value) = b.map (·.value) := by
  have hu : ∀ v : Int, toString v ≠ "_" := by
    intro v e
    exact int_noBracket v (c := '_') (by decide) (by decide) (e ▸ by decide)
  cases a with
  | none => cases b with
    | none => rfl
    | some d => exact absurd h.symm (hu _)
  | some c => cases b with
    | none => exact absurd h (hu _)
    | some d => exact congrArg some (toString_int_inj h)

/-- **C115** (text) Axes are told apart by what is written: if no name contains `[` or `<`, axes written the same are the same axis with
equal extents. -/
theorem C115_text (a b : AxisVal) (ha : PlainName a.id) (hb : PlainName b.id) (h : a.text = b.text) :
    a.id = b.id ∧ a.value.map (·.value) = b.value.map (·.value) := by
  have h := congrArg String.toList h
  simp only [AxisVal.text, String.toList_append, List.append_assoc] at h
  obtain ⟨h1, h2⟩ := cut_first (c := '[') (id_noBracket ha) (id_noBracket hb) h
  exact ⟨id_text_inj ha hb (String.toList_inj.1 h1), value_text_inj (String.toList_inj.1 (List.append_cancel_right h2))⟩

example : (⟨.implicit 2, some ⟨.u8, 65⟩⟩ : AxisVal).text = "implicit<2>[65]" ∧ (⟨.along 1, none⟩ : AxisVal).text = "along<1>[_]" ∧
    (⟨.named "width", some ⟨.i32, -3⟩⟩ : AxisVal).text = "width[-3]" := by decide +kernel
example : PlainName (.named "width") ∧ ¬ PlainName (.named "along<1>") := by simp [PlainName]

end Kwk
