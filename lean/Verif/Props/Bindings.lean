import Verif.Lemmas.Bindings

/-!
# Property C130: shapes, strides and positions can be decomposed by structured bindings

`auto [h, w] = s;` gives names to the extents.  The names read as the extents; names that refer to a shape that is not `const` can be
assigned, which changes this extent and nothing else; without `&` the original is not touched.
-/

namespace Kwk
open Spec

/-- The full property: a declaration that is possible for a single variable is possible for the extents, one name for each. -/
def C130_full : Prop :=
  (∀ (decl : BindDecl) (x : InitExpr) (d : Desc), d ≠ [] → Declarable decl x → ∃ bs, decompose decl x d.length d = some bs) ∧
  (∀ (decl : BindDecl) (x : InitExpr) (n : Nat), 0 < n → Declarable decl x → ∃ bs, decomposePosition decl x n n = some bs)

/-- **C130** (partial) The decomposition of a shape or stride compiles exactly if the declaration is possible, there is one name for each
axis, and either the names are read only or all extents are run-time values.  Missing: names that are not read only for objects with
compile-time extents, for which it does not compile. -/
theorem C130_exact_partial (decl : BindDecl) (x : InitExpr) (n : Nat) (d : Desc) :
    (∃ bs, decompose decl x n d = some bs) ↔
      Declarable decl x ∧ n = d.length ∧ (ReadOnly decl x ∨ ∀ a ∈ d, ∃ t, a.content = .dynamic t) := by
  have hdyn : ∀ a : Axis, a.isDynamic = true ↔ ∃ t, a.content = .dynamic t := by
    intro a
    rw [Axis.isDynamic]
    cases a.content <;> simp
  rw [← Option.isSome_iff_exists, decompose_eq, ← entityOf_isSome]
  cases he : entityOf decl x with
  | none => simp
  | some e =>
    rw [Option.bind_some, ← (entityOf_const he).1]
    by_cases hn : n = d.length
    · rw [if_pos hn, mapM_some_iff]
      simp only [List.mem_range, nameOf_isSome, Option.isSome_some, true_and, hn]
      constructor
      · intro h
        cases hc : e.isConst
        · right
          intro a ha
          obtain ⟨i, hi, rfl⟩ := List.mem_iff_getElem.1 ha
          rcases h i hi with h' | h'
          · rw [hc] at h'; cases h'
          · rw [hasStorage_eq, List.getElem?_eq_getElem hi] at h'
            exact (hdyn _).1 h'
        · exact .inl rfl
      · rintro (h | h) i hi
        · exact .inl h
        · right
          rw [hasStorage_eq, List.getElem?_eq_getElem hi]
          exact (hdyn _).2 (h _ (List.getElem_mem hi))
    · simp [hn]

/-- `auto const& [h, w] = s;` for a shape `3_c x n`. -/
example : ∃ bs, decompose ⟨true, .lref⟩ ⟨true, false⟩ 2 (normalizeExtents [.int 3, .joker]) = some bs :=
  (C130_exact_partial _ _ _ _).2 ⟨⟨by decide, by decide⟩, rfl, .inl (.inl rfl)⟩

/-- `auto [h, w] = s;` for a shape `m x n`, one name too few, and the same for `3_c x n`. -/
example : (∃ bs, decompose ⟨false, .none⟩ ⟨true, false⟩ 2 (normalizeExtents [.joker, .joker]) = some bs) ∧
    (¬ ∃ bs, decompose ⟨false, .none⟩ ⟨true, false⟩ 1 (normalizeExtents [.joker, .joker]) = some bs) ∧
    ¬ ∃ bs, decompose ⟨false, .none⟩ ⟨true, false⟩ 2 (normalizeExtents [.int 3, .joker]) = some bs := by
  refine ⟨(C130_exact_partial _ _ _ _).2 ⟨⟨by decide, by decide⟩, rfl, .inr ?_⟩, fun h => ?_, fun h => ?_⟩
  · intro a ha
    rcases List.mem_cons.1 ha with rfl | ha
    · exact ⟨_, rfl⟩
    · rw [List.mem_singleton.1 ha]; exact ⟨_, rfl⟩
  · exact absurd ((C130_exact_partial _ _ _ _).1 h).2.1 (by decide)
  · rcases ((C130_exact_partial _ _ _ _).1 h).2.2 with (h | h) | h
    · cases h
    · exact h.1 rfl
    · obtain ⟨t, ht⟩ := h _ List.mem_cons_self
      cases ht

/-- **C130** The names read as the extents, in order. -/
theorem C130_read {decl : BindDecl} {x : InitExpr} {n : Nat} {s : Prefilled} {bs : List BoundName}
    (h : decompose decl x n s.desc = some bs) : bs.map (·.read s) = s.values := by
  rw [decompose_eq] at h
  obtain ⟨e, he, h⟩ := Option.bind_eq_some_iff.1 h
  split at h
  · next hn =>
    obtain ⟨hlen, hget⟩ := mapM_some_get h
    rw [List.length_range] at hlen
    apply List.ext_getElem
    · rw [List.length_map, hlen, Prefilled.values, List.length_map, List.length_range, hn]
    · intro i h1 h2
      rw [List.length_map] at h1
      obtain ⟨b, hb, hnm⟩ := hget i i (by rw [List.getElem?_range (by omega)])
      rw [List.getElem?_eq_getElem h1] at hb
      rw [List.getElem_map, Option.some.inj hb, nameOf_eq hnm]
      simp only [Prefilled.values, List.getElem_map, List.getElem_range, BoundName.read]
      cases hs : hasStorage s.desc i
      · rw [get_static hs, getMember, index_getD, if_neg (by simp [hs])]
        dsimp only
        cases (s.desc.map (·.content)).getD i (.static 0) <;> rfl
      · rw [get_dyn hs, getMember_dyn hs]
  · cases h

/-- `auto const [h, d, w] = s;` for `4 x 3_c x 7`. -/
example : ∃ bs, decompose ⟨true, .none⟩ ⟨true, false⟩ 3 (normalizeExtents [.joker, .int 3, .joker]) = some bs ∧
    bs.map (·.read ⟨normalizeExtents [.joker, .int 3, .joker], [4, 7]⟩) = [4, 3, 7] :=
  ⟨_, rfl, C130_read (decl := ⟨true, .none⟩) (x := ⟨true, false⟩) (n := 3) (s := ⟨normalizeExtents [.joker, .int 3, .joker], [4, 7]⟩) rfl⟩

/-- **C130** Names that are read only cannot be assigned.  An assignment to any other name changes this extent of the entity, converted to
its type, and no other; the right-hand side changes in the same way if the names refer to it, and not at all otherwise. -/
theorem C130_assign {decl : BindDecl} {x : InitExpr} {n : Nat} {s : Prefilled} {bs : List BoundName} {e : Entity} (hw : s.WF)
    (h : decompose decl x n s.desc = some bs) (he : entityOf decl x = some e) {i : Nat} {b : BoundName} (hb : bs[i]? = some b) (v : Int) :
    (ReadOnly decl x → ∀ w, b.assign e.copy v w = none) ∧
    (¬ ReadOnly decl x → ∃ w, b.assign e.copy v ⟨s, s⟩ = some w ∧
      w.ent.values = s.values.set i ((storedType s.desc i).wrap v) ∧
      w.orig.values = if decl.ref = .none then s.values else s.values.set i ((storedType s.desc i).wrap v)) := by
  have hex := ((C130_exact_partial decl x n s.desc).1 ⟨bs, h⟩)
  rw [decompose_eq, he, Option.bind_some, if_pos hex.2.1] at h
  obtain ⟨hlen, hget⟩ := mapM_some_get h
  rw [List.length_range] at hlen
  have hi : i < n := by rw [← hlen]; exact (List.getElem?_eq_some_iff.1 hb).1
  obtain ⟨b', hb', hnm⟩ := hget i i (by rw [List.getElem?_range hi])
  rw [hb] at hb'
  cases hb'
  have hbe := nameOf_eq hnm
  obtain ⟨hc, hcopy⟩ := entityOf_const he
  constructor
  · intro hr w
    rw [hbe, hc.2 hr, BoundName.assign]
    cases (getMember s.desc true i).target <;> rfl
  · intro hr
    have hf : e.isConst = false := by
      cases h' : e.isConst
      · rfl
      · exact absurd (hc.1 h') hr
    have hst : hasStorage s.desc i = true := by
      rcases (nameOf_isSome s.desc e.isConst i).1 (by rw [hnm]; rfl) with h' | h'
      · rw [hf] at h'; cases h'
      · exact h'
    have hset : ({ s with storage := s.storage.set (slot s.desc i) ((cellType s.desc (slot s.desc i)).wrap v) } : Prefilled) = s.set i v := by
      rw [Prefilled.set, index_getD, if_pos hst]
    have hvals : (s.set i v).values = s.values.set i ((storedType s.desc i).wrap v) := by
      apply List.ext_getElem
      · simp [Prefilled.values, set_desc]
      · intro j h1 h2
        simp only [Prefilled.values, List.getElem_map, List.getElem_range, set_get hw hst, List.getElem_set]
        by_cases hj : j = i
        · subst hj; simp
        · rw [if_neg hj, if_neg (fun h => hj h.symm)]
    refine ⟨_, by rw [hbe, hf, getMember_dyn hst, BoundName.assign]; rfl, ?_, ?_⟩
    · show Prefilled.values _ = _
      rw [hset, hvals]
    · show Prefilled.values (if e.copy then s else _) = _
      rw [hset]
      by_cases hr : decl.ref = .none
      · rw [if_pos (hcopy.2 hr), if_pos hr]
      · rw [if_neg (fun h => hr (hcopy.1 h)), if_neg hr, hvals]

/-- `auto& [h, w] = s; w = 9;` and `auto [h, w] = s; w = 9;` for `4 x 7`. -/
example : ∃ bs b w w', decompose ⟨false, .lref⟩ ⟨true, false⟩ 2 (normalizeExtents [.joker, .joker]) = some bs ∧ bs[1]? = some b ∧
    b.assign false 9 ⟨⟨normalizeExtents [.joker, .joker], [4, 7]⟩, ⟨normalizeExtents [.joker, .joker], [4, 7]⟩⟩ = some w ∧
    b.assign true 9 ⟨⟨normalizeExtents [.joker, .joker], [4, 7]⟩, ⟨normalizeExtents [.joker, .joker], [4, 7]⟩⟩ = some w' ∧
    w.orig.values = [4, 9] ∧ w'.orig.values = [4, 7] ∧ w'.ent.values = [4, 9] :=
  ⟨_, _, _, _, rfl, rfl, rfl, rfl, by decide, by decide, by decide⟩

/-- **C130** (partial) The strides of a shape, which end with a compile-time 1, can be decomposed exactly into names that are read only.
Missing: other names. -/
theorem C130_strides_partial (decl : BindDecl) (x : InitExpr) (n : Nat) {d : Desc} (h0 : d ≠ []) :
    (∃ bs, decompose decl x n (strideDesc d) = some bs) ↔ Declarable decl x ∧ n = d.length ∧ ReadOnly decl x := by
  obtain ⟨hl, a, ha, hs⟩ := strideDesc_last h0
  rw [C130_exact_partial, hl]
  constructor
  · rintro ⟨h1, h2, h3 | h3⟩
    · exact ⟨h1, h2, h3⟩
    · obtain ⟨t, ht⟩ := h3 a ha
      rw [hs] at ht
      cases ht
  · rintro ⟨h1, h2, h3⟩
    exact ⟨h1, h2, .inl h3⟩

/-- `auto const [a, b] = as_stride(s);` for a shape `m x n`. -/
example : ∃ bs, decompose ⟨true, .none⟩ ⟨false, false⟩ 2 (strideDesc (normalizeExtents [.joker, .joker])) = some bs :=
  (C130_strides_partial _ _ _ (by decide)).2 ⟨⟨by decide, by decide⟩, rfl, .inl rfl⟩

/-- **C130** is false for positions: they cannot be decomposed at all, although they say how many coordinates they have. -/
theorem C130_positions_never (decl : BindDecl) (x : InitExpr) (n sz : Nat) (h : 0 < n) : decomposePosition decl x n sz = none := by
  rw [decomposePosition]
  cases entityOf decl x with
  | none => rfl
  | some e =>
    simp only [Option.bind_eq_bind, Option.bind_some]
    by_cases hn : n = sz
    · rw [if_pos hn]
      obtain ⟨k, rfl⟩ : ∃ k, n = k + 1 := ⟨n - 1, by omega⟩
      rw [List.range_succ_eq_map, List.mapM_cons, positionElement, if_neg (by omega)]
      rfl
    · rw [if_neg hn]

/-- The position found in a container with two axes: `auto [i, j] = *find(...)`. -/
example : decomposePosition ⟨false, .none⟩ ⟨true, false⟩ 2 2 = none := C130_positions_never _ _ _ _ (by decide)

/-- **C130** is false: `auto [h, w] = of_size(3_c, 4);` does not compile (the constant returned by `get` is `const`, the type announced by
`tuple_element` is not). -/
theorem C130_full_false : ¬ C130_full ∧
    decompose ⟨false, .none⟩ ⟨false, false⟩ 2 (normalizeExtents [.int 3, .joker]) = none ∧
    decompose ⟨false, .none⟩ ⟨true, false⟩ 2 (strideDesc (normalizeExtents [.joker, .joker])) = none := by
  refine ⟨fun h => ?_, by decide, by decide⟩
  obtain ⟨bs, hbs⟩ := h.2 ⟨false, .none⟩ ⟨true, false⟩ 1 (by decide) ⟨by decide, by decide⟩
  rw [C130_positions_never _ _ _ _ (by decide)] at hbs
  cases hbs

end Kwk
