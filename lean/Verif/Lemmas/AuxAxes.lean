import Verif.Lemmas.Prefilled
import Verif.Spec.Axes
import Verif.Props.ShapeAlgebra
import Mathlib.Data.List.Forall2

/-!
# Lemmas for `Props/Axes.lean`
-/

namespace Kwk
open Spec

theorem values_length (s : Prefilled) : s.values.length = s.desc.length := by simp [Prefilled.values]

theorem values_getElem? (s : Prefilled) {i : Nat} (h : i < s.desc.length) : s.values[i]? = some (s.get i) := by
  simp [Prefilled.values, h]

theorem desc_dyn {d : Desc} {i : Nat} {a : Axis} (ha : d[i]? = some a) :
    hasStorage d i = a.isDynamic := by rw [hasStorage_eq, ha]; rfl

theorem storedType_eq {d : Desc} {i : Nat} {a : Axis} {t : IntType} (ha : d[i]? = some a)
    (ht : a.content = .dynamic t) : storedType d i = t := by
  simp [storedType, List.getD_eq_getElem?_getD, ha, ht]

theorem static_value {s : Prefilled} {i : Nat} {a : Axis} {x : Int} (ha : s.desc[i]? = some a)
    (hx : a.content = .static x) : s.get i = x := by
  rw [get_static (by rw [desc_dyn ha]; simp [Axis.isDynamic, hx])]
  simp [List.getD_eq_getElem?_getD, ha, hx]

/-- Agreement of the loop with the specification. -/
theorem agrees_iff {d : Desc} {vs : List Arg} (hl : vs.length = d.length) :
    Agrees (.default d) (numbered vs) ↔ List.Forall₂ Consistent d vs := by
  rw [List.forall₂_iff_get]
  constructor
  · intro h
    refine ⟨hl.symm, ?_⟩
    intro i h1 h2 x w hx hw
    have ha : d[i]? = some d[i] := List.getElem?_eq_getElem h1
    have := h i vs[i] (mem_numbered.2 (List.getElem?_eq_getElem h2)) (by
      rw [show (Prefilled.default d).desc = d from rfl, desc_dyn ha]
      simp only [List.get_eq_getElem] at hx
      simp [Axis.isDynamic, hx])
    simp only [List.get_eq_getElem] at hx hw
    rw [hw, static_value (s := .default d) ha hx] at this
    simpa [staticMatches] using this
  · rintro ⟨_, h⟩ i v hm hi
    have hv := mem_numbered.1 hm
    obtain ⟨h2, hv⟩ := List.getElem?_eq_some_iff.1 hv
    have h1 : i < d.length := by omega
    have ha : d[i]? = some d[i] := List.getElem?_eq_getElem h1
    rw [show (Prefilled.default d).desc = d from rfl, desc_dyn ha] at hi
    cases hc : d[i].content with
    | dynamic t => simp [Axis.isDynamic, hc] at hi
    | static x =>
      rw [static_value (s := .default d) ha hc]
      cases v with
      | joker => rfl
      | val w =>
        have := h i h1 h2 x w (by simpa using hc) (by simpa using hv)
        simp [staticMatches, this]

/-- The loop of the constructors gives the specified extents. -/
theorem fillAxes_values (md : Mode) {d : Desc} {vs : List Arg} (dflt : Int) (hl : vs.length = d.length)
    (hs : List.Forall₂ (Storable dflt) d vs) (hc : md = .checked → List.Forall₂ Consistent d vs) :
    ∃ s, fillAxes md dflt (.default d) (numbered vs) = .ok s ∧ s.desc = d ∧ s.WF ∧
      s.values = List.zipWith (extentOf dflt) d vs := by
  obtain ⟨s, h1, h2, h3, h4, h5⟩ := fillAxes_run md dflt (default_wf d) (numbered vs)
    (by rw [numbered_fst]; exact List.nodup_range) (fun h => (agrees_iff hl).2 (hc h))
  refine ⟨s, h1, h2, h3, ?_⟩
  change s.desc = d at h2
  change ∀ i v, _ → hasStorage d i = true → _ = (storedType d i).wrap _ at h4
  apply List.ext_getElem?
  intro i
  by_cases hi : i < d.length
  · have hv : i < vs.length := by omega
    have ha : d[i]? = some d[i] := List.getElem?_eq_getElem hi
    rw [values_getElem? s (by rw [h2]; exact hi), List.getElem?_zipWith, ha, List.getElem?_eq_getElem hv]
    simp only [Option.some.injEq]
    have hst := (List.forall₂_iff_get.1 hs).2 i hi hv
    simp only [List.get_eq_getElem] at hst
    cases hcont : d[i].content with
    | static x =>
      rw [static_value (by rw [h2]; exact ha) hcont]
      simp [extentOf, hcont]
    | dynamic t =>
      have hw := h4 i vs[i] (mem_numbered.2 (List.getElem?_eq_getElem hv))
        (by rw [desc_dyn ha]; simp [Axis.isDynamic, hcont])
      rw [hw, storedType_eq ha hcont]
      have e : extentOf dflt d[i] vs[i] = asDimension vs[i] dflt := by
        unfold extentOf asDimension
        rw [hcont]
        cases vs[i] <;> rfl
      rw [e]
      exact IntType.wrap_fits (by rw [← e]; exact hst t hcont)
  · rw [List.getElem?_eq_none (by rw [values_length, h2]; omega), List.getElem?_eq_none (by simp; omega)]

/-- What an axis holds after it was given `v`. -/
def heldBy (dflt : Int) (a : Axis) (v : Arg) : Int :=
  match a.content with
  | .static x => x
  | .dynamic t => t.wrap (extentOf dflt a v)

theorem heldBy_eq_iff {dflt : Int} {a : Axis} {v : Arg} (hp : ∀ t, a.content = .dynamic t → 0 < t.bits) :
    heldBy dflt a v = extentOf dflt a v ↔ Storable dflt a v := by
  unfold heldBy Storable
  cases h : a.content with
  | static x => simp [extentOf, h]
  | dynamic t =>
    simp only [Content.dynamic.injEq, forall_eq']
    exact ⟨fun e => e ▸ IntType.wrap_mem t (hp t h) _, IntType.wrap_fits⟩

theorem heldBy_converted {dflt : Int} {a : Axis} {v : Arg} {t : IntType} (h : a.content = .dynamic t) (hp : 0 < t.bits) :
    ConvertedTo t (extentOf dflt a v) (heldBy dflt a v) := by
  unfold heldBy
  rw [h]
  refine ⟨IntType.wrap_mem t hp _, ?_⟩
  simp only [IntType.wrap]
  generalize extentOf dflt a v = x
  have := Int.emod_add_mul_ediv x (2 ^ t.bits)
  split
  · refine ⟨-(x / 2 ^ t.bits) - 1, ?_⟩
    linarith [mul_comm (2 ^ t.bits) (x / 2 ^ t.bits)]
  · refine ⟨-(x / 2 ^ t.bits), ?_⟩
    linarith [mul_comm (2 ^ t.bits) (x / 2 ^ t.bits)]

/-- The loop of the constructors, for any values. -/
theorem fillAxes_held (md : Mode) {d : Desc} {vs : List Arg} (dflt : Int) (hl : vs.length = d.length)
    (hc : md = .checked → List.Forall₂ Consistent d vs) :
    ∃ s, fillAxes md dflt (.default d) (numbered vs) = .ok s ∧ s.desc = d ∧
      s.values = List.zipWith (heldBy dflt) d vs := by
  obtain ⟨s, h1, h2, h3, h4, h5⟩ := fillAxes_run md dflt (default_wf d) (numbered vs)
    (by rw [numbered_fst]; exact List.nodup_range) (fun h => (agrees_iff hl).2 (hc h))
  refine ⟨s, h1, h2, ?_⟩
  change s.desc = d at h2
  change ∀ i v, _ → hasStorage d i = true → _ = (storedType d i).wrap _ at h4
  apply List.ext_getElem?
  intro i
  by_cases hi : i < d.length
  · have hv : i < vs.length := by omega
    have ha : d[i]? = some d[i] := List.getElem?_eq_getElem hi
    rw [values_getElem? s (by rw [h2]; exact hi), List.getElem?_zipWith, ha, List.getElem?_eq_getElem hv]
    simp only [Option.some.injEq]
    cases hcont : d[i].content with
    | static x =>
      rw [static_value (by rw [h2]; exact ha) hcont]
      simp [heldBy, hcont]
    | dynamic t =>
      have hw := h4 i vs[i] (mem_numbered.2 (List.getElem?_eq_getElem hv))
        (by rw [desc_dyn ha]; simp [Axis.isDynamic, hcont])
      rw [hw, storedType_eq ha hcont]
      simp only [heldBy, hcont]
      congr 1
      unfold extentOf asDimension
      rw [hcont]
      cases vs[i] <;> rfl
  · rw [List.getElem?_eq_none (by rw [values_length, h2]; omega), List.getElem?_eq_none (by simp; omega)]

theorem held_iff {dflt : Int} {d : Desc} {vs : List Arg} (hl : vs.length = d.length) (hp : ProperTypes d) :
    List.zipWith (heldBy dflt) d vs = List.zipWith (extentOf dflt) d vs ↔ List.Forall₂ (Storable dflt) d vs := by
  induction d generalizing vs with
  | nil => cases vs <;> simp at hl ⊢
  | cons a d ih =>
    cases vs with
    | nil => simp at hl
    | cons v vs =>
      rw [List.zipWith_cons_cons, List.zipWith_cons_cons, List.cons.injEq, List.forall₂_cons,
        heldBy_eq_iff (hp a (by simp)), ih (by simpa using hl) (fun b hb => hp b (by simp [hb]))]

theorem findAxis_eq {d : Desc} (hnd : (d.map (·.id)).Nodup) {i : Nat} {a : Axis} (ha : d[i]? = some a) :
    findAxis d a.id = i := by
  obtain ⟨hi, e⟩ := List.getElem?_eq_some_iff.1 ha
  rw [findAxis, kumiLocate, List.findIdx_eq hi]
  refine ⟨by simp [e], ?_⟩
  intro j hj
  simp only [decide_eq_false_iff_not]
  intro hid
  have := (List.nodup_iff_injective_get.1 hnd) (a₁ := ⟨j, by simp; omega⟩) (a₂ := ⟨i, by simpa using hi⟩)
    (by simp [hid, e])
  simp at this; omega

/-- Named extents as numbered ones. -/
def located (d : Desc) (vs : List (AxisId × Arg)) : List (Nat × Arg) :=
  vs.map fun av => (findAxis d av.1, av.2)

theorem fillAxes_desc (md : Mode) (dflt : Int) {s s' : Prefilled} (l : List (Nat × Arg))
    (h : fillAxes md dflt s l = .ok s') : s'.desc = s.desc := by
  induction l generalizing s with
  | nil => cases h; rfl
  | cons p l ih =>
    obtain ⟨i, v⟩ := p
    rw [fillAxes_cons] at h
    split at h
    · rw [ih h, set_desc]
    · cases md with
      | unchecked => exact ih h
      | checked =>
        rw [kwkAssert] at h
        split at h
        · exact ih h
        · cases h

theorem constructNamed_eq (md : Mode) (dflt : Int) (s : Prefilled) (vs : List (AxisId × Arg))
    (hd : dynamicSize s.desc ≠ 0) :
    s.constructNamed md dflt vs = fillAxes md dflt s (located s.desc vs) := by
  rw [Prefilled.constructNamed, if_neg hd]
  generalize hD : s.desc = D
  clear hd
  induction vs generalizing s with
  | nil => rfl
  | cons av vs ih =>
    obtain ⟨a, v⟩ := av
    rw [List.foldlM_cons, located, List.map_cons, fillAxes_cons]
    simp only [hD]
    split
    · exact ih _ (by rw [set_desc, hD])
    · cases md with
      | unchecked => exact ih _ hD
      | checked =>
        simp only [kwkAssert]
        split
        · exact ih _ hD
        · rfl

theorem located_nodup {d : Desc} (hnd : (d.map (·.id)).Nodup) {vs : List (AxisId × Arg)}
    (hk : (vs.map (·.1)).Nodup) (hmem : ∀ a ∈ vs.map (·.1), a ∈ d.map (·.id)) :
    ((located d vs).map (·.1)).Nodup := by
  rw [located, List.map_map, show ((fun x : Nat × Arg => x.1) ∘ fun av : AxisId × Arg => (findAxis d av.1, av.2)) =
    (findAxis d) ∘ (fun av => av.1) from rfl, ← List.map_map]
  apply List.Nodup.map_on _ hk
  intro a ha b hb e
  obtain ⟨x, hx, rfl⟩ := List.mem_map.1 (hmem a ha)
  obtain ⟨y, hy, rfl⟩ := List.mem_map.1 (hmem b hb)
  obtain ⟨i, hi⟩ := List.mem_iff_getElem?.1 hx
  obtain ⟨j, hj⟩ := List.mem_iff_getElem?.1 hy
  rw [findAxis_eq hnd hi, findAxis_eq hnd hj] at e
  subst e
  rw [hi] at hj; cases hj; rfl

theorem agrees_located {d : Desc} (hnd : (d.map (·.id)).Nodup) {vs : List (AxisId × Arg)}
    (hc : ∀ a ∈ d, ∀ v, (a.id, v) ∈ vs → Consistent a v) (hmem : ∀ a ∈ vs.map (·.1), a ∈ d.map (·.id)) :
    Agrees (.default d) (located d vs) := by
  intro i v hm hi
  obtain ⟨av, hav, e⟩ := List.mem_map.1 hm
  cases e
  obtain ⟨x, hx, e⟩ := List.mem_map.1 (hmem av.1 (List.mem_map_of_mem hav))
  obtain ⟨i, hi'⟩ := List.mem_iff_getElem?.1 hx
  rw [← e, findAxis_eq hnd hi'] at hi ⊢
  rw [show (Prefilled.default d).desc = d from rfl, desc_dyn hi'] at hi
  cases hcont : x.content with
  | dynamic t => simp [Axis.isDynamic, hcont] at hi
  | static y =>
    rw [static_value (s := .default d) hi' hcont]
    cases hv : av.2 with
    | joker => rfl
    | val w =>
      have := hc x hx av.2 (by rw [e]; exact hav) y w hcont hv
      simp [staticMatches, this]

theorem convert_eq (md : Mode) (d : Desc) (src : Prefilled) :
    convertPrefilled md d src =
      fillAxes md 0 (.default d) (numbered ((convertShape d.length src.values).map .val)) := by
  have hl := values_length src
  rw [convertPrefilled, convertShape, hl]
  split
  · rw [ofValues_eq _ _ _ 0]
  · split
    · rw [Prefilled.ofExtents, if_pos (by simp [hl]; omega), construct_eq, List.map_append, List.map_replicate]
    · rw [ofValues_eq _ _ _ 0]

theorem checker_fold (l : List (Axis × Axis)) :
    l.foldr (fun v acc => checker v.1 v.2 acc acc) true = true ↔
      ∀ p ∈ l, ∀ x y, p.1.content = .static x → p.2.content = .static y → x = y := by
  induction l with
  | nil => simp
  | cons p l ih =>
    rw [List.foldr_cons, List.forall_mem_cons, ← ih]
    unfold checker
    cases h1 : p.1.content <;> cases h2 : p.2.content <;> simp [and_comm]

theorem normalizeExtents_length (es : List Extent) : (normalizeExtents es).length = es.length := by
  simp [normalizeExtents]

theorem normalizeExtents_getElem (es : List Extent) (i : Nat) (h : i < es.length) :
    (normalizeExtents es)[i]'(by simpa [normalizeExtents] using h) =
      normalizeExtent (es.length - 1 - i) (es[i]) := by
  simp [normalizeExtents]

theorem normalizeExtent_id (n : Nat) (e : Extent) :
    (normalizeExtent n e).id = (writtenName e).getD (.implicit n) := by
  rcases e with _ | _ | _ | ⟨a, _ | c⟩ <;> rfl

theorem normalizeExtent_content (n : Nat) (e : Extent) :
    (normalizeExtent n e).content = match writtenSize e with
      | some x => .static x
      | none => .dynamic (writtenType e) := by
  rcases e with _ | _ | _ | ⟨a, _ | _ | _⟩ <;> rfl

theorem normalizeExtents_nodup {es : List Extent} (h : ProperNames es) :
    ((normalizeExtents es).map (·.id)).Nodup := by
  obtain ⟨h1, h2⟩ := h
  have hp := List.pairwise_filterMap.1 (List.nodup_iff_pairwise_ne.1 h1)
  rw [List.pairwise_iff_getElem] at hp
  rw [List.nodup_iff_pairwise_ne, List.pairwise_iff_getElem]
  intro i j hi hj hlt e
  have hi' : i < es.length := by simpa [normalizeExtents_length] using hi
  have hj' : j < es.length := by simpa [normalizeExtents_length] using hj
  rw [List.getElem_map, List.getElem_map, normalizeExtents_getElem _ _ hi', normalizeExtents_getElem _ _ hj',
    normalizeExtent_id, normalizeExtent_id] at e
  cases hx : writtenName es[i] with
  | none =>
    cases hy : writtenName es[j] with
    | none => rw [hx, hy] at e; simp at e; omega
    | some b =>
      rw [hx, hy] at e
      exact h2 b (List.mem_filterMap.2 ⟨_, List.getElem_mem _, hy⟩) _ e.symm
  | some a =>
    cases hy : writtenName es[j] with
    | none =>
      rw [hx, hy] at e
      exact h2 a (List.mem_filterMap.2 ⟨_, List.getElem_mem _, hx⟩) _ e
    | some b =>
      rw [hx, hy] at e
      exact hp i j hi' hj' hlt a hx b hy e

theorem forall₂_normalize {R : Axis → Arg → Prop} {S : Extent → Arg → Prop} (hRS : ∀ n e v, S e v → R (normalizeExtent n e) v)
    {es : List Extent} {vs : List Arg} (h : List.Forall₂ S es vs) : List.Forall₂ R (normalizeExtents es) vs := by
  rw [List.forall₂_iff_get] at h ⊢
  obtain ⟨hl, h⟩ := h
  refine ⟨by rw [normalizeExtents_length, hl], ?_⟩
  intro i h1 h2
  have h1' : i < es.length := by simpa [normalizeExtents_length] using h1
  simp only [List.get_eq_getElem] at h ⊢
  rw [normalizeExtents_getElem es i h1']
  exact hRS _ _ _ (h i h1' h2)

theorem storable_normalize (dflt : Int) (n : Nat) (e : Extent) (v : Arg) (h : CanHold dflt e v) :
    Storable dflt (normalizeExtent n e) v := by
  intro t ht
  rw [normalizeExtent_content] at ht
  cases hs : writtenSize e with
  | some x => rw [hs] at ht; cases ht
  | none =>
    rw [hs] at ht
    cases ht
    have := h hs
    unfold extentOf
    rw [normalizeExtent_content, hs]
    unfold readBack at this
    rw [hs] at this
    cases v <;> exact this

theorem consistent_normalize (n : Nat) (e : Extent) (v : Arg) (h : NoConflict e v) :
    Consistent (normalizeExtent n e) v := by
  intro x w hx hw
  rw [normalizeExtent_content] at hx
  cases hs : writtenSize e with
  | some y => rw [hs] at hx; cases hx; exact h _ _ hs hw
  | none => rw [hs] at hx; cases hx

theorem zipWith_normalize (dflt : Int) {es : List Extent} {vs : List Arg} (hl : es.length = vs.length) :
    List.zipWith (extentOf dflt) (normalizeExtents es) vs = List.zipWith (readBack dflt) es vs := by
  apply List.ext_getElem (by simp [normalizeExtents_length])
  intro i h1 h2
  have h1' : i < es.length := by simp at h2; omega
  rw [List.getElem_zipWith, List.getElem_zipWith, normalizeExtents_getElem es i h1']
  unfold extentOf readBack
  rw [normalizeExtent_content]
  cases hs : writtenSize es[i] <;> cases hv : vs[i]'(by omega) <;> rfl

/-- Named values given in the order of the axes fill the axes in order. -/
theorem located_eq {d : Desc} (hnd : (d.map (·.id)).Nodup) {vs : List (AxisId × Arg)}
    (hids : vs.map (·.1) = d.map (·.id)) : located d vs = numbered (vs.map (·.2)) := by
  have hlen : vs.length = d.length := by simpa using congrArg List.length hids
  apply List.ext_getElem (by simp [located, numbered])
  intro i h1 h2
  have hi : i < d.length := by simpa [located, hlen] using h1
  simp only [located, numbered, List.getElem_map, List.getElem_zipIdx, Prod.mk.injEq, and_true]
  have e : (vs[i]'(by omega)).1 = d[i].id := by
    have := List.getElem_of_eq hids (i := i) (by simpa [hlen] using hi)
    simpa using this
  rw [e, findAxis_eq hnd (List.getElem?_eq_getElem hi)]
  omega

/-- The named constructor, when the names are those of the axes, in order. -/
theorem constructNamed_in_order (md : Mode) (dflt : Int) {d : Desc} (hnd : (d.map (·.id)).Nodup)
    {vs : List (AxisId × Arg)} (hids : vs.map (·.1) = d.map (·.id))
    (hs : List.Forall₂ (Storable dflt) d (vs.map (·.2)))
    (hc : md = .checked → List.Forall₂ Consistent d (vs.map (·.2))) :
    ∃ s, (Prefilled.default d).constructNamed md dflt vs = .ok s ∧ s.desc = d ∧ s.WF ∧
      s.values = List.zipWith (extentOf dflt) d (vs.map (·.2)) := by
  have hlen : vs.length = d.length := by simpa using congrArg List.length hids
  by_cases h0 : dynamicSize d = 0
  · refine ⟨.default d, by rw [Prefilled.constructNamed, if_pos (by exact h0)]; rfl, rfl, default_wf d, ?_⟩
    rw [dynamicSize_eq, List.countP_eq_zero] at h0
    apply List.ext_getElem (by simp [values_length, hlen]; rfl)
    intro i h1 h2
    have hi : i < d.length := by simp [hlen] at h2; omega
    have hst : ∃ x, d[i].content = .static x := by
      have := h0 d[i] (List.getElem_mem _)
      cases hx : d[i].content with
      | static x => exact ⟨x, rfl⟩
      | dynamic t => simp [Axis.isDynamic, hx] at this
    obtain ⟨x, hx⟩ := hst
    rw [List.getElem_zipWith]
    unfold extentOf
    rw [hx]
    simp only [Prefilled.values, List.getElem_map, List.getElem_range]
    exact static_value (s := .default d) (List.getElem?_eq_getElem hi) hx
  · obtain ⟨s, h1, h2, h3, h4⟩ := fillAxes_values md (d := d) dflt (by simpa using hlen) hs hc
    refine ⟨s, ?_, h2, h3, h4⟩
    rw [constructNamed_eq md dflt _ _ h0]
    change fillAxes md dflt (.default d) (located d _) = _
    rw [located_eq hnd hids]; exact h1

theorem normalizeArgs_fst {es : List Extent} {vs : List MixedArg}
    (h : vs.map givenName = es.map writtenName) :
    (normalizeArgs es.length vs).map (·.1) = (normalizeExtents es).map (·.id) := by
  have hlen : vs.length = es.length := by simpa using congrArg List.length h
  apply List.ext_getElem (by simp [normalizeArgs, normalizeExtents_length, hlen])
  intro i h1 h2
  have hi : i < es.length := by simpa [normalizeExtents_length] using h2
  have e : givenName (vs[i]'(by omega)) = writtenName es[i] := by
    have := List.getElem_of_eq h (i := i) (by simpa [hlen] using hi)
    simpa using this
  rw [List.getElem_map, List.getElem_map, normalizeExtents_getElem es i hi, normalizeExtent_id, ← e]
  simp only [normalizeArgs, List.getElem_map, List.getElem_zipIdx]
  cases vs[i]'(by omega) <;> simp [normalizeAxis, givenName]

theorem normalizeArgs_snd (n : Nat) (vs : List MixedArg) : (normalizeArgs n vs).map (·.2) = vs.map givenValue := by
  apply List.ext_getElem (by simp [normalizeArgs])
  intro i h1 h2
  simp only [normalizeArgs, List.getElem_map, List.getElem_zipIdx]
  generalize vs[i]'(by simpa using h2) = v
  cases v <;> rfl

/-- Arguments named like the axes are accepted by `__is_ordered`. -/
theorem isOrdered_of_names {es : List Extent} {vs : List MixedArg} (h : vs.map givenName = es.map writtenName) :
    isOrdered (normalizeExtents es) vs = true := by
  have hlen : vs.length = es.length := by simpa using congrArg List.length h
  unfold isOrdered
  split
  · rfl
  · rw [if_neg (by simp [normalizeExtents_length, hlen]), normalizeExtents_length, normalizeArgs_fst h]
    rw [List.all_eq_true]
    intro ab hab
    obtain ⟨i, hi, rfl⟩ := List.mem_iff_getElem.1 hab
    simp

end Kwk
