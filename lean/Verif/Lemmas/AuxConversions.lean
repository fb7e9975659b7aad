import Verif.Model.Conversions
import Verif.Props.Axes

/-!
# Lemmas for `Props/Conversions.lean`
-/

namespace Kwk
open Spec

theorem compressTypes_spec {n : Nat} {d : Desc} (h0 : 0 < n) (hn : n < d.length) :
    (compressTypes n d).length = n ∧ ∀ f ∈ compressTypes n d, writtenName f = none := by
  have hx : ∀ c : Content, writtenName c.extent = none := fun c => by cases c <;> rfl
  unfold compressTypes
  simp only
  split
  · next h =>
    have := congrArg List.length h
    simp only [List.length_map, List.length_take, List.length_nil] at this
    omega
  · refine ⟨by simp; omega, ?_⟩
    intro f hf
    rcases List.mem_cons.1 hf with rfl | hf
    · exact hx _
    · obtain ⟨a, -, rfl⟩ := List.mem_map.1 hf
      exact hx _

theorem extent_size (c : Content) : writtenSize c.extent = match c with
    | .static v => some v
    | .dynamic _ => none := by cases c <;> rfl

/-- An extent without its name. -/
def unnamed (e : Extent) : Extent :=
  match writtenSize e with
  | some x => .int x
  | none => .type (writtenType e)

theorem unnamed_size (e : Extent) : writtenSize (unnamed e) = writtenSize e := by
  unfold unnamed
  cases writtenSize e <;> rfl

theorem unnamed_type (e : Extent) : writtenType (unnamed e) = writtenType e := by
  rcases e with _ | _ | _ | ⟨_, _ | _ | _⟩ <;> rfl

theorem normalized_content (es : List Extent) : (normalizeExtents es).map (fun a => a.content.extent) = es.map unnamed := by
  apply List.ext_getElem
  · simp [normalizeExtents_length]
  · intro i h1 h2
    rw [List.length_map] at h2
    rw [List.getElem_map, List.getElem_map, normalizeExtents_getElem es i h2, normalizeExtent_content, unnamed]
    cases writtenSize es[i] <;> rfl

theorem mul_size (c c' : Content) : writtenSize (c.mul c').extent =
    (writtenSize c.extent).bind fun x => (writtenSize c'.extent).map (x * ·) := by
  cases c <;> cases c' <;> rfl

theorem mul_type (c c' : Content) : writtenType (c.mul c').extent = (writtenType c.extent).common (writtenType c'.extent) := by
  cases c <;> cases c' <;> rfl

theorem foldl_content (c : Content) (cs : List Content) :
    writtenSize (cs.foldl Content.mul c).extent =
      (cs.map fun c => writtenSize c.extent).foldl (fun a b => a.bind fun x => b.map (x * ·)) (writtenSize c.extent) ∧
    writtenType (cs.foldl Content.mul c).extent = (cs.map fun c => writtenType c.extent).foldl IntType.common (writtenType c.extent) := by
  induction cs generalizing c with
  | nil => exact ⟨rfl, rfl⟩
  | cons c' cs ih =>
    obtain ⟨h1, h2⟩ := ih (c.mul c')
    rw [mul_size] at h1
    rw [mul_type] at h2
    exact ⟨h1, h2⟩

/-- A product of optional factors is there iff all factors are. -/
theorem foldl_option_mul (o : Option Int) (l : List (Option Int)) (x : Int) :
    l.foldl (fun a b => a.bind fun x => b.map (x * ·)) o = some x ↔ ∃ xs : List Int, o :: l = xs.map some ∧ x = xs.prod := by
  induction l generalizing o with
  | nil =>
    constructor
    · intro h
      exact ⟨[x], by simpa using h, by simp⟩
    · rintro ⟨xs, h, rfl⟩
      rcases xs with _ | ⟨y, _ | ⟨z, zs⟩⟩ <;> simp at h
      simp [h]
  | cons b l ih =>
    rw [List.foldl_cons, ih]
    constructor
    · rintro ⟨xs, h, rfl⟩
      rcases xs with _ | ⟨y, ys⟩
      · simp at h
      · rw [List.map_cons, List.cons.injEq] at h
        obtain ⟨u, hu, v⟩ := Option.bind_eq_some_iff.1 h.1
        obtain ⟨w, hw, e⟩ := Option.map_eq_some_iff.1 v
        refine ⟨u :: w :: ys, by simp [hu, hw, h.2], ?_⟩
        rw [List.prod_cons, List.prod_cons, List.prod_cons, ← e, mul_assoc]
    · rintro ⟨xs, h, rfl⟩
      rcases xs with _ | ⟨u, _ | ⟨w, ys⟩⟩
      · simp at h
      · simp at h
      · rw [List.map_cons, List.map_cons, List.cons.injEq, List.cons.injEq] at h
        refine ⟨u * w :: ys, by simp [h.1, h.2.1, h.2.2], ?_⟩
        rw [List.prod_cons, List.prod_cons, List.prod_cons, mul_assoc]

/-- A shape type with fewer axes than the source and run-time extents only: the body compiles iff there are no names. -/
theorem compiles_lower {es : List Extent} {src : Desc} (he : ProperNames es) (h0 : es ≠ []) (hl : es.length < src.length)
    (hdyn : ∀ e ∈ es, writtenSize e = none) :
    constructCompiles (normalizeExtents es) src = true ↔ ∀ e ∈ es, writtenName e = none := by
  obtain ⟨h1, h2⟩ := compressTypes_spec (d := src) (List.length_pos_iff.2 h0) hl
  have hf : ProperNames (compressTypes es.length src) := by
    have : (compressTypes es.length src).filterMap writtenName = [] := by
      rw [List.filterMap_eq_nil_iff]
      exact h2
    unfold ProperNames
    rw [this]
    exact ⟨List.nodup_nil, by simp⟩
  rw [constructCompiles, normalizeExtents_length, if_pos hl, C18_acceptance es _ he hf, h1, if_pos le_rfl, Nat.sub_self, List.drop_zero,
    List.forall₂_iff_get]
  constructor
  · rintro ⟨-, h⟩ e hm
    obtain ⟨i, hi, rfl⟩ := List.mem_iff_getElem.1 hm
    have := (h i hi (by rw [h1]; exact hi)).1
    simp only [List.get_eq_getElem] at this
    rw [this, h2 _ (List.getElem_mem _)]
  · intro h
    refine ⟨h1.symm, fun i hi hj => ?_⟩
    simp only [List.get_eq_getElem]
    refine ⟨by rw [h _ (List.getElem_mem _), h2 _ (List.getElem_mem _)], fun x y hx => ?_⟩
    rw [hdyn _ (List.getElem_mem _)] at hx
    cases hx

/-- The conversion succeeds, in checked builds, iff no compile-time extent of the destination is contradicted. -/
theorem convert_succeeds_iff {es fs : List Extent} {src : Prefilled} (hs : src.desc = normalizeExtents fs) (h0 : es ≠ []) (h1 : fs ≠ []) :
    (∃ s, convertPrefilled .checked (normalizeExtents es) src = .ok s) ↔
      List.Forall₂ Consistent (normalizeExtents es) ((convertShape es.length src.values).map .val) := by
  have hv : src.values ≠ [] := by
    intro e
    have := values_length src
    rw [e, hs, normalizeExtents_length] at this
    exact h1 (List.length_eq_zero_iff.1 this.symm)
  have hlen := (C13_convert_numel es.length src.values (List.length_pos_iff.2 h0) hv).1
  have hlen' : ((convertShape es.length src.values).map Arg.val).length = (normalizeExtents es).length := by
    rw [List.length_map, normalizeExtents_length, hlen]
  rw [convert_eq, normalizeExtents_length]
  constructor
  · rintro ⟨s, h⟩
    by_contra hc
    rw [fillAxes_asserts 0 (default_wf _) _ (fun h => hc ((agrees_iff hlen').1 h))] at h
    cases h
  · intro hc
    obtain ⟨s, h, -⟩ := fillAxes_held .checked 0 hlen' (fun _ => hc)
    exact ⟨s, h⟩

/-- A shape type, built: its compile-time extents are there. -/
theorem built_spec {fs : List Extent} {vs : List Arg} {src : Prefilled} (hl : vs.length = fs.length)
    (h : Prefilled.ofExtents .checked (normalizeExtents fs) 0 vs = .ok src) :
    src.desc = normalizeExtents fs ∧ ∀ (i : Nat) (hi : i < fs.length) (x : Int), writtenSize fs[i] = some x → src.values[i]? = some x := by
  have hl' : vs.length = (normalizeExtents fs).length := by rw [normalizeExtents_length, hl]
  have hc : List.Forall₂ Consistent (normalizeExtents fs) vs := by
    by_contra hc
    rw [C15_contradiction_rejected _ 0 vs hl' hc] at h
    cases h
  rw [Prefilled.ofExtents, if_pos hl', construct_eq] at h
  obtain ⟨s, h1, h2, h3⟩ := fillAxes_held .checked 0 hl' (fun _ => hc)
  rw [h1] at h
  obtain rfl := Except.ok.inj h
  refine ⟨h2, fun i hi x hx => ?_⟩
  have hd : i < (normalizeExtents fs).length := by rw [normalizeExtents_length]; exact hi
  rw [values_getElem? _ (by rw [h2]; exact hd)]
  congr 1
  refine static_value (a := (normalizeExtents fs)[i]) (by rw [h2]; exact List.getElem?_eq_getElem hd) ?_
  rw [normalizeExtents_getElem fs i hi, normalizeExtent_content, hx]

/-- A shape whose run-time extents are all `c`. -/
theorem exists_filled {fs : List Extent} (c : Int) (hc : ∀ f ∈ fs, (writtenType f).Fits c) :
    ∃ (vs : List Arg) (src : Prefilled), vs.length = fs.length ∧ Prefilled.ofExtents .checked (normalizeExtents fs) 0 vs = .ok src ∧
      src.values = fs.map fun f => (writtenSize f).getD c := by
  let vs : List Arg := fs.map fun f => if (writtenSize f).isSome then .joker else .val c
  have hl : vs.length = fs.length := by simp [vs]
  have hl' : vs.length = (normalizeExtents fs).length := by rw [normalizeExtents_length, hl]
  have hh : List.Forall₂ (CanHold 0) fs vs := by
    rw [List.forall₂_iff_get]
    refine ⟨hl.symm, fun i h1 h2 hn => ?_⟩
    simp only [List.get_eq_getElem] at hn ⊢
    simp only [vs, List.getElem_map, readBack, hn]
    exact hc _ (List.getElem_mem _)
  have hn : List.Forall₂ NoConflict fs vs := by
    rw [List.forall₂_iff_get]
    refine ⟨hl.symm, fun i h1 h2 x w hx hw => ?_⟩
    simp only [List.get_eq_getElem] at hx hw
    simp [vs, hx] at hw
  obtain ⟨s, h1, -, h3⟩ := C15_read_back .checked (normalizeExtents fs) 0 vs hl' (forall₂_normalize (storable_normalize 0) hh)
    (fun _ => forall₂_normalize consistent_normalize hn)
  refine ⟨vs, s, hl, h1, ?_⟩
  rw [h3]
  apply List.ext_getElem (by simp [normalizeExtents_length, hl])
  intro i hi hj
  have hf : i < fs.length := by simpa using hj
  rw [List.getElem_zipWith, normalizeExtents_getElem fs i hf, List.getElem_map]
  rw [List.getElem_map]
  unfold extentOf
  rw [normalizeExtent_content]
  cases writtenSize fs[i] <;> rfl

end Kwk
