import Verif.Lemmas.UserNames
import Verif.Props.UserExtents

/-!
# C143, continued: shape types built from the user's values under the names of axes

In the constructors, unlike in `of_size`, values of the user's types can stand under names.
-/

namespace Kwk
open Spec

/-- **C143** A shape type is built from values under the names of axes, in any order, some or all of the user's types: each named axis has the number
represented, or the size declared; the axes not mentioned are zero. -/
theorem C143_named_values (md : Mode) (dflt : Int) (es : List Extent) (args : List UserArg) (vs : List (AxisId × Arg)) (hne : args ≠ [])
    (h : List.Forall₂ GivesNamed args vs) (hp : ProperNames es) (hk : (vs.map (·.1)).Nodup)
    (hmem : ∀ a ∈ vs.map (·.1), a ∈ es.filterMap writtenName)
    (hs : ∀ e ∈ es, ∀ a v, writtenName e = some a → (a, v) ∈ vs → CanHold dflt e v)
    (hc : md = .checked → ∀ e ∈ es, ∀ a v, writtenName e = some a → (a, v) ∈ vs → NoConflict e v) :
    ∃ s, buildUser md es dflt args = some (.ok s) ∧
      ∀ e ∈ es, ∀ a, writtenName e = some a →
        (∀ v, (a, v) ∈ vs → s.at a = readBack dflt e v) ∧ (a ∉ vs.map (·.1) → s.at a = readBack 0 e .joker) := by
  obtain ⟨ws, w1, w2⟩ := options_give h md dflt hp hmem
  have hn := forall₂_names (fun y z h => h.1) w2
  have hax : ∀ x ∈ normalizeExtents es, ∃ n, ∃ e ∈ es, x = normalizeExtent n e := by
    intro x hx
    obtain ⟨i, i1, rfl⟩ := List.mem_iff_getElem.1 hx
    have i2 : i < es.length := by simpa [normalizeExtents_length] using i1
    exact ⟨_, _, List.getElem_mem i2, normalizeExtents_getElem _ i i2⟩
  have hname : ∀ n, ∀ e ∈ es, ∀ v, ((normalizeExtent n e).id, v) ∈ ws → writtenName e = some (normalizeExtent n e).id := by
    intro n e he v hv
    rw [normalizeExtent_id] at hv ⊢
    cases hw : writtenName e with
    | some a => rfl
    | none =>
      exfalso
      rw [hw, Option.getD_none] at hv
      have := List.mem_map_of_mem (f := (·.1)) hv
      rw [hn] at this
      exact hp.2 _ (hmem _ this) n rfl
  have hback : ∀ e ∈ es, ∀ a w, writtenName e = some a → (a, w) ∈ ws → ∃ v, (a, v) ∈ vs ∧ SameFor e v w := by
    intro e he a w ha hw
    obtain ⟨⟨a', v⟩, hy, h1, h2⟩ := forall₂_mem_right w2 hw
    cases h1
    exact ⟨v, hy, h2 e he ha⟩
  obtain ⟨s, s1, s2, s3, s4⟩ := C17_named_read_back md (normalizeExtents es) dflt ws (normalizeExtents_nodup hp) (hn ▸ hk)
    (fun a ha => by
      rw [hn] at ha
      obtain ⟨e, he, hea⟩ := List.mem_filterMap.1 (hmem a ha)
      obtain ⟨i, i1, rfl⟩ := List.mem_iff_getElem.1 he
      refine List.mem_map.2 ⟨_, List.getElem_mem (n := i) (by rw [normalizeExtents_length]; exact i1), ?_⟩
      rw [normalizeExtents_getElem _ i i1, normalizeExtent_id, hea]
      rfl)
    (fun x hx w hw => by
      obtain ⟨n, e, he, rfl⟩ := hax x hx
      have hnm := hname n e he w hw
      obtain ⟨v, hv, hsame⟩ := hback e he _ w hnm hw
      exact storable_normalize dflt n e w (hsame.canHold (hs e he _ v hnm hv)))
    (fun hm x hx w hw => by
      obtain ⟨n, e, he, rfl⟩ := hax x hx
      have hnm := hname n e he w hw
      obtain ⟨v, hv, hsame⟩ := hback e he _ w hnm hw
      exact consistent_normalize n e w (hsame.2 (hc hm e he _ v hnm hv)))
  refine ⟨s, ?_, ?_⟩
  · rw [buildUser_named hne (gives_named h), if_pos, w1, Option.map_some, s1]
    rw [h.length_eq]
    have := names_le hk hmem
    rwa [List.length_map] at this
  · intro e he a ha
    obtain ⟨i, i1, rfl⟩ := List.mem_iff_getElem.1 he
    have hx := List.getElem_mem (l := normalizeExtents es) (n := i) (by rw [normalizeExtents_length]; exact i1)
    rw [normalizeExtents_getElem _ i i1] at hx
    have hid : (normalizeExtent (es.length - 1 - i) es[i]).id = a := by rw [normalizeExtent_id, ha]; rfl
    constructor
    · intro v hv
      obtain ⟨⟨a', w⟩, hw, h1, h2⟩ := forall₂_mem_left w2 hv
      cases h1
      have := s3 _ hx w (by rw [hid]; exact hw)
      rw [hid] at this
      rw [this, extentOf_normalizeExtent, (h2 _ he ha).readBack]
    · intro hv
      have := s4 _ hx (by rw [hid, hn]; exact hv)
      rw [hid] at this
      rw [this, extentOf_normalizeExtent]

example : (buildUser .checked [.axis (.named "height") none, .axis (.named "depth") (some (.static 4)), .axis (.named "width") none] 0
    [.ownNamed (.named "width") (exPixels 7), .ownNamed (.named "depth") exFixed]).map
      (·.map fun s => (s.at (.named "width"), s.at (.named "depth"), s.at (.named "height"))) = some (.ok (7, 4, 0)) := by decide

example : List.Forall₂ GivesNamed [.ownNamed (.named "width") (exPixels 7), .ownNamed (.named "depth") exFixed]
      [(.named "width", .val 7), (.named "depth", .val 4)] ∧
    ProperNames [.axis (.named "height") none, .axis (.named "depth") (some (.static 4)), .axis (.named "width") none] := by
  refine ⟨.cons ⟨rfl, exPixels_represents 7⟩ (.cons ⟨rfl, exFixed_represents⟩ .nil), by decide, ?_⟩
  intro a ha n
  simp [writtenName] at ha
  rcases ha with rfl | rfl | rfl <;> simp

/-- **C143** Which objects of the user's types a shape type takes under the names of axes, exactly: not more than it has axes, and each must be usable for the
axis of its name.  A type without run-time axes takes everything. -/
theorem C143_named_taken (md : Mode) (dflt : Int) (es : List Extent) (us : List (AxisId × UserExtent)) (hne : us ≠ []) (hp : ProperNames es)
    (hu : ∀ x ∈ us, ∀ n, x.1 ≠ .implicit n) :
    buildUser md es dflt (us.map fun x => .ownNamed x.1 x.2) = none ↔
      es.length < us.length ∨ (∃ e ∈ es, writtenSize e = none) ∧
        ∃ x ∈ us, ¬ ∃ e ∈ es, writtenName e = some x.1 ∧ NamedUsable md e x.2 := by
  rw [buildUser_named (by simpa using hne) (by simp [UserArg.isNamed]), List.length_map]
  by_cases hl : us.length ≤ es.length
  swap
  · rw [if_neg hl]
    exact iff_of_true rfl (.inl (by omega))
  rw [if_pos hl, Option.map_eq_none_iff, mapM_none_iff]
  constructor
  · rintro ⟨y, hy, h⟩
    obtain ⟨x, hx, rfl⟩ := List.mem_map.1 hy
    obtain ⟨h1, h2⟩ := (option_none_iff hp (hu x hx)).1 h
    exact .inr ⟨h1, x, hx, h2⟩
  · rintro (h | ⟨h1, x, hx, h2⟩)
    · omega
    · exact ⟨_, List.mem_map_of_mem hx, (option_none_iff hp (hu x hx)).2 ⟨h1, h2⟩⟩

example : buildUser .checked [.axis (.named "width") none] 0 [.ownNamed (.named "width") exSpecial] ≠ none ∧
    buildUser .checked [.axis (.named "width") none] 0 [.ownNamed (.named "width") (exDouble 3)] = none ∧
    buildUser .checked [.axis (.named "width") none] 0 [.ownNamed (.named "height") (exPixels 3)] = none ∧
    buildUser .checked [.axis (.named "width") none, .axis (.named "depth") (some (.static 4))] 0 [.ownNamed (.named "depth") exSpecial] = none ∧
    buildUser .unchecked [.axis (.named "width") none, .axis (.named "depth") (some (.static 4))] 0 [.ownNamed (.named "depth") exSpecial] ≠ none ∧
    buildUser .checked [.axis (.named "depth") (some (.static 4))] 0 [.ownNamed (.named "height") exSpecial] ≠ none := by decide

/-- **C143** A shape type with named and other axes is built from values in the order of the axes, those for the named axes under their names. -/
theorem C143_mixed_values (md : Mode) (dflt : Int) (es : List Extent) (args : List UserArg) (vs : List MixedArg)
    (h : List.Forall₂ GivesMixed args vs) (hp : ProperNames es) (hn : vs.map givenName = es.map writtenName)
    (hs : List.Forall₂ (CanHold dflt) es (vs.map givenValue))
    (hc : md = .checked → List.Forall₂ NoConflict es (vs.map givenValue))
    (hm : (∃ e ∈ es, writtenName e ≠ none) ∧ ∃ e ∈ es, writtenName e = none) :
    ∃ s, buildUser md es dflt args = some (.ok s) ∧ s.values = List.zipWith (readBack dflt) es (vs.map givenValue) := by
  have hlv : vs.length = es.length := by simpa using congrArg List.length hn
  have hla : es.length = args.length := by rw [h.length_eq, hlv]
  have hg := List.forall₂_iff_get.1 h
  obtain ⟨ws, w1, w2, w3⟩ := mixeds_give h md dflt hla
  have hlw : ws.length = es.length := by rw [← hlv]; simpa using congrArg List.length w2
  have hsame : ∀ (i : Nat) (i1 : i < es.length) (i2 : i < vs.length) (i3 : i < ws.length),
      SameFor es[i] (givenValue vs[i]) (givenValue ws[i]) := fun i i1 i2 i3 =>
    w3 i _ _ _ (List.getElem?_eq_getElem i1) (List.getElem?_eq_getElem i2) (List.getElem?_eq_getElem i3)
  obtain ⟨ho, s, s1, s2⟩ := C61_mixed_read_back md es dflt ws hp (w2.trans hn)
    (by
      rw [List.forall₂_iff_get] at hs ⊢
      refine ⟨by simp [hlw], fun i i1 i2 => ?_⟩
      have := hs.2 i i1 (by simpa [hlv] using i1)
      simp only [List.get_eq_getElem, List.getElem_map] at this ⊢
      exact (hsame i i1 (by omega) (by omega)).canHold this)
    (fun hmd => by
      have hc := hc hmd
      rw [List.forall₂_iff_get] at hc ⊢
      refine ⟨by simp [hlw], fun i i1 i2 => ?_⟩
      have := hc.2 i i1 (by simpa [hlv] using i1)
      simp only [List.get_eq_getElem, List.getElem_map] at this ⊢
      exact (hsame i i1 (by omega) (by omega)).2 this)
  have hname : ∀ (i : Nat) (i1 : i < es.length) (i2 : i < args.length), args[i].isNamed = true ↔ writtenName es[i] ≠ none := by
    intro i i1 i2
    have h1 := (gives_mixed_name (hg.2 i i2 (by omega))).2.2
    have h2 := congrArg (·[i]?) hn
    simp only [List.getElem?_map, List.getElem?_eq_getElem i1, List.getElem?_eq_getElem (show i < vs.length by omega), Option.map_some,
      Option.some.injEq] at h2
    rw [← h2]
    exact h1
  have c1 : ¬ (args.all fun b => !b.isNamed) = true := by
    obtain ⟨e, he, hne⟩ := hm.1
    obtain ⟨i, i1, rfl⟩ := List.mem_iff_getElem.1 he
    intro hall
    have := List.all_eq_true.1 hall args[i] (List.getElem_mem _)
    rw [(hname i i1 (by omega)).2 hne] at this
    cases this
  have c2 : ¬ args.all UserArg.isNamed = true := by
    obtain ⟨e, he, hno⟩ := hm.2
    obtain ⟨i, i1, rfl⟩ := List.mem_iff_getElem.1 he
    intro hall
    exact (hname i i1 (by omega)).1 (List.all_eq_true.1 hall args[i] (List.getElem_mem _)) hno
  have c3 : args.all UserArg.isExtent = true := by
    rw [List.all_eq_true]
    intro x hx
    obtain ⟨y, _, hy⟩ := forall₂_mem_left h hx
    exact (gives_mixed_name hy).2.1
  have c4 : ¬ (normalizeExtents es).all Axis.isImplicit = true := by
    obtain ⟨e, he, hne⟩ := hm.1
    obtain ⟨i, i1, rfl⟩ := List.mem_iff_getElem.1 he
    intro hall
    have := List.all_eq_true.1 hall _ (List.getElem_mem (n := i) (by rw [normalizeExtents_length]; exact i1))
    rw [normalizeExtents_getElem _ i i1, Axis.isImplicit, normalizeExtent_id] at this
    obtain ⟨a, ha⟩ := Option.ne_none_iff_exists'.1 hne
    rw [ha, Option.getD_some] at this
    have hni := hp.2 a (List.mem_filterMap.2 ⟨_, List.getElem_mem i1, ha⟩)
    cases a with
    | implicit n => exact hni n rfl
    | _ => cases this
  have c5 : ¬ ((normalizeExtents es).all fun a => !a.isImplicit) = true := by
    obtain ⟨e, he, hno⟩ := hm.2
    obtain ⟨i, i1, rfl⟩ := List.mem_iff_getElem.1 he
    intro hall
    have := List.all_eq_true.1 hall _ (List.getElem_mem (n := i) (by rw [normalizeExtents_length]; exact i1))
    rw [normalizeExtents_getElem _ i i1, Axis.isImplicit, normalizeExtent_id, hno, Option.getD_none] at this
    cases this
  have c6 : isOrdered (normalizeExtents es) (args.map UserArg.named?) = true := by
    rw [isOrdered_congr (ws := ws), ho]
    rw [w2]
    apply List.ext_getElem (by simp [h.length_eq])
    intro i i1 i2
    simp only [List.length_map] at i1 i2
    rw [List.getElem_map, List.getElem_map, List.getElem_map]
    exact (gives_mixed_name (hg.2 i i1 i2)).1
  refine ⟨s, ?_, ?_⟩
  · rw [buildUser, if_pos, constructUser, if_neg c1, if_neg c2, w1, Option.map_some, s1]
    unfold accepted
    rw [Bool.not_eq_true] at c1 c2 c4 c5
    simp [c1, c2, c3, c4, c5, c6, normalizeExtents_length, hla]
  · rw [s2]
    apply List.ext_getElem (by simp [hlw, hlv])
    intro i i1 i2
    simp only [List.length_zipWith, List.length_map] at i1 i2
    rw [List.getElem_zipWith, List.getElem_zipWith, List.getElem_map, List.getElem_map]
    exact (hsame i (by omega) (by omega) (by omega)).readBack dflt

example : (buildUser .checked [.joker, .axis (.named "width") none, .int 4] 0
    [.own (exPixels 7), .ownNamed (.named "width") (exWidth 5), .own exFixed]).map (·.map (·.values)) = some (.ok [7, 5, 4]) := by decide

example : List.Forall₂ GivesMixed [.own (exPixels 7), .ownNamed (.named "width") (exWidth 5), .own exFixed]
      [.plain (.val 7), .named (.named "width") (.val 5), .plain (.val 4)] ∧
    [MixedArg.plain (.val 7), .named (.named "width") (.val 5), .plain (.val 4)].map givenName =
      [Extent.joker, .axis (.named "width") none, .int 4].map writtenName :=
  ⟨.cons (exPixels_represents 7) (.cons ⟨rfl, exWidth_represents 5⟩ (.cons exFixed_represents .nil)), by decide⟩

/-- **C143** Run-time axes get what `as_dimension` of the user's type makes of the default: zero in shapes, one in strides. -/
theorem C143_dimension (md : Mode) (dflt : Int) (us : List (Extent × UserExtent × (Int → Int)))
    (hd : ∀ u ∈ us, u.2.1.dimension = some u.2.2) (hs : ∀ u ∈ us, u.2.1.size.isSome = true) (hw : ∀ u ∈ us, writtenSize u.1 = none)
    (hf : ∀ u ∈ us, (writtenType u.1).Fits (u.2.2 dflt)) :
    ∃ s, buildUser md (us.map (·.1)) dflt (us.map (.own ·.2.1)) = some (.ok s) ∧ s.values = us.map (·.2.2 dflt) := by
  -- the same call with objects of fixed dimension
  obtain ⟨s, s1, _, s2⟩ := buildUser_plain md dflt (es := us.map (·.1))
    (args := us.map fun u => .own { size := some (u.2.2 dflt), descriptor := none, dimension := some fun _ => u.2.2 dflt, constant := none })
    (vs := us.map fun u => .val (u.2.2 dflt))
    (by
      rw [List.forall₂_map_left_iff, List.forall₂_map_right_iff, List.forall₂_same]
      exact fun u hu => ⟨rfl, _, rfl, fun _ => rfl⟩)
    (by
      rw [List.forall₂_map_left_iff, List.forall₂_map_right_iff, List.forall₂_same]
      intro u hu hn
      simp only [readBack, hn]
      exact hf u hu)
    (fun _ => by
      rw [List.forall₂_map_left_iff, List.forall₂_map_right_iff, List.forall₂_same]
      intro u hu x w hx
      rw [hw u hu] at hx
      cases hx)
  refine ⟨s, ?_, ?_⟩
  · rw [← s1, buildUser_dims md dflt us (·.1) (·.2.1) (·.2.2 dflt) (fun u hu => by simp [UserExtent.asDimension, hd u hu]) hs hw,
      buildUser_dims md dflt us (·.1) _ (·.2.2 dflt) (fun u hu => rfl) (fun u hu => rfl) hw]
  · rw [s2, List.zipWith_map, List.zipWith_self]
    refine List.map_congr_left fun u hu => ?_
    simp only [readBack, hw u hu]

/-- A type for which one more than the default is used. -/
def exMore : UserExtent := { size := some 0, descriptor := some .joker, dimension := some fun d => d + 1, constant := none }

example : (ofSizeUser .checked [.own exMore, .own (exPixels 3)]).map (·.map (·.values)) = some (.ok [1, 3]) ∧
    (withStridesUser .checked [.own exMore, .own (exPixels 3)]).map (·.map (·.values)) = some (.ok [2, 3]) := by decide

/-- **C143** Constants of the user's types are converted in `of_size<T>` like the constants of the library. -/
theorem C143_typed_constants (md : Mode) (t : IntType) (args : List UserArg) (bs : List BuildArg) (h : List.Forall₂ SameConstant args bs) :
    ofSizeTUser md t args = ofSizeT md t bs := by
  have h1 : args.all UserArg.isExtent = true := by
    rw [List.all_eq_true]
    intro x hx
    obtain ⟨y, _, hy⟩ := forall₂_mem_left h hx
    cases x with
    | own u => cases y <;> first | exact hy.2 | exact hy.elim
    | _ => rfl
  have h2 : List.Forall₂ SameAs (args.map (forceTypeUser t)) (bs.map (forceType t)) := by
    rw [List.forall₂_map_left_iff, List.forall₂_map_right_iff]
    refine h.imp ?_
    intro x y hxy
    cases x with
    | lib b => cases hxy; rfl
    | own u =>
      cases y <;> first | exact hxy.elim | skip
      rw [forceTypeUser, hxy.1]
      rfl
    | ownNamed _ _ => exact hxy.elim
  rw [ofSizeTUser, if_pos h1, (ofSize_same h2 md).1, ofSizeT]

example : List.Forall₂ SameConstant [.own exFixed, .lib (.int .i32 300)] [.const 5, .int .i32 300] ∧
    (ofSizeTUser .checked .u8 [.own exFixed, .lib (.int .i32 300)]).map (·.map (·.values)) = some (.ok [5, 44]) :=
  ⟨.cons ⟨rfl, rfl⟩ (.cons rfl .nil), by decide⟩

end Kwk
