import Verif.Spec.UserExtents
import Verif.Lemmas.UserExtents
import Verif.Props.Build

/-!
# C143: extents of the user's own types

The full property (`C143_statement`) is false: values of such types cannot stand under the name of an axis in `of_size`, types that `to_descriptor`
and `as_dimension` support are refused unless they also convert to `std::size_t`, the constraint of the constructor lets types through that it cannot
build from, and `of_size<T>` does not convert them to `T`.
-/

namespace Kwk
open Spec

/-- A length in pixels: converts to `std::size_t`, described as a run-time size stored as `short`. -/
def exPixels (v : Int) : UserExtent := { size := some v, descriptor := some (.type .i16), dimension := some fun _ => v, constant := none }

/-- A size known to its type, which also looks like a constant of another value to the library. -/
def exFixed : UserExtent := { size := some 4, descriptor := some (.int 4), dimension := some fun _ => 4, constant := some 5 }

/-- A width: its descriptor is the axis `width`. -/
def exWidth (v : Int) : UserExtent :=
  { size := some v, descriptor := some (.axis (.named "width") none), dimension := some fun _ => v, constant := none }

/-- A type with both overloads that converts to nothing, as in `test/unit/utility/extensions/as_dimension.cpp:21-24`. -/
def exSpecial : UserExtent := { size := none, descriptor := some .joker, dimension := some fun _ => 11, constant := none }

/-- `double`. -/
def exDouble (v : Int) : UserExtent := { size := some v, descriptor := none, dimension := none, constant := none }

theorem exPixels_represents (v : Int) : Represents (exPixels v) v := ⟨rfl, _, rfl, fun _ => rfl⟩

theorem exFixed_represents : Represents exFixed 4 := ⟨rfl, _, rfl, fun _ => rfl⟩

theorem exWidth_represents (v : Int) : Represents (exWidth v) v := ⟨rfl, _, rfl, fun _ => rfl⟩

/-- **C143** Arguments of the user's types that represent numbers behave in `of_size` and `with_strides` like the library's own extents of the same
number, type and compile-time knowledge, also among named extents of the library, and also in what is rejected.  This holds even if the library
could make something else of them.  Constants of the user's types can also stand under a name. -/
theorem C143_same_partial (md : Mode) (args : List UserArg) (bs : List BuildArg) (h : List.Forall₂ SameAs args bs) :
    ofSizeUser md args = ofSize md bs ∧
      (ProperArgs bs ∨ (∀ x u, .ownNamed x u ∉ args) → withStridesUser md args = withStrides md bs) := ofSize_same h md

example : List.Forall₂ SameAs [.own (exPixels 7), .lib (.named (.named "width") (.int .i32 3)), .own exFixed]
    [.int .i16 7, .named (.named "width") (.int .i32 3), .const 4] :=
  .cons ⟨exPixels_represents 7, .inl rfl⟩ (.cons rfl (.cons ⟨exFixed_represents, rfl⟩ .nil))

example : (ofSizeUser .checked [.own (exPixels 7), .lib (.named (.named "width") (.int .i32 3)), .own exFixed]).map
    (·.map (·.values)) = some (.ok [7, 3, 4]) := by decide

example : List.Forall₂ SameAs [.ownNamed (.named "height") { exFixed with size := some 5 }, .own (exPixels 7)]
    [.named (.named "height") (.const 5), .int .i16 7] ∧ ProperArgs [.named (.named "height") (.const 5), .int .i16 7] :=
  ⟨.cons ⟨rfl, rfl, rfl⟩ (.cons ⟨exPixels_represents 7, .inl rfl⟩ .nil), by decide, by simp [argName]⟩

/-- **C143** So the shape has the numbers represented as extents, known at compile time if `to_descriptor` gave a size, and every named axis has its
size. -/
theorem C143_shape_partial (md : Mode) (args : List UserArg) (bs : List BuildArg) (h : List.Forall₂ SameAs args bs)
    (hp : ProperArgs bs) (ht : ∀ b ∈ bs, ArgTyped b) (hx : ∀ b ∈ bs, ¬ IsSizedAxis b)
    (hm : ¬ ((∃ b ∈ bs, IsNamed b) ∧ ∃ b ∈ bs, IsBareAxis b)) :
    ∃ s, ofSizeUser md args = some (.ok s) ∧ s.values = bs.map (argSize 0) ∧
      s.desc.map (·.isDynamic) = bs.map (fun b => !argConst b) ∧
      ∀ (i : Nat) (b : BuildArg) (a : AxisId), bs[i]? = some b → argName b = some a → s.at a = argSize 0 b := by
  rw [(ofSize_same h md).1]
  exact C83_of_size_partial md bs hp ht hx hm

example : ∃ s, ofSizeUser .checked [.own (exPixels 7), .own exFixed] = some (.ok s) ∧ s.values = [7, 4] ∧
    s.desc.map (·.isDynamic) = [true, false] := by
  obtain ⟨s, h1, h2, h3, _⟩ := C143_shape_partial .checked [.own (exPixels 7), .own exFixed] [.int .i16 7, .const 4]
    (.cons ⟨exPixels_represents 7, .inl rfl⟩ (.cons ⟨exFixed_represents, rfl⟩ .nil))
    ⟨by decide, by simp [argName]⟩ (by simp [ArgTyped, IntType.Fits, IntType.lo, IntType.hi, IntType.i16])
    (by simp [IsSizedAxis]) (by simp [IsNamed])
  exact ⟨s, h1, h2, h3⟩

/-- **C143** A shape type written out is built from values of the user's types as from integers: each axis has the number represented, or the size
declared.  With default 1 this is the constructor of strides. -/
theorem C143_constructor (md : Mode) (dflt : Int) (es : List Extent) (args : List UserArg) (vs : List Arg)
    (h : List.Forall₂ GivesValue args vs) (hs : List.Forall₂ (CanHold dflt) es vs)
    (hc : md = .checked → List.Forall₂ NoConflict es vs) :
    ∃ s, buildUser md es dflt args = some (.ok s) ∧ s.values = List.zipWith (readBack dflt) es vs := by
  obtain ⟨s, h1, _, h2⟩ := buildUser_plain md dflt h hs hc
  exact ⟨s, h1, h2⟩

example : (buildUser .checked [.type .u8, .int 4, .joker] 0 [.own (exPixels 7), .own exFixed, .lib (.int .i32 2)]).map
    (·.map (·.values)) = some (.ok [7, 4, 2]) := by decide

example : List.Forall₂ GivesValue [.own (exPixels 7), .own exFixed, .lib (.int .i32 2)] [.val 7, .val 4, .val 2] ∧
    List.Forall₂ (CanHold 0) [.type .u8, .int 4, .joker] [.val 7, .val 4, .val 2] ∧
    List.Forall₂ NoConflict [.type .u8, .int 4, .joker] [.val 7, .val 4, .val 2] := by
  refine ⟨.cons (exPixels_represents 7) (.cons exFixed_represents (.cons ⟨by simp [IsNamed], rfl⟩ .nil)), ?_, ?_⟩
  · refine .cons ?_ (.cons ?_ (.cons ?_ .nil)) <;> intro _ <;> first | contradiction | decide
  · refine .cons ?_ (.cons ?_ (.cons ?_ .nil)) <;> intro x w hx hw <;> simp_all [writtenSize]

/-- **C143** Types whose descriptor is an axis: `of_size` of such objects is the shape with these axes, each of the number represented. -/
theorem C143_own_axes (md : Mode) (us : List (UserExtent × Extent × Int)) (hd : ∀ u ∈ us, u.1.descriptor = some u.2.1)
    (hr : ∀ u ∈ us, Represents u.1 u.2.2) (hp : ProperNames (us.map (·.2.1)))
    (hs : ∀ u ∈ us, ∀ x, writtenSize u.2.1 = some x → x = u.2.2)
    (hf : ∀ u ∈ us, writtenSize u.2.1 = none → (writtenType u.2.1).Fits u.2.2) :
    ∃ s, ofSizeUser md (us.map (.own ·.1)) = some (.ok s) ∧ s.values = us.map (·.2.2) ∧
      ∀ u ∈ us, ∀ a, writtenName u.2.1 = some a → s.at a = u.2.2 := by
  have hm : (us.map (UserArg.own ·.1)).mapM UserArg.toDescriptor = some (us.map (·.2.1)) := by
    rw [mapM_forall₂]
    clear hr hp hs hf
    induction us with
    | nil => exact .nil
    | cons u us ih =>
      refine .cons ?_ (ih fun x hx => hd x (by simp [hx]))
      simp [UserArg.toDescriptor, UserExtent.toDescriptor, hd u (by simp)]
  have hb : ∀ u ∈ us, readBack 0 u.2.1 (.val u.2.2) = u.2.2 := by
    intro u hu
    unfold readBack
    cases hw : writtenSize u.2.1 with
    | none => rfl
    | some x => exact hs u hu x hw
  obtain ⟨s, h1, h2, h3⟩ := buildUser_plain md 0 (es := us.map (·.2.1)) (args := us.map (UserArg.own ·.1))
    (vs := us.map fun u => .val u.2.2)
    (by
      rw [List.forall₂_map_left_iff, List.forall₂_map_right_iff, List.forall₂_same]
      exact fun u hu => hr u hu)
    (by
      rw [List.forall₂_map_left_iff, List.forall₂_map_right_iff, List.forall₂_same]
      intro u hu hn
      rw [hb u hu]
      exact hf u hu hn)
    (fun _ => by
      rw [List.forall₂_map_left_iff, List.forall₂_map_right_iff, List.forall₂_same]
      intro u hu x w hx hw
      cases hw
      exact (hs u hu x hx).symm)
  have hv : s.values = us.map (·.2.2) := by
    rw [h3, List.zipWith_map, List.zipWith_self]
    exact List.map_congr_left hb
  refine ⟨s, ?_, hv, ?_⟩
  · simp only [ofSizeUser, hm]
    rw [if_neg, h1]
    rw [duplicateAxis_names hp.2]
    exact fun h => h hp.1
  · intro u hu a ha
    obtain ⟨i, hi, rfl⟩ := List.mem_iff_getElem.1 hu
    have hx : s.desc[i]? = some (normalizeExtent (us.length - 1 - i) us[i].2.1) := by
      rw [h2, List.getElem?_eq_getElem (by simpa [normalizeExtents_length] using hi), normalizeExtents_getElem _ i (by simpa using hi)]
      simp
    have := at_eq (by rw [h2]; exact normalizeExtents_nodup hp) hx
    rw [normalizeExtent_id, ha, Option.getD_some, hv, List.getElem?_map, List.getElem?_eq_getElem hi] at this
    exact Option.some.inj this

example : (ofSizeUser .checked [.own (exWidth 640), .own (exPixels 480)]).map (·.map fun s => (s.values, s.at (.named "width"))) =
    some (.ok ([640, 480], 640)) := by decide

/-- **C143** Which objects of the user's types `of_size` takes, exactly: those that convert to `std::size_t` and have a descriptor, and a dimension
unless the descriptor is a size; the names of axes in the descriptors must be distinct. -/
theorem C143_taken_partial (md : Mode) (us : List UserExtent)
    (hp : ∀ u ∈ us, ∀ e a, u.descriptor = some e → writtenName e = some a → ∀ n, a ≠ .implicit n) :
    ofSizeUser md (us.map .own) = none ↔
      (∃ u ∈ us, ¬ Usable u) ∨ ¬ (us.filterMap fun u => u.descriptor.bind writtenName).Nodup := by
  have hdesc : ∀ u : UserExtent, ∀ e, u.toDescriptor = some e ↔
      (u.descriptor = some e ∨ u.descriptor = none ∧ ∃ v, u.constant = some v ∧ e = .int v) := by
    intro u e
    rcases h1 : u.descriptor with _ | x <;> rcases h2 : u.constant with _ | y <;>
      simp [UserExtent.toDescriptor, h1, h2, eq_comm]
  have husable : ∀ u : UserExtent, Usable u ↔ u.size.isSome ∧ ∃ e, u.toDescriptor = some e ∧
      (writtenSize e = none → u.dimension.isSome ∨ u.constant.isSome) := by
    intro u
    unfold Usable
    simp only [hdesc]
  rcases hm : (us.map UserArg.own).mapM UserArg.toDescriptor with _ | es
  · obtain ⟨x, hx, e⟩ := mapM_none_iff.1 hm
    obtain ⟨u, hu, rfl⟩ := List.mem_map.1 hx
    simp only [ofSizeUser, hm, true_iff]
    refine .inl ⟨u, hu, fun h => ?_⟩
    obtain ⟨-, e', h', -⟩ := (husable u).1 h
    rw [UserArg.toDescriptor, h'] at e
    cases e
  · have hes := mapM_forall₂.1 hm
    rw [List.forall₂_map_left_iff] at hes
    have hlen : us.length = es.length := hes.length_eq
    have hnames : (us.filterMap fun u => u.descriptor.bind writtenName) = es.filterMap writtenName := by
      clear hp hm hlen
      induction hes with
      | nil => rfl
      | @cons u e us es h _ ih =>
        rw [List.filterMap_cons, List.filterMap_cons, ih]
        rcases (hdesc u e).1 h with h' | ⟨h', v, hv, rfl⟩
        · rw [h']; rfl
        · rw [h']; rfl
    rw [hnames]
    have hp' : ∀ a ∈ es.filterMap writtenName, ∀ n, a ≠ .implicit n := by
      intro a ha
      rw [← hnames] at ha
      obtain ⟨u, hu, hua⟩ := List.mem_filterMap.1 ha
      obtain ⟨e, he, hea⟩ := Option.bind_eq_some_iff.1 hua
      exact hp u hu e a he hea
    simp only [ofSizeUser, hm]
    by_cases hd : (es.filterMap writtenName).Nodup
    swap
    · rw [if_pos ((duplicateAxis_names hp').2 hd)]
      exact ⟨fun _ => .inr hd, fun _ => rfl⟩
    rw [if_neg (by rw [duplicateAxis_names hp']; exact fun h => h hd)]
    simp only [hd, not_true_eq_false, or_false]
    have hg := List.forall₂_iff_get.1 hes
    by_cases hsz : ∀ u ∈ us, u.size.isSome = true
    swap
    · push Not at hsz
      obtain ⟨u, hu, hn⟩ := hsz
      refine iff_of_true ?_ ⟨u, hu, fun h => hn h.1⟩
      rw [buildUser, if_neg]
      intro h
      simp only [accepted, Bool.and_eq_true, List.all_eq_true] at h
      exact hn (h.1.1 (.own u) (List.mem_map_of_mem hu))
    have hacc : accepted (normalizeExtents es) (us.map .own) = true := by
      simp [accepted, (all_own us hsz).1, (all_own us hsz).2, normalizeExtents_length, hlen]
    rw [buildUser, if_pos hacc, constructUser_none hsz (by simp [normalizeExtents_length, hlen]), normalizeExtents_length, hlen,
      Nat.sub_self, List.drop_zero]
    have hcont : ∀ (i : Nat) (h1 : i < (normalizeExtents es).length) (h2 : i < es.length),
        (∃ t, (normalizeExtents es)[i].content = .dynamic t) ↔ writtenSize es[i] = none := by
      intro i h1 h2
      rw [normalizeExtents_getElem _ i h2, normalizeExtent_content]
      cases writtenSize es[i] <;> simp
    constructor
    · rintro ⟨i, a, u, ha, hu, ht, h1, h2⟩
      obtain ⟨i1, rfl⟩ := List.getElem?_eq_some_iff.1 ha
      obtain ⟨i2, rfl⟩ := List.getElem?_eq_some_iff.1 hu
      refine ⟨us[i], List.getElem_mem _, fun h => ?_⟩
      obtain ⟨-, e, he, hn⟩ := (husable _).1 h
      have := hg.2 i i2 (by omega)
      simp only [List.get_eq_getElem, UserArg.toDescriptor] at this
      rw [he, Option.some.injEq] at this
      subst this
      rcases hn ((hcont i i1 (by omega)).1 ht) with h | h
      · rw [h1] at h; cases h
      · rw [h2] at h; cases h
    · rintro ⟨u, hu, hn⟩
      obtain ⟨i, i2, rfl⟩ := List.mem_iff_getElem.1 hu
      have := hg.2 i i2 (by omega)
      simp only [List.get_eq_getElem, UserArg.toDescriptor] at this
      rw [husable] at hn
      have i1 : i < (normalizeExtents es).length := by rw [normalizeExtents_length]; omega
      have hw : writtenSize es[i] = none ∧ us[i].dimension = none ∧ us[i].constant = none := by
        by_contra hcon
        refine hn ⟨hsz _ hu, _, this, fun hw => ?_⟩
        by_contra hh
        rw [not_or] at hh
        exact hcon ⟨hw, by simpa using hh.1, by simpa using hh.2⟩
      exact ⟨i, _, _, List.getElem?_eq_getElem i1, List.getElem?_eq_getElem i2, (hcont i i1 (by omega)).2 hw.1, hw.2⟩

example : Usable (exPixels 7) ∧ Usable exFixed ∧ Usable (exWidth 3) ∧ ¬ Usable exSpecial ∧ ¬ Usable (exDouble 3) := by
  refine ⟨⟨rfl, _, .inl rfl, fun _ => .inl rfl⟩, ⟨rfl, _, .inl rfl, fun _ => .inl rfl⟩, ⟨rfl, _, .inl rfl, fun _ => .inl rfl⟩, ?_, ?_⟩
  · rintro ⟨h, _⟩; cases h
  · rintro ⟨_, e, h | ⟨_, v, h, _⟩, _⟩ <;> cases h

example : ofSizeUser .checked ([exWidth 3, exWidth 4].map .own) = none ∧ ofSizeUser .checked ([exPixels 3, exDouble 4].map .own) = none ∧
    ofSizeUser .checked ([exPixels 3, exWidth 4].map .own) ≠ none := by decide

/-- **C143** What the constraint of the constructor (`std::is_constructible_v`) promises for objects that convert to `std::size_t`: it asks for nothing else,
and the constructor nevertheless does not compile exactly if the type given for some run-time axis has no dimension. -/
theorem C143_constraint_partial (md : Mode) (dflt : Int) (es : List Extent) (us : List UserExtent) (hl : us.length ≤ es.length)
    (hs : ∀ u ∈ us, u.size.isSome = true) :
    accepted (normalizeExtents es) (us.map .own) = true ∧
      (buildUser md es dflt (us.map .own) = none ↔
        ∃ (i : Nat) (e : Extent) (u : UserExtent), (es.drop (es.length - us.length))[i]? = some e ∧ us[i]? = some u ∧
          writtenSize e = none ∧ u.dimension = none ∧ u.constant = none) := by
  have hacc : accepted (normalizeExtents es) (us.map .own) = true := by
    simp [accepted, (all_own us hs).1, (all_own us hs).2, normalizeExtents_length, hl]
  refine ⟨hacc, ?_⟩
  rw [buildUser, if_pos hacc, constructUser_none hs (by simpa [normalizeExtents_length] using hl), normalizeExtents_length]
  refine exists_congr fun i => ?_
  have hx : ∀ a, ((normalizeExtents es).drop (es.length - us.length))[i]? = some a ↔ ∃ e,
      (es.drop (es.length - us.length))[i]? = some e ∧ a = normalizeExtent (es.length - 1 - (es.length - us.length + i)) e := by
    intro a
    rw [List.getElem?_drop, List.getElem?_drop]
    constructor
    · intro h
      obtain ⟨h1, rfl⟩ := List.getElem?_eq_some_iff.1 h
      have h2 : es.length - us.length + i < es.length := by simpa [normalizeExtents_length] using h1
      exact ⟨_, List.getElem?_eq_getElem h2, normalizeExtents_getElem _ _ h2⟩
    · rintro ⟨e, h, rfl⟩
      obtain ⟨h2, rfl⟩ := List.getElem?_eq_some_iff.1 h
      rw [List.getElem?_eq_getElem (by simpa [normalizeExtents_length] using h2), normalizeExtents_getElem _ _ h2]
  constructor
  · rintro ⟨a, u, ha, hu, ⟨t, ht⟩, h⟩
    obtain ⟨e, he, rfl⟩ := (hx a).1 ha
    refine ⟨e, u, he, hu, ?_, h⟩
    rw [normalizeExtent_content] at ht
    rcases hw : writtenSize e with _ | x
    · rfl
    · rw [hw] at ht; cases ht
  · rintro ⟨e, u, he, hu, hw, h⟩
    refine ⟨_, u, (hx _).2 ⟨e, he, rfl⟩, hu, ⟨writtenType e, ?_⟩, h⟩
    rw [normalizeExtent_content, hw]

example := C143_constraint_partial .checked 0 [.type .u8, .int 4] [exPixels 7, exDouble 3] (by decide) (by decide)

/-- **C143** `double` passes the constraint of `shape<_>` and cannot be used. -/
theorem C143_constraint_false : accepted (normalizeExtents [.joker]) [.own (exDouble 2)] = true ∧
    buildUser .checked [.joker] 0 [.own (exDouble 2)] = none ∧ buildUser .unchecked [.joker] 0 [.own (exDouble 2)] = none ∧
    (buildUser .unchecked [.int 3] 0 [.own (exDouble 2)]).map (·.map (·.values)) = some (.ok [3]) := by decide

/-- **C143** Values of the user's types under the name of an axis: `of_size` refuses them, unless the library takes them for constants.  A shape type with
this axis can be built from them. -/
theorem C143_named_false (md : Mode) (args : List UserArg) (a : AxisId) (u : UserExtent) (hm : .ownNamed a u ∈ args)
    (hu : u.constant = none) :
    ofSizeUser md args = none ∧ withStridesUser md args = none := by
  have : args.mapM UserArg.toDescriptor = none := mapM_none_iff.2 ⟨_, hm, by simp [UserArg.toDescriptor, hu]⟩
  constructor
  · simp only [ofSizeUser, this]
  · simp only [withStridesUser, this]

example : ofSizeUser .checked [.ownNamed (.named "width") (exPixels 7)] = none ∧
    (ofSizeUser .checked [.lib (.named (.named "width") (.int .i16 7))]).map (·.map (·.values)) = some (.ok [7]) ∧
    (buildUser .checked [.axis (.named "height") none, .axis (.named "width") none] 0
      [.ownNamed (.named "width") (exPixels 7), .lib (.named (.named "height") (.int .i32 3))]).map (·.map (·.values)) =
      some (.ok [3, 7]) := by decide

/-- **C143** Both overloads do not make a type usable: without the conversion to `std::size_t` nothing accepts it. -/
theorem C143_conversion_false (md : Mode) (args : List UserArg) (u : UserExtent) (hm : .own u ∈ args) (hu : u.size = none)
    (es : List Extent) (dflt : Int) :
    ofSizeUser md args = none ∧ withStridesUser md args = none ∧ buildUser md es dflt args = none := by
  have : ∀ es dflt, buildUser md es dflt args = none := by
    intro es dflt
    rw [buildUser, if_neg]
    intro h
    simp only [accepted, Bool.and_eq_true, List.all_eq_true] at h
    have := h.1.1 _ hm
    simp [UserArg.isExtent, hu] at this
  refine ⟨?_, ?_, this es dflt⟩
  · simp only [ofSizeUser, this]
    split <;> simp
  · simp only [withStridesUser, this]
    split <;> rfl

example : exSpecial.toDescriptor = some .joker ∧ exSpecial.asDimension 0 = some 11 ∧ ofSizeUser .checked [.own exSpecial] = none := by decide

/-- **C143** `of_size<T>` leaves objects of the user's types as they are: they are stored in the type that they declare, not in `T`. -/
theorem C143_typed_false (md : Mode) (t : IntType) (us : List UserExtent) (hc : ∀ u ∈ us, u.constant = none)
    (hs : ∀ u ∈ us, u.size.isSome = true) :
    ofSizeTUser md t (us.map .own) = ofSizeUser md (us.map .own) ∧
    (ofSizeTUser .checked .i64 [.own (exPixels 7)]).map (·.map (·.desc)) = some (.ok [⟨.implicit 0, .dynamic .i16⟩]) ∧
    (ofSizeT .checked .i64 [.int .i16 7]).map (·.map (·.desc)) = some (.ok [⟨.implicit 0, .dynamic .i64⟩]) := by
  refine ⟨?_, by decide, by decide⟩
  rw [ofSizeTUser, if_pos (all_own us hs).1]
  congr 1
  rw [List.map_map]
  apply List.map_congr_left
  intro u hu
  simp [forceTypeUser, hc u hu]

/-- **C143** The full property: an object that represents a number fitting its descriptor, the conversion aside, can be used alone and under the name of an axis,
and in `of_size<T>` is stored as `T`. -/
def C143_statement : Prop :=
  ∀ (md : Mode) (u : UserExtent) (v : Int) (t : IntType), 0 < t.bits → t.Fits v → u.descriptor = some (.type t) →
    (∃ f, u.dimension = some f ∧ ∀ d, f d = v) →
    (ofSizeUser md [.own u]).map (·.map (·.values)) = some (.ok [v]) ∧
    (ofSizeUser md [.ownNamed (.named "width") u]).map (·.map (·.values)) = some (.ok [v]) ∧
    ∀ T : IntType, 0 < T.bits → T.Fits v →
      (ofSizeTUser md T [.own u]).map (·.map (·.desc)) = some (.ok [⟨.implicit 0, .dynamic T⟩])

theorem C143_statement_false : ¬ C143_statement := by
  intro h
  have := (h .checked (exPixels 7) 7 .i16 (by decide) (by decide) rfl ⟨_, rfl, fun _ => rfl⟩).2.1
  rw [(C143_named_false .checked [.ownNamed (.named "width") (exPixels 7)] (.named "width") (exPixels 7) (by simp) rfl).1] at this
  cases this

end Kwk
