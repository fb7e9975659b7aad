import Verif.Lemmas.Build
import Verif.Props.Axes

/-!
# Properties C83-C88: building shapes and strides from lists of extents
-/

namespace Kwk
open Spec

/-! ## C83

Full property: `of_size(d...)` has one axis for each argument, in order, with the name, the size and the compile-time
knowledge of the argument; the size is 0 when none is given.  It is false for an axis given with a size, such as
`width[3]` (`C83_sized_axis_forgotten`): the size is lost. -/

/-- **C83** (partial) `of_size` builds exactly the shape its arguments describe.  Missing: axes given with a size. -/
theorem C83_of_size_partial (md : Mode) (args : List BuildArg) (hp : ProperArgs args)
    (ht : ∀ b ∈ args, ArgTyped b) (hx : ∀ b ∈ args, ¬ IsSizedAxis b)
    (hm : ¬ ((∃ b ∈ args, IsNamed b) ∧ ∃ b ∈ args, IsBareAxis b)) :
    ∃ s, ofSize md args = some (.ok s) ∧ s.values = args.map (argSize 0) ∧
      s.desc.map (·.isDynamic) = args.map (fun b => !argConst b) ∧
      ∀ (i : Nat) (b : BuildArg) (a : AxisId), args[i]? = some b → argName b = some a → s.at a = argSize 0 b := by
  obtain ⟨s, h1, h2, _, h3⟩ := buildPrefilled_ok md (dflt := 0) hp
    (by
      by_cases h : ∃ b ∈ args, IsNamed b
      · right
        intro b hb hn
        have h' : ¬ IsBareAxis b := fun hh => hm ⟨h, b, hb, hh⟩
        cases b <;> first | rfl | exact absurd rfl hn | exact absurd ⟨_, rfl⟩ h' | exact absurd ⟨_, _, _, rfl⟩ (hx _ hb)
      · left
        intro b hb
        cases b <;> first | rfl | exact absurd ⟨_, hb, _, _, rfl⟩ h)
    (fun b hb => canHold_toDescriptor b (by decide) (ht b hb)
      fun a t v e => absurd ⟨a, t, v, e⟩ (hx b hb))
  have hv : s.values = args.map (argSize 0) := by
    rw [h3]; exact List.map_congr_left fun b hb => storedSize_eq (hx b hb)
  refine ⟨s, ?_, hv, ?_, ?_⟩
  · rw [ofSize, if_neg, h1]
    rw [duplicateAxis_iff hp.2]
    exact fun h => h hp.1
  · rw [h2]; exact isDynamic_toDescriptor args
  · intro i b a hb ha
    obtain ⟨x, hx', rfl⟩ := ids_toDescriptor args i b a hb ha
    have := at_eq (s := s) (by rw [h2]; exact normalizeExtents_nodup (properNames_args hp)) (i := i) (x := x)
      (by rw [h2]; exact hx')
    rw [hv, List.getElem?_map, hb] at this
    exact Option.some_inj.1 this

/-- `of_size(5, 3_c, width, _)` and `of_size(2, width = 3_c, height = 7)`. -/
example : (ofSize .checked [.int .i16 5, .const 3, .axis (.named "width"), .joker]).map (·.map (·.values)) =
      some (.ok [5, 3, 0, 0]) ∧
    (ofSize .checked [.int .i32 2, .named (.named "width") (.const 3), .named (.named "height") (.int .u8 7)]).map
      (·.map fun s => (s.values, s.at (.named "height"))) = some (.ok ([2, 3, 7], 7)) := by decide
example : ProperArgs [.int .i32 2, .named (.named "width") (.const 3), .named (.named "height") (.int .u8 7)] := by
  refine ⟨by decide, ?_⟩
  intro a ha n
  simp [argName] at ha
  rcases ha with rfl | rfl <;> simp
example : ∀ b ∈ [BuildArg.int .i32 2, .named (.named "width") (.const 3), .named (.named "height") (.int .u8 7)],
    ArgTyped b := by
  intro b hb
  simp at hb
  rcases hb with rfl | rfl | rfl
  · show IntType.Fits _ _; decide
  · trivial
  · show IntType.Fits _ _; decide

/-- **C83** (negation) The size of a sized axis is forgotten: `of_size(width[3])` has size 0, for every axis and size. -/
theorem C83_sized_axis_forgotten (md : Mode) (a : AxisId) (t : IntType) (hb : 0 < t.bits) (v : Int) :
    ∃ s, ofSize md [.axisSize a t v] = some (.ok s) ∧ s.values = [0] := by
  have hh : List.Forall₂ (CanHold 0) ([BuildArg.axisSize a t v].map toDescriptor) ([BuildArg.axisSize a t v].map (·.arg)) :=
    .cons (fun _ => IntType.zero_fits t hb) .nil
  obtain ⟨s, e1, e2, e3, e4⟩ := fillAxes_values md 0 (by simp [normalizeExtents_length])
    (forall₂_normalize (storable_normalize 0) hh)
    (fun _ => forall₂_normalize consistent_normalize
      (forall₂_map_args (args := [BuildArg.axisSize a t v]) fun b _ => noConflict_toDescriptor b))
  refine ⟨s, ?_, ?_⟩
  · rw [ofSize, if_neg (by simp [duplicateAxis, normalizeExtents, allUnique, conversionsTo]), buildPrefilled, if_pos (by rfl),
      Prefilled.ofExtents, if_pos (by simp [normalizeExtents_length]), construct_eq, e1]
  · rw [e4, zipWith_normalize 0 (by simp), zipWith_map_args]; rfl

example : (ofSize .checked [.axisSize (.named "width") .i32 3]).map (·.map (·.values)) = some (.ok [0]) := by decide

/-- **C83** (exactly when) Without named extents, the sizes read back are those asked for iff every size given in an axis
is 0. -/
theorem C83_exact_partial (md : Mode) (args : List BuildArg) (hp : ProperArgs args) (ht : ∀ b ∈ args, ArgTyped b)
    (hn : ∀ b ∈ args, ¬ IsNamed b) (hb : ∀ a t v, .axisSize a t v ∈ args → 0 < t.bits) :
    ∃ s, ofSize md args = some (.ok s) ∧
      (s.values = args.map (argSize 0) ↔ ∀ a t v, .axisSize a t v ∈ args → v = 0) := by
  obtain ⟨s, h1, h2, _, h3⟩ := buildPrefilled_ok md (dflt := 0) hp
    (.inl fun b hb' => by cases b <;> first | rfl | exact absurd ⟨_, _, rfl⟩ (hn _ hb'))
    (fun b hb' => canHold_toDescriptor b (by decide) (ht b hb') fun a t v e =>
      IntType.zero_fits t (hb a t v (e ▸ hb')))
  refine ⟨s, ?_, ?_⟩
  · rw [ofSize, if_neg, h1]
    rw [duplicateAxis_iff hp.2]
    exact fun h => h hp.1
  · rw [h3, List.map_inj_left]
    constructor
    · intro h a t v hm
      exact (h _ hm).symm
    · intro h b hb'
      rcases b with _ | _ | _ | _ | ⟨a, t, v⟩ | _ <;> first | rfl | exact (h a t v hb').symm

example := C83_exact_partial .checked [.int .i16 5, .const 3, .axisSize (.named "width") .i32 4] ⟨by decide, by simp [argName]⟩
  (by simp [ArgTyped, IntType.Fits, IntType.lo, IntType.hi, IntType.i16, IntType.i32]) (by simp [IsNamed]) (by intro a t v h; simp at h; obtain ⟨-, rfl, -⟩ := h; decide)

/-- **C83** (acceptance) `of_size` is ill-formed exactly when an axis is named twice, or when named extents
(`width = 3`) are mixed with axes (`width` or `width[3]`). -/
theorem C83_rejected (md : Mode) (args : List BuildArg) (hp : ∀ a ∈ args.filterMap argName, ∀ n, a ≠ .implicit n) :
    ofSize md args = none ↔ ¬ (args.filterMap argName).Nodup ∨
      ((∃ b ∈ args, IsNamed b) ∧ ∃ b ∈ args, IsBareAxis b ∨ IsSizedAxis b) := by
  rw [ofSize]
  by_cases hd : (args.filterMap argName).Nodup
  swap
  · rw [if_pos ((duplicateAxis_iff hp).2 hd)]
    exact ⟨fun _ => .inl hd, fun _ => rfl⟩
  rw [if_neg (by rw [duplicateAxis_iff hp]; exact fun h => h hd)]
  have hN : ∀ b : BuildArg, b.isNamed = true ↔ IsNamed b := by
    intro b
    cases b <;> simp [BuildArg.isNamed, IsNamed]
  constructor
  · intro h
    refine .inr ?_
    by_contra hc
    rw [buildPrefilled] at h
    split at h
    · cases h
    · next h1 =>
      split at h
      · cases h
      · next h2 =>
        split at h
        · cases h
        · next h3 =>
          apply h3
          have hex : ∃ b ∈ args, IsNamed b := by
            by_contra hh
            apply h1
            rw [List.all_eq_true]
            intro b hb
            cases hbn : b.isNamed with
            | false => rfl
            | true => exact absurd ⟨b, hb, (hN b).1 hbn⟩ hh
          have hax : ∀ b ∈ args, ¬ (IsBareAxis b ∨ IsSizedAxis b) := fun b hb hh => hc ⟨hex, b, hb, hh⟩
          have hgn : (args.map (·.mixed)).map givenName = (args.map toDescriptor).map writtenName := by
            rw [List.map_map, List.map_map]
            apply List.map_congr_left
            intro x hx
            simp only [Function.comp, writtenName_toDescriptor]
            have := hax x hx
            cases x <;> first | rfl | exact absurd (.inl ⟨_, rfl⟩) this | exact absurd (.inr ⟨_, _, _, rfl⟩) this
          have hids : ∀ x ∈ args, ∃ y ∈ normalizeExtents (args.map toDescriptor), ∃ n,
              y = normalizeExtent n (toDescriptor x) := by
            intro x hx
            obtain ⟨i, hi, rfl⟩ := List.mem_iff_getElem.1 hx
            refine ⟨(normalizeExtents (args.map toDescriptor))[i]'(by simpa [normalizeExtents_length] using hi),
              List.getElem_mem _, (args.map toDescriptor).length - 1 - i, ?_⟩
            rw [normalizeExtents_getElem _ i (by simpa using hi), List.getElem_map]
          rw [isOrdered_of_names hgn, Bool.and_true, Bool.and_eq_true, Bool.not_eq_true', Bool.not_eq_true']
          constructor
          · rw [Bool.eq_false_iff]
            intro hall
            rw [List.all_eq_true] at hall
            obtain ⟨b, hb, a, v, rfl⟩ := hex
            obtain ⟨y, hy, n, rfl⟩ := hids _ hb
            have := hall _ hy
            rw [Axis.isImplicit, normalizeExtent_id, writtenName_toDescriptor] at this
            have ha : a ∈ args.filterMap argName := List.mem_filterMap.2 ⟨_, hb, rfl⟩
            simp only [argName, Option.getD_some] at this
            cases a with
            | implicit k => exact hp _ ha k rfl
            | along k => cases this
            | named k => cases this
          · rw [Bool.eq_false_iff]
            intro hall
            rw [List.all_eq_true] at hall
            apply h2
            rw [List.all_eq_true]
            intro c hc'
            rw [hN]
            by_contra hcn
            obtain ⟨y, hy, n, rfl⟩ := hids c hc'
            have := hall _ hy
            have hcN : argName c = none := by
              have := hax c hc'
              cases c <;> first | rfl | exact absurd (.inl ⟨_, rfl⟩) this | exact absurd (.inr ⟨_, _, _, rfl⟩) this |
                exact absurd ⟨_, _, rfl⟩ hcn
            rw [Axis.isImplicit, normalizeExtent_id, writtenName_toDescriptor, hcN] at this
            cases this
  · rintro (h | ⟨⟨b, hb, hbn⟩, c, hc, hcx⟩)
    · exact absurd hd h
    have hcn : c.isNamed = false := by
      rcases hcx with ⟨_, rfl⟩ | ⟨_, _, _, rfl⟩ <;> rfl
    rw [buildPrefilled, if_neg, if_neg, if_neg]
    · intro h3
      rw [Bool.and_eq_true, Bool.and_eq_true, Bool.not_eq_true', Bool.not_eq_true'] at h3
      obtain ⟨⟨_, h4⟩, h5⟩ := h3
      rw [C61_misplaced_rejected _ _ (properNames_args ⟨hd, hp⟩)] at h5
      · cases h5
      · by_contra hne
        push Not at hne
        rw [Bool.eq_false_iff] at h4
        apply h4
        rw [List.all_eq_true]
        intro x hx
        obtain ⟨i, hi, rfl⟩ := List.mem_iff_getElem.1 hx
        have hi' : i < args.length := by simpa [normalizeExtents_length] using hi
        rw [normalizeExtents_getElem _ i (by simpa using hi'), Axis.isImplicit, normalizeExtent_id]
        have h6 := hne ((args.map toDescriptor)[i]'(by simpa using hi')) (List.getElem_mem _)
        cases h7 : writtenName ((args.map toDescriptor)[i]'(by simpa using hi')) with
        | none => exact absurd h7 h6
        | some a =>
          have ha : a ∈ args.filterMap argName := by
            rw [List.getElem_map, writtenName_toDescriptor] at h7
            exact List.mem_filterMap.2 ⟨_, List.getElem_mem _, h7⟩
          rw [Option.getD_some]
          cases a with
          | implicit k => exact absurd rfl (hp _ ha k)
          | along k => rfl
          | named k => rfl
      · intro v hv n hg
        obtain ⟨x, hx, rfl⟩ := List.mem_map.1 hv
        cases x <;> simp [BuildArg.mixed, givenName] at hg
        next a w => exact hp a (List.mem_filterMap.2 ⟨_, hx, rfl⟩) n hg
      · intro he
        obtain ⟨i, hi, rfl⟩ := List.mem_iff_getElem.1 hc
        have := List.getElem_of_eq he (i := i) (by simpa using hi)
        simp only [List.getElem_map, writtenName_toDescriptor] at this
        rcases hcx with ⟨a, e⟩ | ⟨a, t, v, e⟩ <;> rw [e] at this <;> cases this
    · intro h
      rw [List.all_eq_true] at h
      rw [h c hc] at hcn; cases hcn
    · intro h
      rw [List.all_eq_true] at h
      have := h b hb
      rw [(hN b).2 hbn] at this; cases this

example : ofSize .checked [.axis (.named "width"), .int .i32 3, .axis (.named "width")] = none :=
  (C83_rejected .checked _ (by simp [argName])).2 (.inl (by decide))

/-- **C83** The full property. -/
def C83_statement : Prop :=
  ∀ (md : Mode) (args : List BuildArg), ProperArgs args → (∀ b ∈ args, ArgTyped b) →
    ¬ ((∃ b ∈ args, IsNamed b) ∧ ∃ b ∈ args, IsBareAxis b ∨ IsSizedAxis b) →
    ∃ s, ofSize md args = some (.ok s) ∧ s.values = args.map (argSize 0) ∧
      s.desc.map (·.isDynamic) = args.map (fun b => !argConst b) ∧
      ∀ (i : Nat) (b : BuildArg) (a : AxisId), args[i]? = some b → argName b = some a → s.at a = argSize 0 b

theorem C83_statement_false : ¬ C83_statement := by
  intro h
  obtain ⟨s, hs, hv, -⟩ := h .checked [.axisSize (.named "width") .i32 3] ⟨by decide, by simp [argName]⟩
    (by simp [ArgTyped, IntType.Fits, IntType.lo, IntType.hi, IntType.i32]) (by simp [IsNamed])
  obtain ⟨s', hs', hv'⟩ := C83_sized_axis_forgotten .checked (.named "width") .i32 (by decide) 3
  rw [hs] at hs'
  obtain rfl := Except.ok.inj (Option.some.inj hs')
  rw [hv'] at hv
  exact absurd hv (by decide)

example : ofSize .checked [.axis (.named "width"), .int .i32 3, .axis (.named "width")] = none ∧
    ofSize .checked [.axis (.named "width"), .named (.named "height") (.int .i32 3)] = none ∧
    ofSize .checked [.axis (.named "width"), .int .i32 3] ≠ none := by decide

/-! ## C84: `of_size<T>` -/

/-- `of_size<T>`, on arguments without named extents: each run-time size is stored as `T`, and the size read back is
the size of the argument as forced to `T`. -/
private theorem ofSizeT_ok (md : Mode) (t : IntType) (hb : 0 < t.bits) (args : List BuildArg) (hp : ProperArgs args)
    (hn : ∀ b ∈ args, ¬ IsNamed b) :
    ∃ s, ofSizeT md t args = some (.ok s) ∧ s.values = args.map (fun b => storedSize 0 (forceType t b)) ∧
      ∀ x ∈ s.desc, ∀ u, x.content = .dynamic u → u = t := by
  have hname : (args.map (forceType t)).filterMap argName = args.filterMap argName := by
    rw [List.filterMap_map]
    congr 1
    funext b
    cases b <;> rfl
  have hp' : ProperArgs (args.map (forceType t)) := by rw [ProperArgs, hname]; exact hp
  have hfit := IntType.wrap_mem t hb
  have hz := IntType.zero_fits t hb
  obtain ⟨s, h1, h2, _, h3⟩ := buildPrefilled_ok md (dflt := 0) hp'
    (.inl fun b hb' => by
      obtain ⟨c, hc, rfl⟩ := List.mem_map.1 hb'
      cases c <;> first | rfl | exact absurd ⟨_, _, rfl⟩ (hn _ hc))
    (fun b hb' => canHold_toDescriptor b (by decide)
      (by
        obtain ⟨c, hc, rfl⟩ := List.mem_map.1 hb'
        cases c <;> first | exact hfit _ | trivial | exact hz | exact absurd ⟨_, _, rfl⟩ (hn _ hc))
      fun a u v e => by
        obtain ⟨c, hc, rfl⟩ := List.mem_map.1 hb'
        cases c <;> simp [forceType] at e <;> (obtain ⟨_, rfl, _⟩ := e; exact hz))
  rw [List.map_map] at h3
  refine ⟨s, ?_, h3, ?_⟩
  · rw [ofSizeT, ofSize, if_neg, h1]
    rw [duplicateAxis_iff hp'.2]
    exact fun h => h hp'.1
  · intro x hxm u hu
    rw [h2] at hxm
    obtain ⟨i, hi, rfl⟩ := List.mem_iff_getElem.1 hxm
    have hi' : i < args.length := by simpa [normalizeExtents_length] using hi
    rw [normalizeExtents_getElem _ i (by simpa using hi'), normalizeExtent_content, List.getElem_map, List.getElem_map] at hu
    have hb' : args[i] ∈ args := List.getElem_mem _
    generalize args[i] = b at hu hb'
    have := hn b hb'
    cases b <;> simp [forceType, toDescriptor, writtenSize, writtenType] at hu <;>
      first | exact hu.symm | exact absurd ⟨_, _, rfl⟩ this

/-- **C84** (partial) `of_size<T>`, on arguments without size in an axis and without named extents, converts each size to `T`:
the size read back is the value of type `T` congruent to the size given, so it is that size iff `T` can represent it; and
all run-time sizes are stored as `T`.  Missing: axes with a size, whose size is lost (`C84_sized_axis_forgotten`). -/
theorem C84_of_size_typed_partial (md : Mode) (t : IntType) (hb : 0 < t.bits) (args : List BuildArg) (hp : ProperArgs args)
    (hn : ∀ b ∈ args, ¬ IsNamed b) (hx : ∀ b ∈ args, ¬ IsSizedAxis b) :
    ∃ s, ofSizeT md t args = some (.ok s) ∧
      List.Forall₂ (fun b v => t.Fits v ∧ v % 2 ^ t.bits = argSize 0 b % 2 ^ t.bits) args s.values ∧
      (s.values = args.map (argSize 0) ↔ ∀ b ∈ args, t.Fits (argSize 0 b)) ∧
      ∀ x ∈ s.desc, ∀ u, x.content = .dynamic u → u = t := by
  obtain ⟨s, h1, h3, h2⟩ := ofSizeT_ok md t hb args hp hn
  have hfit := IntType.wrap_mem t hb
  have hz := IntType.zero_fits t hb
  have hw : ∀ v, t.wrap v % 2 ^ t.bits = v % 2 ^ t.bits := by
    intro v
    simp only [IntType.wrap]
    split
    · rw [Int.sub_emod_right, Int.emod_emod]
    · rw [Int.emod_emod]
  have hst : ∀ b ∈ args, storedSize 0 (forceType t b) = t.wrap (argSize 0 b) := by
    intro b hb'
    have h0 : t.wrap 0 = 0 := IntType.wrap_fits hz
    cases b <;> first | rfl | exact h0.symm | exact absurd ⟨_, _, rfl⟩ (hn _ hb') | exact absurd ⟨_, _, _, rfl⟩ (hx _ hb')
  refine ⟨s, h1, ?_, ?_, h2⟩
  · rw [h3, List.forall₂_map_right_iff, List.forall₂_same]
    intro b hb'
    simp only [hst b hb']
    exact ⟨hfit _, hw _⟩
  · rw [h3, List.map_inj_left]
    refine forall₂_congr fun b hb' => ?_
    simp only [hst b hb']
    exact ⟨fun h => h ▸ hfit _, IntType.wrap_fits⟩

example := C84_of_size_typed_partial .checked .u8 (by decide) [.int .i32 300, .const 3, .joker] ⟨by decide, by simp [argName]⟩
  (by simp [IsNamed]) (by simp [IsSizedAxis])

/-- **C84** (exact, partial) The sizes read back are the sizes given if and only if `T` represents them all and no axis is
given with a size other than 0. -/
theorem C84_exact_partial (md : Mode) (t : IntType) (hb : 0 < t.bits) (args : List BuildArg) (hp : ProperArgs args)
    (hn : ∀ b ∈ args, ¬ IsNamed b) :
    (ofSizeT md t args).map (·.map (·.values)) = some (.ok (args.map (argSize 0))) ↔
      ∀ b ∈ args, t.Fits (argSize 0 b) ∧ (IsSizedAxis b → argSize 0 b = 0) := by
  obtain ⟨s, h1, h3, -⟩ := ofSizeT_ok md t hb args hp hn
  have hz := IntType.zero_fits t hb
  rw [h1]
  simp only [Option.map_some, Except.map, Option.some.injEq, Except.ok.injEq]
  rw [h3, List.map_inj_left]
  refine forall₂_congr fun b hb' => ?_
  have wfit : ∀ v, t.wrap v = v ↔ t.Fits v := fun v => ⟨fun h => h ▸ IntType.wrap_mem t hb v, IntType.wrap_fits⟩
  cases b with
  | int u v => simp [forceType, storedSize, argSize, IsSizedAxis, wfit]
  | const v => simp [forceType, storedSize, argSize, IsSizedAxis, wfit]
  | joker => simp [forceType, storedSize, argSize, IsSizedAxis, hz]
  | axis a => simp [forceType, storedSize, argSize, IsSizedAxis, hz]
  | axisSize a u v =>
    simp only [forceType, storedSize, argSize, IsSizedAxis]
    exact ⟨fun h => ⟨h ▸ hz, fun _ => h.symm⟩, fun h => (h.2 ⟨_, _, _, rfl⟩).symm⟩
  | named a v => exact absurd ⟨_, _, rfl⟩ (hn _ hb')

example := C84_exact_partial .checked .u8 (by decide) [.int .i32 300, .const 3, .joker] ⟨by decide, by simp [argName]⟩ (by simp [IsNamed])

/-- **C84** (negation) `of_size<short>(width[3], 4)` has the sizes 0 and 4. -/
theorem C84_sized_axis_forgotten :
    (ofSizeT .checked .i16 [.axisSize (.named "width") .i32 3, .int .i32 4]).map (·.map (·.values)) = some (.ok [0, 4]) := by
  decide

/-- **C84** The full property. -/
def C84_statement : Prop :=
  ∀ (md : Mode) (t : IntType) (args : List BuildArg), 0 < t.bits → ProperArgs args → (∀ b ∈ args, ¬ IsNamed b) →
    ∃ s, ofSizeT md t args = some (.ok s) ∧
      List.Forall₂ (fun b v => t.Fits v ∧ v % 2 ^ t.bits = argSize 0 b % 2 ^ t.bits) args s.values ∧
      ∀ x ∈ s.desc, ∀ u, x.content = .dynamic u → u = t

theorem C84_statement_false : ¬ C84_statement := by
  intro h
  obtain ⟨s, hs, hv, -⟩ := h .checked .i16 [.axisSize (.named "width") .i32 3, .int .i32 4] (by decide) ⟨by decide, by simp [argName]⟩
    (by simp [IsNamed])
  have e := C84_sized_axis_forgotten
  rw [hs] at e
  have e : s.values = [0, 4] := Except.ok.inj (Option.some.inj e)
  rw [e] at hv
  cases hv with
  | cons h1 _ => exact absurd h1.2 (by decide)

example : (ofSizeT .checked .i16 [.int .i32 5, .const 3, .axis (.named "width"), .joker]).map (·.map (·.values)) =
      some (.ok [5, 3, 0, 0]) ∧
    (ofSizeT .checked .u8 [.int .i32 300, .int .i32 2]).map (·.map (·.values)) = some (.ok [44, 2]) := by decide

/-! ## C85: `as_array`

Full property: `s.as_array()` holds the extents of `s`.  It is false when two extents have types of the same size, one
signed and one unsigned (`C85_as_array_changes_extents`). -/

/-- **C85** (type) All elements of the array have the same type, that of one of the extents; no extent has a larger
type. -/
theorem C85_as_array_type (s : List Coord) :
    (asArray s).length = s.length ∧
    ∀ r ∈ asArray s, (∀ r' ∈ asArray s, r'.type = r.type) ∧ (∃ c ∈ s, c.type = r.type) ∧
      ∀ c ∈ s, c.type.bits ≤ r.type.bits := by
  cases s with
  | nil => simp [asArray]
  | cons c cs =>
    have hL : ∀ (us : List IntType) (t : IntType), (largestType t us = t ∨ largestType t us ∈ us) ∧
        t.bits ≤ (largestType t us).bits ∧ ∀ u ∈ us, u.bits ≤ (largestType t us).bits := by
      intro us
      induction us with
      | nil => intro t; simp [largestType]
      | cons u us ih =>
        intro t
        rw [largestType]
        have := ih (if t.bits < u.bits then u else t)
        split
        · next h =>
          rw [if_pos h] at this
          obtain ⟨h1, h2, h3⟩ := this
          refine ⟨.inr ?_, by omega, ?_⟩
          · rcases h1 with h1 | h1
            · rw [h1]; simp
            · exact List.mem_cons_of_mem _ h1
          · intro w hw
            rcases List.mem_cons.1 hw with rfl | hw
            · exact h2
            · exact h3 w hw
        · next h =>
          rw [if_neg h] at this
          obtain ⟨h1, h2, h3⟩ := this
          refine ⟨?_, h2, ?_⟩
          · rcases h1 with h1 | h1
            · exact .inl h1
            · exact .inr (List.mem_cons_of_mem _ h1)
          · intro w hw
            rcases List.mem_cons.1 hw with rfl | hw
            · omega
            · exact h3 w hw
    obtain ⟨h1, h2, h3⟩ := hL (cs.map (·.type)) c.type
    have hty : ∀ r ∈ asArray (c :: cs), r.type = largestType c.type (cs.map (·.type)) := by
      intro r hr
      obtain ⟨m, _, rfl⟩ := List.mem_map.1 hr
      rfl
    refine ⟨by simp [asArray], ?_⟩
    intro r hr
    rw [hty r hr]
    refine ⟨fun r' hr' => hty r' hr', ?_, ?_⟩
    · rcases h1 with h1 | h1
      · exact ⟨c, by simp, h1.symm⟩
      · obtain ⟨d, hd, e⟩ := List.mem_map.1 h1
        exact ⟨d, by simp [hd], e⟩
    · intro d hd
      rcases List.mem_cons.1 hd with rfl | hd
      · exact h2
      · exact h3 _ (List.mem_map_of_mem hd)

/-- **C85** (exactly when) The array holds the extents iff its element type can represent all of them. -/
theorem C85_as_array_exact_partial (s : List Coord) (hb : ∀ c ∈ s, 0 < c.type.bits) (r : Coord) (hr : r ∈ asArray s) :
    (asArray s).map (·.value) = s.map (·.value) ↔ ∀ c ∈ s, r.type.Fits c.value := by
  obtain ⟨_, ⟨c0, hc0, hc0t⟩, _⟩ := (C85_as_array_type s).2 r hr
  have hpos : 0 < r.type.bits := hc0t ▸ hb c0 hc0
  cases s with
  | nil => cases hr
  | cons c cs =>
    have ht : r.type = largestType c.type (cs.map (·.type)) := by
      obtain ⟨m, _, rfl⟩ := List.mem_map.1 hr; rfl
    rw [asArray, ← ht, List.map_map, List.map_inj_left]
    refine forall₂_congr fun d _ => ?_
    simp only [Function.comp]
    exact ⟨fun h => h ▸ IntType.wrap_mem _ hpos _, IntType.wrap_fits⟩

example := (C85_as_array_exact_partial [⟨.u8, 9⟩, ⟨.u16, 390⟩, ⟨.u8, 7⟩] (by decide) ⟨.u16, 9⟩ (by decide)).2 (by decide)

/-- **C85** (partial) The array holds the extents when their types are all signed or all unsigned.  Missing: mixed
signedness, for which it is false. -/
theorem C85_as_array_partial (s : List Coord) (hb : ∀ c ∈ s, 0 < c.type.bits) (hf : ∀ c ∈ s, c.type.Fits c.value)
    (hsg : ∀ c ∈ s, ∀ d ∈ s, c.type.signed = d.type.signed) :
    (asArray s).map (·.value) = s.map (·.value) := by
  cases hs : asArray s with
  | nil =>
    have := (C85_as_array_type s).1
    rw [hs] at this
    have hs0 : s = [] := List.length_eq_zero_iff.1 (by simpa using this.symm)
    rw [hs0]
  | cons r rs =>
    have hr : r ∈ asArray s := by rw [hs]; simp
    rw [← hs, C85_as_array_exact_partial s hb r hr]
    obtain ⟨_, ⟨c0, hc0, hc0t⟩, hmax⟩ := (C85_as_array_type s).2 r hr
    intro c hc
    have h1 := hf c hc
    have h2 := hmax c hc
    have h3 := hsg c hc c0 hc0
    rw [hc0t] at h3
    have hpow : (2 : Int) ^ c.type.bits ≤ 2 ^ r.type.bits := by
      exact_mod_cast Nat.pow_le_pow_right (by norm_num) h2
    unfold IntType.Fits IntType.lo IntType.hi at *
    rw [h3] at h1
    split_ifs at h1 ⊢ <;> omega

example : asArray [⟨.u8, 9⟩, ⟨.u16, 390⟩, ⟨.u8, 7⟩] = [⟨.u16, 9⟩, ⟨.u16, 390⟩, ⟨.u16, 7⟩] := by decide

/-- **C85** (negation) `of_size(std::int8_t{1}, 200_c).as_array()` holds a negative extent. -/
theorem C85_as_array_changes_extents :
    (asArray [⟨.i8, 1⟩, ⟨.u8, 200⟩]).map (·.value) = [1, -56] := by decide

/-- **C85** The full property. -/
def C85_statement : Prop :=
  ∀ s : List Coord, (∀ c ∈ s, 0 < c.type.bits) → (∀ c ∈ s, c.type.Fits c.value) →
    (asArray s).map (·.value) = s.map (·.value) ∧
    ∃ t : IntType, (∀ r ∈ asArray s, r.type = t) ∧ ∀ c ∈ s, c.type.bits ≤ t.bits

theorem C85_statement_false : ¬ C85_statement := by
  intro h
  have := (h [⟨.i8, 1⟩, ⟨.u8, 200⟩] (by decide) (by decide)).1
  rw [C85_as_array_changes_extents] at this
  exact absurd this (by decide)

/-! ## C86: `with_strides` -/

/-- **C86** `with_strides` builds exactly the strides its arguments describe; a stride that is not given is 1.
Missing: axes given with a size, whose size is lost as in C83. -/
theorem C86_with_strides_partial (md : Mode) (args : List BuildArg) (hp : ProperArgs args)
    (ht : ∀ b ∈ args, ArgTyped b) (hx : ∀ b ∈ args, ¬ IsSizedAxis b)
    (hm : ¬ ((∃ b ∈ args, IsNamed b) ∧ ∃ b ∈ args, IsBareAxis b)) :
    ∃ s, withStrides md args = some (.ok s) ∧ s.values = args.map (argSize 1) ∧
      s.desc.map (·.isDynamic) = args.map (fun b => !argConst b) ∧
      ∀ (i : Nat) (b : BuildArg) (a : AxisId), args[i]? = some b → argName b = some a → s.at a = argSize 1 b := by
  obtain ⟨s, h1, h2, _, h3⟩ := buildPrefilled_ok md (dflt := 1) hp
    (by
      by_cases h : ∃ b ∈ args, IsNamed b
      · right
        intro b hb hn
        have h' : ¬ IsBareAxis b := fun hh => hm ⟨h, b, hb, hh⟩
        cases b <;> first | rfl | exact absurd rfl hn | exact absurd ⟨_, rfl⟩ h' | exact absurd ⟨_, _, _, rfl⟩ (hx _ hb)
      · left
        intro b hb
        cases b <;> first | rfl | exact absurd ⟨_, hb, _, _, rfl⟩ h)
    (fun b hb => canHold_toDescriptor b (by decide) (ht b hb)
      fun a t v e => absurd ⟨a, t, v, e⟩ (hx b hb))
  have hv : s.values = args.map (argSize 1) := by
    rw [h3]; exact List.map_congr_left fun b hb => storedSize_eq (hx b hb)
  refine ⟨s, h1, hv, ?_, ?_⟩
  · rw [h2]; exact isDynamic_toDescriptor args
  · intro i b a hb ha
    obtain ⟨x, hx', rfl⟩ := ids_toDescriptor args i b a hb ha
    have := at_eq (s := s) (by rw [h2]; exact normalizeExtents_nodup (properNames_args hp)) (i := i) (x := x)
      (by rw [h2]; exact hx')
    rw [hv, List.getElem?_map, hb] at this
    exact Option.some_inj.1 this

/-- `with_strides(12, height = _, width = 1_c)`. -/
example : (withStrides .checked [.int .i32 12, .named (.named "height") .joker, .named (.named "width") (.const 1)]).map
    (·.map (·.values)) = some (.ok [12, 1, 1]) := by decide

/-- **C86** (exactly when) Without named extents, the strides read back are those asked for iff every stride given in an axis
is 1. -/
theorem C86_exact_partial (md : Mode) (args : List BuildArg) (hp : ProperArgs args) (ht : ∀ b ∈ args, ArgTyped b)
    (hn : ∀ b ∈ args, ¬ IsNamed b) (hb : ∀ a t v, .axisSize a t v ∈ args → t.Fits 1) :
    ∃ s, withStrides md args = some (.ok s) ∧
      (s.values = args.map (argSize 1) ↔ ∀ a t v, .axisSize a t v ∈ args → v = 1) := by
  obtain ⟨s, h1, h2, _, h3⟩ := buildPrefilled_ok md (dflt := 1) hp
    (.inl fun b hb' => by cases b <;> first | rfl | exact absurd ⟨_, _, rfl⟩ (hn _ hb'))
    (fun b hb' => canHold_toDescriptor b (by decide) (ht b hb') fun a t v e => hb a t v (e ▸ hb'))
  refine ⟨s, by rw [withStrides, h1], ?_⟩
  rw [h3, List.map_inj_left]
  constructor
  · intro h a t v hm
    exact (h _ hm).symm
  · intro h b hb'
    rcases b with _ | _ | _ | _ | ⟨a, t, v⟩ | _ <;> first | rfl | exact (h a t v hb').symm

example : (withStrides .checked [.axisSize (.named "width") .i32 3, .int .i32 4]).map (·.map (·.values)) = some (.ok [1, 4]) := by decide

/-- **C86** (duplicates) `stride` does not look for duplicate axes: `with_strides(width, width)` is accepted. -/
theorem C86_duplicates_accepted :
    (withStrides .checked [.axis (.named "width"), .axis (.named "width")]).map (·.map (·.values)) =
      some (.ok [1, 1]) := by decide

/-- **C86** The full property. -/
def C86_statement : Prop :=
  ∀ (md : Mode) (args : List BuildArg), ProperArgs args → (∀ b ∈ args, ArgTyped b) →
    ¬ ((∃ b ∈ args, IsNamed b) ∧ ∃ b ∈ args, IsBareAxis b ∨ IsSizedAxis b) →
    ∃ s, withStrides md args = some (.ok s) ∧ s.values = args.map (argSize 1) ∧
      s.desc.map (·.isDynamic) = args.map (fun b => !argConst b) ∧
      ∀ (i : Nat) (b : BuildArg) (a : AxisId), args[i]? = some b → argName b = some a → s.at a = argSize 1 b

theorem C86_statement_false : ¬ C86_statement := by
  intro h
  obtain ⟨s, hs, hv, -⟩ := h .checked [.axisSize (.named "width") .i32 3] ⟨by decide, by simp [argName]⟩
    (by simp [ArgTyped, IntType.Fits, IntType.lo, IntType.hi, IntType.i32]) (by simp [IsNamed])
  have e : (withStrides .checked [.axisSize (.named "width") .i32 3]).map (·.map (·.values)) = some (.ok [1]) := by decide
  rw [hs] at e
  have e : s.values = [1] := Except.ok.inj (Option.some.inj e)
  rw [e] at hv
  exact absurd hv (by decide)

/-! ## C87: default strides

Full property (as documented): a default-constructed stride is `[1 1 ... 1]`.  It is false for run-time strides, which
are 0. -/

/-- **C87** (exactly when) A default-constructed stride is `[1 1 ... 1]` iff all its strides are known at compile time
to be 1. -/
theorem C87_default_stride_partial (es : List Extent) :
    (Prefilled.default (normalizeExtents es)).values = List.replicate es.length 1 ↔
      ∀ e ∈ es, writtenSize e = some 1 := by
  have hlen : (Prefilled.default (normalizeExtents es)).desc.length = es.length := normalizeExtents_length es
  rw [List.eq_replicate_iff, values_length, hlen]
  simp only [true_and]
  have hget : ∀ (i : Nat) (h : i < es.length),
      (Prefilled.default (normalizeExtents es)).get i = (writtenSize es[i]).getD 0 := by
    intro i h
    have hx : (normalizeExtents es)[i]? = some (normalizeExtent (es.length - 1 - i) es[i]) := by
      rw [List.getElem?_eq_getElem (by rw [normalizeExtents_length]; exact h), normalizeExtents_getElem es i h]
    have hc := normalizeExtent_content (es.length - 1 - i) es[i]
    cases hs : writtenSize es[i] with
    | some x =>
      rw [hs] at hc
      exact static_value (s := .default (normalizeExtents es)) hx hc
    | none =>
      rw [hs] at hc
      exact default_get _ (by rw [desc_dyn hx, Axis.isDynamic, hc])
  constructor
  · intro h e he
    obtain ⟨i, hi, rfl⟩ := List.mem_iff_getElem.1 he
    have := h _ (List.mem_of_getElem? (values_getElem? _ (by rw [hlen]; exact hi)))
    rw [hget i hi] at this
    cases hs : writtenSize es[i] with
    | some x => rw [hs] at this; simpa using this
    | none => rw [hs] at this; cases this
  · intro h v hv
    obtain ⟨i, hi, rfl⟩ := List.mem_iff_getElem.1 hv
    have hi' : i < es.length := by simpa [values_length, hlen] using hi
    have e : (Prefilled.default (normalizeExtents es)).values[i] =
        (Prefilled.default (normalizeExtents es)).get i := by simp [Prefilled.values]
    rw [e, hget i hi', h _ (List.getElem_mem _)]
    rfl

/-- **C87** (negation) `kwk::stride<_, 1>{}` is `[0 1]`. -/
theorem C87_default_stride_zero :
    (Prefilled.default (normalizeExtents [.joker, .int 1])).values = [0, 1] := by decide

/-- **C87** The full property. -/
def C87_statement : Prop :=
  ∀ es : List Extent, (Prefilled.default (normalizeExtents es)).values = List.replicate es.length 1

theorem C87_statement_false : ¬ C87_statement := by
  intro h
  exact absurd (h [.joker, .int 1]) (by decide)

/-! ## C88: `as_stride` -/

/-- **C88** `as_stride(s)` has the axes of `s`, in the same order and with the same names; the stride of an axis is the
product of the extents inside it, and is known at compile time iff all of these are; the innermost stride is known
to be 1. -/
theorem C88_as_stride (md : Mode) (t : IntType) (s : Prefilled) (hne : s.desc ≠ []) (hnd : (s.desc.map (·.id)).Nodup)
    (hfit : ∀ i, t.Fits (s.values.drop (i + 1)).prod) :
    ∃ st, asStrideP md t s = some (.ok st) ∧
      st.desc.map (·.id) = s.desc.map (·.id) ∧
      (∀ (i : Nat) (x : Axis), s.desc[i]? = some x → st.at x.id = (s.values.drop (i + 1)).prod) ∧
      (∀ (i : Nat) (x : Axis), st.desc[i]? = some x →
        (x.isDynamic = false ↔ ∀ (j : Nat) (y : Axis), i < j → s.desc[j]? = some y → y.isDynamic = false)) ∧
      isUnit st.desc = true := by
  set n := s.desc.length with hn
  have hn0 : 0 < n := List.length_pos_iff.2 hne
  have hkl : s.known.length = n := by simp [Prefilled.known, hn]
  have hkv : s.known.map (·.value) = s.values := by simp [Prefilled.known, Prefilled.values]
  -- both branches build the same list of named extents
  let ks : List KnownValue := (List.range n).map fun i =>
    ⟨(s.values.drop (i + 1)).prod, (s.known.drop (i + 1)).all (·.static)⟩
  have hks : asStrideP md t s = withStrides md (List.zipWith (fun a k => k.named t a.id) s.desc ks) := by
    rw [asStrideP]
    split
    · next h1 =>
      obtain ⟨a, ha⟩ := List.length_eq_one_iff.1 h1
      have hn1 : n = 1 := h1
      have hv1 : s.values.length = 1 := by rw [values_length]; exact h1
      have hd1 : s.values.drop (0 + 1) = [] := List.drop_eq_nil_of_le (by omega)
      have hd2 : s.known.drop (0 + 1) = [] := List.drop_eq_nil_of_le (by omega)
      have : ks = [⟨1, true⟩] := by
        simp only [ks, hn1]
        rw [show List.range 1 = [0] from rfl, List.map_cons, List.map_nil, hd1, hd2]
        rfl
      rw [this, ha]
      rfl
    · have hfold := strideFold s.known.tail
      have hlt : s.known.tail.length + 1 = n := by rw [List.length_tail, hkl]; omega
      simp only [hfold, hlt]
      congr 2
      apply List.map_congr_left
      intro i _
      have e : s.known.tail.drop i = s.known.drop (i + 1) := by rw [← List.drop_one, List.drop_drop, Nat.add_comm]
      rw [e, List.map_drop, hkv]
  rw [hks, withStrides]
  set args := List.zipWith (fun a k => KnownValue.named t a.id k) s.desc ks with hargs
  have hksl : ks.length = n := by simp [ks]
  have hal : args.length = n := by simp [hargs, hksl, ← hn]
  have harg : ∀ (i : Nat) (h : i < args.length), args[i] =
      .named (s.desc[i]'(by omega)).id (if (s.known.drop (i + 1)).all (·.static) then
        .const (s.values.drop (i + 1)).prod else .int t (s.values.drop (i + 1)).prod) := by
    intro i h
    simp only [hargs, List.getElem_zipWith, KnownValue.named, ks, List.getElem_map, List.getElem_range]
  have hids : (normalizeExtents (args.map toDescriptor)).map (·.id) = s.desc.map (·.id) := by
    apply List.ext_getElem (by simp [normalizeExtents_length, hal, ← hn])
    intro i h1 h2
    have hi : i < args.length := by simpa [normalizeExtents_length] using h1
    rw [List.getElem_map, List.getElem_map, normalizeExtents_getElem _ i (by simpa using hi), normalizeExtent_id,
      List.getElem_map, writtenName_toDescriptor, harg i hi]
    rfl
  obtain ⟨st, h1, h2, _, h3⟩ := buildPrefilled_named md (dflt := 1) (args := args)
    (by rw [← List.length_pos_iff, hal]; exact hn0)
    (by
      intro b hb
      obtain ⟨i, hi, rfl⟩ := List.mem_iff_getElem.1 hb
      rw [harg i hi]; rfl)
    (by rw [hids]; exact hnd)
    (by
      intro b hb
      obtain ⟨i, hi, rfl⟩ := List.mem_iff_getElem.1 hb
      apply canHold_toDescriptor _ (by decide)
      · rw [harg i hi]
        split
        · trivial
        · exact hfit i
      · intro a u v e
        rw [harg i hi] at e; cases e)
  have hid : st.desc.map (·.id) = s.desc.map (·.id) := by rw [h2]; exact hids
  have hsl : st.desc.length = n := by simpa [← hn] using congrArg List.length hid
  have hstat : ∀ (i : Nat) (h : i < n), (s.known.drop (i + 1)).all (·.static) = true ↔
      ∀ (j : Nat) (y : Axis), i < j → s.desc[j]? = some y → y.isDynamic = false := by
    intro i h
    rw [List.all_eq_true]
    constructor
    · intro hall j y hij hy
      have hj : j < n := by
        by_contra hc; rw [List.getElem?_eq_none (by omega)] at hy; cases hy
      have hmem : s.known[j]'(by omega) ∈ s.known.drop (i + 1) := by
        rw [List.mem_iff_getElem]
        exact ⟨j - (i + 1), by rw [List.length_drop]; omega,
          by rw [List.getElem_drop]; congr 1; omega⟩
      have := hall _ hmem
      simp only [Prefilled.known, List.getElem_map, List.getElem_range] at this
      rw [desc_dyn hy] at this
      simpa using this
    · intro hall k hk
      obtain ⟨j, hj, rfl⟩ := List.mem_iff_getElem.1 hk
      rw [List.length_drop, hkl] at hj
      have hj' : i + 1 + j < s.desc.length := by omega
      have := hall (i + 1 + j) _ (by omega) (List.getElem?_eq_getElem hj')
      rw [List.getElem_drop]
      simp only [Prefilled.known, List.getElem_map, List.getElem_range]
      rw [desc_dyn (List.getElem?_eq_getElem hj'), this]
      rfl
  have hcon : ∀ (i : Nat) (x : Axis), st.desc[i]? = some x → i < n ∧ x.content =
      if (s.known.drop (i + 1)).all (·.static) then .static (s.values.drop (i + 1)).prod else .dynamic t := by
    intro i x hx
    have hi : i < n := by
      by_contra hc; rw [List.getElem?_eq_none (by omega)] at hx; cases hx
    refine ⟨hi, ?_⟩
    rw [h2, List.getElem?_eq_getElem (by rw [normalizeExtents_length, List.length_map]; omega)] at hx
    rw [← Option.some_inj.1 hx, normalizeExtents_getElem _ i (by rw [List.length_map]; omega), List.getElem_map,
      harg i (by omega), normalizeExtent_content]
    by_cases hall : (s.known.drop (i + 1)).all (·.static) = true <;> simp only [hall] <;> rfl
  refine ⟨st, h1, hid, ?_, ?_, ?_⟩
  · intro i x hx
    have hi : i < n := by
      by_contra hc; rw [List.getElem?_eq_none (by omega)] at hx; cases hx
    have hx' : st.desc[i]? = some (st.desc[i]'(by omega)) := List.getElem?_eq_getElem (by omega)
    have hid' : (st.desc[i]'(by omega)).id = x.id := by
      have := List.getElem_of_eq hid (i := i) (by simp; omega)
      simp only [List.getElem_map] at this
      rw [this]
      obtain ⟨_, rfl⟩ := List.getElem?_eq_some_iff.1 hx
      rfl
    have := at_eq (s := st) (by rw [hid]; exact hnd) hx'
    rw [hid', h3, List.getElem?_map, List.getElem?_eq_getElem (by omega : i < args.length), harg i (by omega)] at this
    rw [Option.some_inj.1 this]
    split <;> rfl
  · intro i x hx
    obtain ⟨hi, hc⟩ := hcon i x hx
    rw [← hstat i hi, Axis.isDynamic, hc]
    cases (s.known.drop (i + 1)).all (·.static) <;> simp
  · have hlast : st.desc.getLast? = some (st.desc[n - 1]'(by omega)) := by
      rw [List.getLast?_eq_getElem?]
      simp only [hsl]
      exact List.getElem?_eq_getElem _
    obtain ⟨_, hc⟩ := hcon (n - 1) _ (List.getElem?_eq_getElem (by omega))
    have hd1 : s.values.drop (n - 1 + 1) = [] := List.drop_eq_nil_of_le (by rw [values_length]; omega)
    have hd2 : s.known.drop (n - 1 + 1) = [] := List.drop_eq_nil_of_le (by omega)
    rw [hd1, hd2] at hc
    rw [isUnit, hlast]
    simp only [hc]
    rfl

/-- `as_stride(shape<2, _, height, width[5]>{_, 3, 4, _})`. -/
example : (asStrideP .checked .i32 ⟨normalizeExtents [.int 2, .joker, .axis (.named "height") none,
      .axis (.named "width") (some (.static 5))], [3, 4]⟩).map
    (·.map fun st => (st.values, st.desc.map (·.isDynamic), st.at (.named "height"))) =
      some (.ok ([60, 20, 5, 1], [true, true, false, false], 5)) := by decide

/-- **C88** (`is_unit`) A type of strides is unit exactly if the innermost stride of all strides of that type is 1. -/
theorem C88_is_unit (d : Desc) (hne : d ≠ []) :
    isUnit d = true ↔ ∀ s : Prefilled, s.desc = d → s.values.getLast? = some 1 := by
  have hn : 0 < d.length := List.length_pos_iff.2 hne
  have hv : ∀ s : Prefilled, s.desc = d → s.values.getLast? = some (s.get (d.length - 1)) := by
    intro s hs
    rw [List.getLast?_eq_getElem?, values_length, Prefilled.values, hs, List.getElem?_map, List.getElem?_range (by omega)]
    rfl
  have hl : d.getLast? = some d[d.length - 1] := by
    rw [List.getLast?_eq_getElem?]; exact List.getElem?_eq_getElem _
  have hu : isUnit d = decide (d[d.length - 1].content = .static 1) := by rw [isUnit, hl]
  have hg : (d.map (·.content)).getD (d.length - 1) (.static 0) = d[d.length - 1].content := by
    rw [List.getD_eq_getElem?_getD, List.getElem?_map, List.getElem?_eq_getElem (by omega)]; rfl
  have hs : hasStorage d (d.length - 1) = d[d.length - 1].isDynamic := by
    rw [hasStorage_eq, List.getElem?_eq_getElem (by omega)]; rfl
  rw [hu, decide_eq_true_eq]
  constructor
  · intro hc s e
    have hf : hasStorage s.desc (d.length - 1) = false := by rw [e, hs, Axis.isDynamic, hc]
    rw [hv s e, get_static hf, e, hg, hc]
  · intro h
    have h1 := h (Prefilled.default d) rfl
    rw [hv _ rfl, Option.some.injEq] at h1
    cases hc : d[d.length - 1].content with
    | dynamic t =>
      have hf : hasStorage d (d.length - 1) = true := by rw [hs, Axis.isDynamic, hc]
      rw [default_get d hf] at h1
      cases h1
    | static v =>
      have hf : hasStorage (Prefilled.default d).desc (d.length - 1) = false := by
        show hasStorage d _ = false
        rw [hs, Axis.isDynamic, hc]
      rw [get_static hf] at h1
      change (match (d.map (·.content)).getD (d.length - 1) (.static 0) with
        | .static v => v
        | .dynamic _ => 0) = 1 at h1
      rw [hg, hc] at h1
      rw [show v = 1 from h1]

example : isUnit (normalizeExtents [.joker, .int 1]) = true ∧ isUnit (normalizeExtents [.int 1, .joker]) = false ∧
    isUnit (normalizeExtents [.joker, .int 2]) = false := by decide

end Kwk
