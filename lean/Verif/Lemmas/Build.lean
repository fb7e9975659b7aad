import Verif.Spec.Build
import Verif.Lemmas.AuxAxes

/-! # Lemmas: building shapes and strides -/

namespace Kwk
open Spec

/-- What `of_size` really stores for an argument: the size of a sized axis is forgotten. -/
def storedSize (dflt : Int) : BuildArg → Int
  | .axisSize _ _ _ => dflt
  | b => argSize dflt b

theorem writtenName_toDescriptor (b : BuildArg) : writtenName (toDescriptor b) = argName b := by
  cases b <;> rfl

theorem writtenSize_toDescriptor (dflt : Int) (b : BuildArg) :
    writtenSize (toDescriptor b) = if argConst b then some (argSize dflt b) else none := by
  rcases b with _ | _ | _ | _ | _ | ⟨a, _ | _ | _⟩ <;> rfl

theorem readBack_toDescriptor (dflt : Int) (b : BuildArg) :
    readBack dflt (toDescriptor b) b.arg = storedSize dflt b := by
  rcases b with _ | _ | _ | _ | _ | ⟨a, _ | _ | _⟩ <;> rfl

theorem noConflict_toDescriptor (b : BuildArg) : NoConflict (toDescriptor b) b.arg := by
  intro x w hx hw
  rcases b with _ | _ | _ | _ | _ | ⟨a, _ | _ | _⟩ <;>
    simp_all [toDescriptor, writtenSize, BuildArg.arg, NamedValue.descriptor, NamedValue.arg]

theorem canHold_toDescriptor {dflt : Int} (b : BuildArg) (hd : IntType.i32.Fits dflt) (ht : ArgTyped b)
    (hz : ∀ a t v, b = .axisSize a t v → t.Fits dflt) : CanHold dflt (toDescriptor b) b.arg := by
  intro _
  rw [readBack_toDescriptor]
  rcases b with _ | _ | _ | _ | ⟨a, t, v⟩ | ⟨a, _ | _ | _⟩
  · exact ht
  · simp_all [toDescriptor, writtenSize]
  · exact hd
  · exact hd
  · exact hz a t v rfl
  · exact ht
  · simp_all [toDescriptor, writtenSize, NamedValue.descriptor]
  · exact hd

theorem mixed_givenValue (b : BuildArg) : givenValue b.mixed = b.arg := by cases b <;> rfl

theorem forall₂_map_args {R : Extent → Arg → Prop} {args : List BuildArg}
    (h : ∀ b ∈ args, R (toDescriptor b) b.arg) :
    List.Forall₂ R (args.map toDescriptor) (args.map (·.arg)) := by
  induction args with
  | nil => exact .nil
  | cons b args ih =>
    exact .cons (h b (by simp)) (ih fun b hb => h b (by simp [hb]))

theorem zipWith_map_args (dflt : Int) (args : List BuildArg) :
    List.zipWith (readBack dflt) (args.map toDescriptor) (args.map (·.arg)) = args.map (storedSize dflt) := by
  induction args with
  | nil => rfl
  | cons b args ih => simp [readBack_toDescriptor]

theorem properNames_args {args : List BuildArg} (h : ProperArgs args) : ProperNames (args.map toDescriptor) := by
  have e : (args.map toDescriptor).filterMap writtenName = args.filterMap argName := by
    rw [List.filterMap_map]; congr 1; funext b; exact writtenName_toDescriptor b
  rw [ProperNames, e]; exact h

/-- Arguments all named, with distinct names. -/
theorem buildPrefilled_named (md : Mode) {dflt : Int} {args : List BuildArg} (hne : args ≠ [])
    (hn : ∀ b ∈ args, b.isNamed = true)
    (hnd : ((normalizeExtents (args.map toDescriptor)).map (·.id)).Nodup)
    (hh : ∀ b ∈ args, CanHold dflt (toDescriptor b) b.arg) :
    ∃ s, buildPrefilled md dflt args = some (.ok s) ∧ s.desc = normalizeExtents (args.map toDescriptor) ∧
      s.WF ∧ s.values = args.map (storedSize dflt) := by
  have e1 : (args.filterMap (·.option)).map (·.2) = args.map (·.arg) := by
    clear * - hn
    induction args with
    | nil => rfl
    | cons b args ih =>
      have := hn b (by simp)
      cases b <;> simp [BuildArg.isNamed] at this
      rw [List.filterMap_cons_some (by rfl), List.map_cons, List.map_cons, ih fun b hb => hn b (by simp [hb])]
      rfl
  have e2 : (args.filterMap (·.option)).map (·.1) =
      (normalizeExtents (args.map toDescriptor)).map (·.id) := by
    have hl : (args.filterMap (·.option)).length = args.length := by
      simpa using congrArg List.length e1
    have e3 : (args.filterMap (·.option)).map (fun p => some p.1) = args.map argName := by
      clear * - hn
      induction args with
      | nil => rfl
      | cons b args ih =>
        have := hn b (by simp)
        cases b <;> simp [BuildArg.isNamed] at this
        rw [List.filterMap_cons_some (by rfl), List.map_cons, List.map_cons, ih fun b hb => hn b (by simp [hb])]
        rfl
    apply List.ext_getElem (by simp [normalizeExtents_length, hl])
    intro i h1 h2
    have hi : i < args.length := by simpa [normalizeExtents_length] using h2
    have h3 := List.getElem_of_eq e3 (i := i) (by simpa [hl] using hi)
    simp only [List.getElem_map] at h3
    rw [List.getElem_map, List.getElem_map, normalizeExtents_getElem _ i (by simpa using hi), normalizeExtent_id,
      List.getElem_map, writtenName_toDescriptor, ← h3, Option.getD_some]
  obtain ⟨s, h1, h2, h3, h4⟩ := constructNamed_in_order md dflt hnd e2
    (by rw [e1]; exact forall₂_normalize (storable_normalize dflt) (forall₂_map_args hh))
    (fun _ => by
      rw [e1]; exact forall₂_normalize consistent_normalize (forall₂_map_args fun b _ => noConflict_toDescriptor b))
  refine ⟨s, ?_, h2, h3, ?_⟩
  · rw [buildPrefilled, if_neg, if_pos (by simpa using hn), Prefilled.ofNamed, h1]
    obtain ⟨b, hb⟩ := List.exists_mem_of_ne_nil args hne
    simp only [List.all_eq_true, Bool.not_eq_true', not_forall]
    exact ⟨b, hb, by simp [hn b hb]⟩
  · rw [h4, e1, zipWith_normalize dflt (by simp), zipWith_map_args]

/-- The general case: no axis among named extents. -/
theorem buildPrefilled_ok (md : Mode) {dflt : Int} {args : List BuildArg} (hp : ProperArgs args)
    (hm : (∀ b ∈ args, b.isNamed = false) ∨ ∀ b ∈ args, argName b ≠ none → b.isNamed = true)
    (hh : ∀ b ∈ args, CanHold dflt (toDescriptor b) b.arg) :
    ∃ s, buildPrefilled md dflt args = some (.ok s) ∧ s.desc = normalizeExtents (args.map toDescriptor) ∧
      s.WF ∧ s.values = args.map (storedSize dflt) := by
  have hnd := normalizeExtents_nodup (properNames_args hp)
  have hS := forall₂_normalize (storable_normalize dflt) (forall₂_map_args hh)
  have hC := forall₂_normalize consistent_normalize
    (forall₂_map_args (args := args) fun b _ => noConflict_toDescriptor b)
  by_cases h1 : ∀ b ∈ args, b.isNamed = false
  · obtain ⟨s, e1, e2, e3, e4⟩ := fillAxes_values md dflt (by simp [normalizeExtents_length]) hS (fun _ => hC)
    refine ⟨s, ?_, e2, e3, ?_⟩
    · rw [buildPrefilled, if_pos (by simpa using h1), Prefilled.ofExtents, if_pos (by simp [normalizeExtents_length]),
        construct_eq, e1]
    · rw [e4, zipWith_normalize dflt (by simp), zipWith_map_args]
  · have hm := hm.resolve_left h1
    push Not at h1
    obtain ⟨b, hb, hbn⟩ := h1
    have hbn : b.isNamed = true := by simpa using hbn
    by_cases h2 : ∀ b ∈ args, b.isNamed = true
    · exact buildPrefilled_named md (List.ne_nil_of_mem hb) h2 hnd hh
    · push Not at h2
      obtain ⟨c, hc, hcn⟩ := h2
      have hcn : c.isNamed = false := by simpa using hcn
      have hcN : argName c = none := by
        by_contra h; rw [hm c hc h] at hcn; cases hcn
      have hgn : (args.map (·.mixed)).map givenName = (args.map toDescriptor).map writtenName := by
        rw [List.map_map, List.map_map]
        apply List.map_congr_left
        intro x hx
        simp only [Function.comp, writtenName_toDescriptor]
        have := hm x hx
        cases x <;> simp_all [BuildArg.mixed, givenName, argName, BuildArg.isNamed]
      have hv : (args.map (·.mixed)).map givenValue = args.map (·.arg) := by
        rw [List.map_map]; exact List.map_congr_left fun x _ => mixed_givenValue x
      obtain ⟨s, e1, e2, e3, e4⟩ := constructNamed_in_order md dflt hnd (normalizeArgs_fst hgn)
        (by rw [normalizeArgs_snd, hv]; exact hS) (fun _ => by rw [normalizeArgs_snd, hv]; exact hC)
      refine ⟨s, ?_, e2, e3, ?_⟩
      · have hids : ∀ x ∈ args, ∃ y ∈ normalizeExtents (args.map toDescriptor), ∃ n, y = normalizeExtent n (toDescriptor x) := by
          intro x hx
          obtain ⟨i, hi, rfl⟩ := List.mem_iff_getElem.1 hx
          refine ⟨(normalizeExtents (args.map toDescriptor))[i]'(by simpa [normalizeExtents_length] using hi),
            List.getElem_mem _, (args.map toDescriptor).length - 1 - i, ?_⟩
          rw [normalizeExtents_getElem _ i (by simpa using hi), List.getElem_map]
        rw [buildPrefilled, if_neg, if_neg, if_pos, Prefilled.ofMixed, normalizeExtents_length, e1]
        · rw [isOrdered_of_names hgn, Bool.and_true, Bool.and_eq_true, Bool.not_eq_true', Bool.not_eq_true']
          constructor
          · rw [Bool.eq_false_iff]
            intro hall
            rw [List.all_eq_true] at hall
            obtain ⟨y, hy, n, rfl⟩ := hids b hb
            have := hall _ hy
            rw [Axis.isImplicit, normalizeExtent_id, writtenName_toDescriptor] at this
            obtain ⟨a, v, rfl⟩ : ∃ a v, b = .named a v := by
              cases b <;> simp [BuildArg.isNamed] at hbn
              exact ⟨_, _, rfl⟩
            have ha : a ∈ args.filterMap argName := List.mem_filterMap.2 ⟨_, hb, rfl⟩
            simp only [argName, Option.getD_some] at this
            cases a with
            | implicit k => exact hp.2 _ ha k rfl
            | along k => cases this
            | named k => cases this
          · rw [Bool.eq_false_iff]
            intro hall
            rw [List.all_eq_true] at hall
            obtain ⟨y, hy, n, rfl⟩ := hids c hc
            have := hall _ hy
            rw [Axis.isImplicit, normalizeExtent_id, writtenName_toDescriptor, hcN] at this
            cases this
        · intro h
          rw [List.all_eq_true] at h
          rw [h c hc] at hcn; cases hcn
        · intro h
          rw [List.all_eq_true] at h
          have := h b hb
          rw [hbn] at this; cases this
      · rw [e4, normalizeArgs_snd, hv, zipWith_normalize dflt (by simp), zipWith_map_args]

/-- Reading an axis by its name. -/
theorem at_eq {s : Prefilled} (hnd : (s.desc.map (·.id)).Nodup) {i : Nat} {x : Axis} (hx : s.desc[i]? = some x) :
    some (s.at x.id) = s.values[i]? := by
  have hi : i < s.desc.length := by
    by_contra h; rw [List.getElem?_eq_none (by omega)] at hx; cases hx
  rw [Prefilled.at, findAxis_eq hnd hx, values_getElem? s hi]

theorem storedSize_eq {dflt : Int} {b : BuildArg} (h : ¬ IsSizedAxis b) : storedSize dflt b = argSize dflt b := by
  cases b <;> first | rfl | exact absurd ⟨_, _, _, rfl⟩ h

theorem ids_toDescriptor (args : List BuildArg) (i : Nat) (b : BuildArg) (a : AxisId) (hb : args[i]? = some b)
    (ha : argName b = some a) : ∃ x, (normalizeExtents (args.map toDescriptor))[i]? = some x ∧ x.id = a := by
  obtain ⟨hi, rfl⟩ := List.getElem?_eq_some_iff.1 hb
  refine ⟨_, List.getElem?_eq_getElem (by simpa [normalizeExtents_length] using hi), ?_⟩
  rw [normalizeExtents_getElem _ i (by simpa using hi), List.getElem_map, normalizeExtent_id,
    writtenName_toDescriptor, ha, Option.getD_some]

theorem isDynamic_toDescriptor (args : List BuildArg) :
    (normalizeExtents (args.map toDescriptor)).map (·.isDynamic) = args.map fun b => !argConst b := by
  apply List.ext_getElem (by simp [normalizeExtents_length])
  intro i h1 h2
  have hi : i < args.length := by simpa using h2
  rw [List.getElem_map, List.getElem_map, normalizeExtents_getElem _ i (by simpa using hi), List.getElem_map,
    Axis.isDynamic, normalizeExtent_content, writtenSize_toDescriptor 0]
  cases argConst args[i] <;> rfl

/-- `all_unique` accepts exactly the lists without repetition. -/
theorem allUnique_iff (ks : List AxisId) : allUnique ks = true ↔ ks.Nodup := by
  rw [List.nodup_iff_count_eq_one]
  cases ks with
  | nil => simp [allUnique]
  | cons k ks =>
    rw [allUnique, List.all_eq_true]
    simp only [conversionsTo, List.count_eq_length_filter, beq_iff_eq]

/-- Duplicate names are detected, and nothing else. -/
theorem duplicateAxis_iff {args : List BuildArg} (hp : ∀ a ∈ args.filterMap argName, ∀ n, a ≠ .implicit n) :
    duplicateAxis (normalizeExtents (args.map toDescriptor)) = true ↔ ¬ (args.filterMap argName).Nodup := by
  rw [duplicateAxis, Bool.not_eq_true', ← Bool.not_eq_true, allUnique_iff, not_iff_not]
  constructor
  · intro h
    rw [List.nodup_iff_pairwise_ne, List.pairwise_filterMap, List.pairwise_iff_getElem]
    intro i j hi hj hlt a ha b hb e
    subst e
    rw [List.nodup_iff_pairwise_ne, List.pairwise_iff_getElem] at h
    apply h i j (by simpa [normalizeExtents_length] using hi) (by simpa [normalizeExtents_length] using hj) hlt
    rw [List.getElem_map, List.getElem_map, normalizeExtents_getElem _ i (by simpa using hi),
      normalizeExtents_getElem _ j (by simpa using hj), normalizeExtent_id, normalizeExtent_id, List.getElem_map,
      List.getElem_map, writtenName_toDescriptor, writtenName_toDescriptor, ha, hb]
    rfl
  · intro h
    exact normalizeExtents_nodup (properNames_args ⟨h, hp⟩)

/-- The strides computed by `as_stride`, with what is known at compile time. -/
theorem strideFold (l : List KnownValue) :
    kumiFoldLeft (fun a m => m.mul (a.headD ⟨1, true⟩) :: a) l [⟨1, true⟩] =
      (List.range (l.length + 1)).map fun i =>
        (⟨((l.drop i).map (·.value)).prod, (l.drop i).all (·.static)⟩ : KnownValue) := by
  rw [kumiFoldLeft]
  induction l with
  | nil => rfl
  | cons k l ih =>
    rw [List.foldr_cons, ih, List.length_cons, List.range_succ_eq_map (n := l.length + 1), List.map_cons, List.map_map]
    congr 1
    · rw [List.range_succ_eq_map, List.map_cons]
      simp [KnownValue.mul]

end Kwk
