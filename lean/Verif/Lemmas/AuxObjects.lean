import Verif.Model.Objects
import Verif.Spec.Objects
import Verif.Lemmas.Prefilled

/-!
# Lemmas for `Props/Objects.lean`
-/

namespace Kwk

open Spec

theorem usual_dvd {t : IntType} (h : UsualType t) : t.bits / 8 = 1 ∨ t.bits / 8 = 2 ∨ t.bits / 8 = 4 ∨ t.bits / 8 = 8 := by
  rcases h with h | h | h | h <;> simp [h]

theorem storageTypes_eq (d : Desc) : storageTypes d = runtimeTypes d := by
  have key : ∀ (d pre : Desc), (storedFrom pre.length d).map (storedType (pre ++ d)) = runtimeTypes d := by
    intro d
    induction d with
    | nil => intro pre; rfl
    | cons a d ih =>
      intro pre
      have h := ih (pre ++ [a])
      simp only [List.length_append, List.length_cons, List.length_nil, List.append_assoc, List.cons_append, List.nil_append] at h
      obtain ⟨i, c⟩ := a
      cases c with
      | static v => simpa [storedFrom, Axis.isDynamic, runtimeTypes] using h
      | dynamic t =>
        have : storedType (pre ++ ⟨i, .dynamic t⟩ :: d) pre.length = t := by
          simp [storedType, List.getD_eq_getElem?_getD]
        simp only [storedFrom, Axis.isDynamic, if_true, List.map_cons, this]
        rw [show runtimeTypes (⟨i, .dynamic t⟩ :: d) = t :: runtimeTypes d from rfl, ← h]
  have hl : (storedFrom 0 d).length = dynamicSize d := by
    have : ∀ (d : Desc) p, (storedFrom p d).length = d.countP Axis.isDynamic := by
      intro d
      induction d with
      | nil => intro p; rfl
      | cons a d ih => intro p; cases h : a.isDynamic <;> simp [storedFrom, h, ih]
    rw [this, dynamicSize_eq]
  have h0 := key d []
  rw [← h0]
  unfold storageTypes
  apply List.ext_getElem
  · simp [hl]
  · intro n h1 h2
    simp only [List.length_map, List.length_range] at h1
    simp only [List.getElem_map, List.getElem_range, List.nil_append, List.length_nil]
    unfold cellType
    congr 1
    rw [mapDescriptor, mapDescriptor_stored]
    simp [List.getD_eq_getElem?_getD, hl, h1]

theorem fullyStatic_iff (d : Desc) : fullyStatic d = true ↔ runtimeTypes d = [] := by
  rw [← storageTypes_eq]
  simp [fullyStatic, storageTypes]

theorem alignUp_eq (n a : Nat) (h : a = 1 ∨ a = 2 ∨ a = 4 ∨ a = 8) : alignUp n a = firstFit n a := by
  unfold alignUp firstFit
  rcases h with rfl | rfl | rfl | rfl <;> split <;> omega

/-- Alignments of integers. -/
def Spec.Pow (a : Nat) : Prop := a = 1 ∨ a = 2 ∨ a = 4 ∨ a = 8

theorem Pow.max {a b : Nat} (ha : Spec.Pow a) (hb : Spec.Pow b) : Spec.Pow (max a b) := by
  unfold Spec.Pow at *; omega

theorem place_eq (ms : List ObjSize) (h : ∀ m ∈ ms, Spec.Pow m.align) (s : ObjSize) :
    ms.foldl (fun s m => ⟨alignUp s.size m.align + m.size, max s.align m.align⟩) s =
      (⟨fieldsEnd s.size (ms.map fun m => (m.size, m.align)), max s.align (strictest (ms.map fun m => (m.size, m.align)))⟩ : ObjSize) ∨
    s.align = 0 := by
  induction ms generalizing s with
  | nil =>
    rcases Nat.eq_zero_or_pos s.align with h0 | h0
    · exact .inr h0
    · left; simp [fieldsEnd, strictest]; rw [Nat.max_eq_left h0]
  | cons m ms ih =>
    rcases Nat.eq_zero_or_pos s.align with h0 | h0
    · exact .inr h0
    left
    have hm := h m (by simp)
    rcases ih (fun x hx => h x (List.mem_cons_of_mem _ hx)) ⟨alignUp s.size m.align + m.size, max s.align m.align⟩ with e | e
    · rw [List.foldl_cons, e]
      simp only [List.map_cons, fieldsEnd, strictest, alignUp_eq _ _ hm, Nat.max_assoc]
    · simp only at e; omega

theorem strictest_pow (fs : List (Nat × Nat)) (h : ∀ f ∈ fs, Spec.Pow f.2) : Spec.Pow (strictest fs) := by
  induction fs with
  | nil => exact .inl rfl
  | cons f fs ih => exact Pow.max (h f (by simp)) (ih fun x hx => h x (List.mem_cons_of_mem _ hx))

/-- A class is a record of its members, or one byte. -/
theorem classSize_eq (ms : List ObjSize) (h : ∀ m ∈ ms, Spec.Pow m.align) (hne : ms ≠ []) :
    record (ms.map fun m => (m.size, m.align)) = [((classSize ms).size, (classSize ms).align)] := by
  have h1 : place ms = ⟨fieldsEnd 0 (ms.map fun m => (m.size, m.align)), strictest (ms.map fun m => (m.size, m.align))⟩ := by
    rcases place_eq ms h ⟨0, 1⟩ with e | e
    · unfold place; rw [e]
      have hp := strictest_pow (ms.map fun m => (m.size, m.align)) (by
        intro f hf; obtain ⟨m, hm, rfl⟩ := List.mem_map.1 hf; exact h m hm)
      have : max 1 (strictest (ms.map fun m => (m.size, m.align))) = strictest (ms.map fun m => (m.size, m.align)) := by
        unfold Spec.Pow at hp; omega
      simp only [this]
    · simp at e
  have hp := strictest_pow (ms.map fun m => (m.size, m.align)) (by
    intro f hf; obtain ⟨m, hm, rfl⟩ := List.mem_map.1 hf; exact h m hm)
  unfold record classSize
  rw [if_neg (by simpa using hne), if_neg hne, h1]
  simp only [alignUp_eq _ _ hp]

theorem extentBytes_cons (a : Axis) (d : Desc) : extentBytes (a :: d) =
    (match a.content with | .dynamic t => [t.bits / 8] | .static _ => []) ++ extentBytes d := by
  obtain ⟨i, c⟩ := a
  cases c <;> rfl

theorem extentBytes_nil_iff (d : Desc) : extentBytes d = [] ↔ runtimeTypes d = [] := by simp [extentBytes]

theorem usualTypes_cons {a : Axis} {d : Desc} (h : UsualTypes (a :: d)) : UsualTypes d := by
  intro t ht
  apply h
  obtain ⟨i, c⟩ := a
  cases c
  · exact ht
  · exact List.mem_cons_of_mem _ ht

/-- What `as_stride` computes from the inner extents. -/
def strideContents (l : List Content) : List Content :=
  l.foldr (fun m acc => Content.mul m (acc.headD (.static 1)) :: acc) [.static 1]

/-- Size of a content, if it is stored. -/
def contentBytes : Content → Option Nat
  | .static _ => none
  | .dynamic t => some (t.bits / 8)

theorem common_bits {t u : IntType} : (t.common u).bits = max (max t.bits u.bits) 32 := by
  unfold IntType.common IntType.promote IntType.i32
  split_ifs <;> simp_all <;> omega

theorem strideContents_spec (d : Desc) (h : UsualTypes d) :
    (strideContents (d.map (·.content))).length = d.length + 1 ∧
    contentBytes ((strideContents (d.map (·.content))).headD (.static 1)) = productBytes d ∧
    (strideContents (d.map (·.content))).filterMap contentBytes = suffixBytes d := by
  induction d with
  | nil => exact ⟨rfl, rfl, rfl⟩
  | cons a d ih =>
    obtain ⟨h1, h2, h3⟩ := ih (usualTypes_cons h)
    have e : strideContents ((a :: d).map (·.content)) =
        Content.mul a.content ((strideContents (d.map (·.content))).headD (.static 1)) :: strideContents (d.map (·.content)) := rfl
    have hp : contentBytes (Content.mul a.content ((strideContents (d.map (·.content))).headD (.static 1))) =
        productBytes (a :: d) := by
      have h2' := h2
      generalize (strideContents (d.map (·.content))).headD (.static 1) = c at h2'
      unfold productBytes at h2' ⊢
      rw [extentBytes_cons]
      obtain ⟨i, ac⟩ := a
      cases ac with
      | static v =>
        cases c with
        | static w => simpa [Content.mul, contentBytes] using h2'
        | dynamic u =>
          by_cases hd : extentBytes d = []
          · simp [hd, contentBytes] at h2'
          · simp only [contentBytes, if_neg hd, Option.some.injEq] at h2'
            simp only [Content.mul, contentBytes, List.nil_append, if_neg hd, ← h2', common_bits]
            have : 4 ≤ u.bits / 8 := by
              rw [h2']
              clear h2' h2 h3 h1 e
              induction extentBytes d with
              | nil => simp
              | cons x l ih => simp only [List.foldr_cons]; omega
            congr 1
            simp only [IntType.i32]
            omega
      | dynamic t =>
        have ht : UsualType t := h t (by simp [runtimeTypes])
        cases c with
        | static w =>
          have hd : extentBytes d = [] := by
            by_contra hd
            simp [contentBytes, hd] at h2'
          simp only [Content.mul, contentBytes, hd, List.append_nil, common_bits, IntType.i32]
          rcases ht with ht | ht | ht | ht <;> simp [ht]
        | dynamic u =>
          by_cases hd : extentBytes d = []
          · simp [hd, contentBytes] at h2'
          · simp only [contentBytes, if_neg hd, Option.some.injEq] at h2'
            have : 4 ≤ u.bits / 8 := by
              rw [h2']
              clear h2' h2 h3 h1 e
              induction extentBytes d with
              | nil => simp
              | cons x l ih => simp only [List.foldr_cons]; omega
            simp only [Content.mul, contentBytes, common_bits, List.singleton_append, List.foldr_cons, ← h2']
            simp only [reduceCtorEq, if_false, Option.some.injEq]
            omega
    refine ⟨by rw [e]; simp [h1], ?_, ?_⟩
    · rw [e]; exact hp
    · rw [e, suffixBytes, List.filterMap_cons, hp, h3]
      cases productBytes (a :: d) <;> rfl

theorem extentBytes_zip (d : Desc) (cs : List Content) (h : d.length = cs.length) :
    extentBytes (List.zipWith (fun (a : Axis) c => ⟨a.id, c⟩) d cs) = cs.filterMap contentBytes := by
  induction d generalizing cs with
  | nil => cases cs <;> simp_all [extentBytes, runtimeTypes]
  | cons a d ih =>
    cases cs with
    | nil => simp at h
    | cons c cs =>
      rw [List.zipWith_cons_cons, extentBytes_cons, ih cs (by simpa using h), List.filterMap_cons]
      cases c <;> rfl

/-- The strides that are stored. -/
theorem strideDesc_bytes (d : Desc) (h : UsualTypes d) : extentBytes (strideDesc d) = strideBytes d := by
  unfold strideDesc
  cases d with
  | nil => rfl
  | cons a d =>
    obtain ⟨h1, _, h3⟩ := strideContents_spec d (usualTypes_cons h)
    split
    · rename_i hl
      have : d = [] := by simpa using hl
      subst this
      rfl
    · show extentBytes (List.zipWith _ (a :: d) (strideContents (d.map (·.content)))) = _
      rw [extentBytes_zip _ _ (by rw [h1]; rfl), h3]
      rfl

theorem suffixBytes_nil_iff (d : Desc) : suffixBytes d = [] ↔ extentBytes d = [] := by
  cases d with
  | nil => exact ⟨fun _ => rfl, fun _ => rfl⟩
  | cons a d =>
    have : ∀ d : Desc, extentBytes d = [] → suffixBytes d = [] := by
      intro d
      induction d with
      | nil => intro _; rfl
      | cons a d ih =>
        intro h
        have hd : extentBytes d = [] := by
          rw [extentBytes_cons] at h
          exact (List.append_eq_nil_iff.1 h).2
        rw [suffixBytes, ih hd, productBytes, if_pos h]
        rfl
    refine ⟨fun h => ?_, this _⟩
    rw [suffixBytes] at h
    by_contra hne
    rw [productBytes, if_neg hne] at h
    simp at h

theorem strideBytes_pow (d : Desc) (h : UsualTypes d) : ∀ z ∈ suffixBytes d, Spec.Pow z := by
  have hp : ∀ d : Desc, UsualTypes d → ∀ z ∈ extentBytes d, Spec.Pow z := by
    intro d h z hz
    obtain ⟨t, ht, rfl⟩ := List.mem_map.1 hz
    exact usual_dvd (h t ht)
  induction d with
  | nil => intro z hz; cases hz
  | cons a d ih =>
    intro z hz
    rw [suffixBytes, List.mem_append] at hz
    rcases hz with hz | hz
    · unfold productBytes at hz
      split at hz
      · cases hz
      · simp only [Option.toList_some, List.mem_singleton] at hz
        rw [hz]
        have := hp _ h
        generalize extentBytes (a :: d) = l at this
        clear * - this
        induction l with
        | nil => exact .inr (.inr (.inl rfl))
        | cons x l ih => exact Pow.max (this x (by simp)) (ih fun z hz => this z (List.mem_cons_of_mem _ hz))
    · exact ih (usualTypes_cons h) z hz

theorem descSize_eq (d : Desc) (hp : ∀ z ∈ extentBytes d, Spec.Pow z) (hne : extentBytes d ≠ []) :
    integers (extentBytes d) = [((descSize d).size, (descSize d).align)] := by
  unfold descSize
  rw [storageTypes_eq, ← classSize_eq]
  · simp [integers, extentBytes, IntType.obj, Function.comp_def]
  · intro m hm
    obtain ⟨t, ht, rfl⟩ := List.mem_map.1 hm
    exact hp _ (List.mem_map.2 ⟨t, ht, rfl⟩)
  · intro h0; apply hne; simpa [extentBytes] using h0

theorem record_pow {fs : List (Nat × Nat)} (h : ∀ f ∈ fs, Spec.Pow f.2) : ∀ f ∈ record fs, Spec.Pow f.2 := by
  unfold record
  split
  · intro f hf; cases hf
  · intro f hf
    simp only [List.mem_singleton] at hf
    rw [hf]
    exact strictest_pow _ h

theorem integers_pow {zs : List Nat} (h : ∀ z ∈ zs, Spec.Pow z) : ∀ f ∈ integers zs, Spec.Pow f.2 := by
  apply record_pow
  intro f hf
  obtain ⟨z, hz, rfl⟩ := List.mem_map.1 hf
  exact h z hz

theorem classSize_recordSize (ms : List ObjSize) (h : ∀ m ∈ ms, Spec.Pow m.align) (hne : ms ≠ []) :
    (classSize ms).size = recordSize (ms.map fun m => (m.size, m.align)) := by
  unfold recordSize
  rw [classSize_eq ms h hne]
  simp

theorem extentBytes_pow {d : Desc} (h : UsualTypes d) : ∀ z ∈ extentBytes d, Spec.Pow z := by
  intro z hz
  obtain ⟨t, ht, rfl⟩ := List.mem_map.1 hz
  exact usual_dvd (h t ht)

theorem classSize_pow (ms : List ObjSize) (h : ∀ m ∈ ms, Spec.Pow m.align) : Spec.Pow (classSize ms).align := by
  by_cases hne : ms = []
  · subst hne; exact .inl rfl
  · have h1 := classSize_eq ms h hne
    have h2 := record_pow (fs := ms.map fun m => (m.size, m.align)) (by
      intro f hf; obtain ⟨m, hm, rfl⟩ := List.mem_map.1 hf; exact h m hm)
    rw [h1] at h2
    exact h2 _ (List.mem_singleton.2 rfl)


/-- The accessor takes the room of the run-time data, or one empty member more. -/
theorem accessor_room (label : Bool) (b : BlockLayout) (hb : b = .shallow ∨ b = .heap) (d : Desc) (hd : d ≠ []) (h : UsualTypes d) :
    containerSize label b d (strideDesc d) false =
      recordSize (Spec.labelField label ++ (b.obj.size, b.obj.align) :: layoutRecord d) ↔
    ¬ (3 ≤ d.length ∧ extentBytes d = [8] ∧ extentBytes d.tail = []) := by
  have hbp : Spec.Pow b.obj.align := by rcases hb with rfl | rfl <;> simp [BlockLayout.obj, Spec.Pow]
  have hpe := extentBytes_pow h
  have hps : ∀ z ∈ strideBytes d, Spec.Pow z := by
    cases d with
    | nil => exact absurd rfl hd
    | cons a d => exact strideBytes_pow d (usualTypes_cons h)
  -- whatever the accessor is, its class is a record
  have hgen : ∀ acc : List ObjSize, (∀ m ∈ acc, Spec.Pow m.align) →
      (classSize ((if label then [⟨8, 8⟩] else []) ++ [b.obj] ++ (if acc = [] then [] else [classSize acc]))).size =
      recordSize (Spec.labelField label ++ (b.obj.size, b.obj.align) :: record (acc.map fun m => (m.size, m.align))) := by
    intro acc hacc
    rw [classSize_recordSize]
    · congr 1
      by_cases h0 : acc = []
      · subst h0; cases label <;> simp [Spec.labelField, record]
      · rw [if_neg h0, classSize_eq acc hacc h0]
        cases label <;> simp [Spec.labelField]
    · intro m hm
      rcases List.mem_append.1 hm with hm | hm
      · rcases List.mem_append.1 hm with hm | hm
        · cases label <;> simp at hm; subst hm; simp [Spec.Pow]
        · simp at hm; subst hm; exact hbp
      · split at hm
        · cases hm
        · simp at hm; subst hm; exact classSize_pow acc hacc
    · simp
  have hdp : ∀ e : Desc, (∀ z ∈ extentBytes e, Spec.Pow z) → Spec.Pow (descSize e).align := by
    intro e he
    apply classSize_pow
    intro m hm
    rw [storageTypes_eq] at hm
    obtain ⟨t, ht, rfl⟩ := List.mem_map.1 hm
    exact he _ (List.mem_map.2 ⟨t, ht, rfl⟩)
  have hst := strideDesc_bytes d h
  have hsp : ∀ z ∈ extentBytes (strideDesc d), Spec.Pow z := by rw [hst]; exact hps
  unfold containerSize
  rw [hgen _ (by
    intro m hm
    unfold accessorMembers at hm
    split at hm
    · cases hm
    · split at hm
      · simp at hm; subst hm; exact hdp d hpe
      · simp at hm; rcases hm with rfl | rfl
        · exact hdp d hpe
        · exact hdp _ hsp)]
  unfold accessorMembers
  have hfs : fullyStatic d = true ↔ extentBytes d = [] := by rw [fullyStatic_iff, extentBytes_nil_iff]
  have hfss : fullyStatic (strideDesc d) = true ↔ extentBytes d.tail = [] := by
    rw [fullyStatic_iff, ← extentBytes_nil_iff, hst]
    exact suffixBytes_nil_iff _
  have htail : extentBytes d = [] → extentBytes d.tail = [] := by
    intro h0
    cases d with
    | nil => rfl
    | cons a d => rw [extentBytes_cons] at h0; exact (List.append_eq_nil_iff.1 h0).2
  unfold layoutRecord
  by_cases hs : extentBytes d = []
  · -- compile-time shape
    have e1 := hfs.2 hs
    have e2 := hfss.2 (htail hs)
    have e3 : strideBytes d = [] := (suffixBytes_nil_iff _).2 (htail hs)
    simp only [e1, e2, Bool.and_self, if_true, List.map_nil, hs, e3]
    simp [integers, record]
  have e1 : fullyStatic d = false := by
    cases hf : fullyStatic d
    · rfl
    · exact absurd (hfs.1 hf) hs
  have hint := descSize_eq d hpe hs
  by_cases hl : d.length ≤ 2
  · have hl' : (d.length == 1 || d.length == 2) = true := by
      have : d.length ≠ 0 := by simpa using hd
      simp; omega
    simp only [e1, Bool.false_and, Bool.false_eq_true, if_false, hl', Bool.not_false, Bool.and_self, if_true,
      if_pos hl, List.append_nil, hint, List.map_cons, List.map_nil]
    simp; omega
  have hl' : (d.length == 1 || d.length == 2) = false := by simp; omega
  simp only [e1, Bool.false_and, Bool.false_eq_true, if_false, hl', Bool.not_false, Bool.and_true, Bool.and_false, if_neg hl,
    hint, List.map_cons, List.map_nil]
  by_cases ht : extentBytes d.tail = []
  · -- compile-time strides: an empty member
    have e3 : strideBytes d = [] := (suffixBytes_nil_iff _).2 ht
    have e4 : descSize (strideDesc d) = ⟨1, 1⟩ := by
      unfold descSize
      rw [storageTypes_eq, (fullyStatic_iff _).1 (hfss.2 ht)]
      rfl
    obtain ⟨z, hz, hzp⟩ : ∃ z, extentBytes d = [z] ∧ Spec.Pow z := by
      cases d with
      | nil => exact absurd rfl hd
      | cons a d =>
        simp only [List.tail_cons] at ht
        rw [extentBytes_cons, ht] at hs ⊢
        rw [extentBytes_cons, ht] at hpe
        obtain ⟨i, c⟩ := a
        cases c with
        | static v => simp at hs
        | dynamic t => exact ⟨_, rfl, hpe _ (by simp)⟩
    have hds : ((descSize d).size, (descSize d).align) = (z, z) := by
      have : integers [z] = [(z, z)] := by
        rcases hzp with rfl | rfl | rfl | rfl <;> decide
      rw [hz, this] at hint
      exact (List.cons.inj hint).1.symm
    simp only [e4, e3, hds, hz, ht]
    rw [show integers [] = [] from rfl]
    rcases hb with rfl | rfl <;> rcases hzp with rfl | rfl | rfl | rfl <;> cases label <;>
      simp [Spec.labelField, BlockLayout.obj, recordSize, record, fieldsEnd, strictest, firstFit] <;> omega
  · have e3 : strideBytes d ≠ [] := fun h0 => ht ((suffixBytes_nil_iff _).1 h0)
    have hint2 := descSize_eq (strideDesc d) hsp (by rw [hst]; exact e3)
    rw [hst] at hint2
    rw [hint2]
    simp [ht]

theorem fieldsEnd_replicate (n z m : Nat) (hm : m % z = 0) :
    fieldsEnd m ((List.replicate n z).map fun z => (z, z)) = m + n * z := by
  induction n generalizing m with
  | zero => simp [fieldsEnd]
  | succ n ih =>
    rw [List.replicate_succ, List.map_cons, fieldsEnd, firstFit, if_pos hm, ih _ (by rw [Nat.add_mod_right]; exact hm), Nat.add_mul]
    omega

theorem strictest_replicate (n z : Nat) (hz : Spec.Pow z) :
    strictest ((List.replicate (n + 1) z).map fun z => (z, z)) = z := by
  induction n with
  | zero => simp [strictest]; unfold Spec.Pow at hz; omega
  | succ n ih => rw [List.replicate_succ, List.map_cons, strictest, ih]; omega

theorem integers_replicate (n z : Nat) (hz : Spec.Pow z) : integers (List.replicate (n + 1) z) = [((n + 1) * z, z)] := by
  unfold integers record
  rw [if_neg (by simp [List.replicate_succ]), strictest_replicate n z hz, fieldsEnd_replicate _ _ _ (by simp), Nat.zero_add,
    firstFit, if_pos (by simp)]

theorem allRuntime_tail {a : Axis} {d : Desc} {z : Nat} (h : extentBytes (a :: d) = List.replicate (a :: d).length z) :
    extentBytes d = List.replicate d.length z := by
  rw [extentBytes_cons] at h
  obtain ⟨i, c⟩ := a
  cases c with
  | static v =>
    have h1 := congrArg List.length h
    have h2 : (extentBytes d).length ≤ d.length := by
      simp only [extentBytes, List.length_map, runtimeTypes]
      exact List.length_filterMap_le _ _
    simp at h1; omega
  | dynamic t => simpa [List.replicate_succ] using (List.cons.inj (by simpa [List.replicate_succ] using h)).2

theorem suffixBytes_replicate (d : Desc) (z : Nat) (h : extentBytes d = List.replicate d.length z) :
    suffixBytes d = List.replicate d.length (max z 4) := by
  induction d with
  | nil => rfl
  | cons a d ih =>
    have hd := allRuntime_tail h
    have hp : productBytes (a :: d) = some (max z 4) := by
      rw [productBytes, h]
      simp only [List.length_cons, List.replicate_succ, reduceCtorEq, if_false, List.foldr_cons, Option.some.injEq]
      have : ∀ n, z ≤ max z ((List.replicate n z).foldr max 4) ∧ max z ((List.replicate n z).foldr max 4) = max z 4 := by
        intro n
        induction n with
        | zero => simp
        | succ n ih => simp only [List.replicate_succ, List.foldr_cons]; omega
      exact (this _).2
    rw [suffixBytes, hp, ih hd]
    rfl

end Kwk
