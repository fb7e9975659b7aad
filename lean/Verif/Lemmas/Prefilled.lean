import Verif.Model.Prefilled
import Mathlib.Tactic.Ring
import Mathlib.Tactic.SplitIfs
import Mathlib.Tactic.Positivity
import Mathlib.Data.List.Nodup
import Mathlib.Algebra.Order.Ring.Int

/-! # Lemmas: compile-time and run-time axes -/

namespace Kwk

theorem IntType.wrap_fits {t : IntType} {v : Int} (h : t.Fits v) : t.wrap v = v := by
  obtain ⟨h1, h2⟩ := h
  unfold IntType.wrap IntType.lo IntType.hi at *
  have hp : (0 : Int) < 2 ^ t.bits := by positivity
  generalize (2 : Int) ^ t.bits = m at *
  cases hs : t.signed <;> simp only [hs, if_true, if_false, true_and, Bool.false_eq_true, false_and] at h1 h2 ⊢
  · exact Int.emod_eq_of_lt h1 h2
  · by_cases hv : 0 ≤ v
    · rw [Int.emod_eq_of_lt hv (by omega), if_neg (by omega)]
    · have : v % m = v + m := by
        rw [← Int.add_emod_right, Int.emod_eq_of_lt (by omega) (by omega)]
      rw [this, if_pos (by omega)]; omega

theorem IntType.wrap_mem (t : IntType) (hb : 0 < t.bits) (v : Int) : t.Fits (t.wrap v) := by
  unfold IntType.Fits IntType.wrap IntType.lo IntType.hi
  obtain ⟨n, hn⟩ : ∃ n, t.bits = n + 1 := ⟨t.bits - 1, by omega⟩
  have hp : (0 : Int) < 2 ^ n := by positivity
  have hm : (2 : Int) ^ t.bits = 2 * 2 ^ n := by rw [hn]; ring
  rw [hm]
  generalize (2 : Int) ^ n = k at *
  have h1 := Int.emod_nonneg v (show (2 * k) ≠ 0 by omega)
  have h2 := Int.emod_lt_of_pos v (show 0 < 2 * k by omega)
  cases hs : t.signed <;> simp only [if_true, if_false, true_and, Bool.false_eq_true, false_and]
  · exact ⟨h1, h2⟩
  · split_ifs <;> omega

theorem IntType.zero_fits (t : IntType) (hb : 0 < t.bits) : t.Fits 0 := by
  unfold IntType.Fits IntType.lo IntType.hi
  obtain ⟨n, hn⟩ : ∃ n, t.bits = n + 1 := ⟨t.bits - 1, by omega⟩
  have hp : (0 : Int) < 2 ^ n := by positivity
  have hm : (2 : Int) ^ t.bits = 2 * 2 ^ n := by rw [hn]; ring
  rw [hm]
  cases t.signed <;> simp [hp, hp.le]

/-! ## map_descriptor -/

/-- Storage positions, recursively. -/
def indexFrom (k : Nat) : Desc → List (Option Nat)
  | [] => []
  | a :: d => if a.isDynamic then some k :: indexFrom (k + 1) d else none :: indexFrom k d

theorem mapDescriptor_fold (d : Desc) (m : DescMap) :
    (d.foldl DescMap.check m).index = m.index ++ indexFrom m.curr d ∧
    (d.foldl DescMap.check m).count = m.count + d.countP Axis.isDynamic := by
  induction d generalizing m with
  | nil => simp [indexFrom]
  | cons a d ih =>
    rw [List.foldl_cons]
    obtain ⟨h1, h2⟩ := ih (m.check a)
    rw [h1, h2]
    cases h : a.isDynamic <;> simp [DescMap.check, h, indexFrom]; omega

theorem mapDescriptor_index (d : Desc) : (mapDescriptor d).index = indexFrom 0 d := by
  simp [mapDescriptor, (mapDescriptor_fold d {}).1]

theorem dynamicSize_eq (d : Desc) : dynamicSize d = d.countP Axis.isDynamic := by
  simp [dynamicSize, mapDescriptor, (mapDescriptor_fold d {}).2]

/-- Storage position of axis `i`. -/
def slot (d : Desc) (i : Nat) : Nat := (d.take i).countP Axis.isDynamic

theorem indexFrom_getD (d : Desc) (k i : Nat) :
    (indexFrom k d).getD i none = if ((d[i]?).any Axis.isDynamic) then some (k + slot d i) else none := by
  induction d generalizing k i with
  | nil => simp [indexFrom]
  | cons a d ih =>
    cases i with
    | zero => cases h : a.isDynamic <;> simp [indexFrom, h, slot]
    | succ i =>
      cases h : a.isDynamic
      · simp only [indexFrom, h, Bool.false_eq_true, if_false, List.getD_cons_succ, ih, List.getElem?_cons_succ]
        congr 2
        simp [slot, h]
      · simp only [indexFrom, h, if_true, List.getD_cons_succ, ih, List.getElem?_cons_succ]
        congr 2
        simp [slot, h]; omega

theorem index_getD (d : Desc) (i : Nat) :
    (mapDescriptor d).index.getD i none = if hasStorage d i then some (slot d i) else none := by
  have h := indexFrom_getD d 0 i
  rw [hasStorage, mapDescriptor_index, h]
  split_ifs <;> simp_all

theorem hasStorage_eq (d : Desc) (i : Nat) : hasStorage d i = (d[i]?).any Axis.isDynamic := by
  rw [hasStorage, mapDescriptor_index, indexFrom_getD]
  split_ifs with h <;> simp [h]

theorem hasStorage_lt {d : Desc} {i : Nat} (h : hasStorage d i = true) : i < d.length := by
  rw [hasStorage_eq] at h
  by_contra hc
  simp [List.getElem?_eq_none (Nat.le_of_not_lt hc)] at h

theorem slot_mono (d : Desc) {i j : Nat} (h : i ≤ j) : slot d i ≤ slot d j :=
  ((List.take_prefix_take_left h).sublist).countP_le

theorem slot_succ {d : Desc} {i : Nat} (h : hasStorage d i = true) : slot d (i + 1) = slot d i + 1 := by
  have hl := hasStorage_lt h
  rw [hasStorage_eq, List.getElem?_eq_getElem hl] at h
  simp only [Option.any_some] at h
  rw [slot, List.take_add_one, List.getElem?_eq_getElem hl, List.countP_append, Option.toList_some,
    List.countP_singleton, if_pos h, slot]

theorem slot_lt {d : Desc} {i : Nat} (h : hasStorage d i = true) : slot d i < dynamicSize d := by
  have h1 := slot_succ h
  have h2 := slot_mono d (hasStorage_lt h)
  have h3 : slot d d.length = dynamicSize d := by simp [slot, dynamicSize_eq]
  simp only [Nat.succ_eq_add_one] at h2
  omega

theorem slot_inj {d : Desc} {i j : Nat} (hi : hasStorage d i = true) (hj : hasStorage d j = true)
    (h : slot d i = slot d j) : i = j := by
  rcases Nat.lt_trichotomy i j with hl | hl | hl
  · have := slot_succ hi; have := slot_mono d hl; simp only [Nat.succ_eq_add_one] at this; omega
  · exact hl
  · have := slot_succ hj; have := slot_mono d hl; simp only [Nat.succ_eq_add_one] at this; omega

theorem slot_surj (d : Desc) {k : Nat} (h : k < dynamicSize d) : ∃ i, hasStorage d i = true ∧ slot d i = k := by
  rw [dynamicSize_eq] at h
  induction d generalizing k with
  | nil => simp at h
  | cons a d ih =>
    have hs : ∀ i, hasStorage (a :: d) (i + 1) = hasStorage d i := by
      intro i; rw [hasStorage_eq, hasStorage_eq, List.getElem?_cons_succ]
    cases ha : a.isDynamic
    · obtain ⟨i, h1, h2⟩ := ih (k := k) (by simpa [ha] using h)
      exact ⟨i + 1, by rw [hs, h1], by simpa [slot, ha] using h2⟩
    · cases k with
      | zero => exact ⟨0, by simp [hasStorage_eq, ha], by simp [slot]⟩
      | succ k =>
        obtain ⟨i, h1, h2⟩ := ih (k := k) (by simpa [ha] using h)
        exact ⟨i + 1, by rw [hs, h1], by simpa [slot, ha] using h2⟩

/-! ## Reading and writing axes -/

/-- The storage has one cell per run-time axis. -/
def Prefilled.WF (s : Prefilled) : Prop := s.storage.length = dynamicSize s.desc

theorem default_wf (d : Desc) : (Prefilled.default d).WF := by simp [Prefilled.WF, Prefilled.default]

theorem get_dyn {s : Prefilled} {i : Nat} (h : hasStorage s.desc i = true) :
    s.get i = s.storage.getD (slot s.desc i) 0 := by
  rw [Prefilled.get, index_getD, if_pos h]

theorem get_static {s : Prefilled} {i : Nat} (h : hasStorage s.desc i = false) :
    s.get i = match (s.desc.map (·.content)).getD i (.static 0) with
      | .static v => v
      | .dynamic _ => 0 := by
  rw [Prefilled.get, index_getD, if_neg (by simp [h])]
  all_goals rfl

theorem default_get (d : Desc) {i : Nat} (h : hasStorage d i = true) : (Prefilled.default d).get i = 0 := by
  rw [get_dyn (by exact h)]
  simp [Prefilled.default, List.getD_eq_getElem?_getD, List.getElem?_replicate]
  split_ifs <;> simp

theorem set_desc (s : Prefilled) (i : Nat) (v : Int) : (s.set i v).desc = s.desc := by
  rw [Prefilled.set]; split <;> rfl

theorem set_wf {s : Prefilled} (h : s.WF) (i : Nat) (v : Int) : (s.set i v).WF := by
  rw [Prefilled.WF, set_desc, Prefilled.set]
  split
  · simpa [Prefilled.WF] using h
  · exact h

/-- The axes with storage, recursively. -/
def storedFrom (p : Nat) : Desc → List Nat
  | [] => []
  | a :: d => if a.isDynamic then p :: storedFrom (p + 1) d else storedFrom (p + 1) d

theorem mapDescriptor_stored (d : Desc) (m : DescMap) :
    (d.foldl DescMap.check m).stored = m.stored ++ storedFrom m.pos d := by
  induction d generalizing m with
  | nil => simp [storedFrom]
  | cons a d ih =>
    rw [List.foldl_cons, ih]
    cases h : a.isDynamic <;> simp [DescMap.check, h, storedFrom]

theorem storedFrom_slot (d : Desc) (p i : Nat) (h : hasStorage d i = true) : (storedFrom p d)[slot d i]? = some (p + i) := by
  rw [hasStorage_eq] at h
  induction d generalizing p i with
  | nil => simp at h
  | cons a d ih =>
    cases i with
    | zero =>
      simp only [List.getElem?_cons_zero, Option.any_some] at h
      simp [storedFrom, h, slot]
    | succ i =>
      simp only [List.getElem?_cons_succ] at h
      have := ih (p + 1) i h
      cases ha : a.isDynamic
      · have hs : slot (a :: d) (i + 1) = slot d i := by simp [slot, ha]
        simp only [storedFrom, ha, hs, Bool.false_eq_true, if_false, this]
        congr 1; omega
      · have hs : slot (a :: d) (i + 1) = slot d i + 1 := by simp [slot, ha]
        simp only [storedFrom, ha, hs, if_true, List.getElem?_cons_succ, this]
        congr 1; omega

/-- The cell of an axis has the type of the axis. -/
theorem cellType_slot {d : Desc} {i : Nat} (h : hasStorage d i = true) : cellType d (slot d i) = storedType d i := by
  unfold cellType
  rw [mapDescriptor, mapDescriptor_stored, List.getD_eq_getElem?_getD]
  simp only [List.nil_append]
  rw [storedFrom_slot d 0 i h]
  simp

theorem set_get {s : Prefilled} (hw : s.WF) {i : Nat} (hi : hasStorage s.desc i = true) (v : Int) (j : Nat) :
    (s.set i v).get j = if j = i then (storedType s.desc i).wrap v else s.get j := by
  have hst : (s.set i v).storage = s.storage.set (slot s.desc i) ((storedType s.desc i).wrap v) := by
    rw [Prefilled.set, index_getD, if_pos hi]
    simp only [cellType_slot hi]
  cases hj : hasStorage s.desc j
  · rw [if_neg (by rintro rfl; rw [hi] at hj; cases hj), get_static (by rw [set_desc]; exact hj),
      get_static hj, set_desc]
  · rw [get_dyn (by rw [set_desc]; exact hj), hst, set_desc]
    by_cases e : j = i
    · subst e
      have := slot_lt hi
      rw [← hw] at this
      simp [List.getD_eq_getElem?_getD, this]
    · rw [if_neg e, get_dyn hj]
      have : slot s.desc i ≠ slot s.desc j := fun h => e (slot_inj hi hj h).symm
      simp [List.getD_eq_getElem?_getD, List.getElem?_set_ne this]

/-- Two values of the same type with the same extents are equal. -/
theorem prefilled_ext {s s' : Prefilled} (hd : s.desc = s'.desc) (h : s.WF) (h' : s'.WF)
    (hg : ∀ i, hasStorage s.desc i = true → s.get i = s'.get i) : s = s' := by
  cases s with | mk d st =>
  cases s' with | mk d' st' =>
  cases hd
  congr 1
  apply List.ext_getElem
  · rw [show st.length = _ from h, show st'.length = _ from h']
  · intro k h1 h2
    obtain ⟨i, hi, rfl⟩ := slot_surj d (k := k) (by rw [← show st.length = _ from h]; exact h1)
    have := hg i hi
    rw [get_dyn hi, get_dyn (by exact hi)] at this
    simpa [List.getD_eq_getElem?_getD, h1, h2] using this

/-! ## Filling -/

/-- The common loop of the constructors: extent number and value. -/
def fillAxes (md : Mode) (dflt : Int) (s : Prefilled) (l : List (Nat × Arg)) : Res Prefilled :=
  l.foldlM (init := s) fun s (i, v) =>
    if hasStorage s.desc i then pure (s.set i (asDimension v dflt))
    else do
      kwkAssert md (staticMatches v (s.get i))
      pure s

theorem fillAxes_cons (md : Mode) (dflt : Int) (s : Prefilled) (i : Nat) (v : Arg) (l : List (Nat × Arg)) :
    fillAxes md dflt s ((i, v) :: l) =
      (if hasStorage s.desc i then pure (s.set i (asDimension v dflt))
       else (kwkAssert md (staticMatches v (s.get i)) >>= fun _ => (pure s : Res Prefilled))) >>=
        fun s => fillAxes md dflt s l := by
  rw [fillAxes, List.foldlM_cons]; rfl

/-- No value contradicts a compile-time axis. -/
def Agrees (s : Prefilled) (l : List (Nat × Arg)) : Prop :=
  ∀ i v, (i, v) ∈ l → hasStorage s.desc i = false → staticMatches v (s.get i) = true

theorem fillAxes_run (md : Mode) (dflt : Int) {s : Prefilled} (hw : s.WF) (l : List (Nat × Arg))
    (hnd : (l.map (·.1)).Nodup) (hag : md = .checked → Agrees s l) :
    ∃ s', fillAxes md dflt s l = .ok s' ∧ s'.desc = s.desc ∧ s'.WF ∧
      (∀ i v, (i, v) ∈ l → hasStorage s.desc i = true →
        s'.get i = (storedType s.desc i).wrap (asDimension v dflt)) ∧
      (∀ i, (hasStorage s.desc i = false ∨ i ∉ l.map (·.1)) → s'.get i = s.get i) := by
  induction l generalizing s with
  | nil => exact ⟨s, rfl, rfl, hw, by simp, by simp⟩
  | cons p l ih =>
    obtain ⟨i, v⟩ := p
    rw [List.map_cons, List.nodup_cons] at hnd
    rw [fillAxes_cons]
    cases hi : hasStorage s.desc i
    · have hstep : (kwkAssert md (staticMatches v (s.get i)) >>= fun _ => (pure s : Res Prefilled)) = .ok s := by
        cases md with
        | unchecked => rfl
        | checked => rw [kwkAssert, if_pos (hag rfl i v (by simp) hi)]; rfl
      rw [if_neg (by simp), hstep]
      obtain ⟨s', h1, h2, h3, h4, h5⟩ := ih hw hnd.2 (fun h i v hm => hag h i v (by simp [hm]))
      refine ⟨s', h1, h2, h3, ?_, ?_⟩
      · intro j w hm hj
        rcases List.mem_cons.1 hm with e | hm
        · cases e; rw [hi] at hj; cases hj
        · exact h4 j w hm hj
      · intro j hj
        apply h5
        rcases hj with hj | hj
        · exact .inl hj
        · exact .inr fun hm => hj (by simp only [List.map_cons]; exact List.mem_cons_of_mem _ hm)
    · rw [if_pos rfl]
      have hd := set_desc s i (asDimension v dflt)
      obtain ⟨s', h1, h2, h3, h4, h5⟩ := ih (set_wf hw i (asDimension v dflt)) hnd.2 (by
        intro h j w hm hj
        rw [hd] at hj
        have hne : j ≠ i := by rintro rfl; rw [hi] at hj; cases hj
        rw [set_get hw hi, if_neg hne]
        exact hag h j w (by simp [hm]) hj)
      rw [hd] at h2 h4 h5
      refine ⟨s', h1, h2, h3, ?_, ?_⟩
      · intro j w hm hj
        rcases List.mem_cons.1 hm with e | hm
        · cases e
          rw [h5 i (.inr hnd.1), set_get hw hi, if_pos rfl]
        · exact h4 j w hm hj
      · intro j hj
        have hne : j ≠ i := by
          rintro rfl
          rcases hj with hj | hj
          · rw [hi] at hj; cases hj
          · exact hj (by simp)
        rw [h5 j, set_get hw hi, if_neg hne]
        rcases hj with hj | hj
        · exact .inl hj
        · exact .inr fun hm => hj (by simp only [List.map_cons]; exact List.mem_cons_of_mem _ hm)

/-- In checked builds, a contradiction stops the program. -/
theorem fillAxes_asserts (dflt : Int) {s : Prefilled} (hw : s.WF) (l : List (Nat × Arg))
    (hag : ¬ Agrees s l) : fillAxes .checked dflt s l = .error .assertion := by
  induction l generalizing s with
  | nil => exact absurd (by intro i v h; simp at h) hag
  | cons p l ih =>
    obtain ⟨i, v⟩ := p
    rw [fillAxes_cons]
    cases hi : hasStorage s.desc i
    · rw [if_neg (by simp)]
      by_cases hm : staticMatches v (s.get i) = true
      · have : (kwkAssert .checked (staticMatches v (s.get i)) >>= fun _ => (pure s : Res Prefilled)) = .ok s := by
          rw [kwkAssert, if_pos hm]; rfl
        rw [this]
        apply ih hw
        intro h
        apply hag
        intro j w hjw hj
        rcases List.mem_cons.1 hjw with e | hjw
        · cases e; exact hm
        · exact h j w hjw hj
      · rw [kwkAssert, if_neg hm]; rfl
    · rw [if_pos rfl]
      have hd := set_desc s i (asDimension v dflt)
      apply ih (set_wf hw i (asDimension v dflt))
      intro h
      apply hag
      intro j w hjw hj
      rcases List.mem_cons.1 hjw with e | hjw
      · cases e; rw [hi] at hj; cases hj
      · have hne : j ≠ i := by rintro rfl; rw [hi] at hj; cases hj
        have := h j w hjw (by rw [hd]; exact hj)
        rwa [set_get hw hi, if_neg hne] at this

/-- Numbered extents. -/
def numbered (vs : List Arg) : List (Nat × Arg) := vs.zipIdx.map fun vi => (vi.2, vi.1)

theorem construct_eq (md : Mode) (s : Prefilled) (dflt : Int) (vs : List Arg) :
    s.construct md dflt vs = fillAxes md dflt s (numbered vs) := by
  rw [fillAxes, numbered, List.foldlM_map]; rfl

theorem ofValues_eq (md : Mode) (d : Desc) (vs : Shape) (dflt : Int) :
    Prefilled.ofValues md d vs = fillAxes md dflt (.default d) (numbered (vs.map .val)) := by
  rw [fillAxes, numbered, List.foldlM_map, List.zipIdx_map, List.foldlM_map]
  rfl

theorem numbered_fst (vs : List Arg) : (numbered vs).map (·.1) = List.range vs.length := by
  simp [numbered, List.map_map, Function.comp_def, List.zipIdx_map_snd, List.range_eq_range']

theorem mem_numbered {vs : List Arg} {i : Nat} {v : Arg} : (i, v) ∈ numbered vs ↔ vs[i]? = some v := by
  simp [numbered, List.mem_zipIdx_iff_getElem?]

end Kwk
