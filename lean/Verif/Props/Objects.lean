import Verif.Lemmas.AuxObjects
import Verif.Model.Objects
import Verif.Spec.Objects
import Verif.Lemmas.Prefilled

/-! # C123: sizes of objects -/

namespace Kwk

open Spec

/-! ## Helpers -/

/-! ## C123 -/

/-- **C123** The size of a shape or of strides depends on the types of the run-time extents only. -/
theorem C123_static_extents_free (d d' : Desc) (h : runtimeTypes d = runtimeTypes d') : descSize d = descSize d' := by
  unfold descSize
  rw [storageTypes_eq, storageTypes_eq, h]

example : runtimeTypes [⟨.implicit 2, .static 3⟩, ⟨.implicit 1, .dynamic .i32⟩, ⟨.implicit 0, .static 9⟩] =
    runtimeTypes [⟨.named "width", .dynamic .i32⟩] := by decide

/-- **C123** `n` run-time extents of the same type take `n` times its size; a shape without run-time extents is an empty class. -/
theorem C123_same_type (d : Desc) (t : IntType) (ht : UsualType t) (n : Nat) (h : runtimeTypes d = List.replicate n t) :
    (descSize d).size = if n = 0 then 1 else n * (t.bits / 8) := by
  have hb : extentBytes d = List.replicate n (t.bits / 8) := by simp [extentBytes, h]
  cases n with
  | zero =>
    unfold descSize
    rw [storageTypes_eq, h]; rfl
  | succ n =>
    have := descSize_eq d (by
      intro z hz; rw [hb] at hz; rw [List.eq_of_mem_replicate hz]; exact usual_dvd ht) (by rw [hb]; simp [List.replicate_succ])
    rw [hb, integers_replicate n _ (usual_dvd ht)] at this
    have := (Prod.mk.inj (List.cons.inj this).1).1
    rw [← this]; simp

example : (descSize [⟨.implicit 2, .dynamic .i32⟩, ⟨.implicit 1, .static 3⟩, ⟨.implicit 0, .dynamic .i32⟩]).size = 8 := by decide

/-- **C123** A view of compile-time shape is a pointer; a table of compile-time shape is its elements.  (`n` elements of size
`z * a` and alignment `a`.) -/
theorem C123_static_containers (d : Desc) (h : runtimeTypes d = []) (n z a : Nat) (ha : 0 < a) :
    viewSize false d = 8 ∧ viewSize true d = 16 ∧ tableSize false n ⟨z * a, a⟩ d = n * (z * a) := by
  have e1 := (fullyStatic_iff d).2 h
  have hu : UsualTypes d := by intro t ht; rw [h] at ht; cases ht
  have e2 : fullyStatic (strideDesc d) = true := by
    rw [fullyStatic_iff, ← extentBytes_nil_iff, strideDesc_bytes d hu, strideBytes, suffixBytes_nil_iff]
    cases d with
    | nil => rfl
    | cons x d =>
      have : extentBytes (x :: d) = [] := (extentBytes_nil_iff _).2 h
      rw [extentBytes_cons] at this
      exact (List.append_eq_nil_iff.1 this).2
  refine ⟨?_, ?_, ?_⟩
  · simp [viewSize, containerSize, accessorMembers, e1, e2, classSize, place, BlockLayout.obj, alignUp]
  · simp [viewSize, containerSize, accessorMembers, e1, e2, classSize, place, BlockLayout.obj, alignUp]
  · have h1 : (a - 1) / a = 0 := Nat.div_eq_of_lt (by omega)
    have h2 : (n * (z * a) + a - 1) / a = n * z := by
      rw [show n * (z * a) + a - 1 = a * (n * z) + (a - 1) by rw [Nat.add_sub_assoc ha]; ring_nf,
        Nat.mul_add_div ha, Nat.div_eq_of_lt (by omega)]
      omega
    have h3 : max 1 a = a := by omega
    simp only [tableSize, containerSize, accessorMembers, e1, e2, classSize, place, BlockLayout.obj, alignUp, Bool.and_self, if_true,
      Bool.false_eq_true, if_false, List.nil_append, List.append_nil, List.foldl_cons, List.foldl_nil, reduceCtorEq, h3,
      Nat.zero_add, h1, Nat.zero_mul, h2]
    ring

example : viewSize false [⟨.implicit 1, .static 4⟩, ⟨.implicit 0, .static 3⟩] = 8 ∧
    tableSize false 12 ⟨4, 4⟩ [⟨.implicit 1, .static 4⟩, ⟨.implicit 0, .static 3⟩] = 48 := by decide

/-- **C123** A view or table of `n` run-time extents of the same type `t`: the pointer (and the allocator), the extents, and from
order 3 on the strides but the last; strides take at least the room of an `int`. -/
theorem C123_runtime_containers (d : Desc) (t : IntType) (ht : UsualType t) (h : runtimeTypes d = List.replicate d.length t)
    (hd : 0 < d.length) (m : Nat) (e : ObjSize) :
    let z := t.bits / 8
    let room := if d.length ≤ 2 then d.length * z else firstFit (d.length * z) (max z 4) + (d.length - 1) * max z 4
    viewSize false d = firstFit (8 + room) 8 ∧ tableSize false m e d = firstFit (16 + room) 8 := by
  intro z room
  have hz : Spec.Pow z := usual_dvd ht
  have hu : UsualTypes d := by intro u hu; rw [h] at hu; rw [List.eq_of_mem_replicate hu]; exact ht
  have hb : extentBytes d = List.replicate d.length z := by simp [extentBytes, h, z]
  have hne : d ≠ [] := by rintro rfl; simp at hd
  obtain ⟨k, hk⟩ : ∃ k, d.length = k + 1 := ⟨d.length - 1, by omega⟩
  have hok : ¬ (3 ≤ d.length ∧ extentBytes d = [8] ∧ extentBytes d.tail = []) := by
    rintro ⟨h3, h8, _⟩
    have := congrArg List.length h8
    rw [hb] at this; simp at this; omega
  have hl : layoutRecord d = [(room, if d.length ≤ 2 then z else max z 4)] := by
    unfold layoutRecord
    rw [hb]
    by_cases h2 : d.length ≤ 2
    · simp only [h2, if_true, List.append_nil, room]
      simp only [hk, integers_replicate k z hz, record]
      simp only [List.cons_ne_self, if_false, fieldsEnd, strictest]
      have h1 : max z 1 = z := by unfold Spec.Pow at hz; omega
      rw [h1]
      simp [firstFit]
    · have hs : strideBytes d = List.replicate k (max z 4) := by
        unfold strideBytes
        cases d with
        | nil => exact absurd rfl hne
        | cons x d =>
          have hd' := allRuntime_tail hb
          rw [List.tail_cons, suffixBytes_replicate d z hd']
          congr 1; simpa using hk
      obtain ⟨j, rfl⟩ : ∃ j, k = j + 1 := ⟨k - 1, by omega⟩
      have hz4 : Spec.Pow (max z 4) := Pow.max hz (by simp [Spec.Pow])
      simp only [h2, if_false, hs, room]
      simp only [hk, integers_replicate _ z hz, integers_replicate j _ hz4, record]
      simp only [List.singleton_append, reduceCtorEq, if_false, fieldsEnd, strictest]
      have h1 : max z (max (max z 4) 1) = max z 4 := by omega
      rw [h1]
      have h2 : firstFit 0 z = 0 := by simp [firstFit]
      rw [h2, Nat.zero_add]
      have h3 : (firstFit ((j + 1 + 1) * z) (max z 4) + (j + 1) * max z 4) % max z 4 = 0 := by
        rw [Nat.add_mul_mod_self_right]
        unfold firstFit
        split
        · assumption
        · rename_i hmod
          have hlt : (j + 1 + 1) * z % max z 4 < max z 4 := Nat.mod_lt _ (by omega)
          generalize hn : (j + 1 + 1) * z = n at *
          have : n + (max z 4 - n % max z 4) = max z 4 * (n / max z 4) + max z 4 := by
            have := Nat.div_add_mod n (max z 4); omega
          rw [this]; simp
      rw [firstFit.eq_def (firstFit _ _ + _), if_pos h3]
      simp
  have hfin : ∀ b : BlockLayout, b = .shallow ∨ b = .heap →
      containerSize false b d (strideDesc d) false = firstFit (b.obj.size + room) 8 := by
    intro b hbk
    rw [(accessor_room false b hbk d hne hu).2 hok, hl]
    have hal : ∀ al, Spec.Pow al → recordSize (labelField false ++ (b.obj.size, b.obj.align) :: [(room, al)]) =
        firstFit (b.obj.size + room) 8 := by
      intro al hal
      rcases hbk with rfl | rfl <;> rcases hal with rfl | rfl | rfl | rfl <;>
        simp [labelField, recordSize, record, fieldsEnd, strictest, BlockLayout.obj, firstFit] <;> rfl
    apply hal
    split
    · exact hz
    · exact Pow.max hz (by simp [Spec.Pow])
  have hns : fullyStatic d = false := by
    cases hf : fullyStatic d
    · rfl
    · have := (fullyStatic_iff d).1 hf
      rw [h, hk] at this
      simp [List.replicate_succ] at this
  refine ⟨hfin .shallow (.inl rfl), ?_⟩
  unfold tableSize
  rw [hns]
  exact hfin .heap (.inr rfl)

example : viewSize false [⟨.implicit 2, .dynamic .i64⟩, ⟨.implicit 1, .dynamic .i64⟩, ⟨.implicit 0, .dynamic .i64⟩] = 48 ∧
    tableSize false 24 ⟨4, 4⟩ [⟨.implicit 1, .dynamic .i16⟩, ⟨.implicit 0, .dynamic .i16⟩] = 24 := by decide

/-! Full property C123: a container takes the room of its label, its pointer or elements, and the run-time extents and strides that
it stores:

`∀ d, viewSize label d = recordSize (labelField label ++ (8, 8) :: layoutRecord d)`

This is false: `C123_empty_member_false`. -/

/-- **C123** (partial) Compile-time extents and strides take no room in views and tables of any shape with usual types, exactly
unless the first of three or more extents is the only run-time one and has 64 bits. -/
theorem C123_room_exact_partial (label : Bool) (d : Desc) (hd : d ≠ []) (h : UsualTypes d) (m : Nat) (e : ObjSize) :
    (viewSize label d = recordSize (labelField label ++ (8, 8) :: layoutRecord d) ↔
      ¬ (3 ≤ d.length ∧ extentBytes d = [8] ∧ extentBytes d.tail = [])) ∧
    (runtimeTypes d ≠ [] → (tableSize label m e d = recordSize (labelField label ++ (16, 8) :: layoutRecord d) ↔
      ¬ (3 ≤ d.length ∧ extentBytes d = [8] ∧ extentBytes d.tail = []))) := by
  refine ⟨accessor_room label .shallow (.inl rfl) d hd h, fun hr => ?_⟩
  unfold tableSize
  rw [if_neg (by rw [fullyStatic_iff]; exact hr)]
  exact accessor_room label .heap (.inr rfl) d hd h

example : viewSize true [⟨.implicit 3, .dynamic .i8⟩, ⟨.implicit 2, .static 3⟩, ⟨.implicit 1, .dynamic .i32⟩, ⟨.implicit 0, .static 4⟩] = 32 ∧
    recordSize (labelField true ++ (8, 8) :: layoutRecord
      [⟨.implicit 3, .dynamic .i8⟩, ⟨.implicit 2, .static 3⟩, ⟨.implicit 1, .dynamic .i32⟩, ⟨.implicit 0, .static 4⟩]) = 32 := by decide

/-- **C123** (negation) A view of `shape<int64, 3, 4>` has two words of data, the pointer and one extent, and takes three: the
strides, all known at compile time, are an empty member. -/
theorem C123_empty_member_false : ∃ d : Desc, UsualTypes d ∧ viewSize false d = 24 ∧
    recordSize (labelField false ++ (8, 8) :: layoutRecord d) = 16 :=
  ⟨[⟨.implicit 2, .dynamic .i64⟩, ⟨.implicit 1, .static 3⟩, ⟨.implicit 0, .static 4⟩], by
    intro t ht; simp [runtimeTypes] at ht; subst ht; exact .inr (.inr (.inr rfl)), by decide, by decide⟩

/-- **C123** The full property of the room a container takes. -/
def C123_statement : Prop :=
  ∀ (label : Bool) (d : Desc) (m : Nat) (e : ObjSize), d ≠ [] → UsualTypes d →
    viewSize label d = recordSize (labelField label ++ (8, 8) :: layoutRecord d) ∧
    (runtimeTypes d ≠ [] → tableSize label m e d = recordSize (labelField label ++ (16, 8) :: layoutRecord d))

theorem C123_statement_false : ¬ C123_statement := by
  intro h
  obtain ⟨d, hd, h1, h2⟩ := C123_empty_member_false
  have hne : d ≠ [] := by
    rintro rfl
    exact absurd h1 (by decide)
  have := (h false d 0 ⟨1, 1⟩ hne hd).1
  omega

end Kwk
