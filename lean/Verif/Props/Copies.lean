import Verif.Lemmas.Copies

/-!
# C150: containers can be copied, assigned and exchanged

The full claim is that every table can be copied and assigned, every container be assigned from another one of the same shape, every
two containers of the same type be exchanged, and that copies show what the original shows.  The code does not
compile for containers with one run-time extent (assignment, exchange), with two run-time extents and given strides
(exchange), with a label or with given strides (copies): `C150_false`, `C150_label_false`, `C150_strides_false`.  The
theorems say exactly for which types it compiles, and what happens then.
-/

namespace Kwk

open Spec

variable {δ : Type}

/-- `swap(a, b)` compiles exactly for containers of constant extents, of at least three, or of two without given strides. -/
theorem C150_swap_exact_partial (t : CType) (a b : Obj δ) : (∃ r, swapObjs t a b = some r) ↔ Exchangeable t := by
  unfold swapObjs Exchangeable
  rcases accessor_cases t with ⟨h, e⟩ | ⟨h, l, s, e⟩ | ⟨h, l, s, e⟩ | ⟨h, l, s, e⟩ | ⟨h, l, s, e⟩ | ⟨h, hl, e⟩ <;> rw [e]
  · exact ⟨fun _ => .inl h.1, fun _ => ⟨_, rfl⟩⟩
  · refine ⟨fun ⟨r, hr⟩ => (by cases hr), fun hx => ?_⟩
    rcases hx with hx | hx | hx
    · exact absurd hx h
    · omega
    · omega
  · refine ⟨fun ⟨r, hr⟩ => (by cases hr), fun hx => ?_⟩
    rcases hx with hx | hx | hx
    · exact absurd hx h
    · omega
    · omega
  · exact ⟨fun _ => .inr (.inr ⟨l, s⟩), fun _ => ⟨_, rfl⟩⟩
  · refine ⟨fun ⟨r, hr⟩ => (by cases hr), fun hx => ?_⟩
    rcases hx with hx | hx | hx
    · exact absurd hx h
    · omega
    · exact absurd hx.2 s
  · exact ⟨fun _ => hl.elim .inl (fun k => .inr (.inl k)), fun _ => ⟨_, rfl⟩⟩

example : Exchangeable ⟨[.joker, .joker], none, true⟩ := .inr (.inr ⟨rfl, rfl⟩)

example : ¬ Exchangeable ⟨[.joker], none, false⟩ := by
  rintro (h | h | h)
  · exact h _ List.mem_cons_self
  · exact absurd h (by decide)
  · exact absurd h.1 (by decide)

/-- When it compiles, label, elements, shape and strides are all exchanged, and it is the labels held that are shown. -/
theorem C150_swap_partial {t : CType} {a b a' b' : Obj δ} (h : swapObjs t a b = some (a', b')) :
    Exchanged (shown t a) (shown t b) (shown t a') (shown t b') ∧
    (t.label = true → (shown t a').label = b.label_ ∧ (shown t b').label = a.label_) := by
  unfold swapObjs at h
  cases hb : t.label <;>
  rcases accessor_cases t with ⟨_, e⟩ | ⟨_, l, s, e⟩ | ⟨_, l, s, e⟩ | ⟨_, l, s, e⟩ | ⟨_, l, s, e⟩ | ⟨_, _, e⟩ <;> rw [e] at h <;>
  first
  | (cases h; done)
  | (simp only [swapLabels, hb, if_true, if_false, Bool.false_eq_true] at h
     have h := Option.some.inj h
     obtain rfl : _ = a' := congrArg Prod.fst h
     obtain rfl : _ = b' := congrArg Prod.snd h
     simp [Exchanged, shown, CType.labelOf, CType.shapeOf, CType.strideOf, hb, e, swapData])

example : ∃ a' b' : Obj Nat, swapObjs ⟨[.joker, .joker], none, true⟩ ⟨"p", 1, [2, 3], []⟩ ⟨"q", 2, [4, 5], []⟩ = some (a', b') ∧
    shown ⟨[.joker, .joker], none, true⟩ a' = ⟨"q", 2, [4, 5], [5, 1]⟩ :=
  ⟨_, _, rfl, rfl⟩

/-- A table can be copied exactly if it has no label and no given strides; also if everything is constant, or the
given strides have the very type of the row-major ones. -/
theorem C150_copy_exact_partial (t : CType) (o : Obj δ) (d : δ) : (∃ c, copyTable t o d = some c) ↔ Copyable t := by
  unfold copyTable ofSettings Copyable
  have hsf : shapeFrom t.shape t.shape = true := by simp [shapeFrom]
  cases hb : t.label
  · rcases accessor_cases t with ⟨h, e⟩ | ⟨h, l, s, e⟩ | ⟨h, l, s, e⟩ | ⟨h, l, s, e⟩ | ⟨h, l, s, e⟩ | ⟨h, hl, e⟩ <;> rw [e] <;>
      simp only [Bool.false_eq_true, if_false, hsf, Bool.true_and, decide_eq_true_eq, if_true, true_and]
    · exact ⟨fun _ => .inr (.inl h), fun _ => ⟨_, rfl⟩⟩
    · exact ⟨fun _ => .inl s, fun _ => ⟨_, rfl⟩⟩
    · have hnc : ¬ AllConstant t := fun hc => h hc.1
      unfold CType.strideArgs
      rw [asStrideArgs_eq]
      obtain ⟨k, hk⟩ := Option.ne_none_iff_exists'.1 s
      rw [hk]
      by_cases hkr : k = rowMajorType t.shape
      · simp [hkr]
      · simp [hkr, hnc]
    · exact ⟨fun _ => .inl s, fun _ => ⟨_, rfl⟩⟩
    · have hnc : ¬ AllConstant t := fun hc => h hc.1
      unfold CType.strideArgs
      rw [asStrideArgs_eq]
      obtain ⟨k, hk⟩ := Option.ne_none_iff_exists'.1 s
      rw [hk]
      by_cases hkr : k = rowMajorType t.shape
      · simp [hkr]
      · simp [hkr, hnc]
    · unfold CType.strideArgs
      rw [asStrideArgs_eq]
      cases hk : t.strides with
      | none => simp
      | some k =>
        by_cases hkr : k = rowMajorType t.shape
        · simp [hkr]
        · simp [hkr, h]
  · simp

example : Copyable ⟨[.joker], none, false⟩ := ⟨rfl, .inl rfl⟩

example : ¬ Copyable ⟨[.joker, .joker], some [.type .i32, .int 1], false⟩ := by
  rintro ⟨-, h | h | h⟩
  · cases h
  · exact h.1 _ List.mem_cons_self
  · exact absurd h (by decide)

/-- What a copy shows: no label, the elements it was given, the shape of the original, and row-major strides or the constants of the
type. -/
theorem copy_shown {t : CType} {o c : Obj δ} {d : δ} (h : copyTable t o d = some c)
    (hl : (t.shapeOf o).length = t.shape.length) :
    (shown t c).label = "" ∧ (shown t o).label = "" ∧ (shown t c).data = d ∧ (shown t c).shape = (shown t o).shape ∧
      ((AllConstant t ∧ (shown t c).strides = (shown t o).strides) ∨
        (¬ AllConstant t ∧ (shown t c).strides = laterProducts (shown t o).shape)) := by
  unfold copyTable at h
  obtain ⟨hb, h1, h2, h3, h4, h5⟩ := made_shown h hl
  have hsh : (shown t c).shape = (shown t o).shape := by
    rw [h3]
    simp only [shown, CType.shapeOf]
    split
    · next hs => rw [hs]
    · rfl
  refine ⟨h1, by simp [shown, CType.labelOf, hb], h2, hsh, ?_⟩
  by_cases hc : AllConstant t
  · refine .inl ⟨hc, ?_⟩
    simp only [shown, CType.strideOf, (static_iff t).2 hc]
  · exact .inr ⟨hc, by rw [h5 (.inl hc), hsh]⟩

/-- A copy shows what the original shows, besides its own elements, exactly if all is constant or the strides of the original are the
row-major ones. -/
theorem C150_copy_partial {t : CType} {o c : Obj δ} {d : δ} (h : copyTable t o d = some c)
    (hl : (shown t o).shape.length = t.shape.length) :
    shown t c = { shown t o with data := d } ↔ AllConstant t ∨ (shown t o).strides = laterProducts (shown t o).shape := by
  obtain ⟨h1, h2, h3, h4, h5⟩ := copy_shown h hl
  have key : shown t c = { shown t o with data := d } ↔ (shown t c).strides = (shown t o).strides := by
    rw [Appearance.mk.injEq]
    constructor
    · exact fun hh => hh.2.2.2
    · exact fun hh => ⟨h1.trans h2.symm, h3, h4, hh⟩
  rw [key]
  rcases h5 with ⟨hc, hs⟩ | ⟨hc, hs⟩
  · exact ⟨fun _ => .inl hc, fun _ => hs⟩
  · rw [hs]
    exact ⟨fun e => .inr e.symm, fun e => (e.resolve_left hc).symm⟩

example : ∃ c : Obj Nat, copyTable ⟨[.joker, .joker, .joker], none, false⟩ ⟨"", 1, [2, 3, 4], [12, 4, 1]⟩ 7 = some c ∧
    shown ⟨[.joker, .joker, .joker], none, false⟩ c = ⟨"", 7, [2, 3, 4], [12, 4, 1]⟩ := ⟨_, rfl, rfl⟩

/-- `x = other` of tables of one type compiles exactly if they can be copied and exchanged. -/
theorem C150_assign_exact_partial (t : CType) (x o : Obj δ) (d : δ) :
    (∃ r, assignTable t x o d = some r) ↔ Copyable t ∧ Exchangeable t := by
  unfold assignTable
  constructor
  · rintro ⟨r, hr⟩
    rcases hc : copyTable t o d with _ | c
    · rw [hc] at hr; cases hr
    · rw [hc] at hr
      rcases hs : swapObjs t x c with _ | p
      · simp only [bind, Option.bind, hs] at hr; cases hr
      · exact ⟨(C150_copy_exact_partial t o d).1 ⟨c, hc⟩, (C150_swap_exact_partial t x c).1 ⟨p, hs⟩⟩
  · rintro ⟨h1, h2⟩
    obtain ⟨c, hc⟩ := (C150_copy_exact_partial t o d).2 h1
    obtain ⟨p, hp⟩ := (C150_swap_exact_partial t x c).2 h2
    exact ⟨p.1, by rw [hc]; simp only [bind, Option.bind, hp, pure]⟩

/-- After `x = other`, `x` shows what `other` shows, exactly under the same condition as for copies. -/
theorem C150_assign_partial {t : CType} {x o r : Obj δ} {d : δ} (h : assignTable t x o d = some r)
    (hl : (shown t o).shape.length = t.shape.length) :
    shown t r = { shown t o with data := d } ↔ AllConstant t ∨ (shown t o).strides = laterProducts (shown t o).shape := by
  unfold assignTable at h
  rcases hc : copyTable t o d with _ | c
  · rw [hc] at h; cases h
  · rw [hc] at h
    rcases hs : swapObjs t x c with _ | p
    · simp only [bind, Option.bind, hs] at h; cases h
    · simp only [bind, Option.bind, hs, pure] at h
      cases h
      rw [(C150_swap_partial (a' := p.1) (b' := p.2) hs).1.1]
      exact C150_copy_partial hc hl

example : (assignTable (δ := Nat) ⟨[.joker, .joker], none, false⟩ ⟨"", 1, [2, 3], []⟩ ⟨"", 2, [5, 7], []⟩ 9).map
    (shown ⟨[.joker, .joker], none, false⟩) = some ⟨"", 9, [5, 7], [7, 1]⟩ := by decide

/-- A container of type `t` can be made of one of type `u` with the same type of elements exactly if the concept of the
constructor accepts the shape, and there is no label, and the axes and strides suit. -/
theorem C150_from_exact_partial (t u : CType) (o : Obj δ) (d : δ) (ht : ProperNames t.shape) (hu : ProperNames u.shape) :
    (∃ c, ofContainer t u o d = some c) ↔ AcceptedFor t.shape u.shape ∧ MadeOf t u := by
  unfold ofContainer MadeOf
  by_cases hsim : AcceptedFor t.shape u.shape
  · rw [if_pos ((similar_iff _ _).2 hsim)]
    have hsf := shapeFrom_iff ht hu hsim
    have hargs : t.strideArgs = t.strides.getD (rowMajorType t.shape) := by
      unfold CType.strideArgs; rw [asStrideArgs_eq]
    unfold ofSettings
    rw [hargs, asStrideArgs_eq]
    cases hb : t.label
    · simp only [Bool.false_eq_true, if_false, hsim, true_and]
      rcases accessor_cases t with ⟨h, e⟩ | ⟨h, l, s, e⟩ | ⟨h, l, s, e⟩ | ⟨h, l, s, e⟩ | ⟨h, l, s, e⟩ | ⟨h, hl, e⟩ <;> rw [e] <;>
        simp only
      · exact ⟨fun _ => .inl h, fun _ => ⟨_, rfl⟩⟩
      · have hnc : ¬ AllConstant t := fun hc => h hc.1
        rw [← hsf]
        by_cases hx : shapeFrom t.shape u.shape = true
        · simp [hx, s, l]
        · simp [hx, hnc]
      · have hnc : ¬ AllConstant t := fun hc => h hc.1
        rw [← hsf]
        by_cases hx : shapeFrom t.shape u.shape = true <;>
          by_cases hy : t.strides.getD (rowMajorType t.shape) = rowMajorType u.shape <;> simp [hx, hy, s, hnc]
      · have hnc : ¬ AllConstant t := fun hc => h hc.1
        rw [← hsf]
        by_cases hx : shapeFrom t.shape u.shape = true
        · simp [hx, s, l]
        · simp [hx, hnc]
      · have hnc : ¬ AllConstant t := fun hc => h hc.1
        rw [← hsf]
        by_cases hx : shapeFrom t.shape u.shape = true <;>
          by_cases hy : t.strides.getD (rowMajorType t.shape) = rowMajorType u.shape <;> simp [hx, hy, s, hnc]
      · have hno : ¬ (t.strides = none ∧ t.shape.length ≤ 2) := by
          rintro ⟨h1, h2⟩
          rcases hl with hl | hl
          · exact h ⟨hl, fun l hl => by rw [h1] at hl; cases hl⟩
          · omega
        rw [← hsf]
        by_cases hx : shapeFrom t.shape u.shape = true <;>
          by_cases hy : t.strides.getD (rowMajorType t.shape) = rowMajorType u.shape <;> simp [hx, hy, hno, h]
    · simp
  · rw [if_neg (fun hx => hsim ((similar_iff _ _).1 hx))]
    simp [hsim]

example : AcceptedFor [.joker, .joker] [.int 2, .joker] ∧ MadeOf ⟨[.joker, .joker], none, false⟩ ⟨[.int 2, .joker], none, true⟩ :=
  ⟨.cons (by intro x hx; cases hx) (.cons (by intro x hx; cases hx) .nil), rfl, .inr ⟨rfl, .inl ⟨rfl, by decide⟩⟩⟩

/-- A container made of another one shows no label, the elements it was given, the shape of the other one, and row-major strides, or
the given ones if all is constant.  Missing: the label, the strides; values that the types of the extents do not represent. -/
theorem C150_from_partial {t u : CType} {o c : Obj δ} {d : δ} (h : ofContainer t u o d = some c) (ho : ShowsConstants u o) :
    (shown t c).label = "" ∧ (shown t c).data = d ∧ (shown t c).shape = (shown u o).shape ∧
      madeStrides t (shown u o).shape (shown t c).strides := by
  unfold ofContainer at h
  split at h
  · next hs =>
    have ha := (similar_iff _ _).1 hs
    have hlu : (shown u o).shape.length = u.shape.length := ho.length_eq.symm
    obtain ⟨-, h1, h2, h3, h4⟩ := made_shown h (hlu.trans ha.length_eq.symm)
    have hsh : (shown t c).shape = (shown u o).shape := by
      rw [h3]
      split
      · next hst =>
        have hc := ((static_iff t).1 hst).1
        have e1 := constants_extents hc
        refine List.map_injective_iff.2 (Option.some_injective _) ?_
        rw [← e1]
        unfold ShowsConstants at ho
        unfold AcceptedFor at ha
        clear h h1 h2 h3 h4 hs hlu hst e1
        generalize (shown u o).shape = xs at ho
        generalize t.shape = es at ha hc
        generalize u.shape = fs at ha ho
        induction ha generalizing xs with
        | nil => cases ho; rfl
        | cons hef _ ih =>
          cases ho with
          | cons hfx hr =>
            rename_i e f es fs _ x xs
            have he := hc e List.mem_cons_self
            rw [List.map_cons, List.map_cons, ih xs (fun y hy => hc y (List.mem_cons_of_mem _ hy)) hr]
            congr 1
            rcases hw : writtenSize e with _ | v
            · exfalso
              cases e with
              | axis id c => rcases c with _ | _ | _ <;> first | exact he.elim | simp [writtenSize] at hw
              | _ => first | exact he.elim | simp [writtenSize] at hw
            · rw [hfx v (hef v hw)]
      · rfl
    exact ⟨h1, h2, hsh, hsh ▸ h4⟩
  · cases h

example : ShowsConstants (δ := Nat) ⟨[.int 2, .joker], none, true⟩ ⟨"l", 0, [2, 5], []⟩ :=
  .cons (by intro v h; cases h; rfl) (.cons (by intro v h; cases h) .nil)

/-- `table{view}` and `view{table}` compile for containers of all types; the result shows no label, the elements it was given, the shape of
the other container, and row-major strides. -/
theorem C150_deduced_partial (u : CType) (o : Obj δ) (d : δ) (ho : ShowsConstants u o) :
    ∃ c, deduced u o d = some c ∧
      shown u.archetype c = ⟨"", d, (shown u o).shape, laterProducts (shown u o).shape⟩ := by
  have hacc : AcceptedFor u.shape u.shape := by
    unfold AcceptedFor
    exact List.forall₂_same.2 fun e _ x hx => hx
  have hc : ∃ c, deduced u o d = some c := by
    unfold deduced ofContainer
    rw [if_pos ((similar_iff u.archetype.shape u.shape).2 hacc)]
    have hsf : shapeFrom u.archetype.shape u.shape = true := by simp [shapeFrom, CType.archetype]
    have hst : u.archetype.strideArgs = asStrideArgs u.shape := rfl
    unfold ofSettings
    rw [hsf, hst]
    simp only [CType.archetype, Bool.false_eq_true, if_false, if_true, decide_true, Bool.and_self]
    split <;> exact ⟨_, rfl⟩
  obtain ⟨c, hc⟩ := hc
  obtain ⟨h1, h2, h3, h4⟩ := C150_from_partial (t := u.archetype) hc ho
  refine ⟨c, hc, ?_⟩
  have h5 := h4.2 (.inr rfl)
  cases hsh : shown u.archetype c
  rw [hsh] at h1 h2 h3 h5
  simp only at h1 h2 h3 h5
  rw [h1, h2, h3, h5]

example : (deduced (δ := Nat) ⟨[.joker, .int 3, .joker], some [.joker, .int 1, .joker], true⟩ ⟨"l", 1, [2, 3, 4], [3, 1, 6]⟩ 9).map
    (shown ⟨[.joker, .int 3, .joker], none, false⟩) = some ⟨"", 9, [2, 3, 4], [12, 4, 1]⟩ := by decide

/-- `x = other` of containers of different types compiles exactly if such a container can be made and exchanged. -/
theorem C150_assign_from_exact_partial (t u : CType) (x o : Obj δ) (d : δ) (ht : ProperNames t.shape) (hu : ProperNames u.shape) :
    (∃ r, assignContainer t u x o d = some r) ↔ AcceptedFor t.shape u.shape ∧ MadeOf t u ∧ Exchangeable t := by
  unfold assignContainer
  have hm := C150_from_exact_partial t u o d ht hu
  rw [← and_assoc, ← hm]
  constructor
  · rintro ⟨r, hr⟩
    rcases hc : ofContainer t u o d with _ | c
    · rw [hc] at hr; cases hr
    · rw [hc] at hr
      rcases hs : swapObjs t x c with _ | p
      · simp only [bind, Option.bind, hs] at hr; cases hr
      · exact ⟨⟨c, rfl⟩, (C150_swap_exact_partial t x c).1 ⟨p, hs⟩⟩
  · rintro ⟨⟨c, hc⟩, h2⟩
    obtain ⟨p, hp⟩ := (C150_swap_exact_partial t x c).2 h2
    exact ⟨p.1, by rw [hc]; simp only [bind, Option.bind, hp, pure]⟩

example : (assignContainer (δ := Nat) ⟨[.joker, .joker], none, false⟩ ⟨[.int 2, .int 3], none, true⟩ ⟨"", 1, [5, 7], []⟩
    ⟨"l", 2, [], []⟩ 9).map (shown ⟨[.joker, .joker], none, false⟩) = some ⟨"", 9, [2, 3], [3, 1]⟩ := by decide

/-- After `x = other`, `x` shows what a container made of `other` shows. -/
theorem C150_assign_from_partial {t u : CType} {x o r : Obj δ} {d : δ} (h : assignContainer t u x o d = some r)
    (ho : ShowsConstants u o) :
    (shown t r).label = "" ∧ (shown t r).data = d ∧ (shown t r).shape = (shown u o).shape ∧
      madeStrides t (shown u o).shape (shown t r).strides := by
  unfold assignContainer at h
  rcases hc : ofContainer t u o d with _ | c
  · rw [hc] at h; cases h
  · rw [hc] at h
    rcases hs : swapObjs t x c with _ | p
    · simp only [bind, Option.bind, hs] at h; cases h
    · simp only [bind, Option.bind, hs, pure] at h
      cases h
      rw [(C150_swap_partial (a' := p.1) (b' := p.2) hs).1.1]
      exact C150_from_partial hc ho

example : (assignContainer (δ := Nat) ⟨[.joker, .joker, .joker], none, false⟩ ⟨[.joker, .joker, .joker], some [.int 1, .int 2, .int 3], true⟩
    ⟨"", 1, [5, 7, 2], [14, 2, 1]⟩ ⟨"l", 2, [2, 3, 4], [1, 2, 3]⟩ 9).map (shown ⟨[.joker, .joker, .joker], none, false⟩) =
    some ⟨"", 9, [2, 3, 4], [12, 4, 1]⟩ := by decide

/-- The full claim for one type of tables: they can be copied, assigned and exchanged. -/
def C150Claim (t : CType) : Prop :=
  ∀ x y : Obj Nat, (∃ r, swapObjs t x y = some r) ∧ (∃ r, copyTable t x 0 = some r) ∧ ∃ r, assignTable t x y 0 = some r

/-- **C150** (negation) Tables with one run-time extent cannot be exchanged or assigned. -/
theorem C150_false : ¬ ∀ t, C150Claim t := by
  intro h
  obtain ⟨-, -, r, hr⟩ := h ⟨[.joker], none, false⟩ ⟨"", 0, [3], []⟩ ⟨"", 0, [3], []⟩
  cases hr

/-- Tables with a label cannot be copied. -/
theorem C150_label_false : ∀ shape strides, ¬ C150Claim ⟨shape, strides, true⟩ := by
  intro shape strides h
  obtain ⟨-, hc, -⟩ := h ⟨"", 0, [], []⟩ ⟨"", 0, [], []⟩
  have := (C150_copy_exact_partial _ _ _).1 hc
  exact absurd this.1 (by simp)

/-- Tables of three run-time extents with given run-time strides cannot be copied; and one cannot be made of a table of three
constant extents, although the constructor accepts it. -/
theorem C150_strides_false :
    ¬ C150Claim ⟨[.joker, .joker, .joker], some [.joker, .joker, .int 1], false⟩ ∧
      (AcceptedFor [.joker, .joker, .joker] [.int 2, .int 3, .int 4] ∧
        ∀ o : Obj Nat, ofContainer ⟨[.joker, .joker, .joker], none, false⟩ ⟨[.int 2, .int 3, .int 4], none, false⟩ o 0 = none) := by
  refine ⟨fun h => ?_, ?_, fun o => rfl⟩
  · obtain ⟨-, ⟨c, hc⟩, -⟩ := h ⟨"", 0, [2, 3, 4], [12, 4, 1]⟩ ⟨"", 0, [2, 3, 4], [12, 4, 1]⟩
    cases hc
  · exact .cons (by intro x hx; cases hx) (.cons (by intro x hx; cases hx) (.cons (by intro x hx; cases hx) .nil))

end Kwk
