import Verif.Spec.UserExtents
import Verif.Lemmas.Build

/-! # Lemmas: extents of the user's own types -/

namespace Kwk
open Spec

theorem mapM_forall₂ {α β : Type} {f : α → Option β} {l : List α} {r : List β} :
    l.mapM f = some r ↔ List.Forall₂ (fun x y => f x = some y) l r := by
  induction l generalizing r with
  | nil =>
    simp only [List.mapM_nil, List.forall₂_nil_left_iff]
    exact ⟨fun h => (Option.some.inj h).symm, fun h => h ▸ rfl⟩
  | cons x l ih =>
    rw [List.mapM_cons]
    constructor
    · intro h
      rcases hx : f x with _ | y
      · rw [hx] at h; cases h
      rcases hl : l.mapM f with _ | ys
      · rw [hx, hl] at h; cases h
      rw [hx, hl] at h
      cases h
      exact .cons hx (ih.1 hl)
    · intro h
      cases h with
      | cons h1 h2 => rw [h1, ih.2 h2]; rfl

theorem mapM_none_iff {α β : Type} {f : α → Option β} {l : List α} : l.mapM f = none ↔ ∃ x ∈ l, f x = none := by
  induction l with
  | nil => simp [List.mapM_nil]
  | cons x l ih =>
    rw [List.mapM_cons]
    rcases hx : f x with _ | y
    · simp [hx]
    · rcases hl : l.mapM f with _ | ys
      · simp only [Option.bind_eq_bind, Option.bind_some, Option.bind_none, true_iff]
        obtain ⟨z, hz, e⟩ := ih.1 hl
        exact ⟨z, by simp [hz], e⟩
      · simp only [Option.bind_eq_bind, Option.bind_some]
        refine iff_of_false (fun h => by cases h) ?_
        rintro ⟨z, hz, e⟩
        rcases List.mem_cons.1 hz with rfl | hz
        · rw [hx] at e; cases e
        · rw [ih.2 ⟨z, hz, e⟩] at hl; cases hl

/-- The order of the axes only looks at the names. -/
theorem isOrdered_congr (d : Desc) {vs ws : List MixedArg} (h : vs.map givenName = ws.map givenName) :
    isOrdered d vs = isOrdered d ws := by
  have hl : vs.length = ws.length := by simpa using congrArg List.length h
  have hn : (normalizeArgs d.length vs).map (·.1) = (normalizeArgs d.length ws).map (·.1) := by
    apply List.ext_getElem (by simp [normalizeArgs, hl])
    intro i h1 h2
    have hi : i < vs.length := by simpa [normalizeArgs] using h1
    have hi' : i < ws.length := by omega
    have e : givenName vs[i] = givenName ws[i] := by
      have := congrArg (·[i]?) h
      simpa [hi, hi'] using this
    simp only [normalizeArgs, List.getElem_map, List.getElem_zipIdx, Nat.zero_add]
    cases hv : vs[i] <;> cases hw : ws[i] <;> simp_all [givenName, normalizeAxis]
  unfold isOrdered
  rw [hl, hn]

theorem sameAs_extent {a : UserArg} {b : BuildArg} (h : SameAs a b) : a.isExtent = true := by
  cases a with
  | lib _ => rfl
  | own u => cases b <;> first | exact h.elim | (obtain ⟨⟨h, _⟩, _⟩ := h; simp [UserArg.isExtent, h])
  | ownNamed _ _ => rfl

theorem sameAs_named {a : UserArg} {b : BuildArg} (h : SameAs a b) : a.isNamed = b.isNamed := by
  cases a with
  | lib _ => cases h; rfl
  | own u => cases b <;> first | rfl | exact h.elim
  | ownNamed _ _ => cases b <;> first | rfl | exact h.elim

theorem sameAs_given {a : UserArg} {b : BuildArg} (h : SameAs a b) : givenName a.named? = givenName b.mixed := by
  cases a with
  | lib _ => cases h; rfl
  | own u => cases b <;> first | rfl | exact h.elim
  | ownNamed _ _ =>
    cases b with
    | named a v => cases v <;> first | exact h.elim | (cases h.1; rfl)
    | _ => exact h.elim

theorem sameAs_seen {a : UserArg} {b : BuildArg} (h : SameAs a b) (md : Mode) (dflt : Int) (n : Nat) :
    a.seen md dflt (normalizeExtent n (toDescriptor b)).content = some b.arg := by
  cases a with
  | lib _ => cases h; rfl
  | ownNamed _ u =>
    cases b with
    | named a v =>
      cases v with
      | const v =>
        obtain ⟨rfl, _, hs⟩ := h
        simp [UserArg.seen, toDescriptor, NamedValue.descriptor, normalizeExtent, UserExtent.seen, hs, BuildArg.arg, NamedValue.arg]
      | _ => exact h.elim
    | _ => exact h.elim
  | own u =>
    cases b with
    | int t v =>
      obtain ⟨⟨_, f, hf, hv⟩, _⟩ := h
      simp [UserArg.seen, toDescriptor, normalizeExtent, UserExtent.seen, UserExtent.asDimension, hf, hv, BuildArg.arg]
    | const v =>
      obtain ⟨⟨hs, _⟩, _⟩ := h
      simp [UserArg.seen, toDescriptor, normalizeExtent, UserExtent.seen, hs, BuildArg.arg]
    | _ => exact h.elim

theorem sameAs_descriptor {a : UserArg} {b : BuildArg} (h : SameAs a b) :
    ∃ e, a.toDescriptor = some e ∧ ∀ n, normalizeExtent n e = normalizeExtent n (toDescriptor b) := by
  cases a with
  | lib _ => cases h; exact ⟨_, rfl, fun _ => rfl⟩
  | ownNamed _ u =>
    cases b with
    | named a v =>
      cases v with
      | const v =>
        obtain ⟨rfl, hc, _⟩ := h
        exact ⟨_, by simp only [UserArg.toDescriptor, hc]; rfl, fun _ => rfl⟩
      | _ => exact h.elim
    | _ => exact h.elim
  | own u =>
    cases b with
    | int t v =>
      rcases h.2 with e | ⟨rfl, e⟩
      · exact ⟨.type t, by simp [UserArg.toDescriptor, UserExtent.toDescriptor, e], fun _ => rfl⟩
      · exact ⟨.joker, by simp [UserArg.toDescriptor, UserExtent.toDescriptor, e], fun _ => rfl⟩
    | const v => exact ⟨.int v, by simp [UserArg.toDescriptor, UserExtent.toDescriptor, h.2], fun _ => rfl⟩
    | _ => exact h.elim

theorem sameAs_descriptors {args : List UserArg} {bs : List BuildArg} (h : List.Forall₂ SameAs args bs) :
    ∃ es, args.mapM UserArg.toDescriptor = some es ∧ normalizeExtents es = normalizeExtents (bs.map toDescriptor) := by
  have : ∃ es, args.mapM UserArg.toDescriptor = some es ∧
      List.Forall₂ (fun e b => ∀ n, normalizeExtent n e = normalizeExtent n (toDescriptor b)) es bs := by
    induction h with
    | nil => exact ⟨[], rfl, .nil⟩
    | cons h _ ih =>
      obtain ⟨es, h1, h2⟩ := ih
      obtain ⟨e, h3, h4⟩ := sameAs_descriptor h
      exact ⟨e :: es, by rw [List.mapM_cons, h3, h1]; rfl, .cons h4 h2⟩
  obtain ⟨es, h1, h2⟩ := this
  refine ⟨es, h1, ?_⟩
  have hl := h2.length_eq
  apply List.ext_getElem (by simp [normalizeExtents_length, hl])
  intro i hi hi'
  have i1 : i < es.length := by simpa [normalizeExtents_length] using hi
  rw [normalizeExtents_getElem _ i i1, normalizeExtents_getElem _ i (by simpa [hl] using i1), List.getElem_map]
  have := (List.forall₂_iff_get.1 h2).2 i i1 (by omega) (es.length - 1 - i)
  simpa [hl] using this

theorem sameAs_all {args : List UserArg} {bs : List BuildArg} (h : List.Forall₂ SameAs args bs) :
    args.all UserArg.isExtent = true ∧ (args.all fun b => !b.isNamed) = (bs.all fun b => !b.isNamed) ∧
      args.all UserArg.isNamed = bs.all BuildArg.isNamed ∧
      (args.map UserArg.named?).map givenName = (bs.map (·.mixed)).map givenName := by
  induction h with
  | nil => exact ⟨rfl, rfl, rfl, rfl⟩
  | cons h _ ih =>
    obtain ⟨h1, h2, h3, h4⟩ := ih
    simp only [List.all_cons, List.map_cons, sameAs_extent h, sameAs_named h, sameAs_given h, h1, h2, h3, h4, Bool.and_self]
    exact ⟨trivial, trivial, trivial, trivial⟩

theorem forall₂_zip {α β γ : Type} {l : List α} {m : List β} {r : List γ} {f : α → β → Option γ}
    (hl : l.length = m.length) (hr : r.length = m.length)
    (h : ∀ (i : Nat) (h1 : i < l.length) (h2 : i < m.length) (h3 : i < r.length), f l[i] m[i] = some r[i]) :
    List.Forall₂ (fun x y => f x.1 x.2 = some y) (l.zip m) r := by
  rw [List.forall₂_iff_get]
  refine ⟨by simp [hl, hr], ?_⟩
  intro i h1 h2
  simp only [List.get_eq_getElem, List.getElem_zip]
  exact h i (by simp at h1; omega) (by simp at h1; omega) h2

theorem sameAs_option {a : UserArg} {b : BuildArg} (h : SameAs a b) (hb : b.isNamed = true) (md : Mode) (dflt : Int) {d : Desc}
    (h0 : dynamicSize d ≠ 0) {i n : Nat} (hi : d[i]? = some (normalizeExtent n (toDescriptor b)))
    (hd : (d.map (·.id)).Nodup ∨ ∀ x u, a ≠ .ownNamed x u) : a.option md dflt d = b.option := by
  cases a with
  | lib _ => cases h; rfl
  | own u => cases b <;> first | exact h.elim | cases hb
  | ownNamed x u =>
    rcases hd with hd | hd
    swap
    · exact absurd rfl (hd x u)
    have hs := sameAs_seen h md dflt n
    cases b with
    | named y v =>
      cases v with
      | const v =>
        obtain ⟨rfl, _, _⟩ := h
        have hf : d[findAxis d x]? = some (normalizeExtent n (toDescriptor (.named x (.const v)))) := by
          have := findAxis_eq hd hi
          rw [normalizeExtent_id] at this
          simp only [toDescriptor, writtenName, Option.getD_some] at this
          rw [this, hi]
        simp only [UserArg.option, h0, if_false, hf]
        rw [UserArg.seen] at hs
        rw [hs]
        rfl
      | _ => exact h.elim
    | _ => exact h.elim

theorem ofNamed_fixed (md : Mode) {d : Desc} (dflt : Int) (vs : List (AxisId × Arg)) (h : dynamicSize d = 0) :
    Prefilled.ofNamed md d dflt vs = .ok (.default d) := by
  rw [Prefilled.ofNamed, Prefilled.constructNamed, if_pos (by exact h)]; rfl

/-- Named arguments for a type without stored axes are not looked at. -/
theorem option_fixed {args : List UserArg} (hn : args.all UserArg.isNamed = true) (md : Mode) (dflt : Int) {d : Desc}
    (h0 : dynamicSize d = 0) : ∃ vs, args.mapM (UserArg.option md dflt d) = some vs := by
  rcases hm : args.mapM (UserArg.option md dflt d) with _ | vs
  · obtain ⟨a, ha, e⟩ := mapM_none_iff.1 hm
    have := List.all_eq_true.1 hn a ha
    cases a with
    | lib b => cases b <;> first | (cases this; done) | simp [UserArg.option, BuildArg.option] at e
    | own _ => cases this
    | ownNamed _ _ => simp [UserArg.option, h0] at e
  · exact ⟨vs, rfl⟩

theorem ofMixed_fixed (md : Mode) {d : Desc} (dflt : Int) (vs : List MixedArg) (h : dynamicSize d = 0) :
    Prefilled.ofMixed md d dflt vs = .ok (.default d) := by
  rw [Prefilled.ofMixed, Prefilled.constructNamed, if_pos (by exact h)]; rfl

theorem construct_same {args : List UserArg} {bs : List BuildArg} (h : List.Forall₂ SameAs args bs) (md : Mode) (dflt : Int)
    (hnd : ((normalizeExtents (bs.map toDescriptor)).map (·.id)).Nodup ∨ ∀ x u, .ownNamed x u ∉ args) :
    (if accepted (normalizeExtents (bs.map toDescriptor)) args then
      constructUser md (normalizeExtents (bs.map toDescriptor)) dflt args else none) = buildPrefilled md dflt bs := by
  obtain ⟨h1, h2, h3, h4⟩ := sameAs_all h
  have hl := h.length_eq
  have hd : (normalizeExtents (bs.map toDescriptor)).length = args.length := by simp [normalizeExtents_length, hl]
  have hg := List.forall₂_iff_get.1 h
  have hseen : ∀ (i : Nat) (i1 : i < (normalizeExtents (bs.map toDescriptor)).length) (i2 : i < args.length)
      (i3 : i < bs.length), args[i].seen md dflt (normalizeExtents (bs.map toDescriptor))[i].content = some bs[i].arg := by
    intro i i1 i2 i3
    rw [normalizeExtents_getElem _ i (by simpa using i3), List.getElem_map]
    exact sameAs_seen (hg.2 i i2 i3) md dflt _
  unfold accepted buildPrefilled
  simp only [h1, h2, h3, isOrdered_congr _ h4, hd, le_refl, decide_true, Bool.true_and]
  unfold constructUser
  simp only [h2, h3]
  by_cases c1 : (bs.all fun b => !b.isNamed) = true
  · simp only [c1, Bool.true_or, if_true]
    rw [hd, Nat.sub_self, List.drop_zero, mapM_forall₂.2 (forall₂_zip (r := bs.map (·.arg))
      (f := fun x y => UserArg.seen md dflt x.content y) hd (by simp [hl]) fun i i1 i2 i3 => by
        rw [List.getElem_map]; exact hseen i i1 i2 (by simpa using i3))]
    rfl
  · simp only [c1, Bool.false_or, if_false, Bool.false_eq_true]
    by_cases c2 : bs.all BuildArg.isNamed = true
    · simp only [c2, Bool.true_or, if_true]
      by_cases h0 : dynamicSize (normalizeExtents (bs.map toDescriptor)) = 0
      · obtain ⟨vs, e⟩ := option_fixed (h3.trans c2) md dflt h0
        rw [e, Option.map_some, ofNamed_fixed md dflt _ h0, ofNamed_fixed md dflt _ h0]
      have : args.mapM (UserArg.option md dflt (normalizeExtents (bs.map toDescriptor))) = some (bs.filterMap (·.option)) := by
        have hb : bs.filterMap (·.option) = bs.map fun b => b.option.getD (.implicit 0, .joker) := by
          clear * - c2
          induction bs with
          | nil => rfl
          | cons b bs ih =>
            rw [List.all_cons, Bool.and_eq_true] at c2
            have e : ∃ x, b.option = some x := by
              cases b <;> first | exact ⟨_, rfl⟩ | cases c2.1
            obtain ⟨x, e⟩ := e
            rw [List.filterMap_cons, e, List.map_cons, e, ih c2.2]
            rfl
        rw [hb, mapM_forall₂, List.forall₂_iff_get]
        refine ⟨by simp [hl], fun i i1 i2 => ?_⟩
        have i3 : i < bs.length := by omega
        have hn : bs[i].isNamed = true := List.all_eq_true.1 c2 _ (List.getElem_mem _)
        simp only [List.get_eq_getElem, List.getElem_map]
        rw [sameAs_option (i := i) (n := bs.length - 1 - i) (a := args[i]) (b := bs[i]) (hg.2 i i1 i3) hn md dflt h0 (by
          rw [List.getElem?_eq_getElem (by omega), normalizeExtents_getElem _ i (by simpa using i3)]
          simp) (hnd.imp_right fun h x u e => h x u (e ▸ List.getElem_mem _))]
        cases hb : bs[i] <;> rw [hb] at hn <;> first | rfl | cases hn
      rw [this]
      rfl
    · simp only [c2, Bool.false_or, if_false, Bool.false_eq_true]
      split
      · by_cases h0 : dynamicSize (normalizeExtents (bs.map toDescriptor)) = 0
        · have : ∃ vs, (((normalizeExtents (bs.map toDescriptor)).zip args).mapM fun (ab : Axis × UserArg) =>
              ab.2.mixed md dflt (normalizeExtents (bs.map toDescriptor)) ab.1.content) = some vs := by
            rcases hm : (((normalizeExtents (bs.map toDescriptor)).zip args).mapM fun (ab : Axis × UserArg) =>
              ab.2.mixed md dflt (normalizeExtents (bs.map toDescriptor)) ab.1.content) with _ | vs
            · obtain ⟨⟨x, a⟩, _, e⟩ := mapM_none_iff.1 hm
              cases a <;> simp [UserArg.mixed, h0] at e
            · exact ⟨vs, rfl⟩
          obtain ⟨vs, e⟩ := this
          rw [e, Option.map_some, ofMixed_fixed md dflt _ h0, ofMixed_fixed md dflt _ h0]
        · rw [mapM_forall₂.2 (forall₂_zip (r := bs.map (·.mixed))
            (f := fun x y => UserArg.mixed md dflt (normalizeExtents (bs.map toDescriptor)) x.content y) hd (by simp [hl])
            fun i i1 i2 i3 => ?_)]
          · rfl
          · have i3 : i < bs.length := by simpa using i3
            have hs := hseen i i1 i2 i3
            have hsame := hg.2 i i2 i3
            simp only [List.get_eq_getElem] at hsame
            rw [List.getElem_map]
            cases ha : args[i] with
            | lib b => rw [ha] at hsame; cases hsame; rfl
            | ownNamed x u =>
              rw [ha] at hsame hs
              simp only [UserArg.mixed, h0, if_false]
              rw [UserArg.seen] at hs
              rw [hs]
              cases hb : bs[i] with
              | named y v =>
                rw [hb] at hsame
                cases v <;> first | exact hsame.elim | (cases hsame.1; rfl)
              | _ => rw [hb] at hsame; exact hsame.elim
            | own u =>
              rw [ha] at hsame hs
              simp only [UserArg.mixed, h0, if_false]
              rw [UserArg.seen] at hs
              rw [hs]
              cases hb : bs[i] <;> rw [hb] at hsame <;> first | rfl | exact hsame.elim
      · rfl

theorem ofSize_same {args : List UserArg} {bs : List BuildArg} (h : List.Forall₂ SameAs args bs) (md : Mode) :
    ofSizeUser md args = ofSize md bs ∧ (ProperArgs bs ∨ (∀ x u, .ownNamed x u ∉ args) → withStridesUser md args = withStrides md bs) := by
  obtain ⟨es, h1, h2⟩ := sameAs_descriptors h
  constructor
  · rw [ofSizeUser, h1, ofSize]
    simp only [buildUser, h2]
    split
    · rfl
    · next hdup =>
      rw [construct_same h md 0 (.inl ?_)]
      rw [duplicateAxis, Bool.not_eq_true, Bool.not_eq_false', allUnique_iff] at hdup
      exact hdup
  · intro hp
    rw [withStridesUser, h1, withStrides]
    simp only [buildUser, h2]
    exact construct_same h md 1 (hp.imp_left fun h => normalizeExtents_nodup (properNames_args h))

/-- What the constructor sees of plain arguments that give the values `vs`. -/
theorem seen_values (md : Mode) (dflt : Int) {d : Desc} {args : List UserArg} {vs : List Arg} (h : List.Forall₂ GivesValue args vs)
    (hd : d.length = args.length) :
    ∃ ws, ((d.zip args).mapM fun (ab : Axis × UserArg) => ab.2.seen md dflt ab.1.content) = some ws ∧ ws.length = d.length ∧
      ∀ (i : Nat) (a : Axis) (v : Arg), d[i]? = some a → vs[i]? = some v → ∃ w, ws[i]? = some w ∧ (Consistent a v → w = v) ∧
        ((∃ t, a.content = .dynamic t) → w = v) := by
  induction h generalizing d with
  | nil =>
    cases d with
    | nil => exact ⟨[], rfl, rfl, fun i a v h => by simp at h⟩
    | cons _ _ => cases hd
  | @cons x v args vs h _ ih =>
    cases d with
    | nil => cases hd
    | cons a d =>
      obtain ⟨ws, h1, h2, h3⟩ := ih (d := d) (by simpa using hd)
      have : ∃ w, x.seen md dflt a.content = some w ∧ (Consistent a v → w = v) ∧ ((∃ t, a.content = .dynamic t) → w = v) := by
        cases x with
        | lib b => exact ⟨_, rfl, fun _ => h.2.symm, fun _ => h.2.symm⟩
        | ownNamed _ _ => exact h.elim
        | own u =>
          cases v with
          | joker => exact h.elim
          | val v =>
            obtain ⟨hs, f, hf, hv⟩ := h
            cases hc : a.content with
            | dynamic t =>
              refine ⟨.val v, ?_, fun _ => rfl, fun _ => rfl⟩
              simp [UserArg.seen, UserExtent.seen, UserExtent.asDimension, hf, hv]
            | static g =>
              refine ⟨.val (if (v - g) % 2 ^ 64 = 0 then g else v), by simp [UserArg.seen, UserExtent.seen, hs], fun hcon => ?_, fun ⟨t, ht⟩ => by cases ht⟩
              rw [hcon g v hc rfl]
              simp
      obtain ⟨w, hw, hw1, hw2⟩ := this
      refine ⟨w :: ws, by rw [List.zip_cons_cons, List.mapM_cons, hw, h1]; rfl, by simp [h2], ?_⟩
      intro i a' v' ha hv
      cases i with
      | zero =>
        simp only [List.getElem?_cons_zero, Option.some.injEq] at ha hv
        subst ha hv
        exact ⟨w, rfl, hw1, hw2⟩
      | succ i =>
        simp only [List.getElem?_cons_succ] at ha hv ⊢
        exact h3 i a' v' ha hv

theorem gives_plain {args : List UserArg} {vs : List Arg} (h : List.Forall₂ GivesValue args vs) :
    args.all UserArg.isExtent = true ∧ (args.all fun b => !b.isNamed) = true := by
  induction h with
  | nil => exact ⟨rfl, rfl⟩
  | @cons x v args vs h _ ih =>
    simp only [List.all_cons, ih.1, ih.2, Bool.and_true]
    cases x with
    | lib b =>
      refine ⟨rfl, ?_⟩
      cases b <;> first | rfl | exact (h.1 ⟨_, _, rfl⟩).elim
    | ownNamed _ _ => exact h.elim
    | own u =>
      cases v with
      | joker => exact h.elim
      | val v => exact ⟨by simp [UserArg.isExtent, h.size], rfl⟩

/-- A constructor given plain arguments. -/
theorem buildUser_plain (md : Mode) (dflt : Int) {es : List Extent} {args : List UserArg} {vs : List Arg}
    (h : List.Forall₂ GivesValue args vs) (hs : List.Forall₂ (CanHold dflt) es vs)
    (hc : md = .checked → List.Forall₂ NoConflict es vs) :
    ∃ s, buildUser md es dflt args = some (.ok s) ∧ s.desc = normalizeExtents es ∧
      s.values = List.zipWith (readBack dflt) es vs := by
  obtain ⟨g1, g2⟩ := gives_plain h
  have hl : es.length = vs.length := hs.length_eq
  have hl' : args.length = vs.length := h.length_eq
  have hd : (normalizeExtents es).length = args.length := by rw [normalizeExtents_length]; omega
  obtain ⟨ws, w1, w2, w3⟩ := seen_values md dflt h hd
  have hS := List.forall₂_iff_get.1 (forall₂_normalize (storable_normalize dflt) hs)
  have wi : ∀ (i : Nat) (i1 : i < (normalizeExtents es).length) (i2 : i < vs.length) (i3 : i < ws.length),
      (Consistent (normalizeExtents es)[i] vs[i] → ws[i] = vs[i]) ∧
        ((∃ t, (normalizeExtents es)[i].content = .dynamic t) → ws[i] = vs[i]) := by
    intro i i1 i2 i3
    obtain ⟨w, e, e1, e2⟩ := w3 i _ _ (List.getElem?_eq_getElem i1) (List.getElem?_eq_getElem i2)
    rw [List.getElem?_eq_getElem i3, Option.some.injEq] at e
    exact ⟨e ▸ e1, e ▸ e2⟩
  have hvl : ws.length = vs.length := by omega
  obtain ⟨s, s1, s2, _, s3⟩ := fillAxes_values md (d := normalizeExtents es) (vs := ws) dflt w2
    (by
      rw [List.forall₂_iff_get]
      refine ⟨w2.symm, fun i i1 i2 => ?_⟩
      simp only [List.get_eq_getElem]
      intro t ht
      rw [(wi i i1 (by omega) i2).2 ⟨t, ht⟩]
      exact hS.2 i i1 (by omega) t ht)
    (fun hm => by
      have hC := List.forall₂_iff_get.1 (forall₂_normalize consistent_normalize (hc hm))
      rw [List.forall₂_iff_get]
      refine ⟨w2.symm, fun i i1 i2 => ?_⟩
      have := hC.2 i i1 (by omega)
      simp only [List.get_eq_getElem] at this ⊢
      rw [(wi i i1 (by omega) i2).1 this]
      exact this)
  refine ⟨s, ?_, s2, ?_⟩
  · rw [buildUser, if_pos (by simp [accepted, g1, g2, hd]), constructUser, if_pos g2, hd, Nat.sub_self, List.drop_zero, w1,
      Option.map_some, Prefilled.ofExtents, if_pos w2, construct_eq, s1]
  · rw [s3, ← zipWith_normalize dflt hl]
    apply List.ext_getElem (by simp [w2, hd, hl'])
    intro i i1 i2
    rw [List.getElem_zipWith, List.getElem_zipWith]
    simp only [List.length_zipWith] at i1 i2
    unfold extentOf
    cases hcon : ((normalizeExtents es)[i]'(by omega)).content with
    | static g => rfl
    | dynamic t => rw [(wi i (by omega) (by omega) (by omega)).2 ⟨t, hcon⟩]

/-- Duplicate names are detected, and nothing else. -/
theorem duplicateAxis_names {es : List Extent} (hp : ∀ a ∈ es.filterMap writtenName, ∀ n, a ≠ .implicit n) :
    duplicateAxis (normalizeExtents es) = true ↔ ¬ (es.filterMap writtenName).Nodup := by
  let f : Extent → BuildArg := fun e => match writtenName e with
    | some a => .axis a
    | none => .joker
  have hf : ∀ e, argName (f e) = writtenName e := by
    intro e
    rcases e with _ | _ | _ | _ <;> rfl
  have hfm : (es.map f).filterMap argName = es.filterMap writtenName := by
    rw [List.filterMap_map]; congr 1; funext e; exact hf e
  have hids : (normalizeExtents es).map (·.id) = (normalizeExtents ((es.map f).map toDescriptor)).map (·.id) := by
    apply List.ext_getElem (by simp [normalizeExtents_length])
    intro i h1 h2
    have hi : i < es.length := by simpa [normalizeExtents_length] using h1
    rw [List.getElem_map, List.getElem_map, normalizeExtents_getElem _ i hi, normalizeExtents_getElem _ i (by simpa using hi),
      normalizeExtent_id, normalizeExtent_id, List.getElem_map, writtenName_toDescriptor, List.getElem_map, hf]
    simp
  have := duplicateAxis_iff (args := es.map f) (by rw [hfm]; exact hp)
  rw [hfm] at this
  rw [← this, duplicateAxis, duplicateAxis, hids]

theorem all_own (us : List UserExtent) (h : ∀ u ∈ us, u.size.isSome = true) :
    (us.map UserArg.own).all UserArg.isExtent = true ∧ ((us.map UserArg.own).all fun b => !b.isNamed) = true := by
  constructor
  · rw [List.all_eq_true]
    intro x hx
    obtain ⟨u, hu, rfl⟩ := List.mem_map.1 hx
    exact h u hu
  · rw [List.all_eq_true]
    intro x hx
    obtain ⟨u, hu, rfl⟩ := List.mem_map.1 hx
    rfl

theorem seen_none_iff {md : Mode} {dflt : Int} {u : UserExtent} (hs : u.size.isSome = true) (c : Content) :
    u.seen md dflt c = none ↔ (∃ t, c = .dynamic t) ∧ u.dimension = none ∧ u.constant = none := by
  obtain ⟨n, hn⟩ := Option.isSome_iff_exists.1 hs
  cases c with
  | static g => simp [UserExtent.seen, hn]
  | dynamic t =>
    rcases hd : u.dimension with _ | f <;> rcases hc : u.constant with _ | v <;>
      simp [UserExtent.seen, UserExtent.asDimension, hd, hc]

/-- Plain arguments of the user's types: when the constructor does not compile. -/
theorem constructUser_none {md : Mode} {dflt : Int} {d : Desc} {us : List UserExtent} (hs : ∀ u ∈ us, u.size.isSome = true)
    (hl : us.length ≤ d.length) :
    constructUser md d dflt (us.map .own) = none ↔
      ∃ (i : Nat) (a : Axis) (u : UserExtent), (d.drop (d.length - us.length))[i]? = some a ∧ us[i]? = some u ∧
        (∃ t, a.content = .dynamic t) ∧ u.dimension = none ∧ u.constant = none := by
  rw [constructUser, if_pos (all_own us hs).2, Option.map_eq_none_iff, mapM_none_iff, List.length_map]
  constructor
  · rintro ⟨⟨a, x⟩, hx, e⟩
    obtain ⟨i, hi, he⟩ := List.mem_iff_getElem.1 hx
    rw [List.getElem_zip, Prod.mk.injEq] at he
    simp only [List.length_zip, List.length_map, List.length_drop] at hi
    obtain ⟨rfl, rfl⟩ := he
    rw [List.getElem_map] at e
    have hu : us[i]'(by omega) ∈ us := List.getElem_mem _
    obtain ⟨h1, h2, h3⟩ := (seen_none_iff (hs _ hu) _).1 e
    exact ⟨i, _, _, List.getElem?_eq_getElem (by rw [List.length_drop]; omega), List.getElem?_eq_getElem (by omega), h1, h2, h3⟩
  · rintro ⟨i, a, u, ha, hu, h1, h2, h3⟩
    obtain ⟨i1, rfl⟩ := List.getElem?_eq_some_iff.1 ha
    obtain ⟨i2, rfl⟩ := List.getElem?_eq_some_iff.1 hu
    refine ⟨((d.drop (d.length - us.length))[i], .own us[i]), ?_, ?_⟩
    · rw [List.mem_iff_getElem]
      refine ⟨i, by simp only [List.length_zip, List.length_map]; omega, ?_⟩
      rw [List.getElem_zip, List.getElem_map]
    · exact (seen_none_iff (hs _ (List.getElem_mem _)) _).2 ⟨h1, h2, h3⟩

/-! ## Names -/

theorem represents_seen {u : UserExtent} {v : Int} (h : Represents u v) (md : Mode) (dflt : Int) {a : Axis} (hc : Consistent a (.val v)) :
    u.seen md dflt a.content = some (.val v) := by
  obtain ⟨hs, f, hf, hv⟩ := h
  cases hx : a.content with
  | dynamic t => simp [UserExtent.seen, UserExtent.asDimension, hf, hv]
  | static g =>
    have := hc g v hx rfl
    simp [UserExtent.seen, hs, this]

/-- Which constructor is chosen for named arguments. -/
theorem buildUser_named {md : Mode} {es : List Extent} {dflt : Int} {args : List UserArg} (hne : args ≠ [])
    (hn : args.all UserArg.isNamed = true) :
    buildUser md es dflt args =
      if args.length ≤ es.length then (args.mapM (UserArg.option md dflt (normalizeExtents es))).map (Prefilled.ofNamed md (normalizeExtents es) dflt)
      else none := by
  have h1 : args.all UserArg.isExtent = true := by
    rw [List.all_eq_true] at hn ⊢
    intro a ha
    have := hn a ha
    cases a <;> first | rfl | cases this
  have h2 : ¬ (args.all fun b => !b.isNamed) = true := by
    obtain ⟨a, ha⟩ := List.exists_mem_of_ne_nil args hne
    rw [List.all_eq_true] at hn ⊢
    intro h
    have := h a ha
    rw [hn a ha] at this
    cases this
  unfold buildUser accepted constructUser
  simp only [h1, h2, hn, normalizeExtents_length, Bool.true_and, Bool.or_true, Bool.true_or, Bool.and_true, decide_eq_true_eq,
    if_true, Bool.false_eq_true, if_false]

theorem names_le {es : List Extent} {l : List AxisId} (hk : l.Nodup) (hmem : ∀ a ∈ l, a ∈ es.filterMap writtenName) :
    l.length ≤ es.length :=
  (hk.subperm (fun a ha => hmem a ha)).length_le.trans (List.length_filterMap_le _ _)

theorem axis_of_name {es : List Extent} (hp : ProperNames es) {i : Nat} {e : Extent} {a : AxisId} (hi : es[i]? = some e)
    (ha : writtenName e = some a) :
    (normalizeExtents es)[findAxis (normalizeExtents es) a]? = some (normalizeExtent (es.length - 1 - i) e) := by
  obtain ⟨i1, rfl⟩ := List.getElem?_eq_some_iff.1 hi
  have hx : (normalizeExtents es)[i]? = some (normalizeExtent (es.length - 1 - i) es[i]) := by
    rw [List.getElem?_eq_getElem (by rw [normalizeExtents_length]; exact i1), normalizeExtents_getElem _ i i1]
  have := findAxis_eq (normalizeExtents_nodup hp) hx
  rw [normalizeExtent_id, ha, Option.getD_some] at this
  rw [this, hx]

theorem dynamicSize_zero (es : List Extent) : dynamicSize (normalizeExtents es) = 0 ↔ ∀ e ∈ es, writtenSize e ≠ none := by
  rw [dynamicSize_eq, List.countP_eq_zero]
  constructor
  · intro h e he hn
    obtain ⟨i, i1, rfl⟩ := List.mem_iff_getElem.1 he
    have := h _ (List.getElem_mem (l := normalizeExtents es) (n := i) (by rw [normalizeExtents_length]; exact i1))
    rw [normalizeExtents_getElem _ i i1, Axis.isDynamic, normalizeExtent_content, hn] at this
    simp at this
  · intro h a ha
    obtain ⟨i, i1, rfl⟩ := List.mem_iff_getElem.1 ha
    have i2 : i < es.length := by simpa [normalizeExtents_length] using i1
    rw [normalizeExtents_getElem _ i i2, Axis.isDynamic, normalizeExtent_content]
    have := h _ (List.getElem_mem i2)
    cases hw : writtenSize es[i] with
    | none => exact absurd hw this
    | some x => simp

end Kwk
