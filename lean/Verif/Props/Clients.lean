import Verif.Spec.Clients
import Verif.Lemmas.Rank
import Verif.Props.Programs
import Verif.Props.Search
import Verif.Props.Reverse
import Verif.Props.Views
import Verif.Props.Index
import Verif.Props.SliceAlgos

/-!
# Property C122: programs that look at tables through views and decide on what they see
-/

namespace Kwk

open Spec

variable {α ρ : Type}

/-- What is known of an argument of an algorithm. -/
private structure LookFacts (w : World α) (t : Table) (c : Container) (sz : Shape) (sel : List Int → List Int) : Prop where
  shape : c.shape = sz
  ne : sz ≠ []
  nn : NonNeg sz
  inj : ∀ i j, InBox sz i → InBox sz j → sel i = sel j → i = j
  at_ : ∀ i, InBox sz i → InBox t.shape (sel i) ∧ c.addr i = (w.container t).addr (sel i)

private theorem sized_facts {w : World α} {t : Table} (hne : t.shape ≠ []) (hnn : NonNeg t.shape) {o : Option Shape} {sz : Shape}
    {sel : List Int → List Int} (h : Sized t.shape o sz sel) :
    ((w.container t).sized o).Default ∧ LookFacts w t ((w.container t).sized o) sz sel := by
  cases h with
  | own => exact ⟨ofShape_default hne, rfl, hne, hnn, fun _ _ _ _ e => e, fun i hi => ⟨hi, rfl⟩⟩
  | reshaped h1 h2 h3 h4 =>
    have hd : (reshape (w.container t) sz).Default := viewOfSettings_default h1
    have hd0 : (w.container t).Default := ofShape_default hne
    have key : ∀ i, InBox sz i → InBox t.shape (sel i) ∧ linearize (sfx t.shape) (sel i) = linearize (sfx sz) i := by
      intro i hi
      have hb := lin_bounds hi
      obtain ⟨p, hp, e⟩ := lin_surj hnn hb.1 (by rw [← h3]; exact hb.2)
      have e1 := getElem?_rank hi
      have e2 := getElem?_rank hp
      rw [e] at e2
      rw [h4 _ i p e1 e2]
      exact ⟨hp, e⟩
    refine ⟨hd, rfl, h1, h2, fun i j hi hj e => ?_, fun i hi => ⟨(key i hi).1, ?_⟩⟩
    · refine lin_inj hi hj ?_
      rw [← (key i hi).2, ← (key j hj).2, e]
    · show (reshape (w.container t) sz).addr i = _
      rw [addr_default hd hi, addr_default hd0 (key i hi).1]
      show (w.container t).base.add (linearize (sfx sz) i) = (w.container t).base.add (linearize (sfx t.shape) (sel i))
      rw [(key i hi).2]

private theorem mergedTo_eq {n : Nat} {s : Shape} (h0 : 0 < n) (h : n ≤ s.length) : mergedTo n s = compress n s := by
  rw [compress_eq h0 h]
  unfold mergedTo
  rw [show s.length + 1 - n = s.length - n + 1 by omega]

private theorem slice_pick_ne {s : Shape} (hs : s ≠ []) {sl : List Slicer} {ls : List (List Int)} (hp : PicksAll s sl ls) :
    pickShape ls ≠ [] := by
  have := hp.length_eq
  intro e
  have hl : ls.length = 0 := by simpa [pickShape] using congrArg List.length e
  apply hs
  apply List.eq_nil_of_length_eq_zero
  omega

private theorem pickShape_nonneg (ls : List (List Int)) : NonNeg (pickShape ls) := by
  intro d hd
  simp only [pickShape, List.mem_map] at hd
  obtain ⟨l, -, rfl⟩ := hd
  omega

private theorem look_facts (md : Mode) {w : World α} {x : Nat} {t : Table} (ht : w.tables x = some t) (hne : t.shape ≠ [])
    (hnn : NonNeg t.shape) {l : Look} (hl : l.table = x) {sz : Shape} {sel : List Int → List Int}
    (h : Sees md t.shape l sz sel) : ∃ c, w.look md l = .ok c ∧ LookFacts w t c sz sel ∧ (l.how = .whole → c.Default) := by
  subst hl
  obtain ⟨s0, sel0, sel1, h0, h1, h2⟩ := h
  obtain ⟨hd, f⟩ := sized_facts (w := w) hne hnn h0
  have hlook : w.look md l = ((w.container t).sized l.size).focus md l.how := by
    unfold World.look World.table
    rw [ht]
    rfl
  have hsel : sel = fun i => sel0 (sel1 i) := funext h2
  subst hsel
  rw [hlook]
  generalize (w.container t).sized l.size = c0 at hd f ⊢
  have hs0 := f.shape
  subst hs0
  generalize l.how = how at h1 ⊢
  cases h1 with
  | whole => exact ⟨c0, rfl, f, fun _ => hd⟩
  | @slice sl ls hp hmd =>
    obtain ⟨c, e1, e2, e3, e4, e5⟩ := slice_facts md hd hp hmd
    refine ⟨c, e1, ⟨e2, ?_, ?_, ?_, ?_⟩, by intro e; cases e⟩
    · exact slice_pick_ne f.ne hp
    · exact pickShape_nonneg ls
    · intro i j hi hj e
      rw [← e2] at hi hj
      exact e5 i j hi hj (f.inj _ _ (e4 i hi).1 (e4 j hj).1 e)
    · intro i hi
      rw [← e2] at hi
      obtain ⟨b1, b2⟩ := e4 i hi
      obtain ⟨d1, d2⟩ := f.at_ _ b1
      exact ⟨d1, b2.trans d2⟩
  | @merged sl ls sel2 hn hlen hp hmd h3 =>
    rw [mergedTo_eq hn hlen] at hp h3
    obtain ⟨k1, k2, k3, k4⟩ : compress sl.length c0.shape ≠ [] ∧ NonNeg (compress sl.length c0.shape) ∧
        (compress sl.length c0.shape).prod = c0.shape.prod ∧
        ∀ (k : Nat) i p, (positions (compress sl.length c0.shape))[k]? = some i → (positions c0.shape)[k]? = some p →
          sel2 i = p := by
      cases h3 with
      | reshaped k1 k2 k3 k4 => exact ⟨k1, k2, k3, k4⟩
    have key : ∀ i, InBox (compress sl.length c0.shape) i → InBox c0.shape (sel2 i) ∧
        linearize (sfx c0.shape) (sel2 i) = linearize (sfx (compress sl.length c0.shape)) i := by
      intro i hi
      have hb := lin_bounds hi
      obtain ⟨p, hp, e⟩ := lin_surj f.nn hb.1 (by rw [← k3]; exact hb.2)
      have e1 := getElem?_rank hi
      have e2 := getElem?_rank hp
      rw [e] at e2
      rw [k4 _ i p e1 e2]
      exact ⟨hp, e⟩
    have hm := ofShape_default (b := c0.base) k1
    obtain ⟨c, d, e1, a1, a2, a3⟩ := C112_merged md hd hn hlen hp hmd
    obtain ⟨d', b1, b2, -, b4, b5⟩ := slice_facts md hm hp hmd
    rw [a1] at b1
    cases b1
    have e2 := a2.trans b2
    refine ⟨c, e1, ⟨e2, slice_pick_ne k1 hp, pickShape_nonneg ls, ?_, ?_⟩, by intro e; cases e⟩
    · intro i j hi hj e
      rw [← b2] at hi hj
      refine b5 i j hi hj (lin_inj (b4 i hi).1 (b4 j hj).1 ?_)
      have := f.inj _ _ (key _ (b4 i hi).1).1 (key _ (b4 j hj).1).1 e
      exact (key _ (b4 i hi).1).2.symm.trans ((congrArg _ this).trans (key _ (b4 j hj).1).2)
    · intro i hi
      have hi' := hi
      rw [← e2] at hi
      rw [← b2] at hi'
      obtain ⟨b, b'⟩ := b4 i hi'
      obtain ⟨d1, d2⟩ := f.at_ _ (key _ b).1
      refine ⟨d1, ?_⟩
      rw [a3 i hi, b', ← d2, addr_default hm b, addr_default hd (key _ b).1]
      exact congrArg c0.base.add (key _ b).2.symm
  | reversed =>
    refine ⟨reverse c0, rfl, ⟨rfl, f.ne, f.nn, ?_, ?_⟩, by intro e; cases e⟩
    · intro i j hi hj e
      have := f.inj _ _ (mirror_inBox hi) (mirror_inBox hj) e
      have h := congrArg (mirror c0.shape) this
      rwa [mirror_mirror hi.length, mirror_mirror hj.length] at h
    · intro i hi
      obtain ⟨d1, d2⟩ := f.at_ _ (mirror_inBox hi)
      exact ⟨d1, ((C46_reverse_partial (α := α) hd.toWF (C46_default_corner hd ⟨i, hi⟩)).2 i hi).1.trans d2⟩

private theorem LookFacts.get {w : World α} {t : Table} {c : Container} {sz : Shape} {sel : List Int → List Int}
    (L : LookFacts w t c sz sel) (m : Mem α) {i : List Int} (hi : InBox sz i) : c.get m i = (w.container t).get m (sel i) := by
  unfold Container.get
  rw [(L.at_ i hi).2]

private theorem LookFacts.elems {w : World α} {t : Table} {c : Container} {sz : Shape} {sel : List Int → List Int}
    (L : LookFacts w t c sz sel) {f : List Int → α} (he : Elems (w.container t) w.mem f) :
    Elems c w.mem fun i => f (sel i) := by
  intro i hi
  rw [L.shape] at hi
  rw [L.get _ hi]
  exact he _ (L.at_ i hi).1

private theorem LookFacts.distinct {w : World α} {t : Table} {c : Container} {sz : Shape} {sel : List Int → List Int}
    (L : LookFacts w t c sz sel) (hr : Ready w t) : Distinct c := by
  intro i j hi hj e
  rw [L.shape] at hi hj
  rw [(L.at_ i hi).2, (L.at_ j hj).2] at e
  exact L.inj i j hi hj (hr.distinct _ _ (L.at_ i hi).1 (L.at_ j hj).1 e)

private theorem LookFacts.valid {w : World α} {t : Table} {c : Container} {sz : Shape} {sel : List Int → List Int}
    (L : LookFacts w t c sz sel) (hr : Ready w t) : Valid c w.mem := by
  intro i hi
  rw [L.shape] at hi
  rw [L.get _ hi]
  exact hr.valid _ (L.at_ i hi).1

/-- An argument with a value. -/
private theorem seen (md : Mode) {ext : Mem α} {base : Nat} {w : World α} {a : Values α} (h : Sim ext base w a) {l : Look}
    {s : Shape} {f : List Int → α} (hx : a l.table = .value s f) {sz : Shape} {sel : List Int → List Int}
    (hs : Sees md s l sz sel) :
    ∃ t c, w.tables l.table = some t ∧ t.shape = s ∧ Ready w t ∧ Elems (w.container t) w.mem f ∧ w.look md l = .ok c ∧
      LookFacts w t c sz sel ∧ (l.how = .whole → c.Default) := by
  obtain ⟨t, ht, rfl, hr, he⟩ := value_ready h hx
  obtain ⟨c, h1, h2, h3⟩ := look_facts md ht hr.ne hr.nn rfl hs
  exact ⟨t, c, ht, rfl, hr, he, h1, h2, h3⟩

private theorem shown (md : Mode) {ext : Mem α} {base : Nat} {w : World α} {a : Values α} (h : Sim ext base w a) {l : Look}
    {sz : Shape} {g : List Int → α} (hs : Shown md a l sz g) :
    ∃ c, w.look md l = .ok c ∧ c.shape = sz ∧ sz ≠ [] ∧ NonNeg sz ∧ Elems c w.mem g ∧ (l.how = .whole → c.Default) := by
  obtain ⟨s, f, sel, h1, h2, h3⟩ := hs
  obtain ⟨t, c, ht, rfl, hr, he, hl, L, hd⟩ := seen md h h1 h2
  refine ⟨c, hl, L.shape, L.ne, L.nn, ?_, hd⟩
  rw [show g = fun i => f (sel i) from funext h3]
  exact L.elems he

/-- After an algorithm that wrote the elements of the argument only. -/
private theorem put {ext : Mem α} {base : Nat} {w : World α} {a : Values α} (h : Sim ext base w a) {x : Nat} {t : Table}
    (ht : w.tables x = some t) (hr : Ready w t) {f f' : List Int → α} (he : Elems (w.container t) w.mem f) {c : Container}
    {sz : Shape} {sel : List Int → List Int} (L : LookFacts w t c sz sel) {m : Mem α} (ho : SameOutside c w.mem m)
    {g : List Int → α} (hg : ∀ i, InBox c.shape i → c.get m i = .ok (g i)) (hp : Puts t.shape sz sel g f f') :
    Sim ext base { w with mem := m } (a.set x (.value t.shape f')) := by
  rw [L.shape] at hg
  refine h.wrote ht hr (fun q hq => ho q fun i hi e => ?_) fun p hb => ?_
  · rw [L.shape] at hi
    rw [(L.at_ i hi).2] at e
    exact hq _ (L.at_ i hi).1 e
  · by_cases hs : ∃ i, InBox sz i ∧ sel i = p
    · obtain ⟨i, hi, rfl⟩ := hs
      rw [hp.1 i hi, ← L.get m hi]
      exact hg i hi
    · have hs' : ∀ i, InBox sz i → sel i ≠ p := fun i hi e => hs ⟨i, hi, e⟩
      rw [hp.2 p hb hs', ← he p hb]
      unfold Container.get load
      rw [ho _ fun i hi e => ?_]
      rw [L.shape] at hi
      rw [(L.at_ i hi).2] at e
      exact hs' i hi (hr.distinct _ _ (L.at_ i hi).1 hb e)

/-- An argument that is read by an algorithm that writes another one. -/
private theorem input (md : Mode) {ext : Mem α} {base : Nat} {w : World α} {a : Values α} (h : Sim ext base w a) {x : Nat}
    {t : Table} (ht : w.tables x = some t) (hr : Ready w t) {c : Container} {sz : Shape} {sel : List Int → List Int}
    (L : LookFacts w t c sz sel) {i : Look} {g : List Int → α} (hi : Input md a x sz sel i g) :
    ∃ d, w.look md i = .ok d ∧ d.shape = c.shape ∧ Elems d w.mem g ∧ NoClobber c d ∧
      (i.table ≠ x → ∀ p, InBox c.shape p → c.addr p ≠ d.addr p) := by
  obtain ⟨s, f, sel', h1, h2, h3, h4⟩ := hi
  obtain ⟨u, d, hu, rfl, hru, heu, hl, D, -⟩ := seen md h h1 h2
  have hg : g = fun i => f (sel' i) := funext h3
  subst hg
  have hne : i.table ≠ x → ∀ p q, InBox sz p → InBox sz q → c.addr p ≠ d.addr q := by
    intro e p q hp hq
    rw [(L.at_ p hp).2, (D.at_ q hq).2]
    exact apart h.inv ht hu hr hru (Ne.symm e) (L.at_ p hp).1 (D.at_ q hq).1
  refine ⟨d, hl, D.shape.trans L.shape.symm, D.elems heu, ?_, fun e p hp => ?_⟩
  · intro p q hp hq hqp
    rw [L.shape] at hp hq
    by_cases e : i.table = x
    · have : u = t := by rw [e, ht] at hu; cases hu; rfl
      subst this
      rw [(L.at_ q hq).2, (D.at_ p hp).2]
      intro e'
      exact h4 e q p hq hp hqp (hr.distinct _ _ (L.at_ q hq).1 (D.at_ p hp).1 e')
    · exact hne e q p hq hp
  · rw [L.shape] at hp
    exact hne e p p hp hp

private theorem inputs (md : Mode) {ext : Mem α} {base : Nat} {w : World α} {a : Values α} (h : Sim ext base w a) {x : Nat}
    {t : Table} (ht : w.tables x = some t) (hr : Ready w t) {c : Container} {sz : Shape} {sel : List Int → List Int}
    (L : LookFacts w t c sz sel) {ins : List Look} {gs : List (List Int → α)}
    (hi : List.Forall₂ (Input md a x sz sel) ins gs) :
    ∃ ds, ins.mapM (fun i => w.look md i) = .ok ds ∧ (∀ d ∈ ds, NoClobber c d) ∧
      ∀ p, InBox c.shape p → ds.mapM (fun d => d.get w.mem p) = .ok (gs.map fun g => g p) := by
  induction hi with
  | nil => exact ⟨[], rfl, by simp, fun _ _ => rfl⟩
  | cons h1 _ ih =>
    obtain ⟨ds, e1, e2, e3⟩ := ih
    obtain ⟨d, d1, d2, d3, d4, -⟩ := input md h ht hr L h1
    refine ⟨d :: ds, ?_, ?_, fun p hp => ?_⟩
    · simp only [List.mapM_cons, d1, e1, bind, Except.bind, pure, Except.pure]
    · intro d' hd'
      rcases List.mem_cons.1 hd' with rfl | hd'
      · exact d4
      · exact e2 _ hd'
    · have g1 := d3 p (d2 ▸ hp)
      have g2 := e3 p hp
      simp only [List.mapM_cons, g1, g2, bind, Except.bind, pure, Except.pure, List.map_cons]

private theorem edit_ok {md : Mode} {w : World α} {e : Edit α} {m : Mem α} (he : w.editMem md e = .ok m) :
    w.edit md e = .ok { w with mem := m } := by
  unfold World.edit
  rw [he]; rfl

theorem sim_edit (md : Mode) {ext : Mem α} {base : Nat} {w : World α} {a a' : Values α} {e : Edit α}
    (h : Sim ext base w a) (hs : MeansEdit md a e a') : ∃ w', w.edit md e = .ok w' ∧ Sim ext base w' a' := by
  cases hs with
  | fill h1 h2 hp =>
    obtain ⟨t, c, ht, rfl, hr, he, hl, L, -⟩ := seen md h h1 h2
    obtain ⟨m, f1, f2, f3⟩ := C34_fill w.mem c (L.distinct hr) (L.valid hr) _
    exact ⟨_, edit_ok (by simp only [World.editMem, hl]; exact f1), put h ht hr he L f3 f2 hp⟩
  | generate h1 h2 hp =>
    obtain ⟨t, c, ht, rfl, hr, he, hl, L, -⟩ := seen md h h1 h2
    obtain ⟨m, f1, f2, f3⟩ := C34_generate w.mem c (L.distinct hr) (L.valid hr) _
    exact ⟨_, edit_ok (by simp only [World.editMem, hl]; exact f1), put h ht hr he L f3 f2 hp⟩
  | iota h1 h2 hk hp =>
    obtain ⟨t, c, ht, rfl, hr, he, hl, L, -⟩ := seen md h h1 h2
    obtain ⟨m, f1, f3, f2⟩ := C35_iota_iterate md w.mem c (L.distinct hr) (L.valid hr) _ (fun v => v) _
    refine ⟨_, edit_ok (by simp only [World.editMem, hl]; exact f1), put h ht hr he L f3 (fun p hp => ?_) hp⟩
    rw [f2 p _ hp (linearIndex_ok md hp), hk _ p (by rw [← L.shape]; exact getElem?_rank hp)]
  | replaceIf h1 h2 hp =>
    obtain ⟨t, c, ht, rfl, hr, he, hl, L, -⟩ := seen md h h1 h2
    obtain ⟨m, f1, f2, f3⟩ := C38_replace_if w.mem c (L.distinct hr) _ (L.elems he) _ _
    exact ⟨_, edit_ok (by simp only [World.editMem, hl]; exact f1), put h ht hr he L f3 f2 hp⟩
  | @transform l s f sz sel f' g ins gs h1 h2 hi hp =>
    obtain ⟨t, c, ht, rfl, hr, he, hl, L, -⟩ := seen md h h1 h2
    obtain ⟨ds, e1, e2, e3⟩ := inputs md h ht hr L hi
    obtain ⟨m, f1, f2, f3⟩ := C36_transform w.mem g c ds (L.distinct hr) (L.valid hr) e2
      (fun (p : List Int) => gs.map fun (g : List Int → α) => g p) e3
    exact ⟨_, edit_ok (by simp only [World.editMem, hl, e1]; exact f1), put h ht hr he L f3 f2 hp⟩
  | copy h1 h2 hi hp =>
    obtain ⟨t, c, ht, rfl, hr, he, hl, L, -⟩ := seen md h h1 h2
    obtain ⟨d, d1, d2, d3, d4, -⟩ := input md h ht hr L hi
    obtain ⟨m, f1, f2, f3, -⟩ := C37_copy w.mem c d (L.distinct hr) (L.valid hr) d4 _ (fun p hp => d3 p (d2 ▸ hp))
      (w.junk ⟨0, 0⟩)
    exact ⟨_, edit_ok (by simp only [World.editMem, hl, d1]; exact f1), put h ht hr he L f3 f2 hp⟩
  | @copyIf l s f sz sel f' cc i g h1 h2 hi hp =>
    obtain ⟨t, c, ht, rfl, hr, he, hl, L, -⟩ := seen md h h1 h2
    obtain ⟨d, d1, d2, d3, d4, -⟩ := input md h ht hr L hi
    obtain ⟨m, f1, f2, f3⟩ := C37_copy_if w.mem cc c d (L.distinct hr) (L.valid hr) d4 _ (fun p hp => d3 p (d2 ▸ hp))
    refine ⟨_, edit_ok (by simp only [World.editMem, hl, d1]; exact f1), put h ht hr he L f3 (fun p hp => ?_) hp⟩
    obtain ⟨g1, g2⟩ := f2 p hp
    cases hc : cc (g p) with
    | true => rw [g1 hc, if_pos rfl]
    | false => rw [g2 hc, L.elems he p hp, if_neg (by simp)]
  | inclusiveScan h1 h2 hi hk hp =>
    obtain ⟨t, c, ht, rfl, hr, he, hl, L, -⟩ := seen md h h1 h2
    obtain ⟨d, d1, d2, d3, d4, -⟩ := input md h ht hr L hi
    obtain ⟨m, f1, f3, f2⟩ := C39_inclusive_scan w.mem d c d2.symm (L.distinct hr) (L.valid hr) d4 _ d3 _ _ (fun e => e)
    refine ⟨_, edit_ok (by simp only [World.editMem, hl, d1]; exact f1), put h ht hr he L f3 (fun p hp => ?_) hp⟩
    have := f2 _ p (by rw [d2]; exact getElem?_rank hp)
    rw [this, hk _ p (by rw [← L.shape]; exact getElem?_rank hp), d2, L.shape]
  | exclusiveScan h1 h2 hne hi hk hp =>
    obtain ⟨t, c, ht, rfl, hr, he, hl, L, -⟩ := seen md h h1 h2
    obtain ⟨d, d1, d2, d3, d4, d5⟩ := input md h ht hr L hi
    obtain ⟨m, f1, f3, f2⟩ := C39_exclusive_scan_partial w.mem d c d2.symm (L.distinct hr) (L.valid hr) d4 (d5 hne) _ d3 _ _
      (fun e => e)
    refine ⟨_, edit_ok (by simp only [World.editMem, hl, d1]; exact f1), put h ht hr he L f3 (fun p hp => ?_) hp⟩
    have := f2 _ p (by rw [d2]; exact getElem?_rank hp)
    rw [this, hk _ p (by rw [← L.shape]; exact getElem?_rank hp), d2, L.shape]

private theorem isFirst_unique {s : List Int} {P : List Int → Prop} {r r' : Option (List Int)} (h : IsFirst s P r)
    (h' : IsFirst s P r') : r = r' := by
  cases r with
  | none => exact ((h'.1).2 ((h.1).1 rfl)).symm
  | some p => exact ((h'.2 p).2 ((h.2 p).1 rfl)).symm

private theorem isLast_unique {s : List Int} {P : List Int → Prop} {r r' : Option (List Int)} (h : IsLast s P r)
    (h' : IsLast s P r') : r = r' := by
  cases r with
  | none => exact ((h'.1).2 ((h.1).1 rfl)).symm
  | some p => exact ((h'.2 p).2 ((h.2 p).1 rfl)).symm

private theorem bool_unique {P : Prop} {a b : Bool} (h : a = true ↔ P) (h' : b = true ↔ P) : a = b :=
  Bool.eq_iff_iff.2 (h.trans h'.symm)

theorem sim_ask (md : Mode) {ext : Mem α} {base : Nat} {w : World α} {a : Values α} {q : Query α} {r : Answer α}
    (h : Sim ext base w a) (hs : Answers md a q r) : w.ask md q = .ok r := by
  classical
  cases hs with
  | read h1 hp =>
    obtain ⟨c, hl, rfl, hne, hnn, he, -⟩ := shown md h h1
    simp only [World.ask, hl, bind, Except.bind, he _ hp]
  | size h1 h2 =>
    obtain ⟨t, ht, rfl, hr⟩ := shaped_ready h h1
    obtain ⟨c, hl, L, -⟩ := look_facts md ht hr.ne hr.nn rfl h2
    simp only [World.ask, hl, bind, Except.bind, L.shape]
  | numel h1 h2 =>
    obtain ⟨t, ht, rfl, hr⟩ := shaped_ready h h1
    obtain ⟨c, hl, L, -⟩ := look_facts md ht hr.ne hr.nn rfl h2
    simp only [World.ask, hl, bind, Except.bind, Container.numel, L.shape, C07_numel_card _ L.ne L.nn]
  | reduce h1 =>
    obtain ⟨c, hl, rfl, hne, hnn, he, -⟩ := shown md h h1
    simp only [World.ask, hl, bind, Except.bind, (C23_reduce_left_fold _ _ _ he _ _).2]
  | @findIf l sz g cc r h1 h2 =>
    obtain ⟨c, hl, rfl, hne, hnn, he, -⟩ := shown md h h1
    obtain ⟨r', e, hr⟩ := (C26_find_first w.mem c g he cc (g [])).1
    simp only [World.ask, hl, bind, Except.bind, e, isFirst_unique hr h2]
  | @findLastIf x n sz g cc r h1 h2 =>
    obtain ⟨c, hl, rfl, hne, hnn, he, hd⟩ := shown md h h1
    obtain ⟨r', e, hr⟩ := (C27_find_last_default w.mem c (hd rfl) g he cc (g [])).1
    simp only [World.ask, hl, bind, Except.bind, e, isLast_unique hr h2]
  | @countIf l sz g cc h1 =>
    obtain ⟨c, hl, rfl, hne, hnn, he, -⟩ := shown md h h1
    simp only [World.ask, hl, bind, Except.bind, (C25_count w.mem c g he cc (g [])).1]
  | @allOf l sz g cc b h1 h2 =>
    obtain ⟨c, hl, rfl, hne, hnn, he, -⟩ := shown md h h1
    obtain ⟨x, y, z, e1, e2, e3, k1, k2, k3⟩ := C24_quantifiers w.mem c g he cc
    simp only [World.ask, hl, bind, Except.bind, e1, bool_unique k1 h2]
  | @anyOf l sz g cc b h1 h2 =>
    obtain ⟨c, hl, rfl, hne, hnn, he, -⟩ := shown md h h1
    obtain ⟨x, y, z, e1, e2, e3, k1, k2, k3⟩ := C24_quantifiers w.mem c g he cc
    simp only [World.ask, hl, bind, Except.bind, e2, bool_unique k2 h2]
  | @noneOf l sz g cc b h1 h2 =>
    obtain ⟨c, hl, rfl, hne, hnn, he, -⟩ := shown md h h1
    obtain ⟨x, y, z, e1, e2, e3, k1, k2, k3⟩ := C24_quantifiers w.mem c g he cc
    simp only [World.ask, hl, bind, Except.bind, e3, bool_unique k3 h2]
  | @lowerBound l sz g v lt r h1 h2 h3 =>
    obtain ⟨c, hl, rfl, hne, hnn, he, -⟩ := shown md h h1
    obtain ⟨r', e, hr⟩ := C30_lower_bound md w.mem c g he hne hnn lt v h2 ()
    simp only [World.ask, hl, bind, Except.bind, e, isFirst_unique hr h3]
  | @upperBound l sz g v lt r h1 h2 h3 =>
    obtain ⟨c, hl, rfl, hne, hnn, he, -⟩ := shown md h h1
    obtain ⟨r', e, hr⟩ := C31_upper_bound md w.mem c g he hne hnn lt v h2 ()
    simp only [World.ask, hl, bind, Except.bind, e, isFirst_unique hr h3]
  | @binarySearch l sz g v lt b h1 h2 h3 h4 =>
    obtain ⟨c, hl, rfl, hne, hnn, he, -⟩ := shown md h h1
    obtain ⟨b', e, hr⟩ := C32_binary_search md w.mem c g he hne hnn lt h2 h3 v ()
    simp only [World.ask, hl, bind, Except.bind, e, bool_unique hr h4]
  | @innerProduct l i sz g k init R T h1 h2 =>
    obtain ⟨c, hl, rfl, hne, hnn, he, -⟩ := shown md h h1
    obtain ⟨d, hl', hsh, -, -, he', -⟩ := shown md h h2
    simp only [World.ask, hl, hl', bind, Except.bind, (C29_pairwise_fold md w.mem c d g k hsh.symm he he' init R T).2]

theorem sim_client (md : Mode) {ext : Mem α} {base : Nat} {a a' : Values α} {c : Client α ρ} {r : ρ}
    (hold : ∀ p : Ptr, base ≤ p.blk → ext p = none) (hs : MeansClient md ext a c r a') {w : World α}
    (h : Sim ext base w a) : ∃ w', w.runClient md c = .ok (r, w') ∧ Sim ext base w' a' := by
  induction hs generalizing w with
  | done => exact ⟨w, rfl, h⟩
  | act h1 _ ih =>
    obtain ⟨w1, e1, hw1⟩ := sim_act md hold h h1
    obtain ⟨w2, e2, hw2⟩ := ih hw1
    exact ⟨w2, by rw [← e2]; simp only [World.runClient, e1, bind, Except.bind], hw2⟩
  | edit h1 _ ih =>
    obtain ⟨w1, e1, hw1⟩ := sim_edit md h h1
    obtain ⟨w2, e2, hw2⟩ := ih hw1
    exact ⟨w2, by rw [← e2]; simp only [World.runClient, e1, bind, Except.bind], hw2⟩
  | ask h1 _ ih =>
    obtain ⟨w2, e2, hw2⟩ := ih h
    exact ⟨w2, by rw [← e2]; simp only [World.runClient, sim_ask md h h1, bind, Except.bind], hw2⟩

/-- **C122** Programs that pass tables, reshaped tables, slices and reversed tables to algorithms and decide on what these
answer mean what they mean for plain values.  If the program, with tables thought of as values, returns `r` and leaves the
objects `a`, then it runs without fault, returns `r`, leaves these objects, does not touch the memory of the rest of the program,
and every block has one owner. -/
theorem C122_clients (md : Mode) (w : World α) (hw : Fresh w) (c : Client α ρ) (r : ρ) (a : Values α)
    (h : MeansClient md w.mem (fun _ => .absent) c r a) :
    ∃ w', w.runClient md c = .ok (r, w') ∧ Shows w' a ∧ (∀ p : Ptr, p.blk < w.next → w'.mem p = w.mem p) ∧ Owned w' := by
  obtain ⟨w', e, hs⟩ := sim_client md hw.old h (fresh_sim hw)
  exact ⟨w', e, hs.shows, hs.ext, inv_owned hs.inv⟩

/-- The second row of a table becomes its first row, backwards; then the table, as three rows of two and backwards, is searched
for an element above 11, and the row found is set to 0. -/
def exClient : Client Int Bool :=
  .act (.op (.make 0 5 [2, 3] none)) <| .act (.iota 0 (· + 1) 10) <|
  .edit (.copy ⟨0, none, .slice [.index 1, .joker]⟩ ⟨0, none, .slice [.index 0, slice (by_ := some (-1))]⟩) <|
  .ask (.findIf ⟨0, some [3, 2], .reversed⟩ fun v => decide (11 < v)) fun
    | .place (some [x, _]) => .edit (.fill ⟨0, some [3, 2], .slice [.index x, .joker]⟩ 0) <| .done true
    | _ => .done false

/-- The value with these elements in row-major order. -/
def exValue (s : Shape) (l : List Int) : List Int → Int := fun p => l.getD (linearize (sfx s) p).toNat 0

/-- The number of a position of `[3, 2]` as a position of `[2, 3]`. -/
def exSel : List Int → List Int := fun p => (positions [2, 3]).getD (linearize (sfx [3, 2]) p).toNat []

theorem exSized : Sized [2, 3] (some [3, 2]) [3, 2] exSel := by
  refine .reshaped (by decide) (by decide) (by decide) fun k i p hi hp => ?_
  have hk : k < 6 := (List.getElem?_eq_some_iff.1 hi).1
  have : ∀ k : Nat, k < 6 → ∀ i ∈ positions [3, 2], ∀ p ∈ positions [2, 3], (positions [3, 2])[k]? = some i →
      (positions [2, 3])[k]? = some p → exSel i = p := by decide
  exact this k hk i (List.mem_of_getElem? hi) p (List.mem_of_getElem? hp) hi hp

theorem exPicks : PicksAll [2, 3] [.index 0, slice (by_ := some (-1))] [[0], [2, 1, 0]] :=
  .cons (.index (by decide) (by decide))
    (.cons (show Picks 3 _ (selectDown 3 2 (-1)) from .down .none (by decide) (by decide) (by decide)) .nil)

private theorem puts_of {s sz : Shape} {sel : List Int → List Int} {h f f' : List Int → α}
    (h1 : ∀ i ∈ positions sz, f' (sel i) = h i)
    (h2 : ∀ p ∈ positions s, (∀ i ∈ positions sz, sel i ≠ p) → f' p = f p) : Puts s sz sel h f f' :=
  ⟨fun i hi => h1 i (mem_positions.2 hi),
    fun p hp hn => h2 p (mem_positions.2 hp) fun i hi => hn i (mem_positions.1 hi)⟩

/-- The program is meaningful: it finds an element and leaves 10 11 0 / 0 11 10. -/
theorem exClient_means : ∃ a, MeansClient .checked exWorld.mem (fun _ => .absent) exClient true a ∧
    a 0 = .value [2, 3] (exValue [2, 3] [10, 11, 0, 0, 11, 10]) := by
  refine ⟨_, .act (.op (.blank rfl (by simp) (by decide))) (.act (.iota (f := exValue [2, 3] [10, 11, 12, 13, 14, 15])
    (.inl rfl) ?_) (.edit (.copy (s := [2, 3]) (f := exValue [2, 3] [10, 11, 12, 13, 14, 15])
      (f' := exValue [2, 3] [10, 11, 12, 12, 11, 10]) rfl
      ⟨_, _, _, .own, .slice (ls := [[1], [0, 1, 2]])
        (.cons (.index (by decide) (by decide)) (.cons (.joker (by decide)) .nil)) (by decide), fun _ => rfl⟩
      ⟨_, _, _, rfl, ⟨_, _, _, .own,
        show Focused _ _ _ (pickShape [[1], [0, 1, 2]]) (pickAt [[0], [2, 1, 0]]) from .slice exPicks (by decide),
        fun _ => rfl⟩, fun _ => rfl, ?_⟩ ?_)
      (.ask (.findIf (r := some [1, 0]) ⟨_, _, _, rfl, ⟨_, _, _, exSized, .reversed, fun _ => rfl⟩, fun _ => rfl⟩ ?_)
      (.edit (.fill (f' := exValue [2, 3] [10, 11, 0, 0, 11, 10]) rfl
        ⟨_, _, _, exSized, .slice (ls := [[1], [0, 1]]) (.cons (.index (by decide)
          (by decide)) (.cons (.joker (by decide)) .nil)) (by decide), fun _ => rfl⟩ ?_) .done)))), rfl⟩
  · intro k p hk
    have hlt : k < 6 := (List.getElem?_eq_some_iff.1 hk).1
    have : ∀ k : Nat, k < 6 → ∀ p ∈ positions [2, 3], (positions [2, 3])[k]? = some p →
        exValue [2, 3] [10, 11, 12, 13, 14, 15] p = (fun x : Int => x + 1)^[k] 10 := by decide
    exact this k hlt p (List.mem_of_getElem? hk) hk
  · intro _ j k hj hk _
    have : ∀ j ∈ positions (pickShape [[1], [0, 1, 2]]), ∀ k ∈ positions (pickShape [[1], [0, 1, 2]]),
      pickAt [[1], [0, 1, 2]] j ≠ pickAt [[0], [2, 1, 0]] k := by decide
    exact this j (mem_positions.2 hj) k (mem_positions.2 hk)
  · exact puts_of (by decide) (by decide)
  · exact isFirst_find? [3, 2] fun p => decide (11 < exValue [2, 3] [10, 11, 12, 12, 11, 10] (exSel (mirror [3, 2] p)))
  · exact puts_of (by decide) (by decide)

/-- The same program, run on the model. -/
example : ((do
    let (r, w) ← exWorld.runClient .checked exClient
    let l ← (positions [2, 3]).mapM fun p => (w.tables 0).elim (.error .nullDeref) fun t => w.read t p
    .ok (r, l)) : Res (Bool × List Int)) = .ok (true, [10, 11, 0, 0, 11, 10]) := by decide +kernel

/-- The number of a position of `[6]` as a position of `[2, 3]`. -/
def exFlat : List Int → List Int := fun p => (positions [2, 3]).getD (linearize (sfx [6]) p).toNat []

/-- One slicer on two extents: the elements 0, 2 and 4 in row-major order. -/
theorem exMerged : Focused .checked [2, 3] (.slice [slice (by_ := some 2)]) [3] fun i => exFlat (pickAt [[0, 2, 4]] i) := by
  refine .merged (ls := [[0, 2, 4]]) (by decide) (by decide) ?_ (by decide) ?_
  · exact .cons (show Picks 6 _ (selectUp 6 0 6 2) from .up .none .none rfl (by decide) (by decide) (by decide) (by decide)) .nil
  · refine .reshaped (by decide) (by decide) (by decide) fun k i p hi hp => ?_
    have hk : k < 6 := (List.getElem?_eq_some_iff.1 hi).1
    have : ∀ k : Nat, k < 6 → ∀ i ∈ positions [6], ∀ p ∈ positions [2, 3], (positions [6])[k]? = some i →
        (positions [2, 3])[k]? = some p → exFlat i = p := by decide
    exact this k hk i (List.mem_of_getElem? hi) p (List.mem_of_getElem? hp) hi hp

end Kwk
