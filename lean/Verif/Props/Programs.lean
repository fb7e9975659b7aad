import Verif.Spec.Programs
import Verif.Lemmas.Programs
import Verif.Props.Values
import Verif.Props.SliceAlgos

/-!
# Property C116: programs with tables and algorithms mean what they mean for values
-/

namespace Kwk

open Spec

variable {α : Type}

theorem act_ok {md : Mode} {w : World α} {act : Act α} {r : Res (Mem α)} {m : Mem α} (hr : r = .ok m)
    (he : w.act md act = (do let m ← r; .ok { w with mem := m })) : w.act md act = .ok { w with mem := m } := by
  rw [he, hr]; rfl

theorem sim_act (md : Mode) {ext : Mem α} {base : Nat} {w : World α} {a a' : Values α} {act : Act α}
    (hold : ∀ p : Ptr, base ≤ p.blk → ext p = none) (h : Sim ext base w a) (hs : MeansAct md ext a act a') :
    ∃ w', w.act md act = .ok w' ∧ Sim ext base w' a' := by
  cases hs with
  | op hm => exact sim_step hold h hm
  | @fill x s v hx =>
    obtain ⟨t, ht, rfl, hr⟩ := shaped_ready h hx
    obtain ⟨m, f1, f2, f3⟩ := C34_fill w.mem (w.container t) hr.distinct hr.valid v
    exact ⟨_, act_ok f1 (by simp only [World.act, ht]), h.wrote ht hr f3 f2⟩
  | @generate x s g hx =>
    obtain ⟨t, ht, rfl, hr⟩ := shaped_ready h hx
    obtain ⟨m, f1, f2, f3⟩ := C34_generate w.mem (w.container t) hr.distinct hr.valid g
    exact ⟨_, act_ok f1 (by simp only [World.act, ht]), h.wrote ht hr f3 f2⟩
  | @iota x s incr v f hx hf =>
    obtain ⟨t, ht, rfl, hr⟩ := shaped_ready h hx
    obtain ⟨m, f1, f3, f2⟩ := C35_iota_iterate md w.mem (w.container t) hr.distinct hr.valid incr (fun v => v) v
    refine ⟨_, act_ok f1 (by simp only [World.act, ht]), h.wrote ht hr f3 fun p hp => ?_⟩
    rw [f2 p _ hp (linearIndex_ok md hp), hf _ p (getElem?_rank hp)]
    rfl
  | @replaceIf x s f c v hx =>
    obtain ⟨t, ht, rfl, hr, he⟩ := value_ready h hx
    obtain ⟨m, f1, f2, f3⟩ := C38_replace_if w.mem (w.container t) hr.distinct f he c v
    exact ⟨_, act_ok f1 (by simp only [World.act, ht]), h.wrote ht hr f3 f2⟩
  | @transform x s g ys fs hx hy =>
    obtain ⟨t, ht, rfl, hr⟩ := shaped_ready h hx
    obtain ⟨us, u1, u2, u3⟩ := lookAll_ok h hy
    obtain ⟨m, f1, f2, f3⟩ := C36_transform w.mem g (w.container t) (us.map w.container) hr.distinct hr.valid (by
      intro c hc
      obtain ⟨u, hu, rfl⟩ := List.mem_map.1 hc
      obtain ⟨y, g1, g2, g3⟩ := u2 u hu
      exact noClobber_tables h.inv ht g1 hr g3 g2) (fun (p : List Int) => fs.map fun (f : List Int → α) => f p) u3
    exact ⟨_, act_ok f1 (by simp only [World.act, ht, u1]), h.wrote ht hr f3 f2⟩
  | @copy x y s f hx hy =>
    obtain ⟨t, ht, rfl, hr⟩ := shaped_ready h hx
    obtain ⟨u, hu, hs, hru, he⟩ := value_ready h hy
    obtain ⟨m, f1, f2, f3, -⟩ := C37_copy w.mem (w.container t) (w.container u) hr.distinct hr.valid
      (noClobber_tables h.inv ht hu hr hru hs) f (fun p hp => he p (show InBox u.shape p from hs ▸ hp)) (w.junk ⟨0, 0⟩)
    exact ⟨_, act_ok f1 (by simp only [World.act, ht, hu]), h.wrote ht hr f3 f2⟩
  | @copyIf x y s f g c hx hy =>
    obtain ⟨t, ht, rfl, hr, het⟩ := value_ready h hx
    obtain ⟨u, hu, hs, hru, he⟩ := value_ready h hy
    obtain ⟨m, f1, f2, f3⟩ := C37_copy_if w.mem c (w.container t) (w.container u) hr.distinct hr.valid
      (noClobber_tables h.inv ht hu hr hru hs) f (fun p hp => he p (show InBox u.shape p from hs ▸ hp))
    refine ⟨_, act_ok f1 (by simp only [World.act, ht, hu]), h.wrote ht hr f3 fun p hp => ?_⟩
    obtain ⟨g1, g2⟩ := f2 p hp
    cases hc : c (f p) with
    | true => rw [g1 hc, if_pos rfl]
    | false => rw [g2 hc, het p hp, if_neg (by simp)]
  | @inclusiveScan x y s f g k init hx hy hk =>
    obtain ⟨t, ht, rfl, hr⟩ := shaped_ready h hx
    obtain ⟨u, hu, hs, hru, he⟩ := value_ready h hy
    obtain ⟨m, f1, f3, f2⟩ := C39_inclusive_scan w.mem (w.container u) (w.container t) hs.symm hr.distinct hr.valid
      (noClobber_tables h.inv ht hu hr hru hs) f he init g (fun e => e)
    refine ⟨_, act_ok f1 (by simp only [World.act, ht, hu]; rfl), h.wrote ht hr f3 fun p hp => ?_⟩
    have hpos : (positions (w.container u).shape) = positions t.shape := congrArg positions hs
    have := f2 _ p (by rw [hpos]; exact getElem?_rank hp)
    rw [this, hk _ p (getElem?_rank hp), hpos]
  | @exclusiveScan x y s f g k init hxy hx hy hk =>
    obtain ⟨t, ht, rfl, hr⟩ := shaped_ready h hx
    obtain ⟨u, hu, hs, hru, he⟩ := value_ready h hy
    obtain ⟨m, f1, f3, f2⟩ := C39_exclusive_scan_partial w.mem (w.container u) (w.container t) hs.symm hr.distinct hr.valid
      (noClobber_tables h.inv ht hu hr hru hs)
      (fun p hp => apart h.inv ht hu hr hru hxy hp (show InBox u.shape p from hs ▸ hp)) f he init g (fun e => e)
    refine ⟨_, act_ok f1 (by simp only [World.act, ht, hu]; rfl), h.wrote ht hr f3 fun p hp => ?_⟩
    have hpos : (positions (w.container u).shape) = positions t.shape := congrArg positions hs
    have := f2 _ p (by rw [hpos]; exact getElem?_rank hp)
    rw [this, hk _ p (getElem?_rank hp), hpos]
  | @fillAt x s f g sl ls v hx hp hmd hg1 hg2 =>
    classical
    obtain ⟨t, ht, rfl, hr, he⟩ := value_ready h hx
    obtain ⟨c, m, s1, f1, f3, f2⟩ := C112_fill md hr.default (ls := ls) hp hmd he v
    refine ⟨_, act_ok f1 (by simp only [World.act, ht, s1]; rfl), h.wrote ht hr f3 fun p hb => ?_⟩
    by_cases hsel : Selected ls p
    · rw [(f2 p hb).1 hsel, hg1 p hsel]
    · rw [(f2 p hb).2 hsel, hg2 p hsel]
  | @copyAt x y s t' f g k sl sl' ls ls' hxy hx hy hp hp' hmd hmd' hlen hg1 hg2 =>
    classical
    obtain ⟨t, ht, rfl, hr, he⟩ := value_ready h hx
    obtain ⟨u, hu, rfl, hru, heu⟩ := value_ready h hy
    obtain ⟨out, a1, a2, a3, a4, a5⟩ := slice_facts md hr.default (ls := ls) hp hmd
    obtain ⟨inp, b1, b2, b3, b4, b5⟩ := slice_facts md hru.default (ls := ls') hp' hmd'
    have hsh : out.shape = inp.shape := by
      rw [a2, b2]
      have := congrArg (List.map fun n : Nat => (n : Int)) hlen
      simpa [pickShape, Function.comp_def] using this
    obtain ⟨m, f1, f2, f3, -⟩ := C37_copy w.mem out inp a3 (fun i hi => ⟨_, slice_elems he a4 i hi⟩)
      (fun p q hp hq _ => by
        rw [(a4 q hq).2, (b4 p (hsh ▸ hp)).2]
        exact apart h.inv ht hu hr hru hxy (a4 q hq).1 (b4 p (hsh ▸ hp)).1) (fun i => k (pickAt ls' i))
      (fun p hp => slice_elems heu b4 p (hsh ▸ hp)) (w.junk ⟨0, 0⟩)
    obtain ⟨o1, o2⟩ := seen_outside hr.default a2 a4 f3
    refine ⟨_, act_ok f1 (by simp only [World.act, ht, hu, a1, b1]; rfl), h.wrote ht hr o2 fun p hb => ?_⟩
    by_cases hsel : Selected ls p
    · obtain ⟨i, hi, rfl⟩ := selected_iff.1 hsel
      rw [hg1 i hi]
      rw [← a2] at hi
      have := f2 i hi
      unfold Container.get at this ⊢
      rwa [(a4 i hi).2] at this
    · rw [o1 p hb hsel, hg2 p hsel]
      exact he p hb

theorem sim_acts (md : Mode) {ext : Mem α} {base : Nat} {a a' : Values α} {acts : List (Act α)}
    (hold : ∀ p : Ptr, base ≤ p.blk → ext p = none) (hs : MeansActs md ext a acts a') {w : World α}
    (h : Sim ext base w a) : ∃ w', w.runActs md acts = .ok w' ∧ Sim ext base w' a' := by
  induction hs generalizing w with
  | nil => exact ⟨w, rfl, h⟩
  | cons h1 _ ih =>
    obtain ⟨w1, e1, hw1⟩ := sim_act md hold h h1
    obtain ⟨w2, e2, hw2⟩ := ih hw1
    refine ⟨w2, ?_, hw2⟩
    rw [← e2]
    simp [World.runActs, e1, bind, Except.bind]

/-- **C116** Programs that use tables and algorithms mean what they mean for plain values.  If a program is meaningful when
tables are thought of as values, then it runs without fault, at the end the objects are exactly those that the program makes of
values, the memory of the rest of the program is as before, and every block has one owner. -/
theorem C116_programs (md : Mode) (w : World α) (hw : Fresh w) (acts : List (Act α)) (a : Values α)
    (h : MeansActs md w.mem (fun _ => .absent) acts a) :
    ∃ w', w.runActs md acts = .ok w' ∧ Shows w' a ∧ (∀ p : Ptr, p.blk < w.next → w'.mem p = w.mem p) ∧ Owned w' := by
  obtain ⟨w', e, hs⟩ := sim_acts md hw.old h (fresh_sim hw)
  exact ⟨w', e, hs.shows, hs.ext, inv_owned hs.inv⟩

/-- **C116** What a program then computes from a table is what is computed from its value. -/
theorem C116_reading {β : Type} [DecidableEq α] (md : Mode) (w : World α) (hw : Fresh w) (acts : List (Act α)) (a : Values α)
    (h : MeansActs md w.mem (fun _ => .absent) acts a) (x : Nat) (s : Shape) (f : List Int → α) (hx : a x = .value s f) :
    ∃ w' t, w.runActs md acts = .ok w' ∧ w'.tables x = some t ∧
      (∀ (g : β → α → β) init, reduce w'.mem (w'.container t) g init = .ok (((positions s).map f).foldl g init)) ∧
      (∀ c : α → Bool, ∃ r, findIf w'.mem (w'.container t) c = .ok r ∧ IsFirst s (fun p => c (f p) = true) r) ∧
      (∀ c : α → Bool, countIf w'.mem (w'.container t) c = .ok (Set.ncard {p | InBox s p ∧ c (f p) = true})) := by
  obtain ⟨w', e, hs⟩ := sim_acts md hw.old h (fresh_sim hw)
  obtain ⟨t, ht, rfl, hr, he⟩ := value_ready hs hx
  refine ⟨w', t, e, ht, fun g init => (C23_reduce_left_fold _ _ f he g init).2, fun c => ?_, fun c => ?_⟩
  · exact (C26_find_first (α := α) _ _ f he c (f [])).1
  · exact (C25_count (α := α) _ _ f he c (f [])).1

/-- Table 0 is 10 11 12 / 13 14 15, table 1 is a copy of it; 0 becomes the sum of both, then its second row is set to 0; in 1
the element 14 is replaced. -/
def exActs : List (Act Int) :=
  [.op (.make 0 5 [2, 3] none), .iota 0 (· + 1) 10, .op (.copy 1 0), .transform 0 List.sum [0, 1],
   .fillAt 0 [.index 1, .joker] 0, .replaceIf 1 (fun v => decide (v = 14)) 7]

/-- What the program does to values. -/
def exActValues : Values Int :=
  let f : List Int → Int := fun p => 10 + 3 * p.headD 0 + p.getLastD 0
  let a1 : Values Int := ((Values.set (fun _ => .absent) 0 (.raw [2, 3])).set 0 (.value [2, 3] f)).set 1 (.value [2, 3] f)
  let a2 := a1.set 0 (.value [2, 3] fun p => [f p, f p].sum)
  (a2.set 0 (.value [2, 3] fun p => if p.headD 0 = 1 ∧ p.length = 2 ∧ p.getLastD 0 ∈ upTo 3 then 0 else [f p, f p].sum)).set 1
    (.value [2, 3] fun p => if decide (f p = 14) = true then 7 else f p)

/-- The program is meaningful. -/
theorem exActs_means : MeansActs .checked exWorld.mem (fun _ => .absent) exActs exActValues := by
  refine .cons (.op (.blank rfl (by simp) (by decide))) ?_
  refine .cons (.iota (f := fun p => 10 + 3 * p.headD 0 + p.getLastD 0) (.inl rfl) ?_) ?_
  · intro k p hk
    have hlt : k < 6 := (List.getElem?_eq_some_iff.1 hk).1
    have : ∀ k : Nat, k < 6 → ∀ p ∈ positions [2, 3], (positions [2, 3])[k]? = some p →
        10 + 3 * p.headD 0 + p.getLastD 0 = (fun x : Int => x + 1)^[k] 10 := by decide
    exact this k hlt p (List.mem_of_getElem? hk) hk
  refine .cons (.op (.copy rfl rfl)) ?_
  refine .cons (.transform (s := [2, 3]) (.inr ⟨_, rfl⟩) (.cons rfl (.cons rfl .nil))) ?_
  refine .cons (.fillAt (ls := [[1], upTo 3]) rfl (.cons (.index (by decide) (by decide)) (.cons (.joker (by decide)) .nil))
    (by decide) (g := fun p => if p.headD 0 = 1 ∧ p.length = 2 ∧ p.getLastD 0 ∈ upTo 3 then 0 else
      [10 + 3 * p.headD 0 + p.getLastD 0, 10 + 3 * p.headD 0 + p.getLastD 0].sum) ?_ ?_) ?_
  · rintro p (_ | ⟨h1, _ | ⟨h2, ⟨⟩⟩⟩)
    have := List.mem_singleton.1 h1
    subst this
    rw [if_pos ⟨rfl, rfl, h2⟩]
  · intro p hp
    rw [if_neg]
    · rfl
    rintro ⟨h1, h2, h3⟩
    match p, h2 with
    | [x, y], _ => exact hp (.cons (List.mem_singleton.2 h1) (.cons h3 .nil))
  exact .cons (.replaceIf rfl) .nil

example := C116_programs .checked exWorld exWorld_fresh exActs exActValues exActs_means

example := C116_reading (β := Int) .checked exWorld exWorld_fresh exActs exActValues exActs_means 0 [2, 3] _ rfl

example : ∃ f g, exActValues 0 = .value [2, 3] f ∧ (positions [2, 3]).map f = [20, 22, 24, 0, 0, 0] ∧
    exActValues 1 = .value [2, 3] g ∧ (positions [2, 3]).map g = [10, 11, 12, 13, 7, 15] :=
  ⟨_, _, rfl, by decide, rfl, by decide⟩

/-- The same program, run on the model. -/
example : ((do
    let w ← exWorld.runActs .checked exActs
    (positions [2, 3]).mapM fun p => (w.tables 0).elim (.error .nullDeref) fun t => w.read t p) : Res (List Int)) =
      .ok [20, 22, 24, 0, 0, 0] := by decide +kernel

/-- Copying part of a table to another one, from right to left. -/
example : ((do
    let w ← exWorld.runActs .checked [.op (.make 0 5 [2, 3] none), .iota 0 (· + 1) 10, .op (.copy 1 0), .fill 0 0,
      .copyAt 0 [.index 1, slice (by_ := some (-1))] 1 [.index 0, .joker]]
    (positions [2, 3]).mapM fun p => (w.tables 0).elim (.error .nullDeref) fun t => w.read t p) : Res (List Int)) =
      .ok [0, 0, 0, 12, 11, 10] := by decide +kernel

end Kwk
