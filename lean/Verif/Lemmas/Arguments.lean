import Verif.Model.Arguments
import Verif.Lemmas.Loops
import Verif.Lemmas.Container
import Verif.Lemmas.Effects
import Verif.Lemmas.Writing

/-!
# Lemmas: parameters and captured variables as objects
-/

namespace Kwk
open Spec

variable {α ρ S T U V P : Type}

/-- Both fail alike, or both succeed with related results. -/
def Alike (R : S → T → Prop) : Res S → Res T → Prop
  | .ok s, .ok t => R s t
  | .error e, .error e' => e = e'
  | _, _ => False

theorem Alike.bind {R : S → T → Prop} {Q : U → V → Prop} {a : Res S} {b : Res T} {f : S → Res U} {g : T → Res V} (h : Alike R a b)
    (hf : ∀ s t, R s t → Alike Q (f s) (g t)) : Alike Q (a >>= f) (b >>= g) := by
  cases a <;> cases b
  · exact h
  · exact h.elim
  · exact h.elim
  · exact hf _ _ h

theorem Alike.imp {R Q : S → T → Prop} {a : Res S} {b : Res T} (h : Alike R a b) (hq : ∀ s t, R s t → Q s t) : Alike Q a b := by
  cases a <;> cases b
  · exact h
  · exact h.elim
  · exact h.elim
  · exact hq _ _ h

theorem Alike.refl {R : S → S → Prop} (h : ∀ s, R s s) (a : Res S) : Alike R a a := by
  cases a
  · rfl
  · exact h _

/-- Blocks from `next` on do not exist, those below `n` do. -/
structure Sound (n : Nat) (s : Objs α) : Prop where
  le : n ≤ s.next
  none : ∀ q : Ptr, s.next ≤ q.blk → s.mem q = none

/-- The frame with one more object. -/
def Objs.push (s : Objs α) (v : α) : Objs α := ⟨fun q => if q = ⟨s.next, 0⟩ then some v else s.mem q, s.next + 1⟩

theorem param_ok {s : Objs α} {p : Ptr} {v : α} (h : load s.mem p = .ok v) : param p s = .ok (⟨s.next, 0⟩, s.push v) := by
  unfold param; rw [h]; rfl

theorem param_error {s : Objs α} {p : Ptr} {e : Fault} (h : load s.mem p = .error e) : param p s = .error e := by
  unfold param; rw [h]; rfl

theorem push_top (s : Objs α) (v : α) : (s.push v).mem ⟨s.next, 0⟩ = some v := by simp [Objs.push]

theorem push_below {s : Objs α} {v : α} {q : Ptr} (h : q.blk < s.next) : (s.push v).mem q = s.mem q := by
  have : q ≠ ⟨s.next, 0⟩ := by rintro rfl; simp at h
  simp [Objs.push, this]

theorem push_sound {n : Nat} {s : Objs α} {v : α} (h : Sound n s) : Sound n (s.push v) := by
  refine ⟨Nat.le_succ_of_le h.le, fun q hq => ?_⟩
  have hq' : s.next + 1 ≤ q.blk := hq
  have : q ≠ ⟨s.next, 0⟩ := by rintro rfl; simp at hq'
  simp only [Objs.push, this, if_false]
  exact h.none q (by omega)

theorem cut_congr {n : Nat} {m m' : Mem α} (h : ∀ q : Ptr, q.blk < n → m q = m' q) : upToBlock n m = upToBlock n m' := by
  funext q
  unfold upToBlock
  split
  · exact h q ‹_›
  · rfl

theorem push_cut {n : Nat} {s : Objs α} {v : α} (h : n ≤ s.next) : upToBlock n (s.push v).mem = upToBlock n s.mem :=
  cut_congr fun _ hq => push_below (Nat.lt_of_lt_of_le hq h)

theorem cut_cut {n k : Nat} (h : n ≤ k) (m : Mem α) : upToBlock n (upToBlock k m) = upToBlock n m := by
  refine cut_congr fun q hq => ?_
  unfold upToBlock
  rw [if_pos (by omega)]

theorem load_cut {n : Nat} {m : Mem α} {p : Ptr} (h : p.blk < n) : load (upToBlock n m) p = load m p := by
  unfold load upToBlock
  rw [if_pos h]

theorem load_of {m : Mem α} {p : Ptr} {v : α} (h : m p = some v) : load m p = .ok v := by
  unfold load; rw [h]

theorem some_of_load {m : Mem α} {p : Ptr} {v : α} (h : load m p = .ok v) : m p = some v := by
  unfold load at h
  split at h
  · simp_all
  · cases h

theorem store_cut {n : Nat} {m : Mem α} {p : Ptr} (h : p.blk < n) (v : α) :
    Alike (fun t u => upToBlock n t = u ∧ ∀ q : Ptr, n ≤ q.blk → t q = m q) (store m p v) (store (upToBlock n m) p v) := by
  unfold store
  rw [show upToBlock n m p = m p by unfold upToBlock; rw [if_pos h]]
  cases m p with
  | none => rfl
  | some w =>
    refine ⟨?_, fun q hq => ?_⟩
    · funext q
      unfold upToBlock
      by_cases e : q = p
      · subst e; simp [h]
      · simp [e]
    · have : q ≠ p := by rintro rfl; omega
      simp [this]

theorem store_local {m : Mem α} {p : Ptr} {w : α} (h : m p = some w) (v : α) :
    store m p v = .ok fun q => if q = p then some v else m q := by
  unfold store; rw [h]

theorem addr_block (c : Container) (is : List Int) : (c.addr is).blk = c.base.blk := rfl

/-- What a function does: on the blocks below `n` what `b` says, and nothing to the other objects. -/
def Acts (n : Nat) (s : Objs α) : Res (ρ × Objs α) → Res (ρ × Mem α) → Prop :=
  Alike fun a b => a.1 = b.1 ∧ upToBlock n a.2.mem = b.2 ∧ a.2.next = s.next ∧ ∀ q : Ptr, n ≤ q.blk → a.2.mem q = s.mem q

/-- What a body does, before the objects made in it are destroyed. -/
def Inner (n : Nat) (s : Objs α) : Res (ρ × Objs α) → Res (ρ × Mem α) → Prop :=
  Alike fun a b => a.1 = b.1 ∧ upToBlock n a.2.mem = b.2 ∧ ∀ q : Ptr, n ≤ q.blk → q.blk < s.next → a.2.mem q = s.mem q

theorem Inner.scope {n : Nat} {s : Objs α} (hs : Sound n s) {act : Calls α ρ} {b : Res (ρ × Mem α)} (h : Inner n s (act s) b) :
    Acts n s (inScope act s) b := by
  unfold inScope
  rw [← bind_pure b]
  refine Alike.bind h ?_
  rintro ⟨r, t⟩ ⟨r', m⟩ ⟨h1, h2, h3⟩
  refine ⟨h1, ?_, rfl, fun q hq => ?_⟩
  · exact (cut_cut hs.le _).trans h2
  · show upToBlock s.next t.mem q = s.mem q
    unfold upToBlock
    split
    · exact h3 q hq ‹_›
    · exact (hs.none q (by omega)).symm

/-- `t` has more objects than `s`. -/
structure Above (n : Nat) (s t : Objs α) : Prop where
  sound : Sound n t
  le : s.next ≤ t.next
  upToBlock : Kwk.upToBlock n t.mem = Kwk.upToBlock n s.mem
  same : ∀ q : Ptr, q.blk < s.next → t.mem q = s.mem q

theorem Above.refl {n : Nat} {s : Objs α} (h : Sound n s) : Above n s s := ⟨h, Nat.le_refl _, rfl, fun _ _ => rfl⟩

theorem Above.push {n : Nat} {s t : Objs α} (h : Above n s t) (v : α) : Above n s (t.push v) :=
  ⟨push_sound h.sound, Nat.le_succ_of_le h.le, (push_cut h.sound.le).trans h.upToBlock,
    fun q hq => (push_below (Nat.lt_of_lt_of_le hq h.le)).trans (h.same q hq)⟩

theorem Above.load {n : Nat} {s t : Objs α} (h : Above n s t) {p : Ptr} (hp : p.blk < s.next) : load s.mem p = Kwk.load t.mem p := by
  unfold Kwk.load; rw [h.same p hp]

theorem Acts.body {n : Nat} {s t : Objs α} (ht : Above n s t) {a : Res (ρ × Objs α)} {b : Res (ρ × Mem α)} (h : Acts n t a b) :
    Inner n s a b :=
  Alike.imp h fun _ _ ⟨h1, h2, _, h4⟩ => ⟨h1, h2, fun q hq hq' => (h4 q hq).trans (ht.same q hq')⟩

/-- A body that begins with the copy of an object. -/
theorem body_param {n : Nat} {s t : Objs α} {p : Ptr} {prog : Ptr → Calls α ρ} {A : α → Res (ρ × Mem α)}
    (h : ∀ v, load t.mem p = .ok v → Inner n s (prog ⟨t.next, 0⟩ (t.push v)) (A v)) :
    Inner n s ((param p >>= prog) t) (load t.mem p >>= A) := by
  show Inner n s (param p t >>= fun r => prog r.1 r.2) _
  cases hl : load t.mem p with
  | error e => rw [param_error hl]; rfl
  | ok v => rw [param_ok hl]; exact h v hl

/-- A function that copies its argument and calls another one. -/
theorem acts_forward {n : Nat} {prog : Ptr → Calls α ρ} {A : α → Mem α → Res (ρ × Mem α)}
    (h : ∀ s p, Sound n s → Acts n s (prog p s) (load s.mem p >>= fun v => A v (upToBlock n s.mem))) (s : Objs α) (p : Ptr) (hs : Sound n s) :
    Acts n s (inScope (param p >>= prog) s) (load s.mem p >>= fun v => A v (upToBlock n s.mem)) := by
  refine Inner.scope hs (body_param fun v _ => ?_)
  have := h (s.push v) ⟨s.next, 0⟩ (push_sound hs)
  rw [load_of (push_top s v), push_cut hs.le] at this
  exact Acts.body ((Above.refl hs).push v) this

/-- A function that copies two arguments and calls another one. -/
theorem acts_forward_two {n : Nat} {prog : Ptr → Ptr → Calls α ρ} {A : α → α → Mem α → Res (ρ × Mem α)}
    (h : ∀ s p p', Sound n s → p'.blk < s.next → Acts n s (prog p p' s)
      (load s.mem p >>= fun v => load s.mem p' >>= fun w => A v w (upToBlock n s.mem)))
    (s : Objs α) (p p' : Ptr) (hs : Sound n s) (hp' : p'.blk < s.next) :
    Acts n s (inScope (param p >>= fun q => param p' >>= fun q' => prog q q') s)
      (load s.mem p >>= fun v => load s.mem p' >>= fun w => A v w (upToBlock n s.mem)) := by
  refine Inner.scope hs (body_param fun v _ => ?_)
  have h1 := (Above.refl hs).push v
  rw [h1.load hp']
  refine body_param fun w _ => ?_
  have h2 := h1.push w
  have := h _ ⟨s.next, 0⟩ ⟨(s.push v).next, 0⟩ h2.sound (by simp [Objs.push])
  rw [load_of (push_top (s.push v) w), h2.upToBlock,
    load_of ((push_below (s := s.push v) (by simp [Objs.push])).trans (push_top s v))] at this
  exact Acts.body h2 this

/-! ## Loops -/

theorem runAll_sim {R : Objs α → T → Prop} {f : P → Calls α Unit} {g : T → P → Res T} (l : List P)
    (h : ∀ p ∈ l, ∀ s t, R s t → Alike (fun a b => R a.2 b) (f p s) (g t p)) {s : Objs α} {t : T} (h0 : R s t) :
    Alike (fun a b => R a.2 b) (runAll f l s) (l.foldlM g t) := by
  induction l generalizing s t with
  | nil => exact h0
  | cons p l ih =>
    rw [List.foldlM_cons]
    show Alike _ (f p s >>= fun r => runAll f l r.2) _
    exact Alike.bind (h p (by simp) s t h0) fun a b hab => ih (fun q hq => h q (by simp [hq])) hab

/-- `map` with a function object that has no members. -/
theorem mapObj_sim {R : Objs α → T → Prop} {f : Ptr → List Ptr → Calls α Unit} {g : T → List Int → Res T} {c : Container}
    {cs : List Container} {n : Nat} {s : Objs α} (hR : ∀ t τ, R t τ → t.next = s.next ∧ Sound n t)
    (h : ∀ p, ∀ t τ, R t τ → Alike (fun a b => R a.2 b) (f (c.addr p) (cs.map fun c => c.addr p) t) (g τ p)) {τ : T} (h0 : R s τ) :
    Alike (fun a b => R a.2 b) (mapObj [] (fun _ => f) c cs s) ((positions c.shape).foldlM g τ) := by
  unfold mapObj inScope
  have key := runAll_sim (f := fun p => f (c.addr p) (cs.map fun c => c.addr p)) (g := g) (R := R) (positions c.shape)
    (fun p _ t τ ht => h p t τ ht) h0
  rw [← forEach_eq] at key
  rw [← bind_pure (List.foldlM _ _ _)]
  refine Alike.bind (R := fun a b => R a.2 b) key ?_
  rintro ⟨u, t⟩ τ' ht
  show R ⟨upToBlock s.next t.mem, s.next⟩ τ'
  have h1 := (hR t τ' ht).1
  have h2 := (hR t τ' ht).2
  have : upToBlock s.next t.mem = t.mem := by
    funext q
    unfold upToBlock
    split
    · rfl
    · exact (h2.none q (by rw [h1]; omega)).symm
  rw [this, ← h1]
  exact ht

/-! ## Steps of the loops -/

/-- The frame during a loop whose variables are not changed: `m` is what the blocks below `n` hold. -/
structure Still (n : Nat) (s : Objs α) (t : Objs α) (m : Mem α) : Prop where
  upToBlock : Kwk.upToBlock n t.mem = m
  next : t.next = s.next
  same : ∀ q : Ptr, n ≤ q.blk → t.mem q = s.mem q

/-- The frame during a loop that changes the object `x`, which holds `σ` now. -/
structure Moving (n : Nat) (s : Objs α) (x : Ptr) (t : Objs α) (τ : α × Mem α) : Prop where
  upToBlock : Kwk.upToBlock n t.mem = τ.2
  next : t.next = s.next
  var : t.mem x = some τ.1
  same : ∀ q : Ptr, n ≤ q.blk → q ≠ x → t.mem q = s.mem q

theorem Still.sound {n : Nat} {s t : Objs α} {m : Mem α} (hs : Sound n s) (h : Still n s t m) : t.next = s.next ∧ Sound n t :=
  ⟨h.next, h.next ▸ hs.le, fun q hq => (h.same q (by rw [h.next] at hq; exact hs.le.trans hq)).trans (hs.none q (h.next ▸ hq))⟩

theorem Moving.sound {n : Nat} {s t : Objs α} {x : Ptr} {τ : α × Mem α} (hs : Sound n s) (hx : x.blk < s.next) (h : Moving n s x t τ) :
    t.next = s.next ∧ Sound n t :=
  ⟨h.next, h.next ▸ hs.le, fun q hq => by
    rw [h.next] at hq
    exact (h.same q (hs.le.trans hq) (by rintro rfl; omega)).trans (hs.none q hq)⟩

theorem Still.write {n : Nat} {s t : Objs α} {m : Mem α} (h : Still n s t m) {o : Ptr} (ho : o.blk < n) (v : α) :
    Alike (fun a b => Still n s a.2 b) (writeObj o v t) (store m o v) := by
  unfold writeObj
  rw [← bind_pure (store m o v), ← h.upToBlock]
  exact Alike.bind (store_cut ho v) fun a b ⟨h1, h2⟩ => ⟨h1, h.next, fun q hq => (h2 q hq).trans (h.same q hq)⟩

theorem Moving.write {n : Nat} {s t : Objs α} {x : Ptr} {τ : α × Mem α} (h : Moving n s x t τ) (hx : n ≤ x.blk) {o : Ptr} (ho : o.blk < n)
    (v : α) : Alike (fun a b => Moving n s x a.2 (τ.1, b)) (writeObj o v t) (store τ.2 o v) := by
  unfold writeObj
  rw [← bind_pure (store τ.2 o v), ← h.upToBlock]
  exact Alike.bind (store_cut ho v) fun a b ⟨h1, h2⟩ =>
    ⟨h1, h.next, (h2 x hx).trans h.var, fun q hq hq' => (h2 q hq).trans (h.same q hq hq')⟩

theorem Moving.set {n : Nat} {s t : Objs α} {x : Ptr} {τ : α × Mem α} (h : Moving n s x t τ) (hx : n ≤ x.blk) (v : α) :
    ∃ t', writeObj x v t = .ok ((), t') ∧ Moving n s x t' (v, τ.2) := by
  unfold writeObj
  rw [store_local h.var v]
  refine ⟨_, rfl, ?_, h.next, by simp, fun q hq hq' => by simp [hq', h.same q hq hq']⟩
  rw [← h.upToBlock]
  refine cut_congr fun q hq => ?_
  have : q ≠ x := by rintro rfl; omega
  simp [this]

theorem readObj_ok {t : Objs α} {p : Ptr} {v : α} (h : t.mem p = some v) : readObj p t = .ok (v, t) := by
  unfold readObj; rw [load_of h]; rfl

theorem readObj_cell {n : Nat} {t : Objs α} {m : Mem α} (h : upToBlock n t.mem = m) {p : Ptr} (hp : p.blk < n) :
    readObj p t = (do let v ← load m p; pure (v, t)) := by
  unfold readObj; rw [← h, load_cut hp]

theorem bind_read {t : Objs α} {p : Ptr} {v : α} (h : t.mem p = some v) (f : α → Calls α ρ) : (readObj p >>= f) t = f v t := by
  show (readObj p t >>= fun r => f r.1 r.2) = _
  rw [readObj_ok h]; rfl

theorem bind_cell {n : Nat} {t : Objs α} {m : Mem α} (h : upToBlock n t.mem = m) {p : Ptr} (hp : p.blk < n) (f : α → Calls α ρ) :
    (readObj p >>= f) t = (load m p >>= fun v => f v t) := by
  show (readObj p t >>= fun r => f r.1 r.2) = _
  rw [readObj_cell h hp]
  cases load m p <;> rfl

theorem bind_done {t t' : Objs α} {act : Calls α Unit} (h : act t = .ok ((), t')) (f : Unit → Calls α ρ) : (act >>= f) t = f () t' := by
  show (act t >>= fun r => f r.1 r.2) = _
  rw [h]; rfl

/-! ## The algorithms -/

theorem Still.init {n : Nat} {s : Objs α} : Still n s s (Kwk.upToBlock n s.mem) := ⟨rfl, rfl, fun _ _ => rfl⟩

theorem Moving.init {n : Nat} {s : Objs α} {x : Ptr} {v : α} (h : s.mem x = some v) : Moving n s x s (v, Kwk.upToBlock n s.mem) :=
  ⟨rfl, rfl, h, fun _ _ _ => rfl⟩

theorem Still.body {n : Nat} {s u t : Objs α} (hu : Above n s u) {r : ρ} {m : Mem α} (h : Still n u t m) :
    Inner n s (.ok (r, t)) (.ok (r, m)) := ⟨rfl, h.upToBlock, fun q hq hq' => (h.same q hq).trans (hu.same q hq')⟩

theorem Moving.body {n : Nat} {s u t : Objs α} (hu : Above n s u) {x : Ptr} (hx : s.next ≤ x.blk) {r : ρ} {τ : α × Mem α}
    (h : Moving n u x t τ) : Inner n s (.ok (r, t)) (.ok (r, τ.2)) :=
  ⟨rfl, h.upToBlock, fun q hq hq' => (h.same q hq (by rintro rfl; omega)).trans (hu.same q hq')⟩

theorem body_end {R : Objs α → T → Prop} {n : Nat} {s : Objs α} {a : Res (Unit × Objs α)} {b : Res T} {k : T → Mem α}
    (key : Alike (fun a b => R a.2 b) a b) (h : ∀ t τ, R t τ → Inner n s (.ok ((), t)) (.ok ((), k τ))) :
    Inner n s a (b >>= fun τ => pure ((), k τ)) := by
  rw [← bind_pure a]
  exact Alike.bind key fun a b hab => h a.2 b hab

theorem fill_acts {n : Nat} {c : Container} (hc : c.base.blk < n) (s : Objs α) (p : Ptr) (hs : Sound n s) :
    Acts n s (fillObjCtx c p s) (load s.mem p >>= fun v => fill (upToBlock n s.mem) c v >>= fun m => pure ((), m)) := by
  refine Inner.scope hs (body_param fun v _ => ?_)
  have h1 := (Above.refl hs).push v
  unfold fill mapCtx
  rw [loopState_eq, bind_assoc]
  refine body_end (R := fun t (τ : Unit × Mem α) => Still n (s.push v) t τ.2) (k := fun τ => τ.2)
    (mapObj_sim (n := n) (R := fun t (τ : Unit × Mem α) => Still n (s.push v) t τ.2) (fun t τ h => h.sound h1.sound) (fun is t τ h => ?_) ?_) fun t τ h => h.body h1
  · rw [bind_read ((h.same _ hs.le).trans (push_top s v)), ← bind_pure (writeObj _ _ t)]
    exact Alike.bind (h.write (by exact hc) v) fun _ _ h => h
  · rw [← h1.upToBlock]
    exact Still.init

theorem iota_acts (incr : α → α) {n : Nat} {c : Container} (hc : c.base.blk < n) (s : Objs α) (p : Ptr) (hs : Sound n s) :
    Acts n s (iotaObjCtx incr c p s) (load s.mem p >>= fun v => iota (upToBlock n s.mem) c incr (fun x => x) v >>= fun m => pure ((), m)) := by
  refine Inner.scope hs (body_param fun v _ => ?_)
  have h1 := (Above.refl hs).push v
  unfold iota mapCtx
  rw [loopState_eq, bind_assoc]
  refine body_end (R := fun t τ => Moving n (s.push v) ⟨s.next, 0⟩ t τ) (k := fun τ => τ.2) (mapObj_sim (n := n)
    (fun t τ h => h.sound h1.sound (by simp [Objs.push])) (fun is t τ h => ?_) ?_) fun t τ h => h.body h1 (Nat.le_refl _)
  · rw [bind_read h.var]
    obtain ⟨t', h1, h2⟩ := h.set hs.le (incr τ.1)
    rw [bind_done h1, ← bind_pure (writeObj _ _ t')]
    exact Alike.bind (h2.write hs.le (by exact hc) τ.1) fun _ _ h => h
  · rw [← h1.upToBlock]
    exact Moving.init (push_top s v)

theorem iotaStep_acts [Add α] {n : Nat} {c : Container} (hc : c.base.blk < n) (s : Objs α) (p p' : Ptr) (hs : Sound n s)
    (hp' : p'.blk < s.next) :
    Acts n s (iotaStepObjCtx c p p' s) (load s.mem p >>= fun v => load s.mem p' >>= fun w =>
      iotaStep (upToBlock n s.mem) c (fun x => x) v w >>= fun m => pure ((), m)) := by
  refine Inner.scope hs (body_param fun v _ => ?_)
  have h1 := (Above.refl hs).push v
  rw [h1.load hp']
  refine body_param fun w _ => ?_
  have h2 := h1.push w
  unfold iotaStep mapCtx
  rw [loopState_eq, bind_assoc]
  have hv : ((s.push v).push w).mem ⟨s.next, 0⟩ = some v := (push_below (s := s.push v) (by simp [Objs.push])).trans (push_top s v)
  refine body_end (R := fun t τ => Moving n ((s.push v).push w) ⟨s.next, 0⟩ t τ) (k := fun τ => τ.2) (mapObj_sim (n := n)
    (fun t τ h => h.sound h2.sound (by simp [Objs.push])) (fun is t τ h => ?_) ?_) fun t τ h => h.body h2 (Nat.le_refl _)
  · rw [bind_read h.var]
    refine Alike.bind (h.write hs.le (by exact hc) τ.1) ?_
    rintro ⟨u, t'⟩ m' h'
    replace h' : Moving n _ _ t' (τ.1, m') := h'
    have hd : t'.mem ⟨(s.push v).next, 0⟩ = some w :=
      (h'.same _ (hs.le.trans (Nat.le_succ _)) (by simp [Objs.push])).trans (push_top (s.push v) w)
    obtain ⟨t'', h3, h4⟩ := h'.set hs.le (τ.1 + w)
    show Alike _ ((readObj _ >>= fun v => readObj _ >>= fun d => writeObj _ (v + d)) t') _
    rw [bind_read h'.var, bind_read hd, h3]
    exact h4
  · rw [← h2.upToBlock]
    exact Moving.init hv

theorem exclusive_acts (f1 : α → α → α) (f2 : α → α) {n : Nat} {c d : Container} (hc : c.base.blk < n) (hd : d.base.blk < n) (s : Objs α)
    (p : Ptr) (hs : Sound n s) :
    Acts n s (exclusiveScanObjCtx f1 f2 c d p s) (load s.mem p >>= fun v =>
      transformExclusiveScan (upToBlock n s.mem) c d v f1 f2 >>= fun m => pure ((), m)) := by
  refine Inner.scope hs (body_param fun v _ => ?_)
  have h1 := (Above.refl hs).push v
  have e : (transformExclusiveScan (upToBlock n s.mem) c d v f1 f2 >>= fun m => (pure ((), m) : Res (Unit × Mem α))) =
      (load (s.push v).mem ⟨s.next, 0⟩ >>= fun v => transformExclusiveScan (upToBlock n s.mem) c d v f1 f2 >>= fun m => pure ((), m)) := by
    rw [load_of (push_top s v)]; rfl
  rw [e]
  refine body_param fun w _ => ?_
  have h2 := h1.push w
  unfold transformExclusiveScan mapCtx
  rw [loopState_eq, bind_assoc]
  refine body_end (R := fun t τ => Moving n ((s.push v).push w) ⟨(s.push v).next, 0⟩ t τ) (k := fun τ => τ.2) (mapObj_sim (n := n)
    (fun t τ h => h.sound h2.sound (by simp [Objs.push])) (fun is t τ h => ?_) ?_) fun t τ h => h.body h2 h1.le
  · rw [bind_read h.var]
    refine Alike.bind (h.write h1.sound.le (by exact hd) τ.1) ?_
    rintro ⟨u, t'⟩ m' h'
    replace h' : Moving n _ _ t' (τ.1, m') := h'
    show Alike _ ((readObj _ >>= fun v => readObj _ >>= fun x => writeObj _ (f1 v (f2 x))) t') _
    rw [bind_read h'.var, bind_cell h'.upToBlock (by exact hc)]
    refine Alike.bind (R := fun a b => a = b) (Alike.refl (fun _ => rfl) _) ?_
    rintro x _ rfl
    obtain ⟨t'', h3, h4⟩ := h'.set h1.sound.le (f1 τ.1 (f2 x))
    rw [h3]
    exact h4
  · rw [← h2.upToBlock]
    exact Moving.init (push_top _ w)

theorem inclusive_acts (f1 : α → α → α) (f2 : α → α) {n : Nat} {c d : Container} (hc : c.base.blk < n) (hd : d.base.blk < n) (s : Objs α)
    (p : Ptr) (hs : Sound n s) :
    Acts n s (inclusiveScanObjCtx f1 f2 c d p s) (load s.mem p >>= fun v =>
      transformInclusiveScan (upToBlock n s.mem) c d v f1 f2 >>= fun m => pure ((), m)) := by
  refine Inner.scope hs (body_param fun v _ => ?_)
  have h1 := (Above.refl hs).push v
  have e : (transformInclusiveScan (upToBlock n s.mem) c d v f1 f2 >>= fun m => (pure ((), m) : Res (Unit × Mem α))) =
      (load (s.push v).mem ⟨s.next, 0⟩ >>= fun v => transformInclusiveScan (upToBlock n s.mem) c d v f1 f2 >>= fun m => pure ((), m)) := by
    rw [load_of (push_top s v)]; rfl
  rw [e]
  refine body_param fun w _ => ?_
  have h2 := h1.push w
  unfold transformInclusiveScan mapCtx
  rw [loopState_eq, bind_assoc]
  refine body_end (R := fun t τ => Moving n ((s.push v).push w) ⟨(s.push v).next, 0⟩ t τ) (k := fun τ => τ.2) (mapObj_sim (n := n)
    (fun t τ h => h.sound h2.sound (by simp [Objs.push])) (fun is t τ h => ?_) ?_) fun t τ h => h.body h2 h1.le
  · rw [bind_read h.var, bind_cell h.upToBlock (by exact hc)]
    refine Alike.bind (R := fun a b => a = b) (Alike.refl (fun _ => rfl) _) ?_
    rintro x _ rfl
    obtain ⟨t', h3, h4⟩ := h.set h1.sound.le (f1 τ.1 (f2 x))
    rw [bind_done h3, bind_read h4.var, ← bind_pure (writeObj _ _ t')]
    exact Alike.bind (h4.write h1.sound.le (by exact hd) _) fun _ _ h => h
  · rw [← h2.upToBlock]
    exact Moving.init (push_top _ w)

theorem reduce_acts (f : α → α → α) {n : Nat} {c : Container} (hc : c.base.blk < n) (s : Objs α) (p : Ptr) (hs : Sound n s) :
    Acts n s (reduceObjCtx f c p s) (load s.mem p >>= fun v => reduceRun (upToBlock n s.mem) c f v) := by
  refine Inner.scope hs (body_param fun v _ => ?_)
  have h1 := (Above.refl hs).push v
  unfold reduceRun mapCtx
  rw [loopState_eq, ← bind_pure (List.foldlM _ _ _)]
  refine Alike.bind (mapObj_sim (n := n) (R := fun t τ => Moving n (s.push v) ⟨s.next, 0⟩ t τ)
    (fun t τ h => h.sound h1.sound (by simp [Objs.push])) (fun is t τ h => ?_) ?_) ?_
  · rw [bind_read h.var, bind_cell h.upToBlock (by exact hc)]
    refine Alike.bind (R := fun a b => a = b) (Alike.refl (fun _ => rfl) _) ?_
    rintro x _ rfl
    obtain ⟨t', h3, h4⟩ := h.set hs.le (f τ.1 x)
    rw [h3]
    exact h4
  · rw [← h1.upToBlock]
    exact Moving.init (push_top s v)
  · rintro ⟨u, t⟩ τ h
    replace h : Moving n _ _ t τ := h
    show Inner n s (readObj _ t) (.ok τ)
    rw [readObj_ok h.var]
    exact h.body h1 (Nat.le_refl _)

/-- The loop of `transform_reduce` and `inner_product`. -/
theorem pair_body (R T : α → α → α) {n : Nat} {c1 c2 : Container} (hc1 : c1.base.blk < n) (hc2 : c2.base.blk < n) {s : Objs α} (v : α)
    (hs : Sound n s) :
    Inner n s ((mapObj [] (fun _ i1 is => do
        let a ← readObj ⟨s.next, 0⟩
        let x ← readObj i1
        let y ← readObj (is.headD i1)
        writeObj ⟨s.next, 0⟩ (R a (T x y))) c1 [c2] >>= fun _ => readObj ⟨s.next, 0⟩) (s.push v))
      (transformReduce (upToBlock n s.mem) c1 c2 v R T >>= fun r => pure (r, upToBlock n s.mem)) := by
  have h1 := (Above.refl hs).push v
  unfold transformReduce mapCtx
  rw [loopState_eq, bind_assoc]
  refine Alike.bind (mapObj_sim (n := n) (R := fun t τ => Moving n (s.push v) ⟨s.next, 0⟩ t τ ∧ τ.2 = upToBlock n s.mem)
    (fun t τ h => h.1.sound h1.sound (by simp [Objs.push])) (fun is t τ h => ?_) ?_) ?_
  · rw [bind_read h.1.var, bind_cell h.1.upToBlock (by exact hc1)]
    refine Alike.bind (R := fun a b => a = b) (Alike.refl (fun _ => rfl) _) ?_
    rintro x _ rfl
    rw [bind_cell h.1.upToBlock (by exact hc2)]
    refine Alike.bind (R := fun a b => a = b) (Alike.refl (fun _ => rfl) _) ?_
    rintro y _ rfl
    obtain ⟨t', h3, h4⟩ := h.1.set hs.le (R τ.1 (T x y))
    rw [h3]
    exact ⟨h4, h.2⟩
  · refine ⟨?_, rfl⟩
    rw [← h1.upToBlock]
    exact Moving.init (push_top s v)
  · rintro ⟨u, t⟩ τ ⟨h, e⟩
    replace h : Moving n _ _ t τ := h
    show Inner n s (readObj _ t) (.ok (τ.1, upToBlock n s.mem))
    rw [readObj_ok h.var, ← e]
    exact h.body h1 (Nat.le_refl _)

theorem transformReduce_acts (R T : α → α → α) {n : Nat} {c1 c2 : Container} (hc1 : c1.base.blk < n) (hc2 : c2.base.blk < n)
    (s : Objs α) (p : Ptr) (hs : Sound n s) :
    Acts n s (transformReduceObjCtx R T c1 c2 p s) (load s.mem p >>= fun v =>
      transformReduce (upToBlock n s.mem) c1 c2 v R T >>= fun r => pure (r, upToBlock n s.mem)) :=
  Inner.scope hs (body_param fun v _ => pair_body R T hc1 hc2 v hs)

theorem innerProduct_acts (md : Mode) (R T : α → α → α) {n : Nat} {c1 c2 : Container} (hc1 : c1.base.blk < n) (hc2 : c2.base.blk < n)
    (s : Objs α) (p : Ptr) (hs : Sound n s) :
    Acts n s (innerProductObjCtx md R T c1 c2 p s) (load s.mem p >>= fun v =>
      innerProduct md (upToBlock n s.mem) c1 c2 v R T >>= fun r => pure (r, upToBlock n s.mem)) := by
  refine Inner.scope hs (body_param fun v _ => ?_)
  have key := pair_body R T hc1 hc2 v hs
  unfold innerProduct
  cases kwkAssert md (shapeEq c1.shape c2.shape) with
  | error e => rfl
  | ok u => exact key

/-! ## Function objects with members -/

/-- The values of several objects. -/
def loads (m : Mem α) : List Ptr → Res (List α)
  | [] => .ok []
  | p :: ps => load m p >>= fun v => loads m ps >>= fun vs => .ok (v :: vs)

theorem loads_same {m m' : Mem α} {ps : List Ptr} (h : ∀ p ∈ ps, m p = m' p) : loads m ps = loads m' ps := by
  induction ps with
  | nil => rfl
  | cons p ps ih =>
    unfold loads
    rw [ih fun q hq => h q (by simp [hq]), show load m p = load m' p by unfold load; rw [h p (by simp)]]

theorem loads_head {m : Mem α} {q d : Ptr} {qs : List Ptr} {l : List α} {w : α} (h : loads m (q :: qs) = .ok l) :
    ∃ z, m ((q :: qs).headD d) = some z ∧ l.headD w = z := by
  unfold loads at h
  cases h1 : load m q with
  | error e => rw [h1] at h; cases h
  | ok v =>
    rw [h1] at h
    cases h2 : loads m qs with
    | error e => rw [h2] at h; cases h
    | ok vs =>
      rw [h2] at h
      cases h
      exact ⟨v, some_of_load h1, rfl⟩

theorem loads_length {m : Mem α} {qs : List Ptr} {l : List α} (h : loads m qs = .ok l) : qs.length = l.length := by
  induction qs generalizing l with
  | nil => cases h; rfl
  | cons q qs ih =>
    unfold loads at h
    cases h1 : load m q with
    | error e => rw [h1] at h; cases h
    | ok v =>
      rw [h1] at h
      cases h2 : loads m qs with
      | error e => rw [h2] at h; cases h
      | ok vs =>
        rw [h2] at h
        cases h
        simp [ih h2]

theorem loads_tail {m : Mem α} {q : Ptr} {qs : List Ptr} {l : List α} (h : loads m (q :: qs) = .ok l) : loads m qs = .ok l.tail := by
  unfold loads at h
  cases h1 : load m q with
  | error e => rw [h1] at h; cases h
  | ok v =>
    rw [h1] at h
    cases h2 : loads m qs with
    | error e => rw [h2] at h; cases h
    | ok vs =>
      rw [h2] at h
      cases h
      rfl

/-- `qs` are objects of `t` made after `s`, with the values `vs`. -/
structure CopiedObjs (n : Nat) (s t : Objs α) (qs : List Ptr) (vs : List α) : Prop where
  above : Above n s t
  vals : loads t.mem qs = .ok vs
  fresh : ∀ q ∈ qs, s.next ≤ q.blk ∧ q.blk < t.next

theorem Above.trans {n : Nat} {s t u : Objs α} (h : Above n s t) (h' : Above n t u) : Above n s u :=
  ⟨h'.sound, h.le.trans h'.le, h'.upToBlock.trans h.upToBlock, fun q hq => (h'.same q (Nat.lt_of_lt_of_le hq h.le)).trans (h.same q hq)⟩

theorem CopiedObjs.mono {n : Nat} {s t u : Objs α} {qs : List Ptr} {vs : List α} (h : CopiedObjs n s t qs vs) (hu : Above n t u) : CopiedObjs n s u qs vs :=
  ⟨h.above.trans hu, (loads_same fun q hq => hu.same q (h.fresh q hq).2).trans h.vals,
    fun q hq => ⟨(h.fresh q hq).1, Nat.lt_of_lt_of_le (h.fresh q hq).2 hu.le⟩⟩

theorem params_spec {n : Nat} (ps : List Ptr) {s : Objs α} (hs : Sound n s) (hp : ∀ p ∈ ps, p.blk < s.next) :
    match loads s.mem ps with
    | .error e => params ps s = .error e
    | .ok vs => ∃ qs t, params ps s = .ok (qs, t) ∧ CopiedObjs n s t qs vs := by
  induction ps generalizing s with
  | nil => exact ⟨[], s, rfl, Above.refl hs, rfl, by simp⟩
  | cons p ps ih =>
    unfold loads params
    cases hl : load s.mem p with
    | error e =>
      show (param p s >>= fun r => (params ps >>= fun qs => pure (r.1 :: qs)) r.2) = _
      rw [param_error hl]; rfl
    | ok v =>
      have h1 := (Above.refl hs).push v
      have := ih h1.sound fun q hq => Nat.lt_succ_of_lt (hp q (by simp [hq]))
      rw [loads_same (m' := s.mem) fun q hq => push_below (hp q (by simp [hq]))] at this
      cases hv : loads s.mem ps with
      | error e =>
        rw [hv] at this
        show (param p s >>= fun r => (params ps >>= fun qs => pure (r.1 :: qs)) r.2) = _
        rw [param_ok hl]
        show (params ps (s.push v) >>= _) = _
        rw [show params ps (s.push v) = _ from this]
        rfl
      | ok vs =>
        rw [hv] at this
        obtain ⟨qs, t, e, h2⟩ := this
        refine ⟨⟨s.next, 0⟩ :: qs, t, ?_, h1.trans h2.above, ?_, ?_⟩
        · show (param p s >>= fun r => (params ps >>= fun qs => pure (r.1 :: qs)) r.2) = _
          rw [param_ok hl]
          show (params ps (s.push v) >>= _) = _
          rw [e]
          rfl
        · unfold loads
          rw [load_of ((h2.above.same _ (by simp [Objs.push])).trans (push_top s v)), h2.vals]
          rfl
        · intro q hq
          rcases List.mem_cons.1 hq with rfl | hq
          · exact ⟨Nat.le_refl _, Nat.lt_of_lt_of_le (Nat.lt_succ_self _) h2.above.le⟩
          · exact ⟨(Nat.le_succ _).trans (h2.fresh q hq).1, (h2.fresh q hq).2⟩

/-- A body that begins with the copies of several objects. -/
theorem body_params {n : Nat} {s t : Objs α} {ps : List Ptr} {prog : List Ptr → Calls α ρ} {A : List α → Res (ρ × Mem α)}
    (ht : Sound n t) (hp : ∀ p ∈ ps, p.blk < t.next)
    (h : ∀ vs, loads t.mem ps = .ok vs → ∀ qs u, CopiedObjs n t u qs vs → Inner n s (prog qs u) (A vs)) : Inner n s ((params ps >>= prog) t) (loads t.mem ps >>= A) := by
  show Inner n s (params ps t >>= fun r => prog r.1 r.2) _
  have := params_spec ps ht hp
  cases hl : loads t.mem ps with
  | error e => rw [hl] at this; rw [show params ps t = _ from this]; rfl
  | ok vs =>
    rw [hl] at this
    obtain ⟨qs, u, e, hm⟩ := this
    rw [e]
    exact h vs hl qs u hm

/-- The function object, with `k` members, answers from the values of its members. -/
def Pure (k : Nat) (call : List Ptr → α → Calls α Bool) (pr : List α → α → Bool) : Prop :=
  ∀ ps x t vs, vs.length = k → loads t.mem ps = .ok vs → call ps x t = .ok (pr vs x, t)

theorem replaceIf_acts {k : Nat} {call : List Ptr → α → Calls α Bool} {pr : List α → α → Bool} (hcall : Pure k call pr) {n : Nat} {c : Container}
    (hc : c.base.blk < n) (s : Objs α) (fs : List Ptr) (p : Ptr) (hs : Sound n s) (hk : fs.length = k)
    (hf : ∀ q ∈ fs, q.blk < s.next) (hp : p.blk < s.next) :
    Acts n s (replaceIfObjCtx c fs call p s) (loads s.mem fs >>= fun vs => load s.mem p >>= fun w =>
      replaceIf (upToBlock n s.mem) c (pr vs) w >>= fun m => pure ((), m)) := by
  refine Inner.scope hs (body_params hs hf fun vs hvs qs u hu => ?_)
  rw [hu.above.load hp]
  refine body_param fun w hw => ?_
  have h1 := hu.mono ((Above.refl hu.above.sound).push w)
  have e1 : (replaceIf (upToBlock n s.mem) c (pr vs) w >>= fun m => (pure ((), m) : Res (Unit × Mem α))) =
      (loads (u.push w).mem qs >>= fun vs => load (u.push w).mem ⟨u.next, 0⟩ >>= fun w =>
        replaceIf (upToBlock n s.mem) c (pr vs) w >>= fun m => pure ((), m)) := by
    rw [h1.vals, load_of (push_top u w)]; rfl
  rw [e1]
  refine body_params h1.above.sound (fun q hq => (h1.fresh q hq).2) fun vs' hvs' qs u' hu' => ?_
  rw [h1.vals] at hvs'
  cases hvs'
  rw [hu'.above.load (by simp [Objs.push])]
  refine body_param fun w _ => ?_
  have h2 := hu'.mono ((Above.refl hu'.above.sound).push w)
  have ha : Above n s (u'.push w) := h1.above.trans h2.above
  unfold mapObj
  have e2 : (replaceIf (upToBlock n s.mem) c (pr vs) w >>= fun m => (pure ((), m) : Res (Unit × Mem α))) =
      (loads (u'.push w).mem (⟨u'.next, 0⟩ :: qs) >>= fun l => replaceIf (upToBlock n s.mem) c (pr l.tail) (l.headD w) >>= fun m => pure ((), m)) := by
    unfold loads
    rw [h2.vals, load_of (push_top u' w)]; rfl
  rw [e2]
  refine Acts.body ha (Inner.scope ha.sound (body_params ha.sound ?_ fun l hl0 ls x hx => ?_))
  · intro q hq
    rcases List.mem_cons.1 hq with rfl | hq
    · simp [Objs.push]
    · exact (h2.fresh q hq).2
  have hax := ha.trans hx.above
  unfold replaceIf mapCtx
  rw [loopState_eq, bind_assoc, forEach_eq]
  refine body_end (R := fun t (τ : Unit × Mem α) => Still n x t τ.2) (k := fun τ => τ.2)
    (runAll_sim (R := fun t (τ : Unit × Mem α) => Still n x t τ.2) _ (fun is _ t τ h => ?_) ?_) fun t τ h => h.body hx.above
  · have hl : loads t.mem ls = .ok l :=
      (loads_same fun q hq => h.same q (ha.sound.le.trans (hx.fresh q hq).1)).trans hx.vals
    have hw : ∃ z, t.mem (ls.headD ⟨u'.next, 0⟩) = some z ∧ l.headD w = z := by
      cases ls with
      | nil =>
        cases hl
        exact ⟨w, (h.same _ hu'.above.sound.le).trans ((hx.above.same _ (by simp [Objs.push])).trans (push_top u' w)), rfl⟩
      | cons q qs => exact loads_head hl
    have hlen : l.tail.length = k := by
      unfold loads at hl0
      rw [load_of (push_top u' w), h2.vals] at hl0
      cases hl0
      rw [← hk]
      exact (loads_length hvs).symm
    have ht : loads t.mem ls.tail = .ok l.tail := by
      cases ls with
      | nil => cases hl; rfl
      | cons q qs => exact loads_tail hl
    obtain ⟨z, hz, ez⟩ := hw
    show Alike _ ((readObj (c.addr is) >>= fun x => call ls.tail x >>= fun b => if b = true then
      readObj (ls.headD ⟨u'.next, 0⟩) >>= fun v => writeObj (c.addr is) v else pure ()) t) _
    rw [bind_cell h.upToBlock (by exact hc)]
    refine Alike.bind (R := fun a b => a = b) (Alike.refl (fun _ => rfl) _) ?_
    rintro y _ rfl
    show Alike _ (call ls.tail y t >>= fun r => (if r.1 = true then
      readObj (ls.headD ⟨u'.next, 0⟩) >>= fun v => writeObj (c.addr is) v else pure () : Calls α Unit) r.2) _
    rw [hcall _ y t _ hlen ht]
    cases hb : pr l.tail y
    · exact h
    · show Alike _ ((readObj (ls.headD ⟨u'.next, 0⟩) >>= fun v => writeObj (c.addr is) v) t) _
      rw [bind_read hz, ez, ← bind_pure (writeObj _ _ t)]
      exact Alike.bind (h.write (by exact hc) z) fun _ _ h => h
  · rw [← hax.upToBlock]
    exact Still.init

theorem replaceIf_forward {k : Nat} {call : List Ptr → α → Calls α Bool} {pr : List α → α → Bool} (hcall : Pure k call pr) {n : Nat} {c : Container}
    (hc : c.base.blk < n) (s : Objs α) (fs : List Ptr) (p : Ptr) (hs : Sound n s) (hk : fs.length = k)
    (hf : ∀ q ∈ fs, q.blk < s.next) (hp : p.blk < s.next) :
    Acts n s (replaceIfObj c fs call p s) (loads s.mem fs >>= fun vs => load s.mem p >>= fun w =>
      replaceIf (upToBlock n s.mem) c (pr vs) w >>= fun m => pure ((), m)) := by
  refine Inner.scope hs (body_params hs hf fun vs hvs qs u hu => ?_)
  rw [hu.above.load hp]
  refine body_param fun w hw => ?_
  have h1 := hu.mono ((Above.refl hu.above.sound).push w)
  have hk' : qs.length = k := (loads_length h1.vals).trans ((loads_length hvs).symm.trans hk)
  have key := replaceIf_acts hcall hc (u.push w) qs ⟨u.next, 0⟩ h1.above.sound hk' (fun q hq => (h1.fresh q hq).2) (by simp [Objs.push])
  rw [h1.vals, load_of (push_top u w), h1.above.upToBlock] at key
  exact Acts.body h1.above key

theorem replace_acts [DecidableEq α] {n : Nat} {c : Container} (hc : c.base.blk < n) (s : Objs α) (p p' : Ptr) (hs : Sound n s)
    (hp' : p'.blk < s.next) :
    Acts n s (replaceObjCtx c p p' s) (load s.mem p >>= fun v => load s.mem p' >>= fun w =>
      replace (upToBlock n s.mem) c v w >>= fun m => pure ((), m)) := by
  refine Inner.scope hs (body_param fun v _ => ?_)
  have h1 := (Above.refl hs).push v
  rw [h1.load hp']
  refine body_param fun w _ => ?_
  have h2 := h1.push w
  have hv : load ((s.push v).push w).mem ⟨s.next, 0⟩ = .ok v :=
    load_of ((push_below (s := s.push v) (by simp [Objs.push])).trans (push_top s v))
  have e : (replace (upToBlock n s.mem) c v w >>= fun m => (pure ((), m) : Res (Unit × Mem α))) =
      (load ((s.push v).push w).mem ⟨s.next, 0⟩ >>= fun v => replace (upToBlock n s.mem) c v w >>= fun m => pure ((), m)) := by
    rw [hv]; rfl
  rw [e]
  refine body_param fun v' hv' => ?_
  rw [hv] at hv'
  cases hv'
  have h3 := h2.push v
  have key := replaceIf_acts (α := α) (k := 1)
    (call := fun fs x => readObj (fs.headD ⟨((s.push v).push w).next, 0⟩) >>= fun v => pure (decide (x = v)))
    (pr := fun vs x => decide (x = vs.headD v)) ?_ hc _ [⟨((s.push v).push w).next, 0⟩] ⟨(s.push v).next, 0⟩ h3.sound rfl
    (by simp [Objs.push]) (by simp [Objs.push])
  · have e1 : loads (((s.push v).push w).push v).mem [⟨((s.push v).push w).next, 0⟩] = .ok [v] := by
      unfold loads
      rw [load_of (push_top _ v)]; rfl
    rw [e1, load_of ((push_below (s := (s.push v).push w) (by simp [Objs.push])).trans (push_top (s.push v) w)), h3.upToBlock] at key
    exact Acts.body h3 key
  · intro ps x t vs hvs hl
    cases ps with
    | nil => cases hl; simp at hvs
    | cons q qs =>
      obtain ⟨z, h4, h5⟩ := loads_head (d := ⟨((s.push v).push w).next, 0⟩) (w := v) hl
      refine (bind_read h4 _).trans ?_
      show Except.ok (decide (x = z), t) = Except.ok (decide (x = vs.headD v), t)
      rw [h5]

/-! ## Reading algorithms -/

/-- Containers below `n` are read in `t` as in `s`, and `x` holds `v`. -/
structure Reads (n : Nat) (s t : Objs α) (x : Ptr) (v : α) : Prop where
  above : Above n s t
  var : t.mem x = some v

theorem reads_push {n : Nat} {s t : Objs α} (h : Above n s t) (v : α) : Reads n s (t.push v) ⟨t.next, 0⟩ v := ⟨h.push v, push_top t v⟩

theorem firstHit_reads {rd : P → Calls α α} {f : α → Calls α Bool} {rd' : P → Res α} {f' : α → Res Bool} {t : Objs α} (l : List P)
    (h1 : ∀ p, rd p t = (rd' p >>= fun v => .ok (v, t))) (h2 : ∀ v, f v t = (f' v >>= fun b => .ok (b, t))) :
    firstHit rd f l t = (firstHit rd' f' l >>= fun r => .ok (r, t)) := by
  induction l with
  | nil => rfl
  | cons p l ih =>
    unfold firstHit
    show (rd p t >>= fun r => (f r.1 >>= fun b => if b = true then pure (some p) else firstHit rd f l) r.2) = _
    rw [h1]
    cases rd' p with
    | error e => rfl
    | ok v =>
      show (f v t >>= fun r => (if r.1 = true then pure (some p) else firstHit rd f l : Calls α _) r.2) =
        ((f' v >>= fun b => if b = true then pure (some p) else firstHit rd' f' l) >>= fun r => .ok (r, t))
      rw [h2]
      cases f' v with
      | error e => rfl
      | ok b =>
        cases b
        · exact ih
        · rfl

theorem foldlM_reads {β : Type} {g : β → P → Calls α β} {g' : β → P → Res β} {t : Objs α} (l : List P)
    (h : ∀ a p, g a p t = (g' a p >>= fun b => .ok (b, t))) (a : β) : l.foldlM g a t = (l.foldlM g' a >>= fun r => .ok (r, t)) := by
  induction l generalizing a with
  | nil => rfl
  | cons p l ih =>
    rw [List.foldlM_cons, List.foldlM_cons]
    show (g a p t >>= fun r => List.foldlM g r.1 l r.2) = _
    rw [h]
    cases g' a p with
    | error e => rfl
    | ok b => exact ih b

theorem foldlM_counts {β M : Type} {g : β → P → Res β} {g' : β × M → P → Res (β × M)} {m : M} (l : List P)
    (h : ∀ a p, g' (a, m) p = (g a p >>= fun b => .ok (b, m))) (a : β) :
    l.foldlM g' (a, m) = (l.foldlM g a >>= fun r => .ok (r, m)) := by
  induction l generalizing a with
  | nil => rfl
  | cons p l ih =>
    rw [List.foldlM_cons, List.foldlM_cons, h]
    cases g a p with
    | error e => rfl
    | ok b => exact ih b

theorem read_elem {n : Nat} {s t : Objs α} (h : Above n s t) {c : Container} (hc : c.base.blk < n) (is : List Int) :
    readObj (c.addr is) t = (c.get (upToBlock n s.mem) is >>= fun v => .ok (v, t)) := by
  rw [← h.upToBlock]
  unfold readObj Container.get
  rw [load_cut (by exact hc)]
  rfl

theorem reads_body {n : Nat} {s t : Objs α} (h : Above n s t) (a : Res ρ) :
    Inner n s (a >>= fun r => .ok (r, t)) (a >>= fun r => pure (r, upToBlock n s.mem)) :=
  Alike.bind (R := fun a b => a = b) (Alike.refl (fun _ => rfl) a) fun a b e => by
    cases e
    exact ⟨rfl, h.upToBlock, fun q _ hq => h.same q hq⟩

theorem find_acts [DecidableEq α] {n : Nat} {c : Container} (hc : c.base.blk < n) (s : Objs α) (p : Ptr) (hs : Sound n s) :
    Acts n s (findObjCtx c p s) (load s.mem p >>= fun v => find (upToBlock n s.mem) c v >>= fun r => pure (r, upToBlock n s.mem)) := by
  refine Inner.scope hs (body_param fun v _ => ?_)
  have h := reads_push (Above.refl hs) v
  unfold find findIf
  rw [findIfM_eq, findIfM_eq, firstHit_reads (rd' := fun is => c.get (upToBlock n s.mem) is) (f' := fun e => pure (decide (e = v))) _
    (fun is => read_elem h.above hc is) (fun e => bind_read h.var _)]
  exact reads_body h.above _

theorem findLast_acts [DecidableEq α] {n : Nat} {c : Container} (hc : c.base.blk < n) (s : Objs α) (p : Ptr) (hs : Sound n s) :
    Acts n s (findLastObjCtx c p s) (load s.mem p >>= fun v => findLast (upToBlock n s.mem) c v >>= fun r => pure (r, upToBlock n s.mem)) := by
  refine Inner.scope hs (body_param fun v _ => ?_)
  have h := reads_push (Above.refl hs) v
  unfold findLast findLastIf findIf
  rw [findIfM_eq, findIfM_eq]
  show Inner n s ((firstHit (m := Calls α) (fun is => readObj ((reverse c).addr is)) (fun e => readObj ⟨s.next, 0⟩ >>= fun v => pure (decide (e = v)))
    (positions (reverse c).shape)) (s.push v) >>= _) _
  rw [firstHit_reads (rd' := fun is => (reverse c).get (upToBlock n s.mem) is) (f' := fun e => pure (decide (e = v))) _
    (fun is => read_elem h.above (c := reverse c) hc is) (fun e => bind_read h.var _), bind_assoc, bind_assoc]
  refine Alike.bind (R := fun a b => a = b) (Alike.refl (fun _ => rfl) _) fun a b e => ?_
  cases e
  exact ⟨rfl, h.above.upToBlock, fun q _ hq => h.above.same q hq⟩

theorem count_acts [DecidableEq α] {n : Nat} {c : Container} (hc : c.base.blk < n) (s : Objs α) (p : Ptr) (hs : Sound n s) :
    Acts n s (countObjCtx c p s) (load s.mem p >>= fun v => count (upToBlock n s.mem) c v >>= fun r => pure (r, upToBlock n s.mem)) := by
  refine Inner.scope hs (body_param fun v _ => ?_)
  have h1 := reads_push (Above.refl hs) v
  have e1 : ∀ B : α → Res (Nat × Mem α), B v = (load (s.push v).mem ⟨s.next, 0⟩ >>= B) := by
    intro B; rw [load_of h1.var]; rfl
  rw [e1 fun v => count (upToBlock n s.mem) c v >>= fun r => pure (r, upToBlock n s.mem)]
  refine body_param fun v' _ => ?_
  have h2 := reads_push h1.above v'
  refine Acts.body h2.above (Inner.scope h2.above.sound ?_)
  have e2 : ∀ B : α → Res (Nat × Mem α), B v' = (load ((s.push v).push v').mem ⟨(s.push v).next, 0⟩ >>= B) := by
    intro B; rw [load_of h2.var]; rfl
  rw [e2 fun v => count (upToBlock n s.mem) c v >>= fun r => pure (r, upToBlock n s.mem)]
  refine body_param fun v _ => ?_
  have h3 := reads_push (Above.refl h2.above.sound) v
  rw [reduceM_eq, foldlM_reads (g' := fun a is => c.get (upToBlock n s.mem) is >>= fun e => pure (a + if e = v then 1 else 0)) _ ?_]
  · unfold count reduce reduceRun mapCtx
    rw [loopState_eq, foldlM_counts (g := fun a is => c.get (upToBlock n s.mem) is >>= fun e => pure (a + if e = v then 1 else 0)) _ ?_]
    · rw [bind_assoc, bind_assoc, ← h2.above.upToBlock]
      exact reads_body h3.above _
    · intro a is
      rw [bind_assoc]
      rfl
  · intro a is
    show (readObj (c.addr is) _ >>= fun r => (readObj _ >>= fun v => pure (a + if r.1 = v then 1 else 0) : Calls α Nat) r.2) = _
    rw [read_elem h3.above hc, h2.above.upToBlock]
    cases c.get (upToBlock n s.mem) is with
    | error e => rfl
    | ok x => exact bind_read h3.var (fun v => (pure (a + if x = v then 1 else 0) : Calls α Nat))

theorem search_reads {n : Nat} {s t : Objs α} (h : Above n s t) (md : Mode) {c : Container} (hc : c.base.blk < n)
    {adv : α → Calls α Bool} {adv' : α → Bool} (ha : ∀ e, adv e t = .ok (adv' e, t)) (fuel : Nat) (vars : SearchVars) :
    searchLoop md t.mem c adv fuel vars t =
      (searchLoop md (upToBlock n s.mem) c (fun e => (pure (adv' e) : StateT Unit Res Bool)) fuel vars () >>= fun r => .ok (r.1, t)) := by
  induction fuel generalizing vars with
  | zero => rfl
  | succ fuel ih =>
    unfold searchLoop
    by_cases hpos : vars.count > 0
    · rw [if_pos hpos, if_pos hpos]
      dsimp only
      cases hp : coordinates md (vars.first + vars.count.tdiv 2) c.shape with
      | error e => rfl
      | ok p =>
        show ((do
            let v ← (liftM (c.get t.mem p) : Calls α α)
            if (← adv v) then searchLoop md t.mem c adv fuel _ else searchLoop md t.mem c adv fuel _) t) = ((do
            let v ← (liftM (c.get (upToBlock n s.mem) p) : StateT Unit Res α)
            if (← (pure (adv' v) : StateT Unit Res Bool)) then searchLoop md (upToBlock n s.mem) c _ fuel _ else searchLoop md (upToBlock n s.mem) c _ fuel _) () >>= _)
        have e : c.get t.mem p = c.get (upToBlock n s.mem) p := by
          rw [← h.upToBlock]
          unfold Container.get
          exact (load_cut (by exact hc)).symm
        rw [e]
        cases c.get (upToBlock n s.mem) p with
        | error e => rfl
        | ok v =>
          show (adv v t >>= fun r => (if r.1 = true then searchLoop md t.mem c adv fuel _ else searchLoop md t.mem c adv fuel _ : Calls α _) r.2) =
            ((if adv' v = true then searchLoop md (upToBlock n s.mem) c _ fuel _ else searchLoop md (upToBlock n s.mem) c _ fuel _ : StateT Unit Res _) () >>= _)
          rw [ha v]
          cases adv' v
          · exact ih _
          · exact ih _
    · rw [if_neg hpos, if_neg hpos]
      rfl

/-- The part of `lower_bound` and `upper_bound` after their loop. -/
theorem search_end {n : Nat} {s t : Objs α} (h : Above n s t) (md : Mode) {c : Container} (hc : c.base.blk < n)
    {adv : α → Calls α Bool} {adv' : α → Bool} (ha : ∀ v, adv v t = .ok (adv' v, t)) (fuel : Nat) (vars : SearchVars) :
    (searchLoop md t.mem c adv fuel vars >>= fun r =>
        if r.first < c.numel then do
          let p ← (coordinates md r.it c.shape : Res (List Int))
          pure (some p)
        else pure none) t =
      ((searchLoop md (upToBlock n s.mem) c (fun v => (pure (adv' v) : StateT Unit Res Bool)) fuel vars >>= fun r =>
        if r.first < c.numel then do
          let p ← (coordinates md r.it c.shape : Res (List Int))
          pure (some p)
        else pure none) () >>= fun r => .ok (r.1, t)) := by
  show (searchLoop md t.mem c adv fuel vars t >>= _) = ((searchLoop md (upToBlock n s.mem) c _ fuel vars () >>= _) >>= _)
  rw [search_reads h md hc ha]
  cases searchLoop md (upToBlock n s.mem) c (fun v => (pure (adv' v) : StateT Unit Res Bool)) fuel vars () with
  | error e => rfl
  | ok r =>
    show (if r.1.first < c.numel then _ else _ : Calls α _) t = ((if r.1.first < c.numel then _ else _ : StateT Unit Res _) r.2 >>= _)
    by_cases hf : r.1.first < c.numel
    · rw [if_pos hf, if_pos hf]
      cases coordinates md r.1.it c.shape <;> rfl
    · rw [if_neg hf, if_neg hf]
      rfl

theorem lowerBound_reads {n : Nat} {s t : Objs α} (h : Above n s t) (md : Mode) {c : Container} (hc : c.base.blk < n)
    {func : α → Ptr → Calls α Bool} {lt : α → α → Bool} {x : Ptr} {v : α} (ha : ∀ e, func e x t = .ok (lt e v, t)) :
    lowerBound md t.mem c x func t =
      (lowerBound md (upToBlock n s.mem) c v (fun e w => (pure (lt e w) : StateT Unit Res Bool)) () >>= fun r => .ok (r.1, t)) := by
  unfold lowerBound
  by_cases h0 : c.numel = 0
  · rw [if_pos h0, if_pos h0]
    rfl
  · rw [if_neg h0, if_neg h0]
    exact search_end h md hc ha _ _

theorem upperBound_reads {n : Nat} {s t : Objs α} (h : Above n s t) (md : Mode) {c : Container} (hc : c.base.blk < n)
    {func : Ptr → α → Calls α Bool} {lt : α → α → Bool} {x : Ptr} {v : α} (ha : ∀ e, func x e t = .ok (lt v e, t)) :
    upperBound md t.mem c x func t =
      (upperBound md (upToBlock n s.mem) c v (fun w e => (pure (lt w e) : StateT Unit Res Bool)) () >>= fun r => .ok (r.1, t)) := by
  unfold upperBound
  refine search_end (adv' := fun e => !lt v e) h md hc (fun e => ?_) _ _
  show (func x e t >>= fun r => pure (!r.1, r.2)) = _
  rw [ha e]
  rfl

/-- What a test of the bounds answers, for a test without state. -/
theorem reads_bound {n : Nat} {s t : Objs α} (h : Above n s t) (a : Res (ρ × Unit)) :
    Inner n s (a >>= fun r => .ok (r.1, t)) (a >>= fun r => pure (r.1, upToBlock n s.mem)) := by
  have := reads_body h (a >>= fun r => pure r.1)
  rw [bind_assoc, bind_assoc] at this
  exact this

theorem lowerBound_acts (md : Mode) (lt : α → α → Bool) {n : Nat} {c : Container} (hc : c.base.blk < n) (s : Objs α) (p : Ptr)
    (hs : Sound n s) :
    Acts n s (lowerBoundObjCtx md lt c p s) (load s.mem p >>= fun v =>
      lowerBound md (upToBlock n s.mem) c v (fun e w => (pure (lt e w) : StateT Unit Res Bool)) () >>= fun r => pure (r.1, upToBlock n s.mem)) := by
  refine Inner.scope hs (body_param fun v _ => ?_)
  have h := reads_push (Above.refl hs) v
  have := reads_bound h.above (lowerBound md (upToBlock n s.mem) c v (fun e w => (pure (lt e w) : StateT Unit Res Bool)) ())
  rw [← lowerBound_reads h.above md hc (func := fun e x => readObj x >>= fun w => pure (lt e w)) (x := ⟨s.next, 0⟩) fun e => bind_read h.var _] at this
  exact this

theorem upperBound_acts (md : Mode) (lt : α → α → Bool) {n : Nat} {c : Container} (hc : c.base.blk < n) (s : Objs α) (p : Ptr)
    (hs : Sound n s) :
    Acts n s (upperBoundObjCtx md lt c p s) (load s.mem p >>= fun v =>
      upperBound md (upToBlock n s.mem) c v (fun w e => (pure (lt w e) : StateT Unit Res Bool)) () >>= fun r => pure (r.1, upToBlock n s.mem)) := by
  refine Inner.scope hs (body_param fun v _ => ?_)
  have h := reads_push (Above.refl hs) v
  have := reads_bound h.above (upperBound md (upToBlock n s.mem) c v (fun w e => (pure (lt w e) : StateT Unit Res Bool)) ())
  rw [← upperBound_reads h.above md hc (func := fun x e => readObj x >>= fun w => pure (lt w e)) (x := ⟨s.next, 0⟩) fun e => bind_read h.var _] at this
  exact this

/-- Memories with the same blocks below and above `n` are the same. -/
theorem frame_eq {n : Nat} {s t : Objs α} (h1 : upToBlock n t.mem = upToBlock n s.mem) (h2 : t.next = s.next) (h3 : ∀ q : Ptr, n ≤ q.blk → t.mem q = s.mem q) :
    t = s := by
  obtain ⟨m, k⟩ := s
  obtain ⟨m', k'⟩ := t
  replace h2 : k' = k := h2
  replace h3 : ∀ q : Ptr, n ≤ q.blk → m' q = m q := h3
  replace h1 : upToBlock n m' = upToBlock n m := h1
  subst h2
  have : m' = m := by
    funext q
    by_cases hq : q.blk < n
    · have := congrFun h1 q
      unfold upToBlock at this
      rwa [if_pos hq, if_pos hq] at this
    · exact h3 q (by omega)
  rw [this]

/-- An algorithm that only reads leaves the frame as it was. -/
theorem acts_reads {n : Nat} {s : Objs α} {a : Res (ρ × Objs α)} {b : Res ρ} (h : Acts n s a (b >>= fun r => pure (r, upToBlock n s.mem))) :
    a = (b >>= fun r => .ok (r, s)) := by
  cases b with
  | error e =>
    cases a with
    | error e' => exact congrArg Except.error h
    | ok r => exact h.elim
  | ok r =>
    cases a with
    | error e' => exact h.elim
    | ok a =>
      obtain ⟨h1, h2, h3, h4⟩ := h
      obtain ⟨r', t⟩ := a
      show Except.ok (r', t) = Except.ok (r, s)
      rw [show t = s from frame_eq h2 h3 h4, show r' = r from h1]

theorem binarySearch_acts (md : Mode) (lt : α → α → Bool) {n : Nat} {c : Container} (hc : c.base.blk < n) (s : Objs α) (p : Ptr)
    (hs : Sound n s) :
    Acts n s (binarySearchObjCtx md lt c p s) (load s.mem p >>= fun v =>
      binarySearch md (upToBlock n s.mem) c v (fun e w => (pure (lt e w) : StateT Unit Res Bool)) () >>= fun r => pure (r.1, upToBlock n s.mem)) := by
  refine Inner.scope hs (body_param fun v _ => ?_)
  have h := reads_push (Above.refl hs) v
  have key := lowerBound_acts md lt hc (s.push v) ⟨s.next, 0⟩ h.above.sound
  rw [load_of h.var] at key
  have key : lowerBoundObjCtx md lt c ⟨s.next, 0⟩ (s.push v) = _ := acts_reads
    (b := lowerBound md (upToBlock n (s.push v).mem) c v (fun e w => (pure (lt e w) : StateT Unit Res Bool)) () >>= fun r => pure r.1)
    (by rw [bind_assoc]; exact key)
  rw [h.above.upToBlock] at key
  unfold binarySearch
  show Inner n s (lowerBoundObjCtx md lt c ⟨s.next, 0⟩ (s.push v) >>= _) ((lowerBound md (upToBlock n s.mem) c v _ () >>= _) >>= _)
  rw [key, bind_assoc, bind_assoc, bind_assoc]
  refine Alike.bind (R := fun a b => a = b) (Alike.refl (fun _ => rfl) _) ?_
  rintro ⟨r, u⟩ _ rfl
  cases r with
  | none => exact reads_body h.above (.ok false)
  | some p =>
    have := reads_body h.above (c.get (upToBlock n s.mem) p >>= fun e => pure (!lt v e))
    rw [bind_assoc, bind_assoc] at this
    refine cast ?_ this
    congr 1
    · refine Eq.trans ?_ (bind_read h.var (fun w => readObj (c.addr p) >>= fun e => (pure (!lt w e) : Calls α Bool))).symm
      show _ = (readObj (c.addr p) (s.push v) >>= _)
      rw [read_elem h.above hc p, bind_assoc]
      rfl
    · show _ = ((((c.get (upToBlock n s.mem) p >>= fun e => pure (e, u)) >>= _) : Res (Bool × Unit)) >>= _)
      rw [bind_assoc, bind_assoc]
      rfl

/-- When every object is below `n`, what is done is known in full. -/
theorem acts_all {s : Objs α} (hs : Sound s.next s) {a : Res (ρ × Objs α)} {b : Res (ρ × Mem α)} (h : Acts s.next s a b) :
    a = (b >>= fun r => .ok (r.1, ⟨r.2, s.next⟩)) := by
  cases b with
  | error e =>
    cases a with
    | error e' => exact congrArg Except.error h
    | ok r => exact h.elim
  | ok b =>
    cases a with
    | error e' => exact h.elim
    | ok a =>
      obtain ⟨r, m, k⟩ := a
      obtain ⟨h1, h2, h3, h4⟩ := h
      replace h3 : k = s.next := h3
      replace h2 : upToBlock s.next m = b.2 := h2
      show Except.ok (r, _) = Except.ok (b.1, _)
      rw [show r = b.1 from h1, h3, ← h2]
      congr 3
      funext q
      unfold upToBlock
      split
      · rfl
      · exact (h4 q (by omega)).trans (hs.none q (by omega))

theorem cut_all {s : Objs α} (hs : Sound s.next s) : upToBlock s.next s.mem = s.mem := by
  funext q
  unfold upToBlock
  split
  · rfl
  · exact (hs.none q (by omega)).symm

end Kwk
