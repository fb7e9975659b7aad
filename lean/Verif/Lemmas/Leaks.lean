import Verif.Lemmas.Failures

/-! # Helper lemmas about states in which blocks were lost

A state with lost blocks is a state without them, where these blocks are marked as allocated. -/

namespace Kwk
open Spec

variable {α : Type}

/-- The state `w` where the blocks of `L` are also allocated, by the allocators `ℓ`. -/
def graft (L : List Nat) (ℓ : Nat → Option AllocId) (w : World α) : World α :=
  { w with live := fun b => if b ∈ L then ℓ b else w.live b }

/-- The blocks of `L` were given once and are not allocated. -/
structure Clear (L : List Nat) (w : World α) : Prop where
  lt : ∀ b ∈ L, b < w.next
  dead : ∀ b ∈ L, w.live b = none

/-- No block given before comes back to life. -/
structure Later (w w' : World α) : Prop where
  next : w.next ≤ w'.next
  dead : ∀ b, b < w.next → w.live b = none → w'.live b = none

theorem Later.refl (w : World α) : Later w w := ⟨Nat.le_refl _, fun _ _ h => h⟩

theorem Later.trans {w w1 w2 : World α} (h1 : Later w w1) (h2 : Later w1 w2) : Later w w2 :=
  ⟨Nat.le_trans h1.next h2.next, fun b hb hd => h2.dead b (Nat.lt_of_lt_of_le hb h1.next) (h1.dead b hb hd)⟩

theorem Clear.later {L : List Nat} {w w' : World α} (h : Clear L w) (hl : Later w w') : Clear L w' :=
  ⟨fun b hb => Nat.lt_of_lt_of_le (h.lt b hb) hl.next, fun b hb => hl.dead b (h.lt b hb) (h.dead b hb)⟩

theorem allocate_later (w : World α) (a : AllocId) (n : Nat) : Later w (w.allocate a n).2 := by
  unfold World.allocate
  split
  · exact Later.refl w
  · refine ⟨Nat.le_succ _, fun b hb hd => ?_⟩
    dsimp only
    rw [upd_ne _ _ (by omega)]
    exact hd

theorem given_later (w : World α) (fl : Failures) (a : AllocId) (n : Nat) : Later w (w.given fl a n).2 := by
  unfold World.given
  split
  · exact Later.refl w
  · exact allocate_later w a n

theorem free_later {w w' : World α} {b : Nat} {a : Option AllocId} (h : w.free b a = .ok w') : Later w w' := by
  unfold World.free at h
  split at h
  · cases h
  · split at h
    · cases h
      refine ⟨Nat.le_refl _, fun c _ hd => ?_⟩
      dsimp only [upd]
      split
      · rfl
      · exact hd
    · cases h

theorem release_later {w w' : World α} {t : Table} (h : w.release t = .ok w') : Later w w' := by
  unfold World.release at h
  split at h
  · cases h; exact Later.refl w
  · exact free_later h

/-- Same blocks. -/
theorem later_of_eq {w w' : World α} (h1 : w'.next = w.next) (h2 : w'.live = w.live) : Later w w' :=
  ⟨Nat.le_of_eq h1.symm, fun b _ hd => by rw [h2]; exact hd⟩

/-- The same for states with the same blocks. -/
theorem Later.of {w w' v v' : World α} (h : Later w w') (h1 : v.next = w.next) (h2 : v.live = w.live) (h3 : v'.next = w'.next)
    (h4 : v'.live = w'.live) : Later v v' :=
  ⟨by rw [h1, h3]; exact h.next, fun b hb hd => by rw [h4]; rw [h1] at hb; rw [h2] at hd; exact h.dead b hb hd⟩

theorem graft_allocate {L : List Nat} {ℓ : Nat → Option AllocId} {w : World α} (h : Clear L w) (a : AllocId) (n : Nat) :
    (graft L ℓ w).allocate a n = ((w.allocate a n).1, graft L ℓ (w.allocate a n).2) := by
  unfold World.allocate
  split
  · rfl
  · simp only [graft, Prod.mk.injEq, World.mk.injEq, true_and, and_true]
    refine ⟨rfl, ?_⟩
    funext b
    by_cases hb : b = w.next
    · subst hb
      have : w.next ∉ L := fun hm => absurd (h.lt _ hm) (Nat.lt_irrefl _)
      simp [upd, this]
    · simp [upd, hb]

theorem graft_given {L : List Nat} {ℓ : Nat → Option AllocId} {w : World α} (h : Clear L w) (fl : Failures) (a : AllocId) (n : Nat) :
    (graft L ℓ w).given fl a n = ((w.given fl a n).1, graft L ℓ (w.given fl a n).2) := by
  unfold World.given
  split
  · rfl
  · exact graft_allocate h a n

theorem graft_free {L : List Nat} {ℓ : Nat → Option AllocId} (w : World α) {b : Nat} (hb : b ∉ L) (a : Option AllocId) :
    (graft L ℓ w).free b a = (w.free b a).map (graft L ℓ) := by
  unfold World.free
  rcases a with _ | a
  · rfl
  · have : (graft L ℓ w).live b = w.live b := by simp [graft, hb]
    simp only [this]
    split
    · simp only [graft, Except.map, Except.ok.injEq, World.mk.injEq, true_and, and_true]
      funext c
      by_cases hc : c = b
      · subst hc; simp [upd, hb]
      · simp [upd, hc]
    · rfl

theorem graft_release {L : List Nat} {ℓ : Nat → Option AllocId} (w : World α) {t : Table} (ht : ∀ b, t.data = some b → b ∉ L) :
    (graft L ℓ w).release t = (w.release t).map (graft L ℓ) := by
  unfold World.release
  split
  · rfl
  · next b hb => exact graft_free w (ht b hb) _

/-- Grafting the state that a construction ends with. -/
def Construction.map (f : World α → World α) : Construction α → Construction α
  | .made t w => .made t (f w)
  | .threw w => .threw (f w)

/-- Grafting the state that an operation ends with. -/
def Ended.map (f : World α → World α) : Ended α → Ended α
  | .done w => .done (f w)
  | .threw w => .threw (f w)
  | .terminated => .terminated

theorem given_fresh {w : World α} {fl : Failures} {a : AllocId} {n b : Nat} {L : List Nat} (h : Clear L w)
    (hb : (w.given fl a n).1 = some b) : b ∉ L := by
  obtain ⟨-, -, rfl, -, -⟩ := given_data hb
  exact fun hm => absurd (h.lt _ hm) (Nat.lt_irrefl _)

theorem graft_buildE {L : List Nat} {ℓ : Nat → Option AllocId} {w : World α} (h : Clear L w) (fl : Failures) (a : AllocId) (s : Shape)
    (src : Option (Option Ptr)) : (graft L ℓ w).buildE fl a s src = (w.buildE fl a s src).map (Construction.map (graft L ℓ)) := by
  rw [buildE_eq, buildE_eq, graft_given h]
  split
  · rfl
  split
  · rfl
  split
  · rfl
  rcases src with _ | p
  · rfl
  dsimp only
  split
  · rfl
  rcases p with _ | p
  · rfl
  cases hd : (w.given fl a (numel s).toNat).1 with
  | none => rfl
  | some b =>
    dsimp only
    have hb := given_fresh h hd
    rw [show (graft L ℓ (w.given fl a (numel s).toNat).2).mem = (w.given fl a (numel s).toNat).2.mem from rfl]
    cases copyCellsE (fun k => fl.throws (.element k)) (w.given fl a (numel s).toNat).2.mem p ⟨b, 0⟩ (numel s).toNat with
    | error e => rfl
    | ok r =>
      simp only [bind, Except.bind]
      split
      · rfl
      · have := graft_release (L := L) (ℓ := ℓ) { (w.given fl a (numel s).toNat).2 with mem := r.2 } (t := ⟨some b, some a, s⟩)
          (fun c hc => by cases hc; exact hb)
        rw [show ({ graft L ℓ (w.given fl a (numel s).toNat).2 with mem := r.2 } : World α) =
          graft L ℓ { (w.given fl a (numel s).toNat).2 with mem := r.2 } from rfl, this]
        cases World.release { (w.given fl a (numel s).toNat).2 with mem := r.2 } ⟨some b, some a, s⟩ <;> rfl

theorem graft_build {L : List Nat} {ℓ : Nat → Option AllocId} {w : World α} (h : Clear L w) (a : AllocId) (s : Shape)
    (src : Option (Option Ptr)) : (graft L ℓ w).build a s src = (w.build a s src).map fun r => (r.1, graft L ℓ r.2) := by
  unfold World.build
  dsimp only
  rw [graft_allocate h]
  rcases src with _ | p
  · rfl
  dsimp only
  split
  · rfl
  rcases p with _ | p
  · rfl
  cases (w.allocate a (numel s).toNat).1 with
  | none => rfl
  | some b =>
    dsimp only
    rw [show (graft L ℓ (w.allocate a (numel s).toNat).2).mem = (w.allocate a (numel s).toNat).2.mem from rfl]
    cases copyCells (w.allocate a (numel s).toNat).2.mem p ⟨b, 0⟩ (numel s).toNat <;> rfl

theorem graft_createE {L : List Nat} {ℓ : Nat → Option AllocId} {w : World α} (h : Clear L w) (fl : Failures) (x : Nat) (a : AllocId)
    (s : Shape) (src : Option (Option Ptr)) :
    (graft L ℓ w).createE fl x a s src = (w.createE fl x a s src).map (Ended.map (graft L ℓ)) := by
  unfold World.createE
  rw [graft_buildE h]
  cases w.buildE fl a s src with
  | error e => rfl
  | ok r => cases r <;> rfl

/-- The blocks of the tables are not in `L`. -/
theorem clear_tables {L : List Nat} {w : World α} (h : Clear L w) (hi : WInv w) {x : Nat} {t : Table} (hx : w.tables x = some t) :
    ∀ b, t.data = some b → b ∉ L := by
  intro b hb hm
  obtain ⟨a, -, hl⟩ := hi.lv x t b hx hb
  rw [h.dead b hm] at hl
  cases hl

theorem graft_assignE {L : List Nat} {ℓ : Nat → Option AllocId} {w : World α} (h : Clear L w) (fl : Failures) (x : Nat) {t : Table}
    (ht : ∀ b, t.data = some b → b ∉ L) (s : Shape) (src : Option Ptr) :
    (graft L ℓ w).assignE fl x t s src = (w.assignE fl x t s src).map (Ended.map (graft L ℓ)) := by
  unfold World.assignE
  rw [graft_buildE h]
  cases w.buildE fl heapAlloc s (some src) with
  | error e => rfl
  | ok r =>
    cases r with
    | threw w1 => rfl
    | made u w1 =>
      have := graft_release (L := L) (ℓ := ℓ) { w1 with tables := upd w1.tables x (some u) } ht
      simp only [Except.map, Construction.map, bind, Except.bind]
      rw [show ({ graft L ℓ w1 with tables := upd (graft L ℓ w1).tables x (some u) } : World α) =
        graft L ℓ { w1 with tables := upd w1.tables x (some u) } from rfl, this]
      cases World.release { w1 with tables := upd w1.tables x (some u) } t <;> rfl

theorem graft_assign {L : List Nat} {ℓ : Nat → Option AllocId} {w : World α} (h : Clear L w) (x : Nat) {t : Table}
    (ht : ∀ b, t.data = some b → b ∉ L) (s : Shape) (src : Option Ptr) :
    (graft L ℓ w).assign x t s src = (w.assign x t s src).map (graft L ℓ) := by
  unfold World.assign
  rw [graft_build h]
  cases w.build heapAlloc s (some src) with
  | error e => rfl
  | ok r => exact graft_release (L := L) (ℓ := ℓ) { r.2 with tables := upd r.2.tables x (some r.1) } ht

/-- Operations do the same whether blocks were lost or not. -/
theorem graft_step {L : List Nat} {ℓ : Nat → Option AllocId} {w : World α} (h : Clear L w) (hi : WInv w) (op : Op α) :
    (graft L ℓ w).step op = (w.step op).map (graft L ℓ) := by
  have ht : (graft L ℓ w).tables = w.tables := rfl
  cases op with
  | dflt x axes =>
    simp only [World.step, ht]
    cases w.tables x with
    | some t => rfl
    | none => dsimp only; split <;> rfl
  | make x a s src =>
    simp only [World.step, ht]
    cases w.tables x with
    | some t => rfl
    | none => dsimp only; rw [graft_build h]; cases w.build a s src <;> rfl
  | copy x y =>
    simp only [World.step, ht]
    cases w.tables x with
    | some t => rfl
    | none =>
      cases w.tables y with
      | none => rfl
      | some u => dsimp only [World.copyOf]; rw [graft_build h]; cases w.build heapAlloc u.shape (some u.ptr) <;> rfl
  | copyFrom x c =>
    simp only [World.step, ht]
    cases w.tables x with
    | some t => rfl
    | none => dsimp only; rw [graft_build h]; cases w.build heapAlloc c.settings.size (some (some c.settings.source)) <;> rfl
  | move x y =>
    simp only [World.step, ht]
    cases w.tables x with
    | some t => rfl
    | none => cases w.tables y <;> rfl
  | copyAssign x y =>
    simp only [World.step, ht]
    cases hx : w.tables x with
    | none => rfl
    | some t =>
      cases w.tables y with
      | none => rfl
      | some u => exact graft_assign h x (clear_tables h hi hx) _ _
  | assignFrom x c =>
    simp only [World.step, ht]
    cases hx : w.tables x with
    | none => rfl
    | some t => exact graft_assign h x (clear_tables h hi hx) _ _
  | moveAssign x y =>
    simp only [World.step, ht]
    cases hx : w.tables x with
    | none => rfl
    | some t =>
      cases hy : w.tables y with
      | none => rfl
      | some u =>
        dsimp only
        cases hz : upd w.tables y (some { u with data := none }) x with
        | none => rfl
        | some z =>
          have hzL : ∀ b, z.data = some b → b ∉ L := by
            intro b hb
            by_cases e : x = y
            · subst e; rw [upd_self] at hz; cases hz; cases hb
            · rw [upd_ne _ _ e, hx] at hz; cases hz; exact clear_tables h hi hx b hb
          have := graft_release (L := L) (ℓ := ℓ)
            { w with tables := upd (upd w.tables y (some { u with data := none })) x (some { z with data := u.data }) } hzL
          dsimp only
          rw [show ({ graft L ℓ w with tables := upd (upd w.tables y (some { u with data := none })) x (some { z with data := u.data }) } :
            World α) = graft L ℓ { w with tables := upd (upd w.tables y (some { u with data := none })) x (some { z with data := u.data }) }
            from rfl, this]
          cases World.release { w with tables := upd (upd w.tables y (some { u with data := none })) x (some { z with data := u.data }) } z <;>
            rfl
  | swap x y =>
    simp only [World.step, ht]
    cases w.tables x with
    | none => rfl
    | some t => cases w.tables y <;> rfl
  | destroy x =>
    simp only [World.step, ht]
    cases hx : w.tables x with
    | none => rfl
    | some t => exact graft_release (L := L) (ℓ := ℓ) { w with tables := upd w.tables x none } (clear_tables h hi hx)
  | write x is v =>
    simp only [World.step, ht]
    cases w.tables x with
    | none => rfl
    | some t =>
      dsimp only
      cases t.data with
      | none => rfl
      | some b =>
        dsimp only
        rw [show (graft L ℓ w).mem = w.mem from rfl]
        cases store w.mem ((Container.ofShape ⟨b, 0⟩ t.shape).addr is) v <;> rfl

theorem graft_stepE {L : List Nat} {ℓ : Nat → Option AllocId} {w : World α} (h : Clear L w) (hi : WInv w) (fl : Failures) (op : Op α) :
    (graft L ℓ w).stepE fl op = (w.stepE fl op).map (Ended.map (graft L ℓ)) := by
  have ht : (graft L ℓ w).tables = w.tables := rfl
  have other : ∀ op : Op α, (do pure (Ended.done (← (graft L ℓ w).step op)) : Res (Ended α)) =
      (do pure (Ended.done (← w.step op)) : Res (Ended α)).map (Ended.map (graft L ℓ)) := by
    intro op
    rw [graft_step h hi]
    cases w.step op <;> rfl
  cases op with
  | dflt x axes =>
    simp only [World.stepE, ht]
    split
    · rfl
    · exact other _
  | make x a s src =>
    simp only [World.stepE, ht]
    cases w.tables x with
    | some t => rfl
    | none => exact graft_createE h ..
  | copy x y =>
    simp only [World.stepE, ht]
    cases w.tables x with
    | some t => rfl
    | none =>
      cases w.tables y with
      | none => rfl
      | some u => exact graft_createE h ..
  | copyFrom x c =>
    simp only [World.stepE, ht]
    cases w.tables x with
    | some t => rfl
    | none => exact graft_createE h ..
  | copyAssign x y =>
    simp only [World.stepE, ht]
    cases hx : w.tables x with
    | none => rfl
    | some t =>
      cases w.tables y with
      | none => rfl
      | some u => exact graft_assignE h _ _ (clear_tables h hi hx) _ _
  | assignFrom x c =>
    simp only [World.stepE, ht]
    cases hx : w.tables x with
    | none => rfl
    | some t => exact graft_assignE h _ _ (clear_tables h hi hx) _ _
  | move x y => exact other _
  | moveAssign x y => exact other _
  | swap x y => exact other _
  | destroy x => exact other _
  | write x is v => exact other _

/-! ## The invariant -/

theorem buildE_later {w w1 : World α} {fl : Failures} {a : AllocId} {s : Shape} {src : Option (Option Ptr)} {r : Construction α}
    (h : w.buildE fl a s src = .ok r) (hr : (∃ t, r = .made t w1) ∨ r = .threw w1) : Later w w1 := by
  have hg := given_later w fl a (numel s).toNat
  rw [buildE_eq] at h
  split at h
  · cases h; rcases hr with ⟨t, hr⟩ | hr <;> cases hr; exact Later.refl _
  split at h
  · cases h; rcases hr with ⟨t, hr⟩ | hr <;> cases hr; exact Later.refl _
  split at h
  · cases h; rcases hr with ⟨t, hr⟩ | hr <;> cases hr; exact hg
  rcases src with _ | p
  · cases h; rcases hr with ⟨t, hr⟩ | hr <;> cases hr; exact hg
  dsimp only at h
  split at h
  · cases h; rcases hr with ⟨t, hr⟩ | hr <;> cases hr; exact hg
  rcases p with _ | p
  · cases h
  cases hd : (w.given fl a (numel s).toNat).1 with
  | none => rw [hd] at h; cases h
  | some b =>
    rw [hd] at h
    simp only [bind, Except.bind] at h
    split at h
    · cases h
    · next c hc =>
      split at h
      · cases h
        rcases hr with ⟨t, hr⟩ | hr <;> cases hr
        exact hg.trans (later_of_eq rfl rfl)
      · split at h
        · cases h
        · next w2 h2 =>
          cases h
          rcases hr with ⟨t, hr⟩ | hr <;> cases hr
          exact hg.trans ((release_later h2).of rfl rfl rfl rfl)

theorem build_later {w : World α} {a : AllocId} {s : Shape} {src : Option (Option Ptr)} {r : Table × World α}
    (h : w.build a s src = .ok r) : Later w r.2 := by
  have := buildE_none (w := w) (fl := ⟨fun _ => false, false⟩) (a := a) (s := s) (src := src) (fun _ => rfl) rfl
  rw [h] at this
  exact buildE_later this (.inl ⟨r.1, rfl⟩)

theorem step_later {w w' : World α} {op : Op α} (h : w.step op = .ok w') : Later w w' := by
  have hb : ∀ {x a s src}, (do let (t, w1) ← w.build a s src; return ({ w1 with tables := upd w1.tables x (some t) } : World α) : Res (World α)) =
      .ok w' → Later w w' := by
    intro x a s src h
    cases hr : w.build a s src with
    | error e => rw [hr] at h; cases h
    | ok r => rw [hr] at h; cases h; exact (build_later hr).trans (later_of_eq rfl rfl)
  have ha : ∀ {x t s src}, w.assign x t s src = .ok w' → Later w w' := by
    intro x t s src h
    unfold World.assign at h
    cases hr : w.build heapAlloc s (some src) with
    | error e => rw [hr] at h; cases h
    | ok r => rw [hr] at h; exact (build_later hr).trans ((release_later h).of rfl rfl rfl rfl)
  cases op with
  | dflt x axes =>
    simp only [World.step] at h
    split at h
    · cases h; exact Later.refl _
    · split at h <;> cases h <;> exact later_of_eq rfl rfl
  | make x a s src =>
    simp only [World.step] at h
    split at h
    · cases h; exact Later.refl _
    · exact hb h
  | copy x y =>
    simp only [World.step] at h
    split at h
    · exact hb h
    · cases h; exact Later.refl _
  | copyFrom x c =>
    simp only [World.step] at h
    split at h
    · cases h; exact Later.refl _
    · exact hb h
  | move x y =>
    simp only [World.step] at h
    split at h <;> cases h <;> exact later_of_eq rfl rfl
  | copyAssign x y =>
    simp only [World.step] at h
    split at h
    · exact ha h
    · cases h; exact Later.refl _
  | assignFrom x c =>
    simp only [World.step] at h
    split at h
    · exact ha h
    · cases h; exact Later.refl _
  | moveAssign x y =>
    simp only [World.step] at h
    split at h
    · split at h
      · cases h; exact Later.refl _
      · simp only [bind, Except.bind] at h
        split at h
        · cases h
        · next w1 h1 =>
          cases h
          exact (release_later h1).of rfl rfl rfl rfl
    · cases h; exact Later.refl _
  | swap x y =>
    simp only [World.step] at h
    split at h <;> cases h <;> exact later_of_eq rfl rfl
  | destroy x =>
    simp only [World.step] at h
    split at h
    · exact (release_later h).of rfl rfl rfl rfl
    · cases h; exact Later.refl _
  | write x is v =>
    simp only [World.step] at h
    split at h
    · cases h; exact Later.refl _
    · split at h
      · cases h
      · simp only [bind, Except.bind] at h
        split at h
        · cases h
        · cases h; exact later_of_eq rfl rfl

theorem stepE_later {w w' : World α} {fl : Failures} {op : Op α}
    (h : w.stepE fl op = .ok (.done w') ∨ w.stepE fl op = .ok (.threw w')) : Later w w' := by
  rcases h with h | h
  · rcases stepE_form w fl op with ⟨x, a, s, src, h1, -, h2, -, h3, h4⟩ | ⟨x, tx, s, src, h1, -, h2, -, h3, h4⟩ | ⟨-, h3⟩ | ⟨-, -, h3, -⟩
    · rw [h3, createE_done] at h
      obtain ⟨t, w1, hb, rfl⟩ := h
      exact (buildE_later hb (.inl ⟨t, rfl⟩)).trans (later_of_eq rfl rfl)
    · rw [h3, assignE_done] at h
      obtain ⟨t, w1, hb, hr⟩ := h
      exact (buildE_later hb (.inl ⟨t, rfl⟩)).trans ((release_later hr).of rfl rfl rfl rfl)
    · rw [h3] at h
      cases hs : w.step op with
      | error e => rw [hs] at h; cases h
      | ok w1 =>
        rw [hs] at h; cases h
        exact step_later hs
    · rw [h3] at h; cases h
  · obtain ⟨a, s, src, -, -, hb⟩ := stepE_threw h
    exact buildE_later hb (.inr rfl)

/-- A state in which exactly the blocks of `L` were lost. -/
def LInv (L : List Nat) (W : World α) : Prop :=
  ∃ (w : World α) (ℓ : Nat → Option AllocId), W = graft L ℓ w ∧ WInv w ∧ Clear L w ∧ L.Nodup ∧ ∀ b ∈ L, (ℓ b).isSome

theorem wanted_graft (L : List Nat) (ℓ : Nat → Option AllocId) (w : World α) (op : Op α) : wanted (graft L ℓ w) op = wanted w op := by
  cases op <;> rfl

theorem loses_graft (L : List Nat) (ℓ : Nat → Option AllocId) (w : World α) (fl : Failures) (op : Op α) :
    loses (graft L ℓ w) fl op = loses w fl op := by
  unfold loses; rw [wanted_graft]

theorem loses_iff {w : World α} {fl : Failures} {op : Op α} :
    loses w fl op = true ↔ ∃ s, wanted w op = some s ∧ Leaks fl s := by
  unfold loses Leaks
  cases wanted w op with
  | none => simp
  | some s =>
    simp only [Bool.and_eq_true, Bool.not_eq_true', decide_eq_true_eq, Option.some.injEq, exists_eq_left']
    constructor
    · rintro ⟨⟨⟨⟨a, b⟩, c⟩, d⟩, e⟩; exact ⟨b, c, d, e, a⟩
    · rintro ⟨b, c, d, e, a⟩; exact ⟨⟨⟨⟨a, b⟩, c⟩, d⟩, e⟩

theorem stepE_done_keeps {w w' : World α} {fl : Failures} {op : Op α} (h : w.stepE fl op = .ok (.done w')) : loses w fl op = false := by
  rw [Bool.eq_false_iff]
  intro hl
  obtain ⟨s', hs, hk⟩ := loses_iff.1 hl
  have hd := hk.2.2.1
  rcases stepE_form w fl op with ⟨x, a, s, src, h1, -, h2, -, h3, h4⟩ | ⟨x, tx, s, src, h1, -, h2, -, h3, h4⟩ | ⟨h1, h3⟩ | ⟨h1, -, h3, -⟩
  · rw [h3, createE_done] at h
    obtain ⟨t, w1, hb, rfl⟩ := h
    rw [(buildE_made hb).2.2.1] at hd; cases hd
  · rw [h3, assignE_done] at h
    obtain ⟨t, w1, hb, -⟩ := h
    rw [(buildE_made hb).2.2.1] at hd; cases hd
  · rw [h1] at hs; cases hs
  · rw [h1] at hs; cases hs

theorem linv_step {L : List Nat} {W : World α} (h : LInv L W) (fl : Failures) (op : Op α) :
    (∃ W', (W.stepE fl op = .ok (.done W') ∨ W.stepE fl op = .ok (.threw W')) ∧
      LInv (if loses W fl op then W.next :: L else L) W') ∨
    W.stepE fl op = .ok .terminated ∨ ∃ e, W.stepE fl op = .error e ∧ (e = .outOfBounds ∨ e = .nullDeref) := by
  obtain ⟨w, ℓ, rfl, hi, hc, hn, hs⟩ := h
  rw [graft_stepE hc hi, loses_graft]
  cases hr : w.stepE fl op with
  | error e => exact .inr (.inr ⟨e, rfl, stepE_error hi hr⟩)
  | ok r =>
    cases r with
    | terminated => exact .inr (.inl rfl)
    | done w' =>
      refine .inl ⟨graft L ℓ w', .inl rfl, ?_⟩
      rw [stepE_done_keeps hr]
      exact ⟨w', ℓ, rfl, stepE_done_inv hi hr, hc.later (stepE_later (.inl hr)), hn, hs⟩
    | threw w' =>
      refine .inl ⟨graft L ℓ w', .inr rfl, ?_⟩
      cases hl : loses w fl op with
      | false =>
        have hk : ∀ s, wanted w op = some s → ¬ Leaks fl s := fun s hs hk => by
          rw [loses_iff.2 ⟨s, hs, hk⟩] at hl; cases hl
        exact ⟨w', ℓ, rfl, (stepE_same hi hk hr).2, hc.later (stepE_later (.inr hr)), hn, hs⟩
      | true =>
        obtain ⟨s', hs', hk⟩ := loses_iff.1 hl
        obtain ⟨a, s, src, hw, -, hb⟩ := stepE_threw hr
        rw [hw] at hs'; injection hs' with e; subst s'
        obtain ⟨k1, k2, k3, k4, k5⟩ := hk
        rw [buildE_eq] at hb
        simp only [k1, k2, k3, Bool.false_eq_true, if_false, if_true, World.given, k4] at hb
        have hnn : (numel s).toNat ≠ 0 := by omega
        unfold World.allocate at hb
        rw [if_neg hnn] at hb
        cases hb
        have hnext : w.next ∉ L := fun hm => absurd (hc.lt _ hm) (Nat.lt_irrefl _)
        have hdead : w.live w.next = none := by
          cases hv : w.live w.next with
          | none => rfl
          | some a' => exact absurd (hi.lt _ _ hv) (Nat.lt_irrefl _)
        refine ⟨{ w with
          mem := fun p => if p.blk = w.next then (if 0 ≤ p.off ∧ p.off < ((numel s).toNat : Int) then some (w.junk p) else none) else w.mem p
          next := w.next + 1 }, upd ℓ w.next (some a), ?_, ?_, ?_, ?_, ?_⟩
        · simp only [graft, World.mk.injEq, true_and, and_true]
          funext b
          by_cases hb : b = w.next
          · subst hb; simp [upd, hnext]
          · simp [upd, hb]
        · exact {
            excl := hi.excl
            lv := hi.lv
            own := hi.own
            lt := fun b a hb => Nat.lt_succ_of_lt (hi.lt b a hb)
            cells := fun x t b hx ht k h0 h1 => by
              obtain ⟨a', -, hv⟩ := hi.lv x t b hx ht
              have : b ≠ w.next := by rintro rfl; rw [hdead] at hv; cases hv
              dsimp only
              rw [if_neg this]
              exact hi.cells x t b hx ht k h0 h1
            old := fun p hp => by
              dsimp only at hp ⊢
              rw [if_neg (by omega)]
              exact hi.old p (by omega) }
        · refine ⟨fun b hb => ?_, fun b hb => ?_⟩
          · rcases List.mem_cons.1 hb with rfl | hb
            · exact Nat.lt_succ_self _
            · exact Nat.lt_succ_of_lt (hc.lt b hb)
          · rcases List.mem_cons.1 hb with rfl | hb
            · exact hdead
            · exact hc.dead b hb
        · exact List.nodup_cons.2 ⟨hnext, hn⟩
        · intro b hb
          by_cases e : b = w.next
          · subst e; simp [upd]
          · rw [upd_ne _ _ e]
            exact hs b ((List.mem_cons.1 hb).resolve_left e)

theorem linv_run {L : List Nat} {W : World α} (h : LInv L W) (l : List (Failures × Op α)) :
    (∃ W' L', W.runE l = .ok (some W') ∧ LInv L' W' ∧ L'.length = lost W l + L.length) ∨
    W.runE l = .ok none ∨ ∃ e, W.runE l = .error e ∧ (e = .outOfBounds ∨ e = .nullDeref) := by
  induction l generalizing L W with
  | nil => exact .inl ⟨W, L, rfl, h, by simp [lost]⟩
  | cons e l ih =>
    obtain ⟨fl, op⟩ := e
    have hlen : (if loses W fl op then W.next :: L else L).length = (if loses W fl op then 1 else 0) + L.length := by
      split
      · simp only [List.length_cons]; omega
      · omega
    rcases linv_step h fl op with ⟨W1, e1 | e1, h1⟩ | e1 | ⟨e, e1, he⟩
    · simp only [World.runE, lost, e1, bind, Except.bind]
      rcases ih h1 with ⟨W2, L2, e2, h2, h3⟩ | e2 | ⟨e, e2, h2⟩
      · exact .inl ⟨W2, L2, e2, h2, by rw [h3, hlen]; omega⟩
      · exact .inr (.inl e2)
      · exact .inr (.inr ⟨e, e2, h2⟩)
    · simp only [World.runE, lost, e1, bind, Except.bind]
      rcases ih h1 with ⟨W2, L2, e2, h2, h3⟩ | e2 | ⟨e, e2, h2⟩
      · exact .inl ⟨W2, L2, e2, h2, by rw [h3, hlen]; omega⟩
      · exact .inr (.inl e2)
      · exact .inr (.inr ⟨e, e2, h2⟩)
    · exact .inr (.inl (by simp only [World.runE, e1, bind, Except.bind]; rfl))
    · exact .inr (.inr ⟨e, by simp only [World.runE, e1, bind, Except.bind], he⟩)

theorem linv_fresh {w : World α} (h : Fresh w) : LInv [] w :=
  ⟨w, w.live, by simp [graft], fresh_inv h, ⟨by simp, by simp⟩, List.nodup_nil, by simp⟩

theorem reachableE_linv {W : World α} (h : ReachableE W) : ∃ L, LInv L W := by
  obtain ⟨w0, l, hf, hr⟩ := h
  rcases linv_run (linv_fresh hf) l with ⟨W', L, e, hi, -⟩ | e | ⟨e, e', -⟩
  · rw [hr] at e; cases e; exact ⟨L, hi⟩
  · rw [hr] at e; cases e
  · rw [hr] at e'; cases e'

theorem linv_safe {L : List Nat} {W : World α} (h : LInv L W) : OwnedSafely W ∧ ∀ b, Orphan W b ↔ b ∈ L := by
  obtain ⟨w, ℓ, rfl, hi, hc, -, hs⟩ := h
  refine ⟨⟨?_, ?_⟩, fun b => ?_⟩
  · rintro x y b ⟨t, hx, ht⟩ ⟨u, hy, hu⟩
    exact hi.excl x y t u b hx hy ht hu
  · intro x t b hx ht
    obtain ⟨a, h1, h2⟩ := hi.lv x t b hx ht
    exact ⟨a, h1, by simpa [graft, clear_tables hc hi hx b ht] using h2⟩
  · constructor
    · rintro ⟨h1, h2⟩
      by_contra hb
      simp only [graft, hb, if_false] at h1
      obtain ⟨a, ha⟩ := Option.ne_none_iff_exists'.1 h1
      obtain ⟨x, t, hx, ht⟩ := hi.own b a ha
      exact h2 x ⟨t, hx, ht⟩
    · intro hb
      refine ⟨?_, ?_⟩
      · have := hs b hb
        simp only [graft, hb, if_true]
        intro e; rw [e] at this; cases this
      · rintro x ⟨t, hx, ht⟩
        exact clear_tables hc hi hx b ht hb

theorem linv_old {L : List Nat} {W : World α} (h : LInv L W) :
    (∀ p : Ptr, W.next ≤ p.blk → W.mem p = none) ∧ ∀ b a, W.live b = some a → b < W.next := by
  obtain ⟨w, ℓ, rfl, hi, hc, -, hs⟩ := h
  refine ⟨hi.old, fun b a hb => ?_⟩
  by_cases hm : b ∈ L
  · exact hc.lt b hm
  · simp only [graft, hm, if_false] at hb
    exact hi.lt b a hb

theorem stepE_fault_iff {w w1 : World α} (hi : WInv w) (fl : Failures) (op : Op α) (hs : w.step op = .ok w1) :
    (∃ e, w.stepE fl op = .error e) ↔
      ∃ s, wanted w op = some s ∧ 0 < numel s ∧ copies op = true ∧ fl.exhausted = true ∧ fl.throws .label = false ∧
        fl.throws .allocate = false ∧ fl.throws .deleter = false := by
  have key : ∀ {a s src r}, w.build a s src = .ok r →
      ((∃ e, w.buildE fl a s src = .error e) ↔ 0 < numel s ∧ src ≠ none ∧ fl.exhausted = true ∧ fl.throws .label = false ∧
        fl.throws .allocate = false ∧ fl.throws .deleter = false) := by
    intro a s src r hb
    rw [buildE_eq]
    by_cases h1 : fl.throws .label = true
    · simp [h1]
    by_cases h2 : fl.throws .allocate = true
    · simp [h2]
    by_cases h3 : fl.throws .deleter = true
    · simp [h1, h2, h3]
    rw [if_neg h1, if_neg h2, if_neg h3]
    simp only [Bool.not_eq_true] at h1 h2 h3
    simp only [h1, h2, h3, and_true]
    rcases src with _ | p
    · simp
    · dsimp only
      by_cases hn : (numel s).toNat = 0
      · simp only [hn, if_true]
        constructor
        · rintro ⟨_, ⟨⟩⟩
        · rintro ⟨h, -⟩; omega
      · rw [if_neg hn]
        unfold World.build at hb
        dsimp only at hb
        rw [if_neg hn] at hb
        rcases p with _ | p
        · cases hb
        · cases he : fl.exhausted with
          | true =>
            simp only [World.given, he, if_true, ne_eq, reduceCtorEq, not_false_eq_true, and_true]
            exact ⟨fun _ => by omega, fun _ => ⟨_, rfl⟩⟩
          | false =>
            have hg : w.given fl a (numel s).toNat = w.allocate a (numel s).toNat := by simp [World.given, he]
            simp only [Bool.false_eq_true, and_false, iff_false]
            rintro ⟨e, hx⟩
            cases hd : (w.allocate a (numel s).toNat).1 with
            | none => rw [hd] at hb; cases hb
            | some b =>
              rw [hd] at hb
              obtain ⟨-, -, -, hl, -⟩ := given_data (w := w) (fl := fl) (a := a) (n := (numel s).toNat) (b := b) (by rw [hg, hd])
              rw [hg] at hl hx
              rw [hd] at hx
              simp only [bind, Except.bind] at hb hx
              split at hb
              · cases hb
              · next m em =>
                by_cases hex : ∃ k, k < (numel s).toNat ∧ fl.throws (.element k) = true
                · obtain ⟨m', hm'⟩ := copyCellsE_throws (th := fun k => fl.throws (.element k)) em hex
                  simp only [hm', Bool.false_eq_true, if_false, World.release, World.free, hl, if_true, pure, Except.pure] at hx
                  cases hx
                · have hall : ∀ k, k < (numel s).toNat → fl.throws (.element k) = false := fun k hk => by
                    cases h : fl.throws (.element k) with
                    | false => rfl
                    | true => exact absurd ⟨k, hk, h⟩ hex
                  rw [copyCellsE_ok hall, em] at hx
                  simp only [Except.map, if_true, pure, Except.pure] at hx
                  cases hx
  rcases stepE_form w fl op with ⟨x, a, s, src, h1, -, h2, -, h3, h4⟩ | ⟨x, tx, s, src, h1, -, h2, h5, h3, h4⟩ | ⟨h1, h3⟩ | ⟨h1, -, h3, -⟩
  · rw [h4] at hs
    cases hb : w.build a s src with
    | error e => rw [hb] at hs; cases hs
    | ok r =>
      have : (∃ e, w.stepE fl op = .error e) ↔ ∃ e, w.buildE fl a s src = .error e := by
        rw [h3, World.createE]
        cases w.buildE fl a s src with
        | error e => simp [bind, Except.bind]
        | ok r => cases r <;> simp [bind, Except.bind, pure, Except.pure]
      rw [this, key hb]
      simp only [h1, h2, Option.some.injEq, exists_eq_left']
  · rw [h4] at hs
    cases hb : w.build heapAlloc s (some src) with
    | error e => simp [World.assign, hb, bind, Except.bind] at hs
    | ok r =>
      have : (∃ e, w.stepE fl op = .error e) ↔ ∃ e, w.buildE fl heapAlloc s (some src) = .error e := by
        rw [h3, World.assignE]
        cases hbe : w.buildE fl heapAlloc s (some src) with
        | error e => simp [bind, Except.bind]
        | ok r' =>
          cases r' with
          | threw w2 => simp [bind, Except.bind, pure, Except.pure]
          | made t w2 =>
            obtain ⟨-, -, -, m1, m2⟩ := buildE_made hbe
            have hrel : ∃ w3, World.release { w2 with tables := upd w2.tables x (some t) } tx = .ok w3 := by
              cases he : fl.exhausted with
              | false =>
                have hb' := m1 he
                rw [hb] at hb'; cases hb'
                obtain ⟨w3, e3, -⟩ := assign_inv hi h5 hb
                unfold World.assign at e3
                rw [hb] at e3
                exact ⟨w3, e3⟩
              | true =>
                obtain ⟨rfl, rfl, -⟩ := m2 he
                obtain ⟨w3, e3, -⟩ := assign_null_inv hi h5 (t := ⟨none, some heapAlloc, s⟩) rfl
                exact ⟨w3, e3⟩
            obtain ⟨w3, e3⟩ := hrel
            simp [bind, Except.bind, e3, pure, Except.pure]
      rw [this, key hb]
      simp only [h1, h2, Option.some.injEq, exists_eq_left', ne_eq, reduceCtorEq, not_false_eq_true, true_and]
  · simp [h1, h3, hs, Except.map]
  · simp [h1, h3]

theorem linv_same {L : List Nat} {W W' : World α} (h : LInv L W) {fl : Failures} {op : Op α}
    (hd : ∀ s, wanted W op = some s → ¬ Leaks fl s) (ht : W.stepE fl op = .ok (.threw W')) : SameState W W' := by
  obtain ⟨w, ℓ, rfl, hi, hc, -⟩ := h
  rw [graft_stepE hc hi] at ht
  rw [wanted_graft] at hd
  cases hr : w.stepE fl op with
  | error e => rw [hr] at ht; cases ht
  | ok r =>
    cases r with
    | terminated => rw [hr] at ht; cases ht
    | done w' => rw [hr] at ht; cases ht
    | threw w' =>
      rw [hr] at ht; cases ht
      obtain ⟨⟨e1, e2, e3⟩, -⟩ := stepE_same hi hd hr
      exact ⟨e1, e2, by simp only [graft, e3]⟩

theorem runE_terminated_iff (w : World α) (l : List (Failures × Op α)) :
    w.runE l = .ok none ↔ ∃ l1 fl op l2 w1, l = l1 ++ (fl, op) :: l2 ∧ w.runE l1 = .ok (some w1) ∧ w1.stepE fl op = .ok .terminated := by
  induction l generalizing w with
  | nil => simp [World.runE]
  | cons e l ih =>
    obtain ⟨fl, op⟩ := e
    have step : ∀ w1, (w.stepE fl op = .ok (.done w1) ∨ w.stepE fl op = .ok (.threw w1)) →
        (w.runE ((fl, op) :: l) = .ok none ↔
          ∃ l1 fl' op' l2 w2, (fl, op) :: l = l1 ++ (fl', op') :: l2 ∧ w.runE l1 = .ok (some w2) ∧ w2.stepE fl' op' = .ok .terminated) := by
      intro w1 h1
      have hrun : ∀ l, w.runE ((fl, op) :: l) = w1.runE l := by
        intro l
        rcases h1 with h1 | h1 <;> simp only [World.runE, h1, bind, Except.bind]
      rw [hrun, ih]
      constructor
      · rintro ⟨l1, fl', op', l2, w2, rfl, h2, h3⟩
        exact ⟨(fl, op) :: l1, fl', op', l2, w2, rfl, by rw [hrun, h2], h3⟩
      · rintro ⟨l1, fl', op', l2, w2, h, h2, h3⟩
        cases l1 with
        | nil =>
          simp only [List.nil_append, List.cons.injEq, Prod.mk.injEq] at h
          obtain ⟨⟨rfl, rfl⟩, -⟩ := h
          cases h2
          rcases h1 with h1 | h1 <;> rw [h1] at h3 <;> cases h3
        | cons e l1 =>
          simp only [List.cons_append, List.cons.injEq] at h
          obtain ⟨rfl, rfl⟩ := h
          rw [hrun] at h2
          exact ⟨l1, fl', op', l2, w2, rfl, h2, h3⟩
    cases hr : w.stepE fl op with
    | error e =>
      constructor
      · intro h; simp [World.runE, hr, bind, Except.bind] at h
      · rintro ⟨l1, fl', op', l2, w2, h, h2, h3⟩
        cases l1 with
        | nil =>
          simp only [List.nil_append, List.cons.injEq, Prod.mk.injEq] at h
          obtain ⟨⟨rfl, rfl⟩, -⟩ := h
          cases h2
          rw [hr] at h3; cases h3
        | cons e l1 =>
          simp only [List.cons_append, List.cons.injEq] at h
          obtain ⟨rfl, rfl⟩ := h
          simp [World.runE, hr, bind, Except.bind] at h2
    | ok r =>
      cases r with
      | done w1 => exact step w1 (.inl hr)
      | threw w1 => exact step w1 (.inr hr)
      | terminated =>
        refine ⟨fun _ => ⟨[], fl, op, l, w, rfl, rfl, hr⟩, fun _ => ?_⟩
        simp [World.runE, hr, bind, Except.bind, pure, Except.pure]

end Kwk
