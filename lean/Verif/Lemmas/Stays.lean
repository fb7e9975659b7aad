import Verif.Lemmas.Programs
import Verif.Lemmas.Lifetimes
import Verif.Spec.Stays

/-! # Helper lemmas: where the elements of tables go -/

namespace Kwk
open Spec

variable {α : Type}

theorem build_tables {w w1 : World α} {a : AllocId} {s : Shape} {src : Option (Option Ptr)} {t : Table}
    (hb : w.build a s src = .ok (t, w1)) : w1.tables = w.tables := by
  have ht : ∀ n, (w.allocate a n).2.tables = w.tables := fun n => by unfold World.allocate; split <;> rfl
  unfold World.build at hb
  dsimp only at hb
  split at hb
  · cases hb; exact ht _
  · split at hb
    · cases hb; exact ht _
    · split at hb
      · simp only [bind, Except.bind] at hb
        split at hb
        · cases hb
        · cases hb; exact ht _
      · cases hb

theorem release_tables {w w1 : World α} {t : Table} (h : w.release t = .ok w1) : w1.tables = w.tables ∧ w1.next = w.next := by
  unfold World.release at h
  split at h
  · cases h; exact ⟨rfl, rfl⟩
  · unfold World.free at h
    split at h
    · cases h
    · split at h
      · cases h; exact ⟨rfl, rfl⟩
      · cases h

/-- A state with memory cells that are gone for good: no cell, and never used for new storage. -/
def GoneCell (w : World α) (p : Ptr) : Prop := w.mem p = none ∧ p.blk < w.next

theorem build_gone {w w1 : World α} {a : AllocId} {s : Shape} {src : Option (Option Ptr)} {t : Table}
    (hb : w.build a s src = .ok (t, w1)) {p : Ptr} (hp : GoneCell w p) : GoneCell w1 p := by
  have ht : ∀ n, GoneCell (w.allocate a n).2 p := fun n => by
    unfold World.allocate
    split
    · exact hp
    · exact ⟨by have := hp.2; dsimp only; rw [if_neg (by omega)]; exact hp.1, by have := hp.2; dsimp only; omega⟩
  unfold World.build at hb
  dsimp only at hb
  split at hb
  · cases hb; exact ht _
  · split at hb
    · cases hb; exact ht _
    · split at hb
      · simp only [bind, Except.bind] at hb
        split at hb
        · cases hb
        · next e =>
          cases hb
          refine ⟨?_, (ht _).2⟩
          have h1 := copyCells_isSome e p
          rw [(ht _).1] at h1
          simpa using h1
      · cases hb

theorem release_gone {w w1 : World α} {t : Table} (h : w.release t = .ok w1) {p : Ptr} (hp : GoneCell w p) : GoneCell w1 p := by
  unfold World.release at h
  split at h
  · cases h; exact hp
  · unfold World.free at h
    split at h
    · cases h
    · split at h
      · cases h
        refine ⟨?_, hp.2⟩
        dsimp only
        split
        · rfl
        · exact hp.1
      · cases h

theorem release_ends {w w1 : World α} {t : Table} {b : Nat} (hb : t.data = some b) (h : w.release t = .ok w1) {p : Ptr}
    (hp : p.blk = b) : w1.mem p = none := by
  unfold World.release at h
  rw [hb] at h
  dsimp only at h
  unfold World.free at h
  split at h
  · cases h
  · split at h
    · cases h; simp [hp]
    · cases h

theorem makeOp_parts {w w' : World α} {x : Nat} {a : AllocId} {s : Shape} {src : Option (Option Ptr)}
    (h : (do let r ← w.build a s src; pure { r.2 with tables := upd r.2.tables x (some r.1) } : Res (World α)) = .ok w') :
    ∃ t w1, w.build a s src = .ok (t, w1) ∧ w' = { w1 with tables := upd w1.tables x (some t) } := by
  simp only [bind, Except.bind] at h
  cases hb : w.build a s src with
  | error e => rw [hb] at h; cases h
  | ok r => rw [hb] at h; cases h; exact ⟨r.1, r.2, rfl, rfl⟩

/-- What one operation does to the table that has the elements. -/
theorem step_goes {w w' : World α} {op : Op α} (h : w.step op = .ok w') {z z' : Nat} {t : Table} {b : Nat}
    (hz : w.tables z = some t) (hd : t.data = some b) (hg : goesTo w op z = some z') :
    ∃ t', w'.tables z' = some t' ∧ t'.data = some b ∧ t'.shape = t.shape := by
  cases op with
  | dflt x axes =>
    cases hg
    simp only [World.step] at h
    split at h
    · cases h; exact ⟨t, hz, hd, rfl⟩
    · next hx =>
      have hne : z ≠ x := by rintro rfl; rw [hx] at hz; cases hz
      split at h
      · cases h; exact ⟨t, by dsimp only; rw [upd_ne _ _ hne]; exact hz, hd, rfl⟩
      · cases h; exact ⟨t, hz, hd, rfl⟩
  | make x a s src =>
    cases hg
    simp only [World.step] at h
    cases hx : w.tables x with
    | some u => rw [hx] at h; cases h; exact ⟨t, hz, hd, rfl⟩
    | none =>
      have hne : z ≠ x := by rintro rfl; rw [hx] at hz; cases hz
      rw [hx] at h
      obtain ⟨u, w1, hb, rfl⟩ := makeOp_parts h
      exact ⟨t, by dsimp only; rw [upd_ne _ _ hne, build_tables hb]; exact hz, hd, rfl⟩
  | copy x y =>
    cases hg
    simp only [World.step, World.copyOf] at h
    cases hx : w.tables x <;> cases hy : w.tables y <;> rw [hx, hy] at h
    case none.some v =>
      have hne : z ≠ x := by rintro rfl; rw [hx] at hz; cases hz
      obtain ⟨u, w1, hb, rfl⟩ := makeOp_parts h
      exact ⟨t, by dsimp only; rw [upd_ne _ _ hne, build_tables hb]; exact hz, hd, rfl⟩
    all_goals (cases h; exact ⟨t, hz, hd, rfl⟩)
  | copyFrom x c =>
    cases hg
    simp only [World.step] at h
    cases hx : w.tables x with
    | some u => rw [hx] at h; cases h; exact ⟨t, hz, hd, rfl⟩
    | none =>
      have hne : z ≠ x := by rintro rfl; rw [hx] at hz; cases hz
      rw [hx] at h
      obtain ⟨u, w1, hb, rfl⟩ := makeOp_parts h
      exact ⟨t, by dsimp only; rw [upd_ne _ _ hne, build_tables hb]; exact hz, hd, rfl⟩
  | move x y =>
    simp only [World.step] at h
    simp only [goesTo] at hg
    cases hx : w.tables x with
    | some u =>
      simp only [hx] at h
      cases h
      simp [hx] at hg
      subst hg; exact ⟨t, hz, hd, rfl⟩
    | none =>
      have hne : z ≠ x := by rintro rfl; rw [hx] at hz; cases hz
      by_cases e : z = y
      · subst e
        rw [hx, hz] at h
        cases h
        simp [hx] at hg
        subst hg; exact ⟨t, upd_self _ _ _, hd, rfl⟩
      · simp [e] at hg
        subst hg
        cases hy : w.tables y with
        | none => rw [hx, hy] at h; cases h; exact ⟨t, hz, hd, rfl⟩
        | some v =>
          rw [hx, hy] at h; cases h
          exact ⟨t, by dsimp only; rw [upd_ne _ _ hne, upd_ne _ _ e]; exact hz, hd, rfl⟩
  | copyAssign x y =>
    simp only [World.step] at h
    simp only [goesTo] at hg
    cases hx : w.tables x <;> cases hy : w.tables y <;> rw [hx, hy] at h
    case some.some u v =>
      have hne : z ≠ x := by rintro rfl; simp [hy] at hg
      simp [hne] at hg
      subst hg
      obtain ⟨r, w1, hb, hr⟩ := assign_parts h
      refine ⟨t, ?_, hd, rfl⟩
      rw [(release_tables hr).1]
      dsimp only
      rw [upd_ne _ _ hne, build_tables hb]; exact hz
    case some.none u => cases h; simp [hy] at hg; subst hg; exact ⟨t, hz, hd, rfl⟩
    all_goals
      cases h
      have hne : z ≠ x := by rintro rfl; rw [hx] at hz; cases hz
      simp [hne] at hg; subst hg; exact ⟨t, hz, hd, rfl⟩
  | assignFrom x c =>
    simp only [World.step] at h
    simp only [goesTo] at hg
    have hne : z ≠ x := by rintro rfl; simp at hg
    simp [hne] at hg
    subst hg
    cases hx : w.tables x with
    | none => rw [hx] at h; cases h; exact ⟨t, hz, hd, rfl⟩
    | some u =>
      rw [hx] at h
      obtain ⟨r, w1, hb, hr⟩ := assign_parts h
      refine ⟨t, ?_, hd, rfl⟩
      rw [(release_tables hr).1]
      dsimp only
      rw [upd_ne _ _ hne, build_tables hb]; exact hz
  | moveAssign x y =>
    simp only [goesTo] at hg
    by_cases hxy : x = y
    · subst hxy
      simp at hg; subst hg
      cases hx : w.tables x with
      | none => simp only [World.step, hx] at h; cases h; exact ⟨t, hz, hd, rfl⟩
      | some u => rw [moveAssign_self hx] at h; cases h; exact ⟨t, hz, hd, rfl⟩
    · cases hx : w.tables x <;> cases hy : w.tables y
      case some.some u v =>
        rw [moveAssign_eq hxy hx hy] at h
        simp only [bind, Except.bind] at h
        cases hr : w.release u with
        | error e => rw [hr] at h; cases h
        | ok w1 =>
          rw [hr] at h; cases h
          simp [hxy, hx, hy] at hg
          obtain ⟨hne, hg⟩ := hg
          by_cases e : z = y
          · subst e
            simp at hg; subst hg
            rw [hy] at hz; cases hz
            exact ⟨t, upd_self _ _ _, hd, rfl⟩
          · simp [e] at hg; subst hg
            exact ⟨t, by dsimp only; rw [upd_ne _ _ hne, upd_ne _ _ e]; exact hz, hd, rfl⟩
      all_goals
        simp only [World.step, hx, hy] at h; cases h
        simp [hx, hy] at hg; subst hg; exact ⟨t, hz, hd, rfl⟩
  | swap x y =>
    simp only [World.step] at h
    simp only [goesTo] at hg
    cases hx : w.tables x <;> cases hy : w.tables y <;> rw [hx, hy] at h
    case some.some u v =>
      cases h
      simp [hx, hy] at hg
      dsimp only
      by_cases e1 : z = x
      · subst e1
        simp at hg; subst hg
        rw [hx] at hz; cases hz
        exact ⟨t, upd_self _ _ _, hd, rfl⟩
      · by_cases e2 : z = y
        · subst e2
          simp [e1] at hg; subst hg
          rw [hy] at hz; cases hz
          exact ⟨t, by rw [upd_ne _ _ (Ne.symm e1), upd_self], hd, rfl⟩
        · simp [e1, e2] at hg; subst hg
          exact ⟨t, by rw [upd_ne _ _ e2, upd_ne _ _ e1]; exact hz, hd, rfl⟩
    all_goals
      cases h
      simp [hx, hy] at hg; subst hg; exact ⟨t, hz, hd, rfl⟩
  | destroy x =>
    simp only [World.step] at h
    simp only [goesTo] at hg
    have hne : z ≠ x := by rintro rfl; simp at hg
    simp [hne] at hg; subst hg
    cases hx : w.tables x with
    | none => rw [hx] at h; cases h; exact ⟨t, hz, hd, rfl⟩
    | some u =>
      rw [hx] at h
      exact ⟨t, by rw [(release_tables h).1]; dsimp only; rw [upd_ne _ _ hne]; exact hz, hd, rfl⟩
  | write x is v =>
    cases hg
    simp only [World.step] at h
    cases hx : w.tables x with
    | none => rw [hx] at h; cases h; exact ⟨t, hz, hd, rfl⟩
    | some u =>
      rw [hx] at h
      dsimp only at h
      cases hu : u.data with
      | none => rw [hu] at h; cases h
      | some c =>
        rw [hu] at h
        simp only [bind, Except.bind] at h
        split at h
        · cases h
        · cases h; exact ⟨t, hz, hd, rfl⟩

/-- What happens to the cells when the elements end. -/
theorem step_ends {w w' : World α} {op : Op α} (h : w.step op = .ok w') {z : Nat} {t : Table} {b : Nat}
    (hz : w.tables z = some t) (hd : t.data = some b) (hg : goesTo w op z = none) {p : Ptr} (hp : p.blk = b) : w'.mem p = none := by
  cases op with
  | copyAssign x y =>
    simp only [World.step] at h
    simp only [goesTo] at hg
    split at hg
    · next e =>
      obtain ⟨rfl, hy⟩ := e
      obtain ⟨v, hy⟩ := Option.isSome_iff_exists.1 hy
      rw [hz, hy] at h
      obtain ⟨r, w1, hb, hr⟩ := assign_parts h
      exact release_ends hd hr hp
    · cases hg
  | assignFrom x c =>
    simp only [World.step] at h
    simp only [goesTo] at hg
    split at hg
    · next e =>
      subst e
      rw [hz] at h
      obtain ⟨r, w1, hb, hr⟩ := assign_parts h
      exact release_ends hd hr hp
    · cases hg
  | moveAssign x y =>
    simp only [goesTo] at hg
    split at hg
    · cases hg
    · next e1 =>
      split at hg
      · next e =>
        subst e
        rw [not_or, not_or] at e1
        obtain ⟨v, hy⟩ := Option.ne_none_iff_exists'.1 e1.2.2
        rw [moveAssign_eq e1.1 hz hy] at h
        simp only [bind, Except.bind] at h
        cases hr : w.release t with
        | error e => rw [hr] at h; cases h
        | ok w1 => rw [hr] at h; cases h; exact release_ends hd hr hp
      · split at hg <;> cases hg
  | destroy x =>
    simp only [World.step] at h
    simp only [goesTo] at hg
    split at hg
    · next e => subst e; rw [hz] at h; exact release_ends hd h hp
    · cases hg
  | swap x y => simp only [goesTo] at hg; repeat' (first | cases hg | split at hg)
  | move x y => simp only [goesTo] at hg; split at hg <;> cases hg
  | dflt x axes => cases hg
  | make x a s src => cases hg
  | copy x y => cases hg
  | copyFrom x c => cases hg
  | write x is v => cases hg

/-- Gone cells stay gone. -/
theorem step_gone {w w' : World α} {op : Op α} (h : w.step op = .ok w') {p : Ptr} (hp : GoneCell w p) : GoneCell w' p := by
  cases op with
  | dflt x axes =>
    simp only [World.step] at h
    split at h
    · cases h; exact hp
    · split at h <;> (cases h; exact hp)
  | make x a s src =>
    simp only [World.step] at h
    split at h
    · cases h; exact hp
    · obtain ⟨u, w1, hb, rfl⟩ := makeOp_parts h; exact build_gone hb hp
  | copy x y =>
    simp only [World.step, World.copyOf] at h
    split at h
    · obtain ⟨u, w1, hb, rfl⟩ := makeOp_parts h; exact build_gone hb hp
    · cases h; exact hp
  | copyFrom x c =>
    simp only [World.step] at h
    split at h
    · cases h; exact hp
    · obtain ⟨u, w1, hb, rfl⟩ := makeOp_parts h; exact build_gone hb hp
  | move x y =>
    simp only [World.step] at h
    split at h <;> (cases h; exact hp)
  | copyAssign x y =>
    simp only [World.step] at h
    split at h
    · obtain ⟨r, w1, hb, hr⟩ := assign_parts h
      exact release_gone (w := ({ w1 with tables := upd w1.tables x (some r) } : World α)) hr (build_gone hb hp)
    · cases h; exact hp
  | assignFrom x c =>
    simp only [World.step] at h
    split at h
    · obtain ⟨r, w1, hb, hr⟩ := assign_parts h
      exact release_gone (w := ({ w1 with tables := upd w1.tables x (some r) } : World α)) hr (build_gone hb hp)
    · cases h; exact hp
  | moveAssign x y =>
    by_cases hxy : x = y
    · subst hxy
      cases hx : w.tables x with
      | none => simp only [World.step, hx] at h; cases h; exact hp
      | some u => rw [moveAssign_self hx] at h; cases h; exact hp
    · cases hx : w.tables x <;> cases hy : w.tables y
      case some.some u v =>
        rw [moveAssign_eq hxy hx hy] at h
        simp only [bind, Except.bind] at h
        cases hr : w.release u with
        | error e => rw [hr] at h; cases h
        | ok w1 => rw [hr] at h; cases h; exact release_gone hr hp
      all_goals (simp only [World.step, hx, hy] at h; cases h; exact hp)
  | swap x y =>
    simp only [World.step] at h
    split at h <;> (cases h; exact hp)
  | destroy x =>
    simp only [World.step] at h
    split at h
    · exact release_gone (w := ({ w with tables := upd w.tables x none } : World α)) h hp
    · cases h; exact hp
  | write x is v =>
    simp only [World.step] at h
    split at h
    · cases h; exact hp
    · split at h
      · cases h
      · simp only [bind, Except.bind] at h
        split at h
        · cases h
        · next e =>
          cases h
          refine ⟨?_, hp.2⟩
          have h1 := store_isSome e p
          rw [hp.1] at h1
          simpa using h1

theorem step_next {w w' : World α} {op : Op α} (h : w.step op = .ok w') : w.next ≤ w'.next := by
  cases op with
  | dflt x axes =>
    simp only [World.step] at h
    split at h
    · cases h; exact le_refl _
    · split at h <;> (cases h; exact le_refl _)
  | make x a s src =>
    simp only [World.step] at h
    split at h
    · cases h; exact le_refl _
    · obtain ⟨u, w1, hb, rfl⟩ := makeOp_parts h; have := build_next hb; exact this
  | copy x y =>
    simp only [World.step, World.copyOf] at h
    split at h
    · obtain ⟨u, w1, hb, rfl⟩ := makeOp_parts h; have := build_next hb; exact this
    · cases h; exact le_refl _
  | copyFrom x c =>
    simp only [World.step] at h
    split at h
    · cases h; exact le_refl _
    · obtain ⟨u, w1, hb, rfl⟩ := makeOp_parts h; have := build_next hb; exact this
  | move x y =>
    simp only [World.step] at h
    split at h <;> (cases h; exact le_refl _)
  | copyAssign x y =>
    simp only [World.step] at h
    split at h
    · obtain ⟨r, w1, hb, hr⟩ := assign_parts h
      rw [(release_tables hr).2]
      have := build_next hb
      exact this
    · cases h; exact le_refl _
  | assignFrom x c =>
    simp only [World.step] at h
    split at h
    · obtain ⟨r, w1, hb, hr⟩ := assign_parts h
      rw [(release_tables hr).2]
      have := build_next hb
      exact this
    · cases h; exact le_refl _
  | moveAssign x y =>
    by_cases hxy : x = y
    · subst hxy
      cases hx : w.tables x with
      | none => simp only [World.step, hx] at h; cases h; exact le_refl _
      | some u => rw [moveAssign_self hx] at h; cases h; exact le_refl _
    · cases hx : w.tables x <;> cases hy : w.tables y
      case some.some u v =>
        rw [moveAssign_eq hxy hx hy] at h
        simp only [bind, Except.bind] at h
        cases hr : w.release u with
        | error e => rw [hr] at h; cases h
        | ok w1 => rw [hr] at h; cases h; exact (release_tables hr).2.ge
      all_goals (simp only [World.step, hx, hy] at h; cases h; exact le_refl _)
  | swap x y =>
    simp only [World.step] at h
    split at h <;> (cases h; exact le_refl _)
  | destroy x =>
    simp only [World.step] at h
    split at h
    · exact (release_tables h).2.ge
    · cases h; exact le_refl _
  | write x is v =>
    simp only [World.step] at h
    split at h
    · cases h; exact le_refl _
    · split at h
      · cases h
      · simp only [bind, Except.bind] at h
        split at h
        · cases h
        · cases h; exact le_refl _

/-! ## Algorithms only write to cells that exist -/

/-- The two memories have the same cells, and the same contents outside block `b`. -/
def WritesIn (b : Nat) (m m' : Mem α) : Prop := (∀ p, (m' p).isSome = (m p).isSome) ∧ ∀ p : Ptr, p.blk ≠ b → m' p = m p

theorem writesIn_refl (b : Nat) (m : Mem α) : WritesIn b m m := ⟨fun _ => rfl, fun _ _ => rfl⟩

theorem store_in {m m' : Mem α} {a : Ptr} {v : α} {b : Nat} (h : store m a v = .ok m') (hb : a.blk = b) : WritesIn b m m' := by
  refine ⟨store_inv h, fun p hp => ?_⟩
  unfold store at h
  split at h
  · cases h
    dsimp only
    rw [if_neg]
    rintro rfl; exact hp hb
  · cases h

theorem addr_blk (c : Container) (p : List Int) : (c.addr p).blk = c.base.blk := rfl

theorem slice_blk {md : Mode} {c c' : Container} {sl : List Slicer} (h : c.slice md sl = .ok c') : c'.base.blk = c.base.blk := by
  unfold Container.slice at h
  simp only [bind, Except.bind] at h
  split at h
  · cases h
  · split at h
    · cases h
    · cases h; rfl

theorem foldlM_keeps {τ : Type} {l : List (List Int)} {step : List Int → τ → Res τ} (Q : τ → Prop)
    (hQ : ∀ p s s', Q s → step p s = .ok s' → Q s') {s0 s' : τ}
    (h : l.foldlM (fun s p => step p s) s0 = .ok s') (h0 : Q s0) : Q s' := by
  induction l generalizing s0 with
  | nil => cases h; exact h0
  | cons a l ih =>
    rw [List.foldlM_cons] at h
    cases hs : step a s0 with
    | error e => rw [hs] at h; cases h
    | ok s1 => rw [hs] at h; exact ih h (hQ _ _ _ h0 hs)

theorem loop_cells {σ : Type} {f : List Int → σ × Mem α → Res (σ × Mem α)} {ds : Shape} {m : Mem α} {s : σ} {r : σ × Mem α}
    {b : Nat} (hf : ∀ p s s', f p s = .ok s' → WritesIn b s.2 s'.2) (h : loopState f ds (s, m) = .ok r) : WritesIn b m r.2 := by
  rw [loopState_eq] at h
  refine foldlM_keeps (fun s => WritesIn b m s.2) ?_ h (writesIn_refl b m)
  intro p s s' h1 h2
  exact ⟨fun q => by rw [(hf p s s' h2).1 q, h1.1 q], fun q hq => by rw [(hf p s s' h2).2 q hq, h1.2 q hq]⟩

theorem resBind_ok {β γ : Type} {x : Res β} {f : β → Res γ} {r : γ} (h : (x >>= f) = .ok r) : ∃ b, x = .ok b ∧ f b = .ok r := by
  cases x with
  | error e => cases h
  | ok b => exact ⟨b, rfl, h⟩

theorem fill_cells {m m' : Mem α} {c : Container} {v : α} (h : fill m c v = .ok m') : WritesIn c.base.blk m m' := by
  obtain ⟨r, h1, h2⟩ := resBind_ok h
  cases h2
  refine loop_cells (fun p s s' e => ?_) h1
  obtain ⟨m1, e1, e2⟩ := resBind_ok e
  cases e2; exact store_in e1 rfl

theorem generate_cells {m m' : Mem α} {c : Container} {g : List Int → α} (h : generate m g c = .ok m') : WritesIn c.base.blk m m' := by
  obtain ⟨r, h1, h2⟩ := resBind_ok h
  cases h2
  refine loop_cells (fun p s s' e => ?_) h1
  obtain ⟨m1, e1, e2⟩ := resBind_ok e
  cases e2; exact store_in e1 rfl

theorem iota_cells {β : Type} {m m' : Mem α} {c : Container} {incr : β → β} {conv : β → α} {v : β}
    (h : iota m c incr conv v = .ok m') : WritesIn c.base.blk m m' := by
  obtain ⟨r, h1, h2⟩ := resBind_ok h
  cases h2
  refine loop_cells (fun p s s' e => ?_) h1
  obtain ⟨m1, e1, e2⟩ := resBind_ok e
  cases e2; exact store_in e1 rfl

theorem transform_cells {m m' : Mem α} {c : Container} {g : List α → α} {cs : List Container}
    (h : transform m g c cs = .ok m') : WritesIn c.base.blk m m' := by
  obtain ⟨r, h1, h2⟩ := resBind_ok h
  cases h2
  refine loop_cells (fun p s s' e => ?_) h1
  obtain ⟨vs, -, e⟩ := resBind_ok e
  obtain ⟨m1, e1, e2⟩ := resBind_ok e
  cases e2; exact store_in e1 rfl

theorem copyIf_cells {m m' : Mem α} {c d : Container} {f : α → Bool} (h : copyIf m f c d = .ok m') : WritesIn c.base.blk m m' := by
  obtain ⟨r, h1, h2⟩ := resBind_ok h
  cases h2
  refine loop_cells (fun p s s' e => ?_) h1
  obtain ⟨v, -, e⟩ := resBind_ok e
  split at e
  · obtain ⟨m1, e1, e2⟩ := resBind_ok e
    cases e2; exact store_in e1 rfl
  · cases e; exact writesIn_refl _ _

theorem replaceIf_cells {m m' : Mem α} {c : Container} {f : α → Bool} {v : α} (h : replaceIf m c f v = .ok m') : WritesIn c.base.blk m m' := by
  obtain ⟨r, h1, h2⟩ := resBind_ok h
  cases h2
  refine loop_cells (fun p s s' e => ?_) h1
  obtain ⟨v, -, e⟩ := resBind_ok e
  split at e
  · obtain ⟨m1, e1, e2⟩ := resBind_ok e
    cases e2; exact store_in e1 rfl
  · cases e; exact writesIn_refl _ _

theorem inclusiveScan_cells {m m' : Mem α} {c d : Container} {g : α → α → α} {v : α}
    (h : inclusiveScan m c d v g = .ok m') : WritesIn d.base.blk m m' := by
  obtain ⟨r, h1, h2⟩ := resBind_ok h
  cases h2
  refine loop_cells (fun p s s' e => ?_) h1
  obtain ⟨v, -, e⟩ := resBind_ok e
  obtain ⟨m1, e1, e2⟩ := resBind_ok e
  cases e2; exact store_in e1 rfl

theorem exclusiveScan_cells {m m' : Mem α} {c d : Container} {g : α → α → α} {v : α}
    (h : exclusiveScan m c d v g = .ok m') : WritesIn d.base.blk m m' := by
  obtain ⟨r, h1, h2⟩ := resBind_ok h
  cases h2
  refine loop_cells (fun p s s' e => ?_) h1
  obtain ⟨m1, e1, e⟩ := resBind_ok e
  obtain ⟨v, -, e2⟩ := resBind_ok e
  cases e2; exact store_in e1 rfl

/-- An action is an operation on tables, or only writes to cells that exist. -/
theorem act_cells {md : Mode} {w w' : World α} {act : Act α} (h : w.act md act = .ok w') :
    (∃ o, act = .op o ∧ w.step o = .ok w') ∨
      (∀ z, actGoesTo w act z = some z) ∧ ∃ m b, w' = { w with mem := m } ∧ WritesIn b w.mem m ∧
        (w' = w ∨ ∃ x t, ActWrites act x ∧ w.tables x = some t ∧ (t.ptr.getD ⟨w.next, 0⟩).blk = b) := by
  cases act with
  | op o => exact .inl ⟨o, rfl, h⟩
  | fill x v =>
    refine .inr ⟨fun _ => rfl, ?_⟩
    simp only [World.act] at h
    split at h
    · cases h; exact ⟨w.mem, 0, rfl, writesIn_refl _ _, .inl rfl⟩
    · next hx =>
      obtain ⟨m, h1, h2⟩ := resBind_ok h; cases h2; exact ⟨m, _, rfl, fill_cells h1, .inr ⟨x, _, rfl, hx, rfl⟩⟩
  | generate x g =>
    refine .inr ⟨fun _ => rfl, ?_⟩
    simp only [World.act] at h
    split at h
    · cases h; exact ⟨w.mem, 0, rfl, writesIn_refl _ _, .inl rfl⟩
    · next hx =>
      obtain ⟨m, h1, h2⟩ := resBind_ok h; cases h2; exact ⟨m, _, rfl, generate_cells h1, .inr ⟨x, _, rfl, hx, rfl⟩⟩
  | iota x incr v =>
    refine .inr ⟨fun _ => rfl, ?_⟩
    simp only [World.act] at h
    split at h
    · cases h; exact ⟨w.mem, 0, rfl, writesIn_refl _ _, .inl rfl⟩
    · next hx =>
      obtain ⟨m, h1, h2⟩ := resBind_ok h; cases h2; exact ⟨m, _, rfl, iota_cells h1, .inr ⟨x, _, rfl, hx, rfl⟩⟩
  | replaceIf x f v =>
    refine .inr ⟨fun _ => rfl, ?_⟩
    simp only [World.act] at h
    split at h
    · cases h; exact ⟨w.mem, 0, rfl, writesIn_refl _ _, .inl rfl⟩
    · next hx =>
      obtain ⟨m, h1, h2⟩ := resBind_ok h; cases h2; exact ⟨m, _, rfl, replaceIf_cells h1, .inr ⟨x, _, rfl, hx, rfl⟩⟩
  | transform x g ys =>
    refine .inr ⟨fun _ => rfl, ?_⟩
    simp only [World.act] at h
    split at h
    · next hx _ =>
      obtain ⟨m, h1, h2⟩ := resBind_ok h; cases h2; exact ⟨m, _, rfl, transform_cells h1, .inr ⟨x, _, rfl, hx, rfl⟩⟩
    · cases h; exact ⟨w.mem, 0, rfl, writesIn_refl _ _, .inl rfl⟩
  | copy x y =>
    refine .inr ⟨fun _ => rfl, ?_⟩
    simp only [World.act] at h
    split at h
    · next hx _ =>
      obtain ⟨m, h1, h2⟩ := resBind_ok h; cases h2; exact ⟨m, _, rfl, transform_cells h1, .inr ⟨x, _, rfl, hx, rfl⟩⟩
    · cases h; exact ⟨w.mem, 0, rfl, writesIn_refl _ _, .inl rfl⟩
  | copyIf x f y =>
    refine .inr ⟨fun _ => rfl, ?_⟩
    simp only [World.act] at h
    split at h
    · next hx _ =>
      obtain ⟨m, h1, h2⟩ := resBind_ok h; cases h2; exact ⟨m, _, rfl, copyIf_cells h1, .inr ⟨x, _, rfl, hx, rfl⟩⟩
    · cases h; exact ⟨w.mem, 0, rfl, writesIn_refl _ _, .inl rfl⟩
  | inclusiveScan y x init g =>
    refine .inr ⟨fun _ => rfl, ?_⟩
    simp only [World.act] at h
    split at h
    · next hx _ =>
      obtain ⟨m, h1, h2⟩ := resBind_ok h; cases h2; exact ⟨m, _, rfl, inclusiveScan_cells h1, .inr ⟨x, _, rfl, hx, rfl⟩⟩
    · cases h; exact ⟨w.mem, 0, rfl, writesIn_refl _ _, .inl rfl⟩
  | exclusiveScan y x init g =>
    refine .inr ⟨fun _ => rfl, ?_⟩
    simp only [World.act] at h
    split at h
    · next hx _ =>
      obtain ⟨m, h1, h2⟩ := resBind_ok h; cases h2; exact ⟨m, _, rfl, exclusiveScan_cells h1, .inr ⟨x, _, rfl, hx, rfl⟩⟩
    · cases h; exact ⟨w.mem, 0, rfl, writesIn_refl _ _, .inl rfl⟩
  | fillAt x sl v =>
    refine .inr ⟨fun _ => rfl, ?_⟩
    simp only [World.act] at h
    split at h
    · cases h; exact ⟨w.mem, 0, rfl, writesIn_refl _ _, .inl rfl⟩
    · next hx =>
      obtain ⟨c, hc, h⟩ := resBind_ok h
      obtain ⟨m, h1, h2⟩ := resBind_ok h; cases h2; exact ⟨m, _, rfl, fill_cells h1, .inr ⟨x, _, rfl, hx, (slice_blk hc).symm⟩⟩
  | copyAt x sl y sl' =>
    refine .inr ⟨fun _ => rfl, ?_⟩
    simp only [World.act] at h
    split at h
    · next hx _ =>
      obtain ⟨c, hc, h⟩ := resBind_ok h
      obtain ⟨d, -, h⟩ := resBind_ok h
      obtain ⟨m, h1, h2⟩ := resBind_ok h; cases h2; exact ⟨m, _, rfl, transform_cells h1, .inr ⟨x, _, rfl, hx, (slice_blk hc).symm⟩⟩
    · cases h; exact ⟨w.mem, 0, rfl, writesIn_refl _ _, .inl rfl⟩

theorem cells_inv {w : World α} (h : WInv w) {m : Mem α} {b : Nat} (hm : WritesIn b w.mem m) : WInv { w with mem := m } where
  excl := h.excl
  lv := h.lv
  own := h.own
  lt := h.lt
  cells := fun x t b hx hd k h0 h1 => by
    have := h.cells x t b hx hd k h0 h1
    rw [← hm.1] at this; exact this
  old := fun p hp => by
    have := hm.1 p
    rw [h.old p hp] at this
    simpa using this

theorem act_inv {md : Mode} {w w' : World α} {act : Act α} (h : WInv w) (e : w.act md act = .ok w') : WInv w' := by
  rcases act_cells e with ⟨o, rfl, e⟩ | ⟨-, m, b, rfl, hm, -⟩
  · exact step_det h e
  · exact cells_inv h hm

theorem act_gone {md : Mode} {w w' : World α} {act : Act α} (e : w.act md act = .ok w') {p : Ptr} (hp : GoneCell w p) :
    GoneCell w' p := by
  rcases act_cells e with ⟨o, rfl, e⟩ | ⟨-, m, b, rfl, hm, -⟩
  · exact step_gone e hp
  · refine ⟨?_, hp.2⟩
    have := hm.1 p
    rw [hp.1] at this
    simpa using this

theorem runActs_cons {md : Mode} {w w' : World α} {act : Act α} {acts : List (Act α)} :
    w.runActs md (act :: acts) = .ok w' ↔ ∃ w1, w.act md act = .ok w1 ∧ w1.runActs md acts = .ok w' := by
  unfold World.runActs
  rw [List.foldlM_cons]
  constructor
  · exact fun h => resBind_ok h
  · rintro ⟨w1, h1, h2⟩
    rw [h1]; exact h2

theorem runActs_gone {md : Mode} {w w' : World α} {acts : List (Act α)} (e : w.runActs md acts = .ok w') {p : Ptr}
    (hp : GoneCell w p) : GoneCell w' p := by
  induction acts generalizing w with
  | nil => cases e; exact hp
  | cons a acts ih =>
    obtain ⟨w1, e1, e2⟩ := runActs_cons.1 e
    exact ih e2 (act_gone e1 hp)

theorem runActs_inv {md : Mode} {w w' : World α} {acts : List (Act α)} (e : w.runActs md acts = .ok w') (h : WInv w) : WInv w' := by
  induction acts generalizing w with
  | nil => cases e; exact h
  | cons a acts ih =>
    obtain ⟨w1, e1, e2⟩ := runActs_cons.1 e
    exact ih e2 (act_inv h e1)

theorem act_goes {md : Mode} {w w' : World α} {act : Act α} (h : w.act md act = .ok w') {z z' : Nat} {t : Table} {b : Nat}
    (hz : w.tables z = some t) (hd : t.data = some b) (hg : actGoesTo w act z = some z') :
    ∃ t', w'.tables z' = some t' ∧ t'.data = some b ∧ t'.shape = t.shape := by
  rcases act_cells h with ⟨o, rfl, e⟩ | ⟨hn, m, b', rfl, -⟩
  · exact step_goes e hz hd hg
  · rw [hn] at hg; cases hg; exact ⟨t, hz, hd, rfl⟩

theorem act_ends {md : Mode} {w w' : World α} {act : Act α} (hw : WInv w) (h : w.act md act = .ok w') {z : Nat} {t : Table} {b : Nat}
    (hz : w.tables z = some t) (hd : t.data = some b) (hg : actGoesTo w act z = none) {p : Ptr} (hp : p.blk = b) : GoneCell w' p := by
  rcases act_cells h with ⟨o, rfl, e⟩ | ⟨hn, m, b', rfl, -⟩
  · refine ⟨step_ends e hz hd hg hp, ?_⟩
    obtain ⟨a, -, ha⟩ := hw.lv z t b hz hd
    have hlt := hw.lt b a ha
    rw [hp]
    exact Nat.lt_of_lt_of_le hlt (step_next e)
  · rw [hn] at hg; cases hg

/-! ## What the cells of a table hold -/

theorem copyCells_outside {m m' : Mem α} {src dst : Ptr} {n : Nat} (h : copyCells m src dst n = .ok m') {p : Ptr}
    (hp : p.blk ≠ dst.blk) : m' p = m p := by
  induction n generalizing m' with
  | zero => cases h; rfl
  | succ n ih =>
    simp only [copyCells] at h
    obtain ⟨m1, e1, h⟩ := resBind_ok h
    obtain ⟨v, -, h⟩ := resBind_ok h
    rw [(store_in h rfl).2 p hp, ih e1]

theorem build_outside {w w1 : World α} {a : AllocId} {s : Shape} {src : Option (Option Ptr)} {t : Table}
    (hb : w.build a s src = .ok (t, w1)) {p : Ptr} (hp : p.blk ≠ w.next) : w1.mem p = w.mem p := by
  have hd : ∀ n b, (w.allocate a n).1 = some b → b = w.next := fun n b h => by
    unfold World.allocate at h
    split at h
    · cases h
    · cases h; rfl
  have ht : ∀ n, (w.allocate a n).2.mem p = w.mem p := fun n => by
    unfold World.allocate
    split
    · rfl
    · exact if_neg hp
  unfold World.build at hb
  dsimp only at hb
  split at hb
  · cases hb; exact ht _
  · split at hb
    · cases hb; exact ht _
    · split at hb
      · next e =>
        obtain ⟨m, e1, e2⟩ := resBind_ok hb
        cases e2
        rw [← ht (numel s).toNat]
        exact copyCells_outside e1 (by rw [hd _ _ e]; exact hp)
      · cases hb

theorem release_outside {w w1 : World α} {t : Table} (h : w.release t = .ok w1) {p : Ptr} (hp : t.data ≠ some p.blk) :
    w1.mem p = w.mem p := by
  unfold World.release at h
  split at h
  · cases h; rfl
  · next b e =>
    unfold World.free at h
    split at h
    · cases h
    · split at h
      · cases h
        dsimp only
        rw [if_neg]
        intro e'; rw [e, e'] at hp; exact hp rfl
      · cases h

/-- The elements keep their values in every operation that is not an assignment to one of them. -/
theorem step_outside {w w' : World α} (hw : WInv w) {op : Op α} (h : w.step op = .ok w') {z : Nat} {t : Table} {b : Nat}
    (hz : w.tables z = some t) (hd : t.data = some b) {z' : Nat} (hg : goesTo w op z = some z') (hn : ¬ ActWrites (.op op) z)
    {p : Ptr} (hp : p.blk = b) : w'.mem p = w.mem p := by
  have hlt : p.blk ≠ w.next := by
    obtain ⟨a, -, ha⟩ := hw.lv z t b hz hd
    have := hw.lt b a ha
    omega
  have hex : ∀ x u, w.tables x = some u → z ≠ x → u.data ≠ some p.blk := by
    intro x u hx hne e
    exact hne (hw.excl z x t u b hz hx hd (by rw [e, hp]))
  cases op with
  | dflt x axes =>
    simp only [World.step] at h
    split at h
    · cases h; rfl
    · split at h <;> (cases h; rfl)
  | make x a s src =>
    simp only [World.step] at h
    split at h
    · cases h; rfl
    · obtain ⟨u, w1, hb, rfl⟩ := makeOp_parts h; have := build_outside hb hlt; exact this
  | copy x y =>
    simp only [World.step, World.copyOf] at h
    split at h
    · obtain ⟨u, w1, hb, rfl⟩ := makeOp_parts h; have := build_outside hb hlt; exact this
    · cases h; rfl
  | copyFrom x c =>
    simp only [World.step] at h
    split at h
    · cases h; rfl
    · obtain ⟨u, w1, hb, rfl⟩ := makeOp_parts h; have := build_outside hb hlt; exact this
  | move x y =>
    simp only [World.step] at h
    split at h <;> (cases h; rfl)
  | copyAssign x y =>
    simp only [World.step] at h
    simp only [goesTo] at hg
    split at h
    · next hx hy =>
      have hne : z ≠ x := by rintro rfl; simp [hy] at hg
      obtain ⟨r, w1, hb, hr⟩ := assign_parts h
      have h1 := build_outside hb hlt
      rw [release_outside hr (hex x _ hx hne)]
      exact h1
    · cases h; rfl
  | assignFrom x c =>
    simp only [World.step] at h
    simp only [goesTo] at hg
    split at h
    · next hx =>
      have hne : z ≠ x := by rintro rfl; simp at hg
      obtain ⟨r, w1, hb, hr⟩ := assign_parts h
      have h1 := build_outside hb hlt
      rw [release_outside hr (hex x _ hx hne)]
      exact h1
    · cases h; rfl
  | moveAssign x y =>
    by_cases hxy : x = y
    · subst hxy
      cases hx : w.tables x with
      | none => simp only [World.step, hx] at h; cases h; rfl
      | some u => rw [moveAssign_self hx] at h; cases h; rfl
    · cases hx : w.tables x <;> cases hy : w.tables y
      case some.some u v =>
        have hne : z ≠ x := by rintro rfl; simp [goesTo, hxy, hx, hy] at hg
        rw [moveAssign_eq hxy hx hy] at h
        obtain ⟨w1, hr, h⟩ := resBind_ok h
        cases h
        have := release_outside hr (hex x _ hx hne)
        exact this
      all_goals (simp only [World.step, hx, hy] at h; cases h; rfl)
  | swap x y =>
    simp only [World.step] at h
    split at h <;> (cases h; rfl)
  | destroy x =>
    simp only [World.step] at h
    simp only [goesTo] at hg
    have hne : z ≠ x := by rintro rfl; simp at hg
    split at h
    · next hx =>
      rw [release_outside h (hex x _ hx hne)]
    · cases h; rfl
  | write x is v =>
    have hne : z ≠ x := hn
    simp only [World.step] at h
    split at h
    · cases h; rfl
    · next u hx =>
      split at h
      · cases h
      · next c hc =>
        obtain ⟨m, e1, e2⟩ := resBind_ok h
        cases e2
        refine (store_in e1 rfl).2 p fun e => hex x u hx hne ?_
        rw [hc, e]; rfl

theorem act_outside {md : Mode} {w w' : World α} (hw : WInv w) {act : Act α} (h : w.act md act = .ok w') {z : Nat} {t : Table} {b : Nat}
    (hz : w.tables z = some t) (hd : t.data = some b) {z' : Nat} (hg : actGoesTo w act z = some z') (hn : ¬ ActWrites act z)
    {p : Ptr} (hp : p.blk = b) : w'.mem p = w.mem p := by
  rcases act_cells h with ⟨o, rfl, e⟩ | ⟨-, m, b', rfl, hm, e | ⟨x, u, hx, hu, hb'⟩⟩
  · exact step_outside hw e hz hd hg hn hp
  · rw [e]
  · refine hm.2 p fun e => ?_
    have hne : z ≠ x := by rintro rfl; exact hn hx
    obtain ⟨a, -, ha⟩ := hw.lv z t b hz hd
    have hlt := hw.lt b a ha
    cases hud : u.data with
    | none => rw [Table.ptr, hud] at hb'; simp at hb'; omega
    | some c =>
      rw [Table.ptr, hud] at hb'
      simp at hb'
      exact hne (hw.excl z x t u b hz hu hd (by rw [hud]; congr 1; omega))

end Kwk
