import Verif.Lemmas.Ownership
import Verif.Spec.Failures

/-! # Helper lemmas about tables when something fails -/

namespace Kwk
open Spec

variable {α : Type}

theorem store_other {m m' : Mem α} {a : Ptr} {v : α} (h : store m a v = .ok m') {p : Ptr} (hp : p ≠ a) : m' p = m p := by
  unfold store at h
  split at h
  · cases h; simp [hp]
  · cases h

theorem copyCellsE_inv {th : Nat → Bool} {m m' : Mem α} {src dst : Ptr} {n : Nat} {r : Bool}
    (h : copyCellsE th m src dst n = .ok (r, m')) :
    (∀ p, (m' p).isSome = (m p).isSome) ∧ (∀ p, p.blk ≠ dst.blk → m' p = m p) ∧
      (r = true → copyCells m src dst n = .ok m' ∧ ∀ k, k < n → th k = false) := by
  induction n generalizing m' r with
  | zero => cases h; exact ⟨fun _ => rfl, fun _ _ => rfl, fun _ => ⟨rfl, fun _ h => absurd h (by omega)⟩⟩
  | succ n ih =>
    simp only [copyCellsE, bind, Except.bind] at h
    split at h
    · cases h
    · next r1 e1 =>
      obtain ⟨r1, m1⟩ := r1
      obtain ⟨i1, i2, i3⟩ := ih e1
      dsimp only at h
      cases r1 with
      | false =>
        simp only [Bool.false_eq_true, if_false, pure, Except.pure] at h
        cases h; exact ⟨i1, i2, fun h => by cases h⟩
      | true =>
        simp only [if_true] at h
        split at h
        · cases h
        · next v ev =>
          cases ht : th n with
          | true =>
            simp only [ht, if_true, pure, Except.pure] at h
            cases h; exact ⟨i1, i2, fun h => by cases h⟩
          | false =>
            simp only [ht, Bool.false_eq_true, if_false] at h
            split at h
            · cases h
            · next m2 e2 =>
              cases h
              refine ⟨fun p => by rw [store_isSome e2, i1], fun p hp => ?_, fun _ => ?_⟩
              · rw [store_other e2 (by rintro rfl; exact hp rfl), i2 p hp]
              · obtain ⟨j1, j2⟩ := i3 rfl
                refine ⟨?_, ?_⟩
                · simp only [copyCells, bind, Except.bind, j1, ev, e2]
                · intro k hk
                  by_cases e : k = n
                  · rw [e, ht]
                  · exact j2 k (by omega)

theorem copyCellsE_error {th : Nat → Bool} {m : Mem α} {src dst : Ptr} {n : Nat} {e : Fault}
    (h : copyCellsE th m src dst n = .error e) : e = .outOfBounds := by
  induction n with
  | zero => cases h
  | succ n ih =>
    simp only [copyCellsE, bind, Except.bind] at h
    split at h
    · next e1 => cases h; exact ih e1
    · split at h
      · split at h
        · next e2 => cases h; exact load_error e2
        · split at h
          · cases h
          · split at h
            · next e3 => cases h; exact store_error e3
            · cases h
      · cases h

/-- Without exceptions. -/
theorem copyCellsE_ok {th : Nat → Bool} {m : Mem α} {src dst : Ptr} {n : Nat} (ht : ∀ k, k < n → th k = false) :
    copyCellsE th m src dst n = (copyCells m src dst n).map fun m => (true, m) := by
  induction n with
  | zero => rfl
  | succ n ih =>
    simp only [copyCellsE, copyCells, ih fun k hk => ht k (by omega), bind, Except.bind, Except.map]
    cases copyCells m src dst n with
    | error => rfl
    | ok m1 =>
      simp only [if_true]
      cases load m1 (src.add n) with
      | error => rfl
      | ok v =>
        simp only [ht n (by omega), Bool.false_eq_true, if_false]
        cases store m1 (dst.add n) v <;> rfl

/-- With an exception in a copy that would have been possible. -/
theorem copyCellsE_throws {th : Nat → Bool} {m m1 : Mem α} {src dst : Ptr} {n : Nat} (hc : copyCells m src dst n = .ok m1)
    (ht : ∃ k, k < n ∧ th k = true) : ∃ m', copyCellsE th m src dst n = .ok (false, m') := by
  induction n generalizing m1 with
  | zero => obtain ⟨k, hk, -⟩ := ht; omega
  | succ n ih =>
    simp only [copyCells, bind, Except.bind] at hc
    split at hc
    · cases hc
    · next m2 e2 =>
      split at hc
      · cases hc
      · next v ev =>
        by_cases hex : ∃ j, j < n ∧ th j = true
        · obtain ⟨m', hm'⟩ := ih e2 hex
          exact ⟨m', by simp only [copyCellsE, hm', bind, Except.bind, Bool.false_eq_true, if_false, pure, Except.pure]⟩
        · have hall : ∀ j, j < n → th j = false := fun j hj => by
            cases h : th j with
            | false => rfl
            | true => exact absurd ⟨j, hj, h⟩ hex
          obtain ⟨k, hk, htk⟩ := ht
          have hkn : k = n := by
            by_contra hne
            exact hex ⟨k, by omega, htk⟩
          subst hkn
          exact ⟨m2, by
            simp only [copyCellsE, copyCellsE_ok hall, e2, Except.map, bind, Except.bind, if_true, ev, htk, pure, Except.pure]⟩

/-- The state after `allocate`, if it is not exhausted. -/
def World.given (w : World α) (fl : Failures) (a : AllocId) (n : Nat) : Option Nat × World α :=
  if fl.exhausted then (none, w) else w.allocate a n

theorem given_tables (w : World α) (fl : Failures) (a : AllocId) (n : Nat) :
    (w.given fl a n).2.tables = w.tables ∧ (w.given fl a n).2.junk = w.junk ∧ w.next ≤ (w.given fl a n).2.next ∧
    (∀ p : Ptr, p.blk ≠ w.next → (w.given fl a n).2.mem p = w.mem p) ∧
    (∀ b, b ≠ w.next → (w.given fl a n).2.live b = w.live b) := by
  unfold World.given World.allocate
  split
  · exact ⟨rfl, rfl, Nat.le_refl _, fun _ _ => rfl, fun _ _ => rfl⟩
  · split
    · exact ⟨rfl, rfl, Nat.le_refl _, fun _ _ => rfl, fun _ _ => rfl⟩
    · refine ⟨rfl, rfl, Nat.le_succ _, fun p hp => by simp [hp], fun b hb => by simp [upd, hb]⟩

theorem given_data {w : World α} {fl : Failures} {a : AllocId} {n b : Nat} (h : (w.given fl a n).1 = some b) :
    fl.exhausted = false ∧ 0 < n ∧ b = w.next ∧ (w.given fl a n).2.live b = some a ∧ (w.given fl a n).2.next = w.next + 1 := by
  unfold World.given World.allocate at *
  split at h
  · cases h
  · next he =>
    split at h
    · cases h
    · next hn =>
      cases h
      exact ⟨by simpa using he, by omega, rfl, by simp [he, hn, upd], by simp [he, hn]⟩

theorem given_null {w : World α} {fl : Failures} {a : AllocId} {n : Nat} (h : (w.given fl a n).1 = none) :
    (w.given fl a n).2 = w ∧ (fl.exhausted = true ∨ n = 0) := by
  unfold World.given World.allocate at *
  split at h
  · next he => exact ⟨by simp [he], .inl he⟩
  · next he =>
    split at h
    · next hn => exact ⟨by simp [he, hn], .inr hn⟩
    · cases h

theorem buildE_eq (w : World α) (fl : Failures) (a : AllocId) (s : Shape) (src : Option (Option Ptr)) :
    w.buildE fl a s src =
      if fl.throws .label then .ok (.threw w)
      else if fl.throws .allocate then .ok (.threw w)
      else if fl.throws .deleter then .ok (.threw (w.given fl a (numel s).toNat).2)
      else match src with
        | none => .ok (.made ⟨(w.given fl a (numel s).toNat).1, some a, s⟩ (w.given fl a (numel s).toNat).2)
        | some p =>
          if (numel s).toNat = 0 then .ok (.made ⟨(w.given fl a (numel s).toNat).1, some a, s⟩ (w.given fl a (numel s).toNat).2)
          else match p, (w.given fl a (numel s).toNat).1 with
            | some p, some b => do
              let r ← copyCellsE (fun k => fl.throws (.element k)) (w.given fl a (numel s).toNat).2.mem p ⟨b, 0⟩ (numel s).toNat
              if r.1 then
                pure (.made ⟨(w.given fl a (numel s).toNat).1, some a, s⟩ { (w.given fl a (numel s).toNat).2 with mem := r.2 })
              else do
                let w2 ← World.release { (w.given fl a (numel s).toNat).2 with mem := r.2 } ⟨(w.given fl a (numel s).toNat).1, some a, s⟩
                pure (.threw w2)
            | _, _ => .error .nullDeref := by
  rfl

/-- The block is lost. -/
def Leaks (fl : Failures) (s : Shape) : Prop :=
  fl.throws .label = false ∧ fl.throws .allocate = false ∧ fl.throws .deleter = true ∧ fl.exhausted = false ∧ 0 < numel s

/-- A construction that throws. -/
theorem buildE_threw {w w' : World α} {fl : Failures} {a : AllocId} {s : Shape} {src : Option (Option Ptr)}
    (h : w.buildE fl a s src = .ok (.threw w')) :
    w'.tables = w.tables ∧ w'.junk = w.junk ∧ w.next ≤ w'.next ∧ (∀ p : Ptr, p.blk ≠ w.next → w'.mem p = w.mem p) ∧
    (∀ b, b ≠ w.next → w'.live b = w.live b) ∧
    (Leaks fl s → w'.live w.next = some a) ∧
    (¬ Leaks fl s → (w' = w ∨ ∀ p : Ptr, p.blk = w.next → w'.mem p = none) ∧ (w'.live w.next = w.live w.next ∨ w'.live w.next = none)) := by
  obtain ⟨g1, g2, g3, g4, g5⟩ := given_tables w fl a (numel s).toNat
  have hsame : ¬ Leaks fl s → (w = w ∨ ∀ p : Ptr, p.blk = w.next → w.mem p = none) ∧
      (w.live w.next = w.live w.next ∨ w.live w.next = none) := fun _ => ⟨.inl rfl, .inl rfl⟩
  rw [buildE_eq] at h
  by_cases h1 : fl.throws .label = true
  · rw [if_pos h1] at h; cases h
    exact ⟨rfl, rfl, Nat.le_refl _, fun _ _ => rfl, fun _ _ => rfl, fun hl => absurd h1 (by simp [hl.1]), hsame⟩
  rw [if_neg h1] at h
  by_cases h2 : fl.throws .allocate = true
  · rw [if_pos h2] at h; cases h
    exact ⟨rfl, rfl, Nat.le_refl _, fun _ _ => rfl, fun _ _ => rfl, fun hl => absurd h2 (by simp [hl.2.1]), hsame⟩
  rw [if_neg h2] at h
  by_cases h3 : fl.throws .deleter = true
  · rw [if_pos h3] at h; cases h
    refine ⟨g1, g2, g3, g4, g5, ?_, ?_⟩
    · rintro ⟨-, -, -, he, hn⟩
      cases hd : (w.given fl a (numel s).toNat).1 with
      | none => rcases (given_null hd).2 with h | h <;> [(rw [he] at h; cases h); omega]
      | some b => obtain ⟨-, -, rfl, q, -⟩ := given_data hd; exact q
    · intro hl
      cases hd : (w.given fl a (numel s).toNat).1 with
      | none => rw [(given_null hd).1]; exact ⟨.inl rfl, .inl rfl⟩
      | some b =>
        obtain ⟨q1, q2, -⟩ := given_data hd
        exact absurd ⟨by simpa using h1, by simpa using h2, h3, q1, by omega⟩ hl
  rw [if_neg h3] at h
  split at h
  · cases h
  · split at h
    · cases h
    · split at h
      · next p b hb =>
        obtain ⟨q1, q2, q3, q4, q5⟩ := given_data hb
        simp only [bind, Except.bind] at h
        split at h
        · cases h
        · next r hr =>
          obtain ⟨r, m'⟩ := r
          obtain ⟨c1, c2, -⟩ := copyCellsE_inv hr
          dsimp only at h
          cases r with
          | true => cases h
          | false =>
            simp only [Bool.false_eq_true, if_false, World.release, hb, World.free, q4, if_true, pure, Except.pure] at h
            cases h
            subst q3
            refine ⟨g1, g2, g3, ?_, ?_, ?_, ?_⟩
            · intro p hp
              dsimp only
              rw [if_neg hp, c2 p hp, g4 p hp]
            · intro c hc
              dsimp only
              rw [upd_ne _ _ hc, g5 c hc]
            · intro hl; exact absurd hl.2.2.1 h3
            · intro _
              exact ⟨.inr fun p hp => by dsimp only; rw [if_pos hp], .inr (upd_self _ _ _)⟩
      · cases h

/-- A construction that ends normally. -/
theorem buildE_made {w w1 : World α} {fl : Failures} {a : AllocId} {s : Shape} {src : Option (Option Ptr)} {t : Table}
    (h : w.buildE fl a s src = .ok (.made t w1)) :
    fl.throws .label = false ∧ fl.throws .allocate = false ∧ fl.throws .deleter = false ∧
    (fl.exhausted = false → w.build a s src = .ok (t, w1)) ∧
    (fl.exhausted = true → w1 = w ∧ t = ⟨none, some a, s⟩ ∧ (src = none ∨ (numel s).toNat = 0)) := by
  rw [buildE_eq] at h
  by_cases h1 : fl.throws .label = true
  · rw [if_pos h1] at h; cases h
  rw [if_neg h1] at h
  by_cases h2 : fl.throws .allocate = true
  · rw [if_pos h2] at h; cases h
  rw [if_neg h2] at h
  by_cases h3 : fl.throws .deleter = true
  · rw [if_pos h3] at h; cases h
  rw [if_neg h3] at h
  refine ⟨by simpa using h1, by simpa using h2, by simpa using h3, ?_, ?_⟩
  · intro he
    have hg : w.given fl a (numel s).toNat = w.allocate a (numel s).toNat := by simp [World.given, he]
    rw [hg] at h
    unfold World.build
    dsimp only
    split at h
    · cases h; rfl
    · next p =>
      split at h
      · next hn => cases h; simp only [if_pos hn]
      · next hn =>
        simp only [if_neg hn]
        split at h
        · next p b hb =>
          simp only [hb]
          simp only [bind, Except.bind] at h ⊢
          split at h
          · cases h
          · next r hr =>
            obtain ⟨r, m'⟩ := r
            obtain ⟨-, -, c3⟩ := copyCellsE_inv hr
            cases r with
            | false =>
              simp only [Bool.false_eq_true, if_false] at h
              split at h <;> cases h
            | true =>
              simp only [if_true, pure, Except.pure] at h
              rw [(c3 rfl).1]
              simp only [pure, Except.pure]
              cases h
              rw [hb]
        · cases h
  · intro he
    have hg : w.given fl a (numel s).toNat = (none, w) := by simp [World.given, he]
    rw [hg] at h
    split at h
    · cases h; exact ⟨rfl, rfl, .inl rfl⟩
    · split at h
      · next hn => cases h; exact ⟨rfl, rfl, .inr hn⟩
      · split at h
        · next hb => cases hb
        · cases h

theorem buildE_error {w : World α} {fl : Failures} {a : AllocId} {s : Shape} {src : Option (Option Ptr)} {e : Fault}
    (h : w.buildE fl a s src = .error e) : e = .outOfBounds ∨ e = .nullDeref := by
  rw [buildE_eq] at h
  split at h
  · cases h
  split at h
  · cases h
  split at h
  · cases h
  split at h
  · cases h
  split at h
  · cases h
  split at h
  · next p b hb =>
    obtain ⟨q1, q2, q3, q4, q5⟩ := given_data hb
    simp only [bind, Except.bind] at h
    split at h
    · next e1 => cases h; exact .inl (copyCellsE_error e1)
    · next r hr =>
      split at h
      · cases h
      · simp only [World.release, hb, World.free, q4, if_true, pure, Except.pure] at h
        cases h
  · cases h; exact .inr rfl

/-- Without failure. -/
theorem buildE_none {w : World α} {fl : Failures} {a : AllocId} {s : Shape} {src : Option (Option Ptr)}
    (ht : ∀ p, fl.throws p = false) (he : fl.exhausted = false) :
    w.buildE fl a s src = (w.build a s src).map fun r => .made r.1 r.2 := by
  have hg : w.given fl a (numel s).toNat = w.allocate a (numel s).toNat := by simp [World.given, he]
  rw [buildE_eq, hg]
  simp only [ht, Bool.false_eq_true, if_false]
  unfold World.build
  dsimp only
  rcases src with _ | p
  · rfl
  · dsimp only
    split
    · rfl
    · rcases p with _ | p
      · rfl
      · cases hb : (w.allocate a (numel s).toNat).1 with
        | none => rfl
        | some b =>
          simp only [copyCellsE_ok (fun _ _ => rfl), bind, Except.bind]
          cases copyCells (w.allocate a (numel s).toNat).2.mem _ _ (numel s).toNat with
          | error => rfl
          | ok m => simp [Except.map, pure, Except.pure]

/-- What `stepE` does: a construction, an assignment, or something that cannot throw. -/
theorem stepE_form (w : World α) (fl : Failures) (op : Op α) :
    (∃ x a s src, wanted w op = some s ∧ target op = some x ∧ (copies op = true ↔ src ≠ none) ∧ w.tables x = none ∧
      w.stepE fl op = w.createE fl x a s src ∧
      w.step op = (do let r ← w.build a s src; return { r.2 with tables := upd r.2.tables x (some r.1) })) ∨
    (∃ x tx s src, wanted w op = some s ∧ target op = some x ∧ copies op = true ∧ w.tables x = some tx ∧
      w.stepE fl op = w.assignE fl x tx s src ∧ w.step op = w.assign x tx s src) ∨
    (wanted w op = none ∧ w.stepE fl op = (w.step op).map .done) ∨
    (wanted w op = none ∧ fl.throws .deleter = true ∧ w.stepE fl op = .ok .terminated ∧ ∃ x axes, op = .dflt x axes) := by
  have hmap : ∀ op, (do let w' ← w.step op; pure (Ended.done w')) = (w.step op).map .done := by
    intro op
    cases w.step op <;> rfl
  cases op with
  | dflt x axes =>
    right; right
    simp only [World.stepE, wanted, hmap, true_and]
    split
    · next h => simp only [Bool.and_eq_true] at h; exact .inr ⟨h.2, rfl, x, axes, rfl⟩
    · exact .inl rfl
  | make x a s src =>
    cases hx : w.tables x with
    | some tx => exact .inr (.inr (.inl ⟨by simp [wanted, hx], by simp [World.stepE, World.step, hx, Except.map]⟩))
    | none =>
      refine .inl ⟨x, a, s, src, by simp [wanted, hx], rfl, ?_, hx, by simp [World.stepE, hx], by simp [World.step, hx]⟩
      cases src <;> simp [copies]
  | copy x y =>
    cases hx : w.tables x with
    | some tx => exact .inr (.inr (.inl ⟨by simp [wanted, hx], by simp [World.stepE, World.step, hx, Except.map]⟩))
    | none =>
      cases hy : w.tables y with
      | none => exact .inr (.inr (.inl ⟨by simp [wanted, hx, hy], by simp [World.stepE, World.step, hx, hy, Except.map]⟩))
      | some ty =>
        exact .inl ⟨x, heapAlloc, ty.shape, some ty.ptr, by simp [wanted, hx, hy], rfl, by simp [copies], hx, by simp [World.stepE, hx, hy],
          by simp [World.step, hx, hy, World.copyOf]⟩
  | copyFrom x c =>
    cases hx : w.tables x with
    | some tx => exact .inr (.inr (.inl ⟨by simp [wanted, hx], by simp [World.stepE, World.step, hx, Except.map]⟩))
    | none =>
      exact .inl ⟨x, heapAlloc, c.shape, some (some c.base), by simp [wanted, hx], rfl, by simp [copies], hx,
        by simp [World.stepE, hx, Container.settings], by simp [World.step, hx, Container.settings]⟩
  | copyAssign x y =>
    cases hx : w.tables x with
    | none => exact .inr (.inr (.inl ⟨by simp [wanted, hx], by simp [World.stepE, World.step, hx, Except.map]⟩))
    | some tx =>
      cases hy : w.tables y with
      | none => exact .inr (.inr (.inl ⟨by simp [wanted, hx, hy], by simp [World.stepE, World.step, hx, hy, Except.map]⟩))
      | some ty =>
        exact .inr (.inl ⟨x, tx, ty.shape, ty.ptr, by simp [wanted, hx, hy], rfl, by simp [copies], hx, by simp [World.stepE, hx, hy],
          by simp [World.step, hx, hy]⟩)
  | assignFrom x c =>
    cases hx : w.tables x with
    | none => exact .inr (.inr (.inl ⟨by simp [wanted, hx], by simp [World.stepE, World.step, hx, Except.map]⟩))
    | some tx =>
      exact .inr (.inl ⟨x, tx, c.shape, some c.base, by simp [wanted, hx], rfl, by simp [copies], hx,
        by simp [World.stepE, hx, Container.settings], by simp [World.step, hx, Container.settings]⟩)
  | move x y => exact .inr (.inr (.inl ⟨rfl, by simp only [World.stepE, hmap]⟩))
  | moveAssign x y => exact .inr (.inr (.inl ⟨rfl, by simp only [World.stepE, hmap]⟩))
  | swap x y => exact .inr (.inr (.inl ⟨rfl, by simp only [World.stepE, hmap]⟩))
  | destroy x => exact .inr (.inr (.inl ⟨rfl, by simp only [World.stepE, hmap]⟩))
  | write x is v => exact .inr (.inr (.inl ⟨rfl, by simp only [World.stepE, hmap]⟩))

theorem createE_threw {w w' : World α} {fl : Failures} {x : Nat} {a : AllocId} {s : Shape} {src : Option (Option Ptr)} :
    w.createE fl x a s src = .ok (.threw w') ↔ w.buildE fl a s src = .ok (.threw w') := by
  unfold World.createE
  cases w.buildE fl a s src with
  | error e => simp [bind, Except.bind]
  | ok r => cases r <;> simp [bind, Except.bind, pure, Except.pure]

theorem createE_done {w w' : World α} {fl : Failures} {x : Nat} {a : AllocId} {s : Shape} {src : Option (Option Ptr)} :
    w.createE fl x a s src = .ok (.done w') ↔
      ∃ t w1, w.buildE fl a s src = .ok (.made t w1) ∧ w' = { w1 with tables := upd w1.tables x (some t) } := by
  unfold World.createE
  cases w.buildE fl a s src with
  | error e => simp [bind, Except.bind]
  | ok r =>
    cases r with
    | made t w1 =>
      simp only [bind, Except.bind, pure, Except.pure, Except.ok.injEq, Ended.done.injEq, Construction.made.injEq]
      constructor
      · rintro rfl; exact ⟨t, w1, ⟨rfl, rfl⟩, rfl⟩
      · rintro ⟨_, _, ⟨rfl, rfl⟩, rfl⟩; rfl
    | threw w1 => simp [bind, Except.bind, pure, Except.pure]

theorem assignE_threw {w w' : World α} {fl : Failures} {x : Nat} {tx : Table} {s : Shape} {src : Option Ptr} :
    w.assignE fl x tx s src = .ok (.threw w') ↔ w.buildE fl heapAlloc s (some src) = .ok (.threw w') := by
  unfold World.assignE
  cases w.buildE fl heapAlloc s (some src) with
  | error e => simp [bind, Except.bind]
  | ok r =>
    cases r with
    | made t w1 =>
      simp only [bind, Except.bind, pure, Except.pure]
      cases World.release { w1 with tables := upd w1.tables x (some t) } tx <;> simp
    | threw w1 => simp [bind, Except.bind, pure, Except.pure]

theorem assignE_done {w w' : World α} {fl : Failures} {x : Nat} {tx : Table} {s : Shape} {src : Option Ptr} :
    w.assignE fl x tx s src = .ok (.done w') ↔
      ∃ t w1, w.buildE fl heapAlloc s (some src) = .ok (.made t w1) ∧
        World.release { w1 with tables := upd w1.tables x (some t) } tx = .ok w' := by
  unfold World.assignE
  cases w.buildE fl heapAlloc s (some src) with
  | error e => simp [bind, Except.bind]
  | ok r =>
    cases r with
    | made t w1 =>
      simp only [bind, Except.bind, pure, Except.pure, Except.ok.injEq, Construction.made.injEq]
      constructor
      · intro h
        refine ⟨t, w1, ⟨rfl, rfl⟩, ?_⟩
        cases hr : World.release { w1 with tables := upd w1.tables x (some t) } tx with
        | error e => simp [hr] at h
        | ok w2 => simp only [hr, Except.ok.injEq, Ended.done.injEq] at h; rw [h]
      · rintro ⟨_, _, ⟨rfl, rfl⟩, h⟩; simp [h]
    | threw w1 => simp [bind, Except.bind, pure, Except.pure]

/-- An operation that throws comes from a construction that throws. -/
theorem stepE_threw {w w' : World α} {fl : Failures} {op : Op α} (h : w.stepE fl op = .ok (.threw w')) :
    ∃ a s src, wanted w op = some s ∧ (copies op = true ↔ src ≠ none) ∧ w.buildE fl a s src = .ok (.threw w') := by
  rcases stepE_form w fl op with ⟨x, a, s, src, h1, -, h2, -, h3, -⟩ | ⟨x, tx, s, src, h1, -, h2, -, h3, -⟩ | ⟨-, h3⟩ | ⟨-, -, h3, -⟩
  · rw [h3, createE_threw] at h; exact ⟨a, s, src, h1, h2, h⟩
  · rw [h3, assignE_threw] at h; exact ⟨heapAlloc, s, some src, h1, by simp [h2], h⟩
  · rw [h3] at h; cases hs : w.step op <;> simp [hs, Except.map] at h
  · rw [h3] at h; cases h

/-- A table that owns nothing does not matter. -/
theorem assign_null_inv {w : World α} (h : WInv w) {x : Nat} {tx : Table} (hx : w.tables x = some tx) {t : Table} (ht : t.data = none) :
    ∃ w2, World.release { w with tables := upd w.tables x (some t) } tx = .ok w2 ∧ WInv w2 ∧ w2.tables = upd w.tables x (some t) := by
  obtain ⟨w1, e1, et, en, -, em, hi⟩ := release_inv (w := { w with tables := upd w.tables x (some t) }) h hx
  refine ⟨w1, e1, hi _ ?_ ?_, et⟩
  · intro z hz; rw [et]; exact upd_ne _ _ hz
  · intro u hu; rw [et] at hu; dsimp only at hu; rw [upd_self] at hu; cases hu; exact ht

/-- Creation of a table that owns nothing. -/
theorem create_null_inv {w : World α} (h : WInv w) {x : Nat} (hx : w.tables x = none) {t : Table} (ht : t.data = none) :
    WInv { w with tables := upd w.tables x (some t) } := by
  refine h.relocate _ id ?_ (fun y z _ _ _ _ _ _ _ e => e) ?_
  · intro y u b hy hu
    dsimp only at hy
    by_cases e : y = x
    · subst e; rw [upd_self] at hy; cases hy; rw [ht] at hu; cases hu
    · rw [upd_ne _ _ e] at hy; exact ⟨u, hy, rfl, rfl, rfl⟩
  · intro y u b hy hu
    refine ⟨y, u, ?_, hu⟩
    have : y ≠ x := by rintro rfl; rw [hx] at hy; cases hy
    dsimp only
    rw [upd_ne _ _ this]; exact hy

/-- An operation that throws, without loss of a block, leaves the same state. -/
theorem stepE_same {w w' : World α} (h : WInv w) {fl : Failures} {op : Op α} (hd : ∀ s, wanted w op = some s → ¬ Leaks fl s)
    (ht : w.stepE fl op = .ok (.threw w')) : SameState w w' ∧ WInv w' := by
  obtain ⟨a, s, src, hs, -, hb⟩ := stepE_threw ht
  obtain ⟨b1, b2, b3, b4, b5, b6, b7⟩ := buildE_threw hb
  obtain ⟨c1, c2⟩ := b7 (hd s hs)
  have hnext : w.live w.next = none := by
    cases hl : w.live w.next with
    | none => rfl
    | some a => have := h.lt _ _ hl; omega
  have hs : SameState w w' := by
    refine ⟨b1, ?_, ?_⟩
    · funext p
      by_cases e : p.blk = w.next
      · rcases c1 with rfl | c1
        · rfl
        · rw [c1 p e, h.old p (by omega)]
      · exact b4 p e
    · funext b
      by_cases e : b = w.next
      · subst e
        rcases c2 with c2 | c2
        · exact c2
        · rw [c2, hnext]
      · exact b5 b e
  refine ⟨hs, ?_⟩
  show HeapInv w'.tables w'.mem w'.live w'.next
  rw [hs.tables, hs.mem, hs.live]
  exact { h with lt := fun b a hb => Nat.lt_of_lt_of_le (h.lt b a hb) b3, old := fun p hp => h.old p (Nat.le_trans b3 hp) }

/-- Without exhaustion, an operation that ends normally does what it does without failures. -/
theorem stepE_done {w w' : World α} {fl : Failures} {op : Op α} (he : fl.exhausted = false)
    (ht : w.stepE fl op = .ok (.done w')) : w.step op = .ok w' := by
  rcases stepE_form w fl op with ⟨x, a, s, src, h1, -, h2, -, h3, h4⟩ | ⟨x, tx, s, src, h1, -, h2, -, h3, h4⟩ | ⟨-, h3⟩ | ⟨-, -, h3, -⟩
  · rw [h3, createE_done] at ht
    obtain ⟨t, w1, hb, rfl⟩ := ht
    rw [h4, (buildE_made hb).2.2.2.1 he]; rfl
  · rw [h3, assignE_done] at ht
    obtain ⟨t, w1, hb, hr⟩ := ht
    rw [h4]
    unfold World.assign
    rw [(buildE_made hb).2.2.2.1 he]
    exact hr
  · rw [h3] at ht
    cases hs : w.step op with
    | error e => simp [hs, Except.map] at ht
    | ok w2 => simp only [hs, Except.map, Except.ok.injEq, Ended.done.injEq] at ht; rw [ht]
  · rw [h3] at ht; cases ht

/-- The table that an operation leaves. -/
theorem stepE_target {w w' : World α} (h : WInv w) {fl : Failures} {op : Op α} {s : Shape} {x : Nat} (hw : wanted w op = some s)
    (hx : target op = some x) (ht : w.stepE fl op = .ok (.done w')) :
    WInv w' ∧ ∃ t, w'.tables x = some t ∧ t.shape = s ∧ (t.data = none ↔ fl.exhausted = true ∨ (numel s).toNat = 0) := by
  have hdata : ∀ {a src t w1}, w.build a s src = .ok (t, w1) → (t.data = none ↔ (numel s).toNat = 0) := by
    intro a src t w1 hb
    have : t.data = (w.allocate a (numel s).toNat).1 := by
      unfold World.build at hb
      dsimp only at hb
      split at hb
      · cases hb; rfl
      · split at hb
        · cases hb; rfl
        · split at hb
          · simp only [bind, Except.bind] at hb
            split at hb <;> cases hb; rfl
          · cases hb
    rw [this]
    unfold World.allocate
    split <;> simp [*]
  rcases stepE_form w fl op with ⟨y, a, s', src, h1, hy, h2, h5, h3, h4⟩ | ⟨y, tx, s', src, h1, hy, h2, h5, h3, h4⟩ | ⟨h3, -⟩ | ⟨h3, -⟩
  · rw [hw] at h1; cases h1; rw [hx] at hy; cases hy
    rw [h3, createE_done] at ht
    obtain ⟨t, w1, hb, rfl⟩ := ht
    obtain ⟨-, -, -, m1, m2⟩ := buildE_made hb
    cases he : fl.exhausted with
    | false =>
      have hb := m1 he
      exact ⟨make_inv h h5 hb, t, upd_self _ _ _, (build_inv h hb).2.2, by simp [hdata hb]⟩
    | true =>
      obtain ⟨rfl, rfl, -⟩ := m2 he
      exact ⟨create_null_inv h h5 rfl, _, upd_self _ _ _, rfl, by simp⟩
  · rw [hw] at h1; cases h1; rw [hx] at hy; cases hy
    rw [h3, assignE_done] at ht
    obtain ⟨t, w1, hb, hr⟩ := ht
    obtain ⟨-, -, -, m1, m2⟩ := buildE_made hb
    cases he : fl.exhausted with
    | false =>
      have hb := m1 he
      obtain ⟨w2, e2, i2, t2, -⟩ := assign_inv h h5 hb
      have : w2 = w' := by
        unfold World.assign at e2
        rw [hb] at e2
        have e3 : World.release { w1 with tables := upd w1.tables x (some t) } tx = .ok w2 := e2
        rw [hr] at e3; cases e3; rfl
      subst this
      exact ⟨i2, t, by rw [t2, upd_self], (build_inv h hb).2.2, by simp [hdata hb]⟩
    | true =>
      obtain ⟨rfl, rfl, -⟩ := m2 he
      obtain ⟨w2, e2, i2, t2⟩ := assign_null_inv h h5 (t := ⟨none, some heapAlloc, s⟩) rfl
      rw [hr] at e2; cases e2
      exact ⟨i2, _, by rw [t2, upd_self], rfl, by simp⟩
  · rw [hw] at h3; cases h3
  · rw [hw] at h3; cases h3

theorem wanted_target {w : World α} {op : Op α} {s : Shape} (h : wanted w op = some s) : ∃ x, target op = some x := by
  cases op <;> simp [wanted, target] at h ⊢

theorem stepE_error {w : World α} (h : WInv w) {fl : Failures} {op : Op α} {e : Fault} (hs : w.stepE fl op = .error e) :
    e = .outOfBounds ∨ e = .nullDeref := by
  rcases stepE_form w fl op with ⟨x, a, s, src, h1, -, h2, h5, h3, h4⟩ | ⟨x, tx, s, src, h1, -, h2, h5, h3, h4⟩ | ⟨-, h3⟩ | ⟨-, -, h3, -⟩
  · rw [h3] at hs
    unfold World.createE at hs
    cases hb : w.buildE fl a s src with
    | error e' => rw [hb] at hs; cases hs; exact buildE_error hb
    | ok r => rw [hb] at hs; cases r <;> cases hs
  · rw [h3] at hs
    unfold World.assignE at hs
    cases hb : w.buildE fl heapAlloc s (some src) with
    | error e' => rw [hb] at hs; cases hs; exact buildE_error hb
    | ok r =>
      rw [hb] at hs
      cases r with
      | threw w1 => cases hs
      | made t w1 =>
        exfalso
        obtain ⟨-, -, -, m1, m2⟩ := buildE_made hb
        cases he : fl.exhausted with
        | false =>
          obtain ⟨w2, e2, -⟩ := assign_inv h h5 (m1 he)
          unfold World.assign at e2
          rw [m1 he] at e2
          have e3 : World.release { w1 with tables := upd w1.tables x (some t) } tx = .ok w2 := e2
          simp only [bind, Except.bind, e3, pure, Except.pure] at hs
          cases hs
        | true =>
          obtain ⟨rfl, rfl, -⟩ := m2 he
          obtain ⟨w2, e2, -⟩ := assign_null_inv h h5 (t := ⟨none, some heapAlloc, s⟩) rfl
          simp only [bind, Except.bind, e2, pure, Except.pure] at hs
          cases hs
  · rw [h3] at hs
    rcases step_inv h op with ⟨w', e1, -⟩ | ⟨e', e1, he⟩
    · rw [e1] at hs; cases hs
    · rw [e1] at hs; cases hs; exact he
  · rw [h3] at hs; cases hs

theorem stepE_done_inv {w w' : World α} (h : WInv w) {fl : Failures} {op : Op α} (hs : w.stepE fl op = .ok (.done w')) : WInv w' := by
  cases hw : wanted w op with
  | some s =>
    obtain ⟨x, hx⟩ := wanted_target hw
    exact (stepE_target h hw hx hs).1
  | none =>
    rcases stepE_form w fl op with ⟨x, a, s, src, h1, -⟩ | ⟨x, tx, s, src, h1, -⟩ | ⟨-, h3⟩ | ⟨-, -, h3, -⟩
    · rw [hw] at h1; cases h1
    · rw [hw] at h1; cases h1
    · rw [h3] at hs
      rcases step_inv h op with ⟨w2, e1, i2⟩ | ⟨e', e1, he⟩
      · rw [e1] at hs; cases hs; exact i2
      · rw [e1] at hs; cases hs
    · rw [h3] at hs; cases hs

/-- Nothing fails. -/
theorem stepE_none (w : World α) {fl : Failures} (ht : ∀ p, fl.throws p = false) (he : fl.exhausted = false) (op : Op α) :
    w.stepE fl op = (w.step op).map .done := by
  rcases stepE_form w fl op with ⟨x, a, s, src, h1, -, h2, -, h3, h4⟩ | ⟨x, tx, s, src, h1, -, h2, -, h3, h4⟩ | ⟨-, h3⟩ | ⟨-, h5, -⟩
  · rw [h3, h4, World.createE, buildE_none ht he]
    cases w.build a s src <;> rfl
  · rw [h3, h4, World.assignE, World.assign, buildE_none ht he]
    cases w.build heapAlloc s (some src) with
    | error => rfl
    | ok r =>
      simp only [Except.map, bind, Except.bind, pure, Except.pure]
  · exact h3
  · rw [ht] at h5; cases h5

/-- When a construction that is possible throws. -/
theorem buildE_throws_iff {w : World α} {fl : Failures} {a : AllocId} {s : Shape} {src : Option (Option Ptr)} {r : Table × World α}
    (he : fl.exhausted = false) (hb : w.build a s src = .ok r) :
    (∃ w', w.buildE fl a s src = .ok (.threw w')) ↔
      fl.throws .label = true ∨ fl.throws .allocate = true ∨ fl.throws .deleter = true ∨
        (src ≠ none ∧ ∃ k, k < (numel s).toNat ∧ fl.throws (.element k) = true) := by
  have hg : w.given fl a (numel s).toNat = w.allocate a (numel s).toNat := by simp [World.given, he]
  rw [buildE_eq, hg]
  by_cases h1 : fl.throws .label = true
  · simp [h1]
  by_cases h2 : fl.throws .allocate = true
  · simp [h2]
  by_cases h3 : fl.throws .deleter = true
  · simp [h1, h2, h3]
  rw [if_neg h1, if_neg h2, if_neg h3]
  rw [or_iff_right h1, or_iff_right h2, or_iff_right h3]
  rcases src with _ | p
  · simp
  · unfold World.build at hb
    dsimp only at hb ⊢
    by_cases hn : (numel s).toNat = 0
    · simp [hn]
    · rw [if_neg hn] at hb ⊢
      rcases p with _ | p
      · cases hb
      · cases hd : (w.allocate a (numel s).toNat).1 with
        | none => rw [hd] at hb; cases hb
        | some b =>
          rw [hd] at hb
          obtain ⟨-, -, rfl, hl, -⟩ := given_data (w := w) (fl := fl) (a := a) (n := (numel s).toNat) (b := b) (by rw [hg, hd])
          rw [hg] at hl
          simp only [bind, Except.bind] at hb ⊢
          split at hb
          · cases hb
          · next m e =>
            simp only [ne_eq, reduceCtorEq, not_false_eq_true, true_and]
            by_cases hex : ∃ k, k < (numel s).toNat ∧ fl.throws (.element k) = true
            · obtain ⟨m', hm'⟩ := copyCellsE_throws (th := fun k => fl.throws (.element k)) e hex
              simp only [hm', Bool.false_eq_true, if_false, World.release, World.free, hl, if_true, pure, Except.pure]
              exact ⟨fun _ => hex, fun _ => ⟨_, rfl⟩⟩
            · have hall : ∀ k, k < (numel s).toNat → fl.throws (.element k) = false := fun k hk => by
                cases h : fl.throws (.element k) with
                | false => rfl
                | true => exact absurd ⟨k, hk, h⟩ hex
              rw [copyCellsE_ok hall, e]
              simp only [Except.map, if_true, pure, Except.pure]
              exact ⟨fun ⟨_, h⟩ => (by cases h), fun h => absurd h hex⟩

end Kwk
