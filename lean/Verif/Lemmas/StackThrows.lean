import Verif.Spec.StackThrows
import Verif.Lemmas.Lifetimes

/-! # Helper lemmas about fully static tables whose elements throw -/

namespace Kwk.Throws
open Spec EM

variable {α : Type} {K : ElemKind α} {throws : Nat → Bool}

theorem bind_ok {β γ : Type} {m : EM α β} {n : β → EM α γ} {s s' : Elems α} {b : β} (h : m s = (.ok b, s')) :
    (m >>= n) s = n b s' := by
  show EM.andThen m n s = _
  simp only [EM.andThen, h]

theorem bind_err {β γ : Type} {m : EM α β} {n : β → EM α γ} {s s' : Elems α} {e : Stop} (h : m s = (.error e, s')) :
    (m >>= n) s = (.error e, s') := by
  show EM.andThen m n s = _
  simp only [EM.andThen, h]

theorem unwind_ok {β : Type} {m : EM α β} {es : List Event} {s s' : Elems α} {b : β} (h : m s = (.ok b, s')) :
    unwind m es s = (.ok b, s') := by simp only [unwind, h]

theorem unwind_err {β : Type} {m : EM α β} {es : List Event} {s s' : Elems α} (h : m s = (.error .exception, s')) :
    unwind m es s = (.error .exception, { s' with log := s'.log ++ es }) := by simp only [unwind, h]

theorem noexcept_ok {β : Type} {m : EM α β} {s s' : Elems α} {b : β} (h : m s = (.ok b, s')) : isNoexcept m s = (.ok b, s') := by
  simp only [isNoexcept, h]

theorem noexcept_err {β : Type} {m : EM α β} {s s' : Elems α} {e : Stop} (h : m s = (.error e, s')) :
    isNoexcept m s = (.error .terminate, s') := by simp only [isNoexcept, h]

theorem quiet_one {c : Nat} : Quiet throws c 1 ↔ throws c = false :=
  ⟨fun h => h 0 (by omega), fun h i hi => by obtain rfl : i = 0 := by omega
                                             exact h⟩

theorem quiet_add {c n m : Nat} : Quiet throws c (n + m) ↔ Quiet throws c n ∧ Quiet throws (c + n) m := by
  constructor
  · intro h
    exact ⟨fun i hi => h i (by omega), fun i hi => by rw [Nat.add_assoc]; exact h (n + i) (by omega)⟩
  · rintro ⟨h1, h2⟩ i hi
    by_cases e : i < n
    · exact h1 i e
    · have := h2 (i - n) (by omega)
      rwa [Nat.add_assoc, Nat.add_sub_cancel' (by omega)] at this

theorem quiet_succ {c k : Nat} (h : Quiet throws c k) (h' : throws (c + k) = false) : Quiet throws c (k + 1) :=
  quiet_add.2 ⟨h, quiet_one.2 h'⟩

/-- The first call that throws. -/
theorem first_throw {c n : Nat} (h : ¬ Quiet throws c n) : ∃ k, k < n ∧ Quiet throws c k ∧ throws (c + k) = true := by
  induction n with
  | zero => exact absurd (fun i hi => by omega) h
  | succ n ih =>
    by_cases h1 : Quiet throws c n
    · refine ⟨n, by omega, h1, ?_⟩
      cases e : throws (c + n) with
      | true => rfl
      | false => exact absurd (quiet_succ h1 e) h
    · obtain ⟨k, hk, h2⟩ := ih h1
      exact ⟨k, by omega, h2⟩

theorem quiet_zero {c : Nat} : Quiet throws c 0 := fun i hi => by omega

theorem call_ok {s : Elems α} (h : throws s.calls = false) : call throws s = (.ok (), { s with calls := s.calls + 1 }) := by
  simp [call, h]

theorem call_err {s : Elems α} (h : throws s.calls = true) :
    call throws s = (.error .exception, { s with calls := s.calls + 1 }) := by
  simp [call, h]

theorem bind_emit {γ : Type} {es : List Event} {n : Unit → EM α γ} {s : Elems α} :
    (emit es >>= n) s = n () { s with log := s.log ++ es } := rfl

theorem default_ok {s : Elems α} {p : Ptr} (h : throws s.calls = false) :
    defaultConstruct K throws p s = (.ok (), ⟨fun q => if q = p then K.dflt else s.val q, s.calls + 1, s.log ++ [.construct p]⟩) := by
  rw [defaultConstruct, bind_ok (call_ok h)]; rfl

theorem default_err {s : Elems α} {p : Ptr} (h : throws s.calls = true) :
    defaultConstruct K throws p s = (.error .exception, { s with calls := s.calls + 1 }) := by
  rw [defaultConstruct, bind_err (call_err h)]

theorem moveConstruct_ok {s : Elems α} {p q : Ptr} (h : throws s.calls = false) :
    moveConstruct K throws p q s = (.ok (), ⟨fun r => if r = q then K.moved (s.val q) else if r = p then s.val q else s.val r, s.calls + 1,
      s.log ++ [.read q, .construct p]⟩) := by
  rw [moveConstruct, bind_emit, bind_ok (call_ok (s := { s with log := s.log ++ [.read q] }) h), bind_emit]
  show (_, _) = _
  simp

theorem moveConstruct_err {s : Elems α} {p q : Ptr} (h : throws s.calls = true) :
    moveConstruct K throws p q s = (.error .exception, ⟨s.val, s.calls + 1, s.log ++ [.read q]⟩) := by
  rw [moveConstruct, bind_emit, bind_err (call_err (s := { s with log := s.log ++ [.read q] }) h)]

theorem copyAssign_ok {s : Elems α} {p q : Ptr} (h : throws s.calls = false) :
    copyAssignE throws p q s = (.ok (), ⟨fun r => if r = p then s.val q else s.val r, s.calls + 1, s.log ++ [.read q, .assign p]⟩) := by
  rw [copyAssignE, bind_emit, bind_ok (call_ok (s := { s with log := s.log ++ [.read q, .assign p] }) h)]
  rfl

theorem copyAssign_err {s : Elems α} {p q : Ptr} (h : throws s.calls = true) :
    copyAssignE throws p q s = (.error .exception, ⟨s.val, s.calls + 1, s.log ++ [.read q, .assign p]⟩) := by
  rw [copyAssignE, bind_emit, bind_err (call_err (s := { s with log := s.log ++ [.read q, .assign p] }) h)]

theorem moveAssign_ok {s : Elems α} {p q : Ptr} (h : throws s.calls = false) :
    moveAssignE K throws p q s = (.ok (), ⟨fun r => if r = q then K.moved (s.val q) else if r = p then s.val q else s.val r, s.calls + 1,
      s.log ++ [.read q, .assign p]⟩) := by
  rw [moveAssignE, bind_emit, bind_ok (call_ok (s := { s with log := s.log ++ [.read q, .assign p] }) h)]
  rfl

theorem moveAssign_err {s : Elems α} {p q : Ptr} (h : throws s.calls = true) :
    moveAssignE K throws p q s = (.error .exception, ⟨s.val, s.calls + 1, s.log ++ [.read q, .assign p]⟩) := by
  rw [moveAssignE, bind_emit, bind_err (call_err (s := { s with log := s.log ++ [.read q, .assign p] }) h)]

/-- A loop whose rounds have `cost` calls each. -/
theorem loop_ok {f : Nat → EM α Unit} {P : Nat → Elems α → Prop} {cost n : Nat}
    (hs : ∀ k, k < n → ∀ s, P k s → Quiet throws s.calls cost → ∃ s', f k s = (.ok (), s') ∧ P (k + 1) s' ∧ s'.calls = s.calls + cost)
    {s : Elems α} (h0 : P 0 s) (hq : Quiet throws s.calls (n * cost)) :
    ∃ s', each f n s = (.ok (), s') ∧ P n s' ∧ s'.calls = s.calls + n * cost := by
  induction n with
  | zero => exact ⟨s, rfl, h0, by omega⟩
  | succ n ih =>
    rw [Nat.succ_mul, quiet_add] at hq
    obtain ⟨s1, e1, p1, c1⟩ := ih (fun k hk => hs k (by omega)) hq.1
    obtain ⟨s2, e2, p2, c2⟩ := hs n (by omega) s1 p1 (by rw [c1]; exact hq.2)
    refine ⟨s2, ?_, p2, by rw [c2, c1, Nat.succ_mul, Nat.add_assoc]⟩
    rw [each, bind_ok e1]
    exact e2

theorem loop_fail {f : Nat → EM α Unit} {P Q : Nat → Elems α → Prop} {cost n : Nat}
    (hs : ∀ k, k < n → ∀ s, P k s → Quiet throws s.calls cost → ∃ s', f k s = (.ok (), s') ∧ P (k + 1) s' ∧ s'.calls = s.calls + cost)
    (hb : ∀ k, k < n → ∀ s, P k s → ¬ Quiet throws s.calls cost → ∃ s', f k s = (.error .exception, s') ∧ Q k s')
    {s : Elems α} (h0 : P 0 s) (hq : ¬ Quiet throws s.calls (n * cost)) :
    ∃ k s', k < n ∧ each f n s = (.error .exception, s') ∧ Q k s' := by
  induction n with
  | zero => exact absurd (by rw [Nat.zero_mul]; exact quiet_zero) hq
  | succ n ih =>
    by_cases h1 : Quiet throws s.calls (n * cost)
    · obtain ⟨s1, e1, p1, c1⟩ := loop_ok (fun k hk => hs k (by omega)) h0 h1
      rw [Nat.succ_mul, quiet_add] at hq
      obtain ⟨s2, e2, q2⟩ := hb n (by omega) s1 p1 (by rw [c1]; exact fun h => hq ⟨h1, h⟩)
      refine ⟨n, s2, by omega, ?_, q2⟩
      rw [each, bind_ok e1]
      exact e2
    · obtain ⟨k, s', hk, e, q⟩ := ih (fun k hk => hs k (by omega)) (fun k hk => hb k (by omega)) h1
      exact ⟨k, s', by omega, by rw [each, bind_err e], q⟩

theorem constructArray_eq (b : Nat) (f : Nat → EM α Unit) (n : Nat) :
    constructArray b f n = each (fun k => unwind (f k) (destroyEvents b k)) n := by
  induction n with
  | zero => rfl
  | succ n ih => rw [constructArray, each, ih]

/-- `w` on the first `n` places of `b`. -/
def mix (b n : Nat) (w v : Ptr → α) : Ptr → α := fun q => if InBlock b n q then w q else v q

theorem mix_zero (b : Nat) (w v : Ptr → α) : mix b 0 w v = v := by
  funext q; exact if_neg fun h => by have := h.2; omega

theorem mix_succ (b n : Nat) (w v : Ptr → α) (q : Ptr) :
    (if q = (⟨b, n⟩ : Ptr) then w q else mix b n w v q) = mix b (n + 1) w v q := by
  obtain ⟨qb, qo⟩ := q
  simp only [mix, InBlock, Ptr.mk.injEq]
  by_cases h1 : qb = b
  · simp only [h1, true_and]
    by_cases h2 : qo = n
    · rw [if_pos h2, if_pos (by omega)]
    · rw [if_neg h2]
      by_cases h3 : 0 ≤ qo ∧ qo < n
      · rw [if_pos h3, if_pos (by omega)]
      · rw [if_neg h3, if_neg (by omega)]
  · simp [h1]

theorem mix_in (b n : Nat) (w v : Ptr → α) {k : Nat} (hk : k < n) : mix b n w v ⟨b, k⟩ = w ⟨b, k⟩ := if_pos (inBlock_mk rfl hk)

theorem mix_at (b n : Nat) (w v : Ptr → α) {k : Nat} (hk : n ≤ k) : mix b n w v ⟨b, k⟩ = v ⟨b, k⟩ :=
  if_neg fun h => by have := h.2.2; simp at this; omega

theorem mix_other {b n : Nat} {w v : Ptr → α} {q : Ptr} (h : q.blk ≠ b) : mix b n w v q = v q := if_neg fun e => h e.1

theorem add_mk (b k : Nat) : (⟨b, 0⟩ : Ptr).add k = ⟨b, k⟩ := by simp [Ptr.add]

theorem copyEvents_succ (p q : Ptr) (n : Nat) : copyEvents p q (n + 1) = copyEvents p q n ++ [.read (p.add n), .assign (q.add n)] := by
  simp [copyEvents, List.range_succ]

theorem constructEvents_succ (b n : Nat) : constructEvents b (n + 1) = constructEvents b n ++ [.construct ⟨b, n⟩] := by
  simp [constructEvents, List.range_succ]

/-! ### The loops -/

theorem defaults_ok {b n : Nat} {s : Elems α} (h : Quiet throws s.calls n) :
    ∃ s', constructArray b (fun k => defaultConstruct K throws ⟨b, k⟩) n s = (.ok (), s') ∧ s'.calls = s.calls + n ∧
      s'.log = s.log ++ constructEvents b n ∧ s'.val = mix b n (fun _ => K.dflt) s.val := by
  rw [constructArray_eq]
  obtain ⟨s', e, ⟨p1, p2⟩, c⟩ := loop_ok (throws := throws) (cost := 1) (n := n)
    (f := fun k => unwind (defaultConstruct K throws ⟨b, k⟩) (destroyEvents b k))
    (P := fun k t => t.log = s.log ++ constructEvents b k ∧ t.val = mix b k (fun _ => K.dflt) s.val) (fun k _ t ht hq => by
      refine ⟨_, unwind_ok (default_ok (quiet_one.1 hq)), ⟨?_, ?_⟩, rfl⟩
      · rw [constructEvents_succ, ← List.append_assoc, ← ht.1]
      · funext q
        rw [← mix_succ, ← ht.2]) (s := s) ⟨by simp [constructEvents], by rw [mix_zero]⟩ (by rwa [Nat.mul_one])
  exact ⟨s', e, by rw [c, Nat.mul_one], p1, p2⟩

theorem defaults_fail {b n : Nat} {s : Elems α} (h : ¬ Quiet throws s.calls n) :
    ∃ k s', k < n ∧ constructArray b (fun k => defaultConstruct K throws ⟨b, k⟩) n s = (.error .exception, s') ∧
      s'.log = s.log ++ (constructEvents b k ++ destroyEvents b k) ∧ ∀ q, q.blk ≠ b → s'.val q = s.val q := by
  rw [constructArray_eq]
  refine loop_fail (throws := throws) (cost := 1) (n := n)
    (P := fun k t => t.log = s.log ++ constructEvents b k ∧ t.val = mix b k (fun _ => K.dflt) s.val)
    (Q := fun k t => t.log = s.log ++ (constructEvents b k ++ destroyEvents b k) ∧ ∀ q, q.blk ≠ b → t.val q = s.val q)
    (fun k _ t ht hq => ?_) (fun k _ t ht hq => ?_) (s := s) ⟨by simp [constructEvents], by rw [mix_zero]⟩ (by rwa [Nat.mul_one])
  · refine ⟨_, unwind_ok (default_ok (quiet_one.1 hq)), ⟨?_, ?_⟩, rfl⟩
    · rw [constructEvents_succ, ← List.append_assoc, ← ht.1]
    · funext q
      rw [← mix_succ, ← ht.2]
  · rw [quiet_one, Bool.not_eq_false] at hq
    refine ⟨_, unwind_err (default_err hq), ?_, fun q hq => ?_⟩
    · dsimp only; rw [ht.1, List.append_assoc]
    · dsimp only; rw [ht.2, mix_other hq]

theorem copies_ok {b n : Nat} {p : Ptr} (hp : 0 < n → p.blk ≠ b) {s : Elems α} (h : Quiet throws s.calls n) :
    ∃ s', each (fun k => copyAssignE throws ((⟨b, 0⟩ : Ptr).add k) (p.add k)) n s = (.ok (), s') ∧ s'.calls = s.calls + n ∧
      s'.log = s.log ++ copyEvents p ⟨b, 0⟩ n ∧ s'.val = mix b n (fun q => s.val (p.add q.off)) s.val := by
  obtain ⟨s', e, ⟨p1, p2⟩, c⟩ := loop_ok (throws := throws) (cost := 1) (n := n)
    (f := fun k => copyAssignE throws ((⟨b, 0⟩ : Ptr).add k) (p.add k))
    (P := fun k t => t.log = s.log ++ copyEvents p ⟨b, 0⟩ k ∧ t.val = mix b k (fun q => s.val (p.add q.off)) s.val) (fun k hk t ht hq => by
      refine ⟨_, copyAssign_ok (quiet_one.1 hq), ⟨?_, ?_⟩, rfl⟩
      · dsimp only; rw [copyEvents_succ, ← List.append_assoc, ← ht.1]
      · funext q
        dsimp only
        rw [← mix_succ, add_mk]
        split
        · next e => rw [e, ht.2]; exact mix_other (hp (by omega))
        · rw [ht.2]) (s := s) ⟨by simp [copyEvents], by rw [mix_zero]⟩ (by rwa [Nat.mul_one])
  exact ⟨s', e, by rw [c, Nat.mul_one], p1, p2⟩

theorem copies_fail {b n : Nat} {p : Ptr} (hp : 0 < n → p.blk ≠ b) {s : Elems α} (h : ¬ Quiet throws s.calls n) :
    ∃ k s', k < n ∧ each (fun k => copyAssignE throws ((⟨b, 0⟩ : Ptr).add k) (p.add k)) n s = (.error .exception, s') ∧
      s'.log = s.log ++ copyEvents p ⟨b, 0⟩ (k + 1) ∧ ∀ q, q.blk ≠ b → s'.val q = s.val q := by
  refine loop_fail (throws := throws) (cost := 1) (n := n)
    (P := fun k t => t.log = s.log ++ copyEvents p ⟨b, 0⟩ k ∧ t.val = mix b k (fun q => s.val (p.add q.off)) s.val)
    (Q := fun k t => t.log = s.log ++ copyEvents p ⟨b, 0⟩ (k + 1) ∧ ∀ q, q.blk ≠ b → t.val q = s.val q)
    (fun k hk t ht hq => ?_) (fun k hk t ht hq => ?_) (s := s) ⟨by simp [copyEvents], by rw [mix_zero]⟩ (by rwa [Nat.mul_one])
  · refine ⟨_, copyAssign_ok (quiet_one.1 hq), ⟨?_, ?_⟩, rfl⟩
    · dsimp only; rw [copyEvents_succ, ← List.append_assoc, ← ht.1]
    · funext q
      dsimp only
      rw [← mix_succ, add_mk]
      split
      · next e => rw [e, ht.2]; exact mix_other (hp (by omega))
      · rw [ht.2]
  · rw [quiet_one, Bool.not_eq_false] at hq
    refine ⟨_, copyAssign_err hq, ?_, fun q hq => ?_⟩
    · dsimp only; rw [copyEvents_succ, ← List.append_assoc, ← ht.1]
    · dsimp only; rw [ht.2, mix_other hq]

/-- `stack_block(settings)` -/
theorem build_ok {b n : Nat} {src : Option Ptr} (hp : ∀ p, src = some p → 0 < n → p.blk ≠ b) {s : Elems α}
    (h : Quiet throws s.calls (if src.isSome then 2 * n else n)) :
    ∃ s', buildStackE K throws b n src s = (.ok (), s') ∧ s'.calls = s.calls + (if src.isSome then 2 * n else n) ∧
      s'.log = s.log ++ stackBuildEvents b n src ∧
      s'.val = mix b n (fun q => match src with | some p => s.val (p.add q.off) | none => K.dflt) s.val := by
  rw [buildStackE.eq_def, bind_emit]
  cases src with
  | none =>
    obtain ⟨s1, e1, c1, l1, v1⟩ := defaults_ok (K := K) (b := b) (n := n) (s := { s with log := s.log ++ [.allocate b n] }) h
    refine ⟨s1, unwind_ok (by rw [bind_ok e1]; rfl), c1, ?_, v1⟩
    rw [l1]; simp [stackBuildEvents]
  | some p =>
    simp only [Option.isSome_some, if_true] at h ⊢
    rw [Nat.two_mul, quiet_add] at h
    obtain ⟨s1, e1, c1, l1, v1⟩ := defaults_ok (K := K) (b := b) (n := n) (s := { s with log := s.log ++ [.allocate b n] }) h.1
    obtain ⟨s2, e2, c2, l2, v2⟩ := copies_ok (b := b) (n := n) (hp p rfl) (s := s1) (by rw [c1]; exact h.2)
    refine ⟨s2, unwind_ok (by rw [bind_ok e1]; exact unwind_ok e2), ?_, ?_, ?_⟩
    · rw [c2, c1]; dsimp only; omega
    · rw [l2, l1]; simp [stackBuildEvents]
    · rw [v2, v1]
      funext q
      simp only [mix]
      split
      · next hb => rw [if_neg fun e => hp p rfl (by have := hb.2; omega) e.1]
      · rfl

/-- The events of a construction that fails. -/
theorem build_fail {b n : Nat} {src : Option Ptr} (hp : ∀ p, src = some p → 0 < n → p.blk ≠ b) {s : Elems α}
    (h : ¬ Quiet throws s.calls (if src.isSome then 2 * n else n)) {ty : ElemType} {σ : Slots} (hg : ∀ p, p.blk = b → σ p = .gone)
    (hs : ∀ q, src = some q → ∀ k : Nat, k < n → σ (q.add k) = .alive) :
    ∃ s' es, buildStackE K throws b n src s = (.error .exception, s') ∧ s'.log = s.log ++ es ∧ Respects ty σ es σ ∧
      ∀ q, q.blk ≠ b → s'.val q = s.val q := by
  rw [buildStackE.eq_def, bind_emit]
  -- the first phase fails
  have first : ¬ Quiet throws s.calls n →
      ∃ s' es, unwind (do
          constructArray b (fun k => defaultConstruct K throws ⟨b, k⟩) n
          match src with
          | none => pure ()
          | some p => unwind (each (fun k => copyAssignE throws ((⟨b, 0⟩ : Ptr).add k) (p.add k)) n) (destroyEvents b n)) [.release b]
          { s with log := s.log ++ [.allocate b n] } = (.error .exception, s') ∧ s'.log = s.log ++ es ∧ Respects ty σ es σ ∧
        ∀ q, q.blk ≠ b → s'.val q = s.val q := by
    intro h
    obtain ⟨k, s1, hk, e1, l1, v1⟩ := defaults_fail (K := K) (b := b) (n := n) (s := { s with log := s.log ++ [.allocate b n] }) h
    refine ⟨_, [.allocate b n] ++ constructEvents b k ++ destroyEvents b k ++ [.release b], unwind_err (by rw [bind_err e1]), ?_, ?_, v1⟩
    · dsimp only; rw [l1]; simp
    · have r1 := storage_respects (ty := ty) n hg
      have r2 := construct_respects (ty := ty) (s := setBlock σ b n (if ty.implicit then .alive else .raw)) b k
        (fun j hj => newStorage σ b n j (by omega))
      have r3 := destroy_respects (ty := ty) (s := setBlock (setBlock σ b n (if ty.implicit then .alive else .raw)) b k .alive) b k
        (fun j hj => if_pos (inBlock_mk rfl hj))
      rw [setBlock_idem] at r3
      refine respects_to (respects_append (respects_append (respects_append r1 r2) r3) (.cons (.release ?_) .nil)) ?_
      · intro p hpb ha
        simp only [setBlock, hg p hpb] at ha
        split at ha
        · cases ha
        · split at ha
          · split at ha
            · assumption
            · cases ha
          · cases ha
      · funext p
        by_cases hpb : p.blk = b
        · rw [if_pos hpb, hg p hpb]
        · rw [if_neg hpb, setBlock_other _ hpb, setBlock_other _ hpb]
  cases src with
  | none => exact first h
  | some p =>
    by_cases h1 : Quiet throws s.calls n
    · simp only [Option.isSome_some, if_true] at h
      rw [Nat.two_mul, quiet_add] at h
      obtain ⟨s1, e1, c1, l1, v1⟩ := defaults_ok (K := K) (b := b) (n := n) (s := { s with log := s.log ++ [.allocate b n] }) h1
      obtain ⟨k, s2, hk, e2, l2, v2⟩ := copies_fail (throws := throws) (b := b) (n := n) (hp p rfl) (s := s1)
        (by rw [c1]; exact fun h2 => h ⟨h1, h2⟩)
      refine ⟨_, .allocate b n :: constructEvents b n ++ copyEvents p ⟨b, 0⟩ (k + 1) ++ (destroyEvents b n ++ [.release b]),
        unwind_err (by rw [bind_ok e1]; exact unwind_err e2), ?_, ?_, ?_⟩
      · dsimp only; rw [l2, l1]; simp
      · have r1 := born_respects (ty := ty) n hg
        have r2 : Respects ty (setBlock σ b n .alive) (copyEvents p ⟨b, 0⟩ (k + 1)) (setBlock σ b n .alive) :=
          copyEvents_use (fun j hj => by rw [setBlock_other _ (by exact hp p rfl (by omega))]; exact hs p rfl j (by omega))
            (fun j hj => setBlock_inside σ .alive (by omega))
        have r3 := end_respects (ty := ty) (s := setBlock σ b n .alive) b n (fun q hq => by simp only [setBlock, hg q hq])
        refine respects_to (respects_append (respects_append r1 r2) r3) ?_
        funext q
        by_cases hq : q.blk = b
        · rw [if_pos hq, hg q hq]
        · rw [if_neg hq, setBlock_other _ hq]
      · intro q hq
        dsimp only
        rw [v2 q hq, v1, mix_other hq]
    · exact first h1

/-! ### Two arrays -/

theorem mix_two (b c k : Nat) (U W v : Ptr → α) (r : Ptr) :
    (if r = (⟨c, k⟩ : Ptr) then W r else if r = (⟨b, k⟩ : Ptr) then U r else mix c k W (mix b k U v) r) =
      mix c (k + 1) W (mix b (k + 1) U v) r := by
  rw [← mix_succ]
  by_cases h1 : r = (⟨c, k⟩ : Ptr)
  · rw [if_pos h1, if_pos h1]
  · rw [if_neg h1, if_neg h1]
    by_cases h2 : InBlock c k r
    · have hn : r ≠ (⟨b, k⟩ : Ptr) := fun e => h1 (by
        have := h2.1
        rw [e] at this ⊢
        rw [show b = c from this])
      rw [if_neg hn]
      simp only [mix, if_pos h2]
    · have := mix_succ b k U v r
      simp only [mix, if_neg h2] at this ⊢
      exact this

theorem mix_two_at (b c k : Nat) (U W v : Ptr → α) : mix c k W (mix b k U v) ⟨c, k⟩ = v ⟨c, k⟩ := by
  rw [mix_at _ _ _ _ le_rfl]
  by_cases h : c = b
  · rw [h, mix_at _ _ _ _ le_rfl]
  · exact mix_other h

/-- The values after `k` elements of `c` were moved to `b`. -/
def movedVals (K : ElemKind α) (b c k : Nat) (v : Ptr → α) : Ptr → α :=
  mix c k (fun q => K.moved (v q)) (mix b k (fun q => v ⟨c, q.off⟩) v)

theorem movedVals_zero (b c : Nat) (v : Ptr → α) : movedVals K b c 0 v = v := by rw [movedVals, mix_zero, mix_zero]

theorem movedVals_succ (b c k : Nat) (v : Ptr → α) (r : Ptr) :
    (if r = (⟨c, k⟩ : Ptr) then K.moved (movedVals K b c k v ⟨c, k⟩) else if r = (⟨b, k⟩ : Ptr) then movedVals K b c k v ⟨c, k⟩
      else movedVals K b c k v r) = movedVals K b c (k + 1) v r := by
  rw [movedVals, mix_two_at, movedVals, ← mix_two]
  split
  · next e => rw [e]
  · split
    · next e => rw [e]
    · rfl

/-- Events of moves into new elements. -/
def moveEvents (b other n : Nat) : List Event := (List.range n).flatMap fun (k : Nat) => [.read ⟨other, k⟩, .construct ⟨b, k⟩]

theorem moveEvents_succ (b c n : Nat) : moveEvents b c (n + 1) = moveEvents b c n ++ [.read ⟨c, n⟩, .construct ⟨b, n⟩] := by
  simp [moveEvents, List.range_succ]

theorem moves_ok {b c n : Nat} {s : Elems α} (h : Quiet throws s.calls n) :
    ∃ s', constructArray b (fun k => moveConstruct K throws ⟨b, k⟩ ⟨c, k⟩) n s = (.ok (), s') ∧ s'.calls = s.calls + n ∧
      s'.log = s.log ++ moveEvents b c n ∧ s'.val = movedVals K b c n s.val := by
  rw [constructArray_eq]
  obtain ⟨s', e, ⟨p1, p2⟩, c⟩ := loop_ok (throws := throws) (cost := 1) (n := n)
    (f := fun k => unwind (moveConstruct K throws ⟨b, k⟩ ⟨c, k⟩) (destroyEvents b k))
    (P := fun k t => t.log = s.log ++ moveEvents b c k ∧ t.val = movedVals K b c k s.val) (fun k _ t ht hq => by
      refine ⟨_, unwind_ok (moveConstruct_ok (quiet_one.1 hq)), ⟨?_, ?_⟩, rfl⟩
      · rw [moveEvents_succ, ← List.append_assoc, ← ht.1]
      · funext q
        dsimp only
        rw [ht.2, movedVals_succ]) (s := s) ⟨by simp [moveEvents], by rw [movedVals_zero]⟩ (by rwa [Nat.mul_one])
  exact ⟨s', e, by rw [c, Nat.mul_one], p1, p2⟩

theorem moves_fail {b c n : Nat} {s : Elems α} (h : ¬ Quiet throws s.calls n) :
    ∃ k s', k < n ∧ constructArray b (fun k => moveConstruct K throws ⟨b, k⟩ ⟨c, k⟩) n s = (.error .exception, s') ∧
      s'.log = s.log ++ (moveEvents b c k ++ [.read ⟨c, k⟩] ++ destroyEvents b k) ∧ s'.val = movedVals K b c k s.val ∧
      Quiet throws s.calls k ∧ throws (s.calls + k) = true := by
  rw [constructArray_eq]
  refine loop_fail (throws := throws) (cost := 1) (n := n)
    (P := fun k t => t.log = s.log ++ moveEvents b c k ∧ t.val = movedVals K b c k s.val ∧ t.calls = s.calls + k ∧
      Quiet throws s.calls k)
    (Q := fun k t => t.log = s.log ++ (moveEvents b c k ++ [.read ⟨c, k⟩] ++ destroyEvents b k) ∧ t.val = movedVals K b c k s.val ∧
      Quiet throws s.calls k ∧ throws (s.calls + k) = true)
    (fun k _ t ht hq => ?_) (fun k _ t ht hq => ?_) (s := s) ⟨by simp [moveEvents], by rw [movedVals_zero], rfl, quiet_zero⟩ (by rwa [Nat.mul_one])
  · refine ⟨_, unwind_ok (moveConstruct_ok (quiet_one.1 hq)), ⟨?_, ?_, ?_, ?_⟩, rfl⟩
    · rw [moveEvents_succ, ← List.append_assoc, ← ht.1]
    · funext q
      dsimp only
      rw [ht.2.1, movedVals_succ]
    · dsimp only; rw [ht.2.2.1, Nat.add_assoc]
    · exact quiet_succ ht.2.2.2 (by rw [← ht.2.2.1]; exact quiet_one.1 hq)
  · rw [quiet_one, Bool.not_eq_false] at hq
    refine ⟨_, unwind_err (moveConstruct_err hq), ?_, ht.2.1, ht.2.2.2, by rw [← ht.2.2.1]; exact hq⟩
    dsimp only; rw [ht.1]; simp

theorem moveAssigns_ok {b c n : Nat} {s : Elems α} (h : Quiet throws s.calls n) :
    ∃ s', each (fun k => moveAssignE K throws ((⟨b, 0⟩ : Ptr).add k) ((⟨c, 0⟩ : Ptr).add k)) n s = (.ok (), s') ∧ s'.calls = s.calls + n ∧
      s'.log = s.log ++ copyEvents ⟨c, 0⟩ ⟨b, 0⟩ n ∧ s'.val = movedVals K b c n s.val := by
  obtain ⟨s', e, ⟨p1, p2⟩, c⟩ := loop_ok (throws := throws) (cost := 1) (n := n)
    (f := fun k => moveAssignE K throws ((⟨b, 0⟩ : Ptr).add k) ((⟨c, 0⟩ : Ptr).add k))
    (P := fun k t => t.log = s.log ++ copyEvents ⟨c, 0⟩ ⟨b, 0⟩ k ∧ t.val = movedVals K b c k s.val) (fun k _ t ht hq => by
      refine ⟨_, moveAssign_ok (quiet_one.1 hq), ⟨?_, ?_⟩, rfl⟩
      · dsimp only; rw [copyEvents_succ, ← List.append_assoc, ← ht.1]
      · funext q
        dsimp only
        rw [ht.2, add_mk, add_mk, movedVals_succ]) (s := s) ⟨by simp [copyEvents], by rw [movedVals_zero]⟩ (by rwa [Nat.mul_one])
  exact ⟨s', e, by rw [c, Nat.mul_one], p1, p2⟩

theorem moveAssigns_fail {b c n : Nat} {s : Elems α} (h : ¬ Quiet throws s.calls n) :
    ∃ k s', k < n ∧ each (fun k => moveAssignE K throws ((⟨b, 0⟩ : Ptr).add k) ((⟨c, 0⟩ : Ptr).add k)) n s = (.error .exception, s') ∧
      s'.log = s.log ++ copyEvents ⟨c, 0⟩ ⟨b, 0⟩ (k + 1) ∧ s'.val = movedVals K b c k s.val ∧
      Quiet throws s.calls k ∧ throws (s.calls + k) = true := by
  refine loop_fail (throws := throws) (cost := 1) (n := n)
    (P := fun k t => t.log = s.log ++ copyEvents ⟨c, 0⟩ ⟨b, 0⟩ k ∧ t.val = movedVals K b c k s.val ∧ t.calls = s.calls + k ∧
      Quiet throws s.calls k)
    (Q := fun k t => t.log = s.log ++ copyEvents ⟨c, 0⟩ ⟨b, 0⟩ (k + 1) ∧ t.val = movedVals K b c k s.val ∧
      Quiet throws s.calls k ∧ throws (s.calls + k) = true)
    (fun k _ t ht hq => ?_) (fun k _ t ht hq => ?_) (s := s) ⟨by simp [copyEvents], by rw [movedVals_zero], rfl, quiet_zero⟩ (by rwa [Nat.mul_one])
  · refine ⟨_, moveAssign_ok (quiet_one.1 hq), ⟨?_, ?_, ?_, ?_⟩, rfl⟩
    · dsimp only; rw [copyEvents_succ, ← List.append_assoc, ← ht.1]
    · funext q
      dsimp only
      rw [ht.2.1, add_mk, add_mk, movedVals_succ]
    · dsimp only; rw [ht.2.2.1, Nat.add_assoc]
    · exact quiet_succ ht.2.2.2 (by rw [← ht.2.2.1]; exact quiet_one.1 hq)
  · rw [quiet_one, Bool.not_eq_false] at hq
    refine ⟨_, moveAssign_err hq, ?_, ht.2.1, ht.2.2.2, by rw [← ht.2.2.1]; exact hq⟩
    dsimp only; rw [copyEvents_succ, ← List.append_assoc, ← ht.1]

theorem swapElement_ok {tmp : Nat} {p q : Ptr} (hp : p.blk ≠ tmp) (hq : q.blk ≠ tmp) {s : Elems α} (h : Quiet throws s.calls 3) :
    ∃ s', swapElementE K throws tmp p q s = (.ok (), s') ∧ s'.calls = s.calls + 3 ∧ s'.log = s.log ++ swapElementEvents tmp p q ∧
      ∀ r, r.blk ≠ tmp → s'.val r = if r = q then s.val p else if r = p then s.val q else s.val r := by
  have h0 := h 0 (by omega)
  have h1 := h 1 (by omega)
  have h2 := h 2 (by omega)
  have hpt : p ≠ (⟨tmp, 0⟩ : Ptr) := fun e => hp (by rw [e])
  have hqt : q ≠ (⟨tmp, 0⟩ : Ptr) := fun e => hq (by rw [e])
  rw [swapElementE, bind_emit, bind_ok (moveConstruct_ok (by exact h0)), bind_ok (moveAssign_ok (by exact h1)),
    bind_ok (moveAssign_ok (by exact h2))]
  refine ⟨_, rfl, rfl, by simp [swapElementEvents], fun r hr => ?_⟩
  have hrt : r ≠ (⟨tmp, 0⟩ : Ptr) := fun e => hr (by rw [e])
  dsimp only
  rw [if_neg hrt]
  by_cases e1 : r = q
  · rw [if_pos e1, if_pos e1, if_neg hqt.symm, if_neg hpt.symm, if_neg hpt.symm, if_pos rfl]
  · rw [if_neg e1, if_neg e1]
    rw [if_neg e1]
    by_cases e2 : r = p
    · rw [if_pos e2, if_pos e2, if_neg (fun e => e1 (e2.trans e.symm)), if_neg hqt]
    · rw [if_neg e2, if_neg e2, if_neg e2, if_neg hrt]

theorem swapElement_err {tmp : Nat} {p q : Ptr} {s : Elems α} (h : ¬ Quiet throws s.calls 3) :
    ∃ s', swapElementE K throws tmp p q s = (.error .exception, s') := by
  rw [swapElementE, bind_emit]
  cases h0 : throws s.calls with
  | true => exact ⟨_, bind_err (moveConstruct_err (by exact h0))⟩
  | false =>
    rw [bind_ok (moveConstruct_ok (by exact h0))]
    cases h1 : throws (s.calls + 1) with
    | true => exact ⟨_, bind_err (moveAssign_err (by exact h1))⟩
    | false =>
      rw [bind_ok (moveAssign_ok (by exact h1))]
      cases h2 : throws (s.calls + 2) with
      | true => exact ⟨_, bind_err (moveAssign_err (by exact h2))⟩
      | false =>
        refine absurd (fun i hi => ?_) h
        obtain rfl | rfl | rfl : i = 0 ∨ i = 1 ∨ i = 2 := by omega
        · exact h0
        · exact h1
        · exact h2

/-- The values after `k` elements of `a` and `b` were exchanged. -/
def swappedVals (a b k : Nat) (v : Ptr → α) : Ptr → α := mix b k (fun q => v ⟨a, q.off⟩) (mix a k (fun q => v ⟨b, q.off⟩) v)

theorem swapEvents_succ (t a b n : Nat) : swapEvents t a b (n + 1) = swapEvents t a b n ++ swapElementEvents t ⟨a, n⟩ ⟨b, n⟩ := by
  simp [swapEvents, List.range_succ]

private theorem swap_round {tmp a b : Nat} (ha : a ≠ tmp) (hb : b ≠ tmp) {s : Elems α} {k : Nat} {t : Elems α}
    (ht : t.log = s.log ++ swapEvents tmp a b k ∧ ∀ q, q.blk ≠ tmp → t.val q = swappedVals a b k s.val q)
    (hq : Quiet throws t.calls 3) :
    ∃ s', swapElementE K throws tmp ⟨a, k⟩ ⟨b, k⟩ t = (.ok (), s') ∧
      (s'.log = s.log ++ swapEvents tmp a b (k + 1) ∧ ∀ q, q.blk ≠ tmp → s'.val q = swappedVals a b (k + 1) s.val q) ∧
      s'.calls = t.calls + 3 := by
  obtain ⟨s', e, c, l, v⟩ := swapElement_ok (K := K) (p := (⟨a, k⟩ : Ptr)) (q := (⟨b, k⟩ : Ptr)) ha hb hq
  refine ⟨s', e, ⟨by rw [l, ht.1, swapEvents_succ, List.append_assoc], fun r hr => ?_⟩, c⟩
  have e1 : swappedVals a b k s.val ⟨b, k⟩ = s.val ⟨b, k⟩ := mix_two_at a b k _ _ s.val
  have e2 : swappedVals a b k s.val ⟨a, k⟩ = s.val ⟨a, k⟩ := by
    by_cases h : a = b
    · subst h; exact e1
    · rw [swappedVals, mix_other (by exact h), mix_at _ _ _ _ le_rfl]
  rw [v r hr, ht.2 r hr, ht.2 _ ha, ht.2 _ hb, e1, e2, swappedVals, swappedVals, ← mix_two]
  split
  · next e => rw [e]
  · split
    · next e => rw [e]
    · rfl

theorem swap_ok {tmp a b n : Nat} (ha : a ≠ tmp) (hb : b ≠ tmp) {s : Elems α} (h : Quiet throws s.calls (3 * n)) :
    ∃ s', swapStackE K throws tmp a b n s = (.ok (), s') ∧ s'.calls = s.calls + 3 * n ∧ s'.log = s.log ++ swapEvents tmp a b n ∧
      ∀ q, q.blk ≠ tmp → s'.val q = swappedVals a b n s.val q := by
  rw [Nat.mul_comm] at h
  obtain ⟨s', e, ⟨p1, p2⟩, c⟩ := loop_ok (throws := throws) (cost := 3) (n := n)
    (f := fun k => swapElementE K throws tmp ⟨a, k⟩ ⟨b, k⟩)
    (P := fun k t => t.log = s.log ++ swapEvents tmp a b k ∧ ∀ q, q.blk ≠ tmp → t.val q = swappedVals a b k s.val q)
    (fun k _ t ht hq => swap_round ha hb ht hq) (s := s)
    ⟨by simp [swapEvents], fun q _ => by rw [swappedVals, mix_zero, mix_zero]⟩ h
  exact ⟨s', noexcept_ok e, by rw [c, Nat.mul_comm], p1, p2⟩

theorem swap_err {tmp a b n : Nat} (ha : a ≠ tmp) (hb : b ≠ tmp) {s : Elems α} (h : ¬ Quiet throws s.calls (3 * n)) :
    ∃ s', swapStackE K throws tmp a b n s = (.error .terminate, s') := by
  rw [Nat.mul_comm] at h
  obtain ⟨k, s', -, e, -⟩ := loop_fail (throws := throws) (cost := 3) (n := n)
    (f := fun k => swapElementE K throws tmp ⟨a, k⟩ ⟨b, k⟩)
    (P := fun k t => t.log = s.log ++ swapEvents tmp a b k ∧ ∀ q, q.blk ≠ tmp → t.val q = swappedVals a b k s.val q)
    (Q := fun _ _ => True) (fun k _ t ht hq => swap_round ha hb ht hq)
    (fun k _ t ht hq => by obtain ⟨s', e⟩ := swapElement_err (K := K) (tmp := tmp) (p := ⟨a, k⟩) (q := ⟨b, k⟩) hq
                           exact ⟨s', e, trivial⟩) (s := s)
    ⟨by simp [swapEvents], fun q _ => by rw [swappedVals, mix_zero, mix_zero]⟩ h
  exact ⟨s', noexcept_err e⟩

/-- `x = other` -/
theorem assign_ok {f : Frame} {o : StackObj} (ho : o.blk < f.next) {src : Ptr} (hp : 0 < o.count → src.blk < f.next) {s : Elems α}
    (h : Quiet throws s.calls (2 * o.count + 3 * o.count)) :
    ∃ s', assignStackE K throws f o src s = (.ok (), s') ∧ s'.calls = s.calls + (2 * o.count + 3 * o.count) ∧
      s'.log = s.log ++ stackAssignEvents f o src ∧
      ∀ q, q.blk < f.next → s'.val q = mix o.blk o.count (fun q => s.val (src.add q.off)) s.val q := by
  rw [quiet_add] at h
  obtain ⟨s1, e1, c1, l1, v1⟩ := build_ok (K := K) (b := f.next) (n := o.count) (src := some src)
    (fun p e hn => by cases e; have := hp hn; omega) (s := s) h.1
  obtain ⟨s2, e2, c2, l2, v2⟩ := swap_ok (K := K) (tmp := f.next + 1) (a := o.blk) (b := f.next) (n := o.count) (by omega) (by omega)
    (s := s1) (by rw [c1]; exact h.2)
  refine ⟨_, by rw [assignStackE, bind_ok e1, bind_ok e2]; rfl, ?_, ?_, fun q hq => ?_⟩
  · dsimp only; rw [c2, c1]; simp only [Option.isSome_some, if_true]; omega
  · dsimp only; rw [l2, l1]; simp [stackAssignEvents]
  · dsimp only
    rw [v2 q (by omega), swappedVals, mix_other (by omega), v1]
    simp only [mix]
    by_cases hb : InBlock o.blk o.count q
    · rw [if_pos hb, if_pos hb, if_pos ⟨rfl, hb.2⟩]
    · rw [if_neg hb, if_neg hb, if_neg fun e => absurd e.1 (by omega)]

theorem assign_fail {f : Frame} {o : StackObj} {src : Ptr} (hp : 0 < o.count → src.blk < f.next) {s : Elems α}
    (h : ¬ Quiet throws s.calls (2 * o.count)) {ty : ElemType} {σ : Slots} (hg : ∀ p, p.blk = f.next → σ p = .gone)
    (hs : ∀ k : Nat, k < o.count → σ (src.add k) = .alive) :
    ∃ s' es, assignStackE K throws f o src s = (.error .exception, s') ∧ s'.log = s.log ++ es ∧ Respects ty σ es σ ∧
      ∀ q, q.blk < f.next → s'.val q = s.val q := by
  obtain ⟨s', es, e, l, r, v⟩ := build_fail (K := K) (b := f.next) (n := o.count) (src := some src)
    (fun p e hn => by cases e; have := hp hn; omega) (s := s) h (ty := ty) hg (fun q hq => by cases hq; exact hs)
  exact ⟨s', es, by rw [assignStackE, bind_err e], l, r, fun q hq => v q (by omega)⟩

theorem assign_err {f : Frame} {o : StackObj} (ho : o.blk < f.next) {src : Ptr} (hp : 0 < o.count → src.blk < f.next) {s : Elems α}
    (h : Quiet throws s.calls (2 * o.count)) (h' : ¬ Quiet throws (s.calls + 2 * o.count) (3 * o.count)) :
    ∃ s', assignStackE K throws f o src s = (.error .terminate, s') := by
  obtain ⟨s1, e1, c1, l1, v1⟩ := build_ok (K := K) (b := f.next) (n := o.count) (src := some src)
    (fun p e hn => by cases e; have := hp hn; omega) (s := s) h
  obtain ⟨s2, e2⟩ := swap_err (K := K) (tmp := f.next + 1) (a := o.blk) (b := f.next) (n := o.count) (by omega) (by omega)
    (s := s1) (by rw [c1]; exact h')
  exact ⟨s2, by rw [assignStackE, bind_ok e1, bind_err e2]⟩

/-! ### The tables as lists -/

variable {ext : Ptr → Prop} {f : Frame}

/-- The values of one object. -/
def objVals (v : Ptr → α) (o : StackObj) : List α := (List.range o.count).map fun (k : Nat) => v ⟨o.blk, k⟩

theorem objVals_length (v : Ptr → α) (o : StackObj) : (objVals v o).length = o.count := by simp [objVals]

theorem objVals_congr {v v' : Ptr → α} {o : StackObj} (h : ∀ k : Nat, k < o.count → v ⟨o.blk, k⟩ = v' ⟨o.blk, k⟩) :
    objVals v o = objVals v' o := List.map_congr_left fun k hk => h k (List.mem_range.1 hk)

theorem contents_some {v : Ptr → α} {x : Nat} {o : StackObj} (h : f.objs x = some o) : contents f v x = some (objVals v o) := by
  simp [contents, h, objVals]

theorem contents_none {v : Ptr → α} {x : Nat} (h : f.objs x = none) : contents f v x = none := by simp [contents, h]

theorem contents_congr {v v' : Ptr → α} (h : ∀ x o, f.objs x = some o → ∀ k : Nat, k < o.count → v ⟨o.blk, k⟩ = v' ⟨o.blk, k⟩) :
    contents f v = contents f v' := by
  funext x
  cases hx : f.objs x with
  | none => rw [contents_none hx, contents_none hx]
  | some o => rw [contents_some hx, contents_some hx, objVals_congr (h x o hx)]

theorem contents_next {v : Ptr → α} {k : Nat} : contents ({ f with next := k } : Frame) v = contents f v := rfl

theorem contents_add (h : FrameInv ext f) {v v' : Ptr → α} {x n : Nat} (hv : ∀ q, q.blk < f.next → v' q = v q) :
    contents (f.add x n) v' = upd (contents f v) x (some (objVals v' ⟨f.next, n⟩)) := by
  funext y
  by_cases e : y = x
  · subst e
    rw [upd_self, contents_some (o := ⟨f.next, n⟩) (by simp only [Frame.add, upd_self])]
  · rw [upd_ne _ _ e]
    cases hy : f.objs y with
    | none => rw [contents_none hy, contents_none (by simpa only [Frame.add, upd_ne _ _ e] using hy)]
    | some o =>
      rw [contents_some hy, contents_some (o := o) (by simpa only [Frame.add, upd_ne _ _ e] using hy)]
      exact congrArg some (objVals_congr fun k _ => hv _ (h.lt y o hy))

/-- One object got new values. -/
theorem contents_upd (h : FrameInv ext f) {v v' : Ptr → α} {x : Nat} {o : StackObj} (hx : f.objs x = some o)
    (hv : ∀ y o' (k : Nat), f.objs y = some o' → o'.blk ≠ o.blk → v' ⟨o'.blk, k⟩ = v ⟨o'.blk, k⟩) :
    contents f v' = upd (contents f v) x (some (objVals v' o)) := by
  funext y
  by_cases e : y = x
  · subst e
    rw [upd_self, contents_some hx]
  · rw [upd_ne _ _ e]
    cases hy : f.objs y with
    | none => rw [contents_none hy, contents_none hy]
    | some o' =>
      rw [contents_some hy, contents_some hy]
      exact congrArg some (objVals_congr fun k _ => hv y o' k hy fun e' => e (h.excl y x o' o hy hx e'))

/-- Two objects got new values. -/
theorem contents_upd2 (h : FrameInv ext f) {v v' : Ptr → α} {x y : Nat} {o o' : StackObj} (hx : f.objs x = some o) (hy : f.objs y = some o')
    (hv : ∀ z o'' (k : Nat), f.objs z = some o'' → o''.blk ≠ o.blk → o''.blk ≠ o'.blk → v' ⟨o''.blk, k⟩ = v ⟨o''.blk, k⟩) (l : List α)
    (hl : x ≠ y → l = objVals v' o) :
    contents f v' = upd (upd (contents f v) x (some l)) y (some (objVals v' o')) := by
  funext z
  by_cases e : z = y
  · subst e
    rw [upd_self, contents_some hy]
  · rw [upd_ne _ _ e]
    by_cases e2 : z = x
    · subst e2
      rw [upd_self, contents_some hx, hl e]
    · rw [upd_ne _ _ e2]
      cases hz : f.objs z with
      | none => rw [contents_none hz, contents_none hz]
      | some o'' =>
        rw [contents_some hz, contents_some hz]
        exact congrArg some (objVals_congr fun k _ => hv z o'' k hz (fun e' => e2 (h.excl z x o'' o hz hx e'))
          (fun e' => e (h.excl z y o'' o' hz hy e')))

/-- The same operation without values. -/
def toStack : ThrowOp α → StackOp
  | .dflt x n => .make x n none
  | .make x n src => .make x n src
  | .copy x y => .copy x y
  | .move x y => .move x y
  | .copyAssign x y => .copyAssign x y
  | .assignFrom x src => .assignFrom x src
  | .moveAssign x y => .moveAssign x y
  | .swap x y => .swap x y
  | .destroy x => .destroy x
  | .write x k _ => .write x k

theorem sources_one {op : ThrowOp α} (h : SourceAlive ext f op) : SourcesAlive ext f [toStack op] := by
  refine ⟨?_, trivial⟩
  cases op with
  | make x n src => cases src <;> exact h
  | assignFrom x src => exact h
  | _ => exact trivial

theorem source_blk (h : FrameInv ext f) {src : Ptr} {n : Nat} (hs : ∀ k : Nat, k < n → ext (src.add k) ∨ Frame.Has f (src.add k)) (hn : 0 < n) :
    src.blk < f.next := has_blk (p := src.add (0 : Nat)) h (hs 0 hn)

end Kwk.Throws
