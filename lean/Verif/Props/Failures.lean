import Verif.Lemmas.Leaks
import Verif.Props.Ownership

/-!
# Properties C125, C126: tables when something fails

`Failures` (Model/Failures.lean) says what fails during an operation: where exceptions are thrown, and whether the allocator is
exhausted and returns a null pointer.
-/

namespace Kwk
open Spec

variable {α : Type}

/-- Only the deleter fails. -/
def onlyDeleter : Failures := ⟨fun p => p = .deleter, false⟩

theorem exWorld_reachableE : ReachableE exWorld := ⟨exWorld, [], exWorld_fresh, rfl⟩

/-- Assignments of elements fail, from the third on. -/
def thirdElement : Failures := ⟨fun p => match p with | .element k => decide (2 ≤ k) | _ => false, false⟩

/-- Nothing fails. -/
def allWell : Failures := ⟨fun _ => false, false⟩

/-- Only the memory is exhausted. -/
def onlyExhausted : Failures := ⟨fun _ => false, true⟩

/-- A program during which two blocks are lost; the last failure happens before memory is obtained. -/
def exLosing : List (Failures × Op Int) :=
  [(onlyDeleter, .make 0 7 [2, 3] none), (allWell, .make 0 7 [2, 3] (some (some ⟨0, 0⟩))), (onlyDeleter, .copyAssign 0 0),
    (onlyDeleter, .make 1 7 [0] none), (⟨fun _ => true, false⟩, .copy 1 0)]

/-! ## C125: exceptions -/

/-- **C125** When an operation throws, all tables are as before and so is the memory in use, whatever failed. -/
theorem C125_untouched (w w' : World α) (hw : ReachableE w) (fl : Failures) (op : Op α) (h : w.stepE fl op = .ok (.threw w')) :
    Untouched w w' := by
  obtain ⟨L, hi⟩ := reachableE_linv hw
  obtain ⟨old, lt⟩ := linv_old hi
  obtain ⟨a, s, src, -, -, hb⟩ := stepE_threw h
  obtain ⟨b1, b2, b3, b4, b5, -⟩ := buildE_threw hb
  refine ⟨b1, ?_, ?_⟩
  · intro p v hv
    rw [b4 p, hv]
    intro e
    rw [old p (by omega)] at hv; cases hv
  · intro b a hl
    rw [b5 b, hl]
    intro e
    have := lt b a hl
    omega

example := C125_untouched exWorld _ exWorld_reachableE onlyDeleter (.make 0 7 [2, 3] none) rfl

/-- Full statement of **C125**: an operation that throws changes nothing and loses nothing. -/
def C125_statement : Prop :=
  ∀ (w w' : World Int) (fl : Failures) (op : Op Int), ReachableE w → w.stepE fl op = .ok (.threw w') → SameState w w'

/-- **C125** It holds if the copy of the allocator into the deleter does not throw.  Missing: that case, where a block is lost. -/
theorem C125_same_partial (w w' : World α) (hw : ReachableE w) (fl : Failures) (op : Op α) (hd : fl.throws .deleter = false)
    (h : w.stepE fl op = .ok (.threw w')) : SameState w w' := by
  obtain ⟨L, hi⟩ := reachableE_linv hw
  exact linv_same hi (fun s _ hl => by rw [hl.2.2.1] at hd; cases hd) h

example := C125_same_partial exWorld _ exWorld_reachableE thirdElement (.make 0 7 [2, 3] (some (some ⟨0, 0⟩))) rfl rfl

/-- **C125** (exact) A block is lost iff the deleter throws after memory was obtained. -/
theorem C125_leak_exact (w w' : World α) (hw : ReachableE w) (fl : Failures) (op : Op α) (h : w.stepE fl op = .ok (.threw w')) :
    (∃ b a, w.live b = none ∧ w'.live b = some a) ↔
      ∃ s, wanted w op = some s ∧ 0 < numel s ∧ fl.throws .label = false ∧ fl.throws .allocate = false ∧ fl.throws .deleter = true ∧
        fl.exhausted = false := by
  obtain ⟨L, hi⟩ := reachableE_linv hw
  have hnext : w.live w.next = none := by
    cases hl : w.live w.next with
    | none => rfl
    | some a => have := (linv_old hi).2 _ _ hl; omega
  obtain ⟨a, s, src, hs, -, hb⟩ := stepE_threw h
  obtain ⟨b1, b2, b3, b4, b5, b6, b7⟩ := buildE_threw hb
  constructor
  · rintro ⟨b, a', h1, h2⟩
    have hbn : b = w.next := by
      by_contra hne
      rw [b5 b hne, h1] at h2; cases h2
    subst hbn
    have hl : Leaks fl s := by
      by_contra hl
      rcases (b7 hl).2 with e | e
      · rw [e, h1] at h2; cases h2
      · rw [e] at h2; cases h2
    exact ⟨s, hs, hl.2.2.2.2, hl.1, hl.2.1, hl.2.2.1, hl.2.2.2.1⟩
  · rintro ⟨s', hs', h0, h1, h2, h3, h4⟩
    rw [hs] at hs'; cases hs'
    exact ⟨w.next, a, hnext, b6 ⟨h1, h2, h3, h4, h0⟩⟩

example := (C125_leak_exact exWorld _ exWorld_reachableE onlyDeleter (.make 0 7 [2, 3] none) rfl).2
  ⟨[2, 3], rfl, by decide, rfl, rfl, rfl, rfl⟩

/-- **C125** is false: when the deleter throws, nobody owns the new block. -/
theorem C125_deleter_leak_false : ¬ C125_statement := by
  intro h
  have hs := h exWorld (exWorld.allocate 7 6).2 onlyDeleter (.make 0 7 [2, 3] none) exWorld_reachableE rfl
  have := congrFun hs.live 1
  simp [exWorld, World.allocate, upd] at this

example : ∃ w', exWorld.stepE onlyDeleter (.make 0 7 [2, 3] none) = .ok (.threw w') ∧ w'.live 1 = some 7 ∧ w'.tables 0 = none :=
  ⟨_, rfl, rfl, rfl⟩

/-- **C125** (exact) An operation that can be done throws iff it builds a table and one of the steps throws; steps that copy elements
count only if elements are copied. -/
theorem C125_throws_iff (w w1 : World α) (fl : Failures) (op : Op α) (he : fl.exhausted = false) (hs : w.step op = .ok w1) :
    (∃ w', w.stepE fl op = .ok (.threw w')) ↔
      ∃ s, wanted w op = some s ∧ (fl.throws .label = true ∨ fl.throws .allocate = true ∨ fl.throws .deleter = true ∨
        (copies op = true ∧ ∃ k : Nat, (k : Int) < numel s ∧ fl.throws (.element k) = true)) := by
  have hk : ∀ (s : Shape) (P : Nat → Prop), (∃ k : Nat, (k : Int) < numel s ∧ P k) ↔ ∃ k, k < (numel s).toNat ∧ P k := by
    intro s P
    constructor <;> rintro ⟨k, h1, h2⟩ <;> exact ⟨k, by omega, h2⟩
  rcases stepE_form w fl op with ⟨x, a, s, src, h1, -, h2, -, h3, h4⟩ | ⟨x, tx, s, src, h1, -, h2, -, h3, h4⟩ | ⟨h1, h3⟩ | ⟨h1, -, h3, -⟩
  · rw [h4] at hs
    cases hb : w.build a s src with
    | error e => rw [hb] at hs; cases hs
    | ok r =>
      simp only [h3, createE_threw, h1, buildE_throws_iff he hb, h2, hk, Option.some.injEq, exists_eq_left']
  · rw [h4] at hs
    cases hb : w.build heapAlloc s (some src) with
    | error e => simp [World.assign, hb, bind, Except.bind] at hs
    | ok r =>
      simp only [h3, assignE_threw, h1, buildE_throws_iff he hb, h2, hk, Option.some.injEq, exists_eq_left', ne_eq, reduceCtorEq,
        not_false_eq_true, true_and]
  · simp [h1, h3, hs, Except.map]
  · simp [h1, h3]

example : ∃ w', exWorld.stepE thirdElement (.make 0 7 [2, 3] (some (some ⟨0, 0⟩))) = .ok (.threw w') ∧ w'.live 1 = none ∧
    w'.mem ⟨1, 0⟩ = none ∧ w'.tables 0 = none := ⟨_, rfl, rfl, rfl, rfl⟩
example : ∃ w', exWorld.stepE thirdElement (.make 0 7 [2, 1] (some (some ⟨0, 0⟩))) = .ok (.done w') ∧ w'.mem ⟨1, 1⟩ = some 2 :=
  ⟨_, rfl, rfl⟩

/-- **C125** If the allocator is not exhausted, an operation that ends normally does the same as when nothing can fail. -/
theorem C125_done (w w' : World α) (fl : Failures) (op : Op α) (he : fl.exhausted = false) (h : w.stepE fl op = .ok (.done w')) :
    w.step op = .ok w' := stepE_done he h

example := C125_done exWorld _ thirdElement (.make 0 7 [2, 1] (some (some ⟨0, 0⟩))) rfl rfl

/-- **C125** When nothing fails, operations do what they do in the other properties. -/
theorem C125_no_failure (w : World α) (fl : Failures) (ht : ∀ p, fl.throws p = false) (he : fl.exhausted = false) (op : Op α) :
    w.stepE fl op = (w.step op).map .done := stepE_none w ht he op

example := C125_no_failure exTables allWell (fun _ => rfl) rfl (.copyAssign 1 0)

/-- **C125** (exact) A program that catches exceptions and goes on, whatever fails: tables do not share blocks and release them with the
right allocator; the allocated blocks without owner are as many as operations whose deleter threw after memory was obtained. -/
theorem C125_programs (w0 w : World α) (l : List (Failures × Op α)) (h0 : Fresh w0) (hr : w0.runE l = .ok (some w)) :
    OwnedSafely w ∧ ∃ L : List Nat, L.Nodup ∧ L.length = lost w0 l ∧ ∀ b, Orphan w b ↔ b ∈ L := by
  rcases linv_run (linv_fresh h0) l with ⟨W', L, e, hi, hn⟩ | e | ⟨e, e', -⟩
  · rw [hr] at e; cases e
    obtain ⟨h1, h2⟩ := linv_safe hi
    obtain ⟨_, _, _, _, _, hd, _⟩ := hi
    exact ⟨h1, L, hd, by simpa using hn, h2⟩
  · rw [hr] at e; cases e
  · rw [hr] at e'; cases e'

example := C125_programs exWorld _ exLosing exWorld_fresh rfl

/-- **C125** (exact) Each allocated block belongs to exactly one table, as without exceptions, iff no block was lost. -/
theorem C125_owned_iff (w0 w : World α) (l : List (Failures × Op α)) (h0 : Fresh w0) (hr : w0.runE l = .ok (some w)) :
    Owned w ↔ lost w0 l = 0 := by
  obtain ⟨hs, L, -, hn, ho⟩ := C125_programs w0 w l h0 hr
  rw [← hn, List.length_eq_zero_iff]
  constructor
  · intro h
    rw [List.eq_nil_iff_forall_not_mem]
    intro b hb
    obtain ⟨h1, h2⟩ := (ho b).2 hb
    obtain ⟨a, ha⟩ := Option.ne_none_iff_exists'.1 h1
    obtain ⟨x, hx, -⟩ := h.owner b a ha
    exact h2 x hx
  · rintro rfl
    refine ⟨fun b a hb => ?_, hs.live⟩
    have hex : ∃ x, Owns w x b := by
      by_contra hno
      have := (ho b).1 ⟨by rw [hb]; simp, fun x hx => hno ⟨x, hx⟩⟩
      simp at this
    obtain ⟨x, hx⟩ := hex
    exact ⟨x, hx, fun y hy => hs.unique y x b hy hx⟩

example := mt (C125_owned_iff exWorld _ exLosing exWorld_fresh rfl).1 (by decide)

/-- **C125** In particular if no deleter throws.  Missing: deleters that throw. -/
theorem C125_programs_partial (w0 w : World α) (l : List (Failures × Op α)) (h0 : Fresh w0)
    (hl : ∀ e ∈ l, e.1.throws .deleter = false) (hr : w0.runE l = .ok (some w)) : Owned w := by
  rw [C125_owned_iff w0 w l h0 hr]
  clear hr h0
  induction l generalizing w0 with
  | nil => rfl
  | cons e l ih =>
    obtain ⟨fl, op⟩ := e
    have hk : loses w0 fl op = false := by
      rw [Bool.eq_false_iff]
      intro h
      obtain ⟨s, -, hk⟩ := loses_iff.1 h
      have := hl (fl, op) (by simp)
      rw [hk.2.2.1] at this; cases this
    have ih' := fun w1 => ih w1 fun e he => hl e (List.mem_cons_of_mem _ he)
    unfold lost
    rw [hk, if_neg Bool.false_ne_true]
    split <;> simp [ih']

example := C125_programs_partial exWorld _ [(allWell, .make 0 7 [2, 3] (some (some ⟨0, 0⟩))), (thirdElement, .copy 1 0)] exWorld_fresh
  (by decide) rfl

/-- **C125** Whatever fails, no block is released twice, or with the wrong allocator, or without having been allocated. -/
theorem C125_no_bad_free (w0 : World α) (l : List (Failures × Op α)) (h0 : Fresh w0) : w0.runE l ≠ .error .badFree := by
  rcases linv_run (linv_fresh h0) l with ⟨w', L, e, -⟩ | e | ⟨e, e', he⟩
  · rw [e]; simp
  · rw [e]; simp
  · rw [e']
    rintro ⟨⟩
    rcases he with he | he <;> cases he

/-- A program whose second and fourth operations throw. -/
def exFailing : Res (Option (List (Option Table) × List (Option AllocId))) := do
  let r ← exWorld.runE [(allWell, .make 0 7 [2, 3] (some (some ⟨0, 0⟩))), (thirdElement, .copy 1 0), (allWell, .make 1 8 [2] none),
    (thirdElement, .copyAssign 1 0), (allWell, .write 1 [1] 5), (allWell, .destroy 0)]
  return r.map fun w => ((List.range 2).map w.tables, (List.range 6).map w.live)

example : exFailing = .ok (some ([none, some ⟨some 3, some 8, [2]⟩], [none, none, none, some 8, none, none])) := by decide

example : (exWorld.runE exLosing).map (Option.map fun w => ((List.range 2).map fun x => (w.tables x).map Table.data, (List.range 5).map w.live))
    = .ok (some ([some (some 2), none], [none, some 7, some 7, some 0, none])) := by decide
example : lost exWorld exLosing = 2 := by decide

/-- **C125** (false for default construction) The default constructor allocates the deleter's allocator inside a `noexcept` constructor: if
this fails, the program is terminated. -/
theorem C125_default_terminates_false :
    ¬ ∀ (w : World Int) (fl : Failures) (op : Op Int), ReachableE w → w.stepE fl op ≠ .ok .terminated := by
  intro h
  exact h exWorld onlyDeleter (.dflt 0 [none]) exWorld_reachableE rfl

/-- **C125** (exact) Nothing but a default construction terminates the program. -/
theorem C125_terminates_iff (w : World α) (fl : Failures) (op : Op α) :
    w.stepE fl op = .ok .terminated ↔
      ∃ x axes, op = .dflt x axes ∧ w.tables x = none ∧ none ∈ axes ∧ fl.throws .deleter = true := by
  constructor
  · intro h
    rcases stepE_form w fl op with ⟨x, a, s, src, -, -, -, -, h3, -⟩ | ⟨x, tx, s, src, -, -, -, -, h3, -⟩ | ⟨-, h3⟩ | ⟨-, h5, h3, x, axes, rfl⟩
    · rw [h3] at h
      unfold World.createE at h
      cases hb : w.buildE fl a s src with
      | error e' => rw [hb] at h; cases h
      | ok r => rw [hb] at h; cases r <;> cases h
    · rw [h3] at h
      unfold World.assignE at h
      cases hb : w.buildE fl heapAlloc s (some src) with
      | error e' => rw [hb] at h; cases h
      | ok r =>
        rw [hb] at h
        cases r with
        | threw w1 => cases h
        | made t w1 =>
          simp only [bind, Except.bind, pure, Except.pure] at h
          split at h <;> cases h
    · rw [h3] at h; cases hs : w.step op <;> simp [hs, Except.map] at h
    · refine ⟨x, axes, rfl, ?_⟩
      simp only [World.stepE] at h
      split at h
      · next hc => simpa [and_assoc] using hc
      · cases hs : w.step (.dflt x axes) <;> simp [hs, bind, Except.bind, pure, Except.pure] at h
  · rintro ⟨x, axes, rfl, h1, h2, h3⟩
    simp [World.stepE, h1, h2, h3]

/-- **C125** (exact) A program is terminated iff it reaches a default construction of a table with dynamic extents whose deleter throws. -/
theorem C125_terminated_iff (w : World α) (l : List (Failures × Op α)) :
    w.runE l = .ok none ↔ ∃ l1 fl x axes l2 w1, l = l1 ++ (fl, .dflt x axes) :: l2 ∧ w.runE l1 = .ok (some w1) ∧
      w1.tables x = none ∧ none ∈ axes ∧ fl.throws .deleter = true := by
  rw [runE_terminated_iff]
  constructor
  · rintro ⟨l1, fl, op, l2, w1, h1, h2, h3⟩
    obtain ⟨x, axes, rfl, h4⟩ := (C125_terminates_iff w1 fl op).1 h3
    exact ⟨l1, fl, x, axes, l2, w1, h1, h2, h4⟩
  · rintro ⟨l1, fl, x, axes, l2, w1, h1, h2, h4⟩
    exact ⟨l1, fl, _, l2, w1, h1, h2, (C125_terminates_iff w1 fl _).2 ⟨x, axes, rfl, h4⟩⟩

example : exWorld.runE [(allWell, .make 0 7 [2, 3] none), (onlyDeleter, .dflt 1 [none]), (allWell, .destroy 0)] = .ok none := rfl

/-! ## C126: exhausted memory -/

/-- Full statement of **C126**: after a table was built or assigned without exception, all its elements exist. -/
def C126_statement : Prop :=
  ∀ (w w' : World Int) (fl : Failures) (op : Op Int) (s : Shape) (x : Nat), ReachableE w → wanted w op = some s → target op = some x →
    s ≠ [] → w.stepE fl op = .ok (.done w') →
    ∃ t, w'.tables x = some t ∧ t.shape = s ∧ ∀ p, InBox s p → ∃ v, w'.read t p = .ok v

/-- **C126** (exact) All elements exist iff the allocator was not exhausted, or there are no elements. -/
theorem C126_usable_exact_partial (w w' : World α) (hw : ReachableE w) (fl : Failures) (op : Op α) (s : Shape) (x : Nat)
    (hs : wanted w op = some s) (hx : target op = some x) (hne : s ≠ []) (h : w.stepE fl op = .ok (.done w')) :
    ∃ t, w'.tables x = some t ∧ t.shape = s ∧
      ((∀ p, InBox s p → ∃ v, w'.read t p = .ok v) ↔ fl.exhausted = false ∨ ∀ p, ¬ InBox s p) := by
  obtain ⟨L, v, ℓ, rfl, hv, hc, -⟩ := reachableE_linv hw
  rw [wanted_graft] at hs
  rw [graft_stepE hc hv] at h
  obtain ⟨v', hr, rfl⟩ : ∃ v', v.stepE fl op = .ok (.done v') ∧ w' = graft L ℓ v' := by
    cases hr : v.stepE fl op with
    | error e => rw [hr] at h; cases h
    | ok r => cases r <;> rw [hr] at h <;> cases h; exact ⟨_, rfl, rfl⟩
  obtain ⟨hi, t, ht, hsh, hd⟩ := stepE_target hv hs hx hr
  refine ⟨t, ht, hsh, ?_⟩
  subst hsh
  cases hdata : t.data with
  | none =>
    have hread : ∀ p, (graft L ℓ v').read t p = .error .nullDeref := fun p => by simp [World.read, hdata]
    constructor
    · intro hall
      refine .inr fun p hp => ?_
      obtain ⟨v, hv⟩ := hall p hp
      rw [hread] at hv; cases hv
    · rintro (he | hno) p hp
      · exfalso
        rcases hd.1 hdata with h1 | h1
        · rw [he] at h1; cases h1
        · obtain ⟨b0, b1⟩ := lin_bounds hp
          rw [numel_eq_prod hne] at h1
          omega
      · exact absurd hp (hno p)
  | some b =>
    have he : fl.exhausted = false := by
      cases he : fl.exhausted with
      | false => rfl
      | true => rw [hd.2 (.inl he)] at hdata; cases hdata
    refine ⟨fun _ => .inl he, fun _ p hp => ?_⟩
    obtain ⟨b0, b1⟩ := lin_bounds hp
    obtain ⟨v, hv⟩ := Option.isSome_iff_exists.1 (hi.cells x t b ht hdata _ b0 (by rw [numel_eq_prod hne]; exact b1))
    exact ⟨v, by rw [read_eq hdata hne hp]; exact load_ok hv⟩

example := C126_usable_exact_partial exWorld _ exWorld_reachableE onlyExhausted (.make 0 0 [2, 3] none) [2, 3] 0 rfl rfl (by decide) rfl

/-- **C126** is false: the null pointer of the allocator is not noticed. -/
theorem C126_null_false : ¬ C126_statement := by
  intro h
  obtain ⟨t, ht, -, hr⟩ := h exWorld _ onlyExhausted (.make 0 0 [2, 3] none) [2, 3] 0 exWorld_reachableE rfl rfl (by decide) rfl
  obtain ⟨v, hv⟩ := hr [0, 0] (mem_positions.1 (by decide))
  cases ht
  cases hv

/-- **C126** A construction with a source does not fail cleanly either: elements are written through the null pointer. -/
theorem C126_null_copy_false :
    ¬ ∀ (w w1 : World Int) (fl : Failures) (op : Op Int) (e : Fault), ReachableE w → w.step op = .ok w1 → w.stepE fl op ≠ .error e := by
  intro h
  exact h exWorld _ onlyExhausted (.make 0 0 [2, 3] (some (some ⟨0, 0⟩))) .nullDeref exWorld_reachableE rfl rfl

/-- **C126** (exact) An operation that can be done faults iff the allocator is exhausted, elements are to be copied, and no exception
was thrown before. -/
theorem C126_fault_iff (w w1 : World α) (hw : ReachableE w) (fl : Failures) (op : Op α) (hs : w.step op = .ok w1) :
    (∃ e, w.stepE fl op = .error e) ↔
      ∃ s, wanted w op = some s ∧ 0 < numel s ∧ copies op = true ∧ fl.exhausted = true ∧ fl.throws .label = false ∧
        fl.throws .allocate = false ∧ fl.throws .deleter = false := by
  obtain ⟨L, v, ℓ, rfl, hi, hc, -⟩ := reachableE_linv hw
  rw [graft_step hc hi] at hs
  cases hv : v.step op with
  | error e => rw [hv] at hs; cases hs
  | ok v1 =>
    rw [graft_stepE hc hi, wanted_graft, ← stepE_fault_iff hi fl op hv]
    cases v.stepE fl op <;> simp [Except.map]

example : exWorld.stepE onlyExhausted (.make 0 0 [2, 0] (some (some ⟨0, 0⟩))) =
    .ok (.done { exWorld with tables := upd exWorld.tables 0 (some ⟨none, some 0, [2, 0]⟩) }) := rfl

end Kwk
