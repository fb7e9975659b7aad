import Verif.Model.OrderedIdentity
import Verif.Lemmas.FunctionObjects
import Verif.Lemmas.Identity
import Verif.Spec.Identity

/-!
# Lemmas: what the order of an ordered search is given
-/

namespace Kwk
open Spec

variable {α β σ : Type}

theorem loop_grows (md : Mode) (m : Mem α) (c : Container) (adv : α → StateT σ Res Bool) (size : σ → Nat)
    (h : ∀ e s r, adv e s = .ok r → size r.2 = size s + 1) (n : Nat) (v v' : SearchVars) (s s' : σ)
    (hr : searchLoop md m c adv n v s = .ok (v', s')) : size s ≤ size s' ∧ (0 < v.count → size s < size s') := by
  induction n generalizing v s with
  | zero => cases hr
  | succ n ih =>
    unfold searchLoop at hr
    split at hr
    · change ((coordinates md (v.first + v.count.tdiv 2) c.shape >>= fun r => Except.ok (r, s)) >>= _) = _ at hr
      cases hp : coordinates md (v.first + v.count.tdiv 2) c.shape with
      | error e => rw [hp] at hr; cases hr
      | ok p =>
        rw [hp] at hr
        change ((c.get m p >>= fun r => Except.ok (r, s)) >>= _) = _ at hr
        cases hx : c.get m p with
        | error e => rw [hx] at hr; cases hr
        | ok x =>
          rw [hx] at hr
          change (adv x s >>= _) = _ at hr
          cases ha : adv x s with
          | error e => rw [ha] at hr; cases hr
          | ok r =>
            rw [ha] at hr
            have hg := h x s r ha
            change (if r.1 = true then _ else _ : StateT σ Res SearchVars) r.2 = _ at hr
            split at hr
            · have := ih _ _ hr
              exact ⟨by omega, fun _ => by omega⟩
            · have := ih _ _ hr
              exact ⟨by omega, fun _ => by omega⟩
    · cases hr
      exact ⟨Nat.le_refl _, fun hc => absurd hc (by omega)⟩

theorem alike_finish (md : Mode) (m : Mem α) (c : Container) {f : α → StateT Unit Res Bool} {g : α → StateT σ Res Bool}
    (h : ∀ x, SameAnswer (f x) (g x)) : SameAnswer (finish md m c f) (finish md m c g) := by
  unfold finish
  refine alike_bind (alike_loop md m c h _ _) fun w => ?_
  split
  · exact alike_bind (alike_lift _) fun p => alike_pure _
  · exact alike_pure _

theorem entries_elems [Nonempty α] {c : Container} {m : Mem α} {es : List (Ptr × α)} (h : Entries c m es) :
    Lists c (seenMemory m) es := by
  unfold Lists rowMajor
  apply List.ext_getElem?
  intro k
  have hk := congrArg (fun l : List (Ptr × Res α) => l[k]?) h
  simp only [List.getElem?_map] at hk ⊢
  cases hp : (positions c.shape)[k]? with
  | none =>
    rw [hp] at hk
    cases he : es[k]? with
    | none => rfl
    | some e => rw [he] at hk; cases hk
  | some p =>
    rw [hp] at hk
    cases he : es[k]? with
    | none => rw [he] at hk; cases hk
    | some e =>
      rw [he] at hk
      have h2 := Option.some.inj hk
      have h3 : c.addr p = e.1 := congrArg Prod.fst h2
      have h4 : c.get m p = .ok e.2 := congrArg Prod.snd h2
      show some (c.get (seenMemory m) p) = some (.ok e)
      refine congrArg some (get_ok_iff.2 ?_)
      unfold seenMemory
      rw [get_ok_iff.1 h4, h3]
      rfl

/-- A search whose questions are recorded. -/
theorem search_seen [Nonempty α] (md : Mode) {c : Container} (hne : c.shape ≠ []) (hn : NonNeg c.shape) {m : Mem α} {xs : List α}
    (h : Lists c m xs) (adv : α → StateT σ Res Bool) (F : α → Bool) (nxt : α → σ → σ) (size : σ → Nat)
    (hadv : ∀ e s, adv e s = .ok (F e, nxt e s)) (hsz : ∀ e s, size (nxt e s) = size s + 1)
    (hp : xs.Pairwise fun a b => F b = true → F a = true) (s : σ) :
    ∃ l : List α, finish md m c adv s = .ok (place c.shape (xs.countP F), l.foldl (fun s e => nxt e s) s) ∧ (∀ e ∈ l, e ∈ xs) ∧
      l.length ≤ Nat.log 2 xs.length + 1 ∧ (xs ≠ [] → l ≠ []) := by
  have hlen := lists_length h
  have h0 : finish md m c (fun e => (pure (F e) : StateT Unit Res Bool)) () = .ok (place c.shape (xs.countP F), ()) := by
    have := (C117_bounds md h hne hn () ()).1 (fun e _ => F e) hp
    rwa [lowerBound_eq] at this
  obtain ⟨s', h1⟩ := alike_finish md m c (fun x => alike_call (fun s => (F x, nxt x s)) (F x) fun _ => rfl) _ h0 s
  have hf : (fun x s => (.ok (F x, nxt x s) : Res (Bool × σ))) = adv := by
    funext x s
    exact (hadv x s).symm
  rw [show (fun x => ((fun s => .ok ((fun s => (F x, nxt x s)) s)) : StateT σ Res Bool)) = adv from hf] at h1
  obtain ⟨val, he, hxs⟩ := lists_elems h
  obtain ⟨r, l, e1, e2, e3, -, -⟩ := finish_run md he hne hn adv (fun e _ => F e) nxt (fun p _ s => hadv _ s) s
  rw [e1] at h1
  obtain rfl : r = place c.shape (xs.countP F) := congrArg Prod.fst (Except.ok.inj h1)
  have hnum : c.numel = (xs.length : Int) := by
    rw [hlen, positions_length hn]
    exact (numel_eq_prod hne)
  refine ⟨l, e1, fun e hel => ?_, ?_, fun hx hl => ?_⟩
  · obtain ⟨p, hpb, rfl⟩ := e2 e hel
    rw [hxs]
    exact List.mem_map.2 ⟨p, mem_positions.2 hpb, rfl⟩
  · apply e3
    rw [hnum]
    exact_mod_cast Nat.lt_pow_succ_log_self (b := 2) (by norm_num) xs.length
  · subst hl
    unfold finish at e1
    change (searchLoop md m c adv (c.numel.toNat + 1) ⟨c.numel, 0, 0⟩ s >>= _) = _ at e1
    cases hs : searchLoop md m c adv (c.numel.toNat + 1) ⟨c.numel, 0, 0⟩ s with
    | error e => rw [hs] at e1; cases e1
    | ok w =>
      have hg := (loop_grows md m c adv size (fun e s r hr => by
        rw [hadv] at hr
        rw [← Except.ok.inj hr]
        exact hsz e s) _ _ w.1 s w.2 hs).2 (by
          rw [hnum]
          have := List.length_pos_iff.2 hx
          show (0 : Int) < (xs.length : Int)
          omega)
      rw [hs] at e1
      change (if w.1.first < c.numel then _ else _ : StateT σ Res (Option (List Int))) w.2 = _ at e1
      have : w.2 = s := by
        split at e1
        · change ((coordinates md w.1.it c.shape >>= fun r => Except.ok (r, w.2)) >>= _) = _ at e1
          cases hp : coordinates md w.1.it c.shape with
          | error e => rw [hp] at e1; cases e1
          | ok p =>
            rw [hp] at e1
            exact congrArg Prod.snd (Except.ok.inj e1)
        · exact congrArg Prod.snd (Except.ok.inj e1)
      rw [this] at hg
      omega

end Kwk
