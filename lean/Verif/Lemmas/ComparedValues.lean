import Verif.Spec.ComparedValues
import Verif.Lemmas.OrderedIdentity

/-!
# Lemmas: copies of values
-/

namespace Kwk
open Spec

variable {α ρ : Type}

theorem takeValue_then (g : GivenAs) (k : Copying ρ) (n : Nat) : (takeValue g >>= fun _ => k : Copying ρ) n = k (n + ofCaller g) := by
  cases g <;> rfl

theorem noCopies_ok {r : Res ρ} {x : ρ} (h : r = .ok x) (n : Nat) : noCopies r n = .ok (x, n) := by
  rw [h]
  rfl

theorem ordered_val {f : GivenAs → (α → α → Copying Bool) → Copying ρ} {lt : α → α → Bool} {r : ρ} {k : Nat} {P : Nat → Prop}
    (h1 : ∀ g n, f g (byReference lt) n = .ok (r, n + ofCaller g + k))
    (h2 : ∀ n, ∃ q, P q ∧ f .lvalue (byCopies lt) n = .ok (r, n + 1 + k + q)) (ctx order : Bool) (g : GivenAs) (n : Nat) :
    ∃ q, (order = false → P q) ∧ orderedVal f lt ctx order g n =
      .ok (r, n + ofCaller g + (if ctx then 0 else 1) + k + if order then 0 else 1 + q) := by
  cases ctx <;> cases order
  · obtain ⟨q, hq, h⟩ := h2 (n + ofCaller g + 1)
    refine ⟨q, fun _ => hq, ?_⟩
    show (takeValue g >>= fun _ => (takeValue .lvalue >>= fun _ => f .lvalue (byCopies lt) : Copying ρ) : Copying ρ) n = _
    rw [takeValue_then, takeValue_then]
    refine h.trans ?_
    congr 2
    simp only [Bool.false_eq_true, if_false]
    omega
  · refine ⟨0, fun h => absurd h (by decide), ?_⟩
    show (takeValue g >>= fun _ => f .lvalue (byReference lt) : Copying ρ) n = _
    rw [takeValue_then, h1]
    rfl
  · obtain ⟨q, hq, h⟩ := h2 (n + ofCaller g)
    refine ⟨q, fun _ => hq, ?_⟩
    show (takeValue g >>= fun _ => f .lvalue (byCopies lt) : Copying ρ) n = _
    rw [takeValue_then]
    refine h.trans ?_
    congr 2
    simp only [Bool.false_eq_true, if_false, if_true]
    omega
  · exact ⟨0, fun h => absurd h (by decide), h1 g n⟩

private theorem foldl_succ (l : List α) (n : Nat) : l.foldl (fun n _ => n + 1) n = n + l.length := by
  induction l generalizing n with
  | nil => rfl
  | cons _ l ih =>
    rw [List.foldl_cons, ih, List.length_cons]
    omega

theorem lower_copies [Nonempty α] (md : Mode) {c : Container} (hne : c.shape ≠ []) (hn : NonNeg c.shape) {m : Mem α} {xs : List α}
    (h : Lists c m xs) (lt : α → α → Bool) (v : α) (hp : xs.Pairwise fun a b => lt b v = true → lt a v = true) (n : Nat) :
    ∃ q, Comparisons xs.length q ∧ lowerBound md m c v (byCopies lt) n = .ok (place c.shape (xs.countP fun e => lt e v), n + q) := by
  obtain ⟨l, h1, -, h2, h3⟩ := search_seen md hne hn h (fun e => byCopies lt e v) (fun e => lt e v) (fun _ n => n + 1) id
    (fun _ _ => rfl) (fun _ _ => rfl) hp n
  refine ⟨l.length, ⟨h2, fun h hl => h3 (fun hx => h (by rw [hx]; rfl)) (List.length_eq_zero_iff.1 hl)⟩, ?_⟩
  rw [lowerBound_eq, h1, foldl_succ]

theorem upper_copies [Nonempty α] (md : Mode) {c : Container} (hne : c.shape ≠ []) (hn : NonNeg c.shape) {m : Mem α} {xs : List α}
    (h : Lists c m xs) (lt : α → α → Bool) (v : α) (hp : xs.Pairwise fun a b => lt v a = true → lt v b = true) (n : Nat) :
    ∃ q, Comparisons xs.length q ∧ upperBound md m c v (byCopies lt) n = .ok (place c.shape (xs.countP fun e => !lt v e), n + q) := by
  obtain ⟨l, h1, -, h2, h3⟩ := search_seen md hne hn h (fun e => do let r ← byCopies lt v e; pure !r) (fun e => !lt v e)
    (fun _ n => n + 1) id (fun _ _ => rfl) (fun _ _ => rfl) (hp.imp fun {a b} hab hb => by
      cases ha : lt v a
      · rfl
      · rw [hab ha] at hb; cases hb) n
  refine ⟨l.length, ⟨h2, fun h hl => h3 (fun hx => h (by rw [hx]; rfl)) (List.length_eq_zero_iff.1 hl)⟩, ?_⟩
  rw [upperBound_eq, h1, foldl_succ]

theorem sorted_below {lt : α → α → Bool} (hlt : StrictWeak lt) {xs : List α} (hs : xs.Pairwise fun a b => lt b a = false) (v : α) :
    xs.Pairwise fun a b => lt b v = true → lt a v = true := hs.imp fun {a b} hab hb => by
  cases hav : lt a v with
  | true => rfl
  | false =>
    cases hva : lt v a with
    | true => rw [hlt.trans b v a hb hva] at hab; cases hab
    | false =>
      cases hab' : lt a b with
      | true => rw [hlt.trans a b v hab' hb] at hav; cases hav
      | false =>
        rw [(hlt.incomp b a v hab hab' hav hva).1] at hb
        cases hb

theorem sorted_above {lt : α → α → Bool} (hlt : StrictWeak lt) {xs : List α} (hs : xs.Pairwise fun a b => lt b a = false) (v : α) :
    xs.Pairwise fun a b => lt v a = true → lt v b = true := hs.imp fun {a b} hab ha => by
  cases hvb : lt v b with
  | true => rfl
  | false =>
    cases hbv : lt b v with
    | true => rw [hlt.trans b v a hbv ha] at hab; cases hab
    | false =>
      cases hab' : lt a b with
      | true => rw [hlt.trans v a b ha hab'] at hvb; cases hvb
      | false =>
        rw [(hlt.incomp v b a hvb hbv hab hab').1] at ha
        cases ha

end Kwk
