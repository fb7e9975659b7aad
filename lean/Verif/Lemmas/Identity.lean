import Verif.Spec.Identity
import Verif.Lemmas.Effects
import Verif.Lemmas.Container

/-!
# Lemmas: which objects functions are given
-/

namespace Kwk
open Spec

variable {α β : Type}

/-- What is given during a fold. -/
def givenBy (F : β → Ptr × α → β) (G : β → Ptr × α → List Given) : β → List (Ptr × α) → List Given
  | _, [] => []
  | a, e :: es => G a e ++ givenBy F G (F a e) es

theorem refTo_ok {m : Mem α} {c : Container} {p : List Int} {e : Ptr × α} (h : (c.addr p, c.get m p) = (e.1, .ok e.2)) (t : Trace) :
    refTo m c p t = .ok ((.elem e.1, e.2), t) := by
  unfold refTo
  rw [(Prod.mk.inj h).2, (Prod.mk.inj h).1]
  rfl

theorem fold_seen {m : Mem α} {c : Container} {step : β → Given × α → Watched β} (F : β → Ptr × α → β) (C : Ptr × α → List Ptr)
    (G : β → Ptr × α → List Given)
    (hs : ∀ a e t, step a (.elem e.1, e.2) t = .ok (F a e, ⟨t.copied ++ C e, t.given ++ G a e⟩)) {l : List (List Int)} {es : List (Ptr × α)}
    (h : l.map (fun p => (c.addr p, c.get m p)) = es.map fun e => (e.1, .ok e.2)) (a : β) (t : Trace) :
    (l.foldlM (fun a p => do let v ← refTo m c p; step a v) a : Watched β) t =
      .ok (es.foldl F a, ⟨t.copied ++ es.flatMap C, t.given ++ givenBy F G a es⟩) := by
  induction l generalizing es a t with
  | nil =>
    obtain rfl : es = [] := by simpa using h.symm
    simp [givenBy]
    rfl
  | cons p l ih =>
    cases es with
    | nil => simp at h
    | cons e es =>
      obtain ⟨h1, h2⟩ := List.cons.inj h
      rw [List.foldlM_cons]
      show ((refTo m c p t >>= fun r => step a r.1 r.2) >>= fun r => (List.foldlM _ r.1 l : Watched β) r.2) = _
      rw [refTo_ok h1]
      show (step a (.elem e.1, e.2) t >>= _) = _
      rw [hs]
      show (List.foldlM _ (F a e) l : Watched β) _ = _
      rw [ih h2]
      simp [givenBy, List.append_assoc]

theorem hit_seen {m : Mem α} {c : Container} {step : Given × α → Watched Bool} (b : Ptr × α → Bool) (C : Ptr × α → List Ptr)
    (G : Ptr × α → List Given)
    (hs : ∀ e t, step (.elem e.1, e.2) t = .ok (b e, ⟨t.copied ++ C e, t.given ++ G e⟩)) {l : List (List Int)} {es : List (Ptr × α)}
    (h : l.map (fun p => (c.addr p, c.get m p)) = es.map fun e => (e.1, .ok e.2)) (t : Trace) :
    firstHit (refTo m c) step l t =
      .ok (l[es.findIdx b]?, ⟨t.copied ++ (through b es).flatMap C, t.given ++ (through b es).flatMap G⟩) := by
  induction l generalizing es t with
  | nil =>
    obtain rfl : es = [] := by simpa using h.symm
    simp [through, firstHit]
    rfl
  | cons p l ih =>
    cases es with
    | nil => simp at h
    | cons e es =>
      obtain ⟨h1, h2⟩ := List.cons.inj h
      unfold firstHit
      show (refTo m c p t >>= fun r => (step r.1 >>= fun b => if b = true then pure (some p) else firstHit (refTo m c) step l) r.2) = _
      rw [refTo_ok h1]
      show (step (.elem e.1, e.2) t >>= fun r => (if r.1 = true then pure (some p) else firstHit (refTo m c) step l : Watched _) r.2) = _
      rw [hs]
      show (if b e = true then pure (some p) else firstHit (refTo m c) step l : Watched _) _ = _
      cases hb : b e with
      | true =>
        rw [if_pos rfl, List.findIdx_cons, hb]
        unfold through
        rw [if_pos hb]
        simp
        rfl
      | false =>
        rw [if_neg (by simp), ih h2, List.findIdx_cons, hb]
        have e1 : through b (e :: es) = e :: through b es := by
          rw [through, if_neg (by simp [hb])]
        rw [e1]
        simp [List.append_assoc]

theorem givenBy_const (F : β → Ptr × α → β) (G : Ptr × α → List Given) (a : β) (es : List (Ptr × α)) :
    givenBy F (fun _ e => G e) a es = es.flatMap G := by
  induction es generalizing a with
  | nil => rfl
  | cons e es ih => simp [givenBy, ih]

theorem givenBy_done {F : Bool → Ptr × α → Bool} {G : Bool → Ptr × α → List Given} {s : Bool} (hF : ∀ e, F s e = s) (hG : ∀ e, G s e = [])
    (es : List (Ptr × α)) : givenBy F G s es = [] := by
  induction es with
  | nil => rfl
  | cons e es ih => simp [givenBy, hF, hG, ih]

/-- While the answer is open the copies are given, afterwards nothing. -/
theorem givenBy_until {F : Bool → Ptr × α → Bool} {G : Bool → Ptr × α → List Given} {s : Bool} {b : Ptr × α → Bool} {H : Ptr × α → List Given}
    (hF : ∀ e, F s e = s) (hG : ∀ e, G s e = []) (hF' : ∀ e, F (!s) e = if b e then s else !s) (hG' : ∀ e, G (!s) e = H e)
    (es : List (Ptr × α)) : givenBy F G (!s) es = (through b es).flatMap H := by
  induction es with
  | nil => rfl
  | cons e es ih =>
    unfold givenBy through
    rw [hF', hG']
    cases b e
    · simp [ih]
    · simp [givenBy_done hF hG]

theorem singles_elem (es : List (Ptr × α)) : es.flatMap (fun e => [Given.elem e.1]) = es.map fun e => .elem e.1 := by
  induction es with
  | nil => rfl
  | cons e es ih => simpa using ih

theorem singles_temp (es : List (Ptr × α)) : es.flatMap (fun e => [Given.temp e.1]) = es.map fun e => .temp e.1 := by
  induction es with
  | nil => rfl
  | cons e es ih => simpa using ih

theorem singles_addr (es : List (Ptr × α)) : es.flatMap (fun e => [e.1]) = es.map (·.1) := by
  induction es with
  | nil => rfl
  | cons e es ih => simpa using ih

theorem none_flat (es : List (Ptr × α)) : es.flatMap (fun _ => ([] : List β)) = [] := by
  induction es with
  | nil => rfl
  | cons e es ih => simp

end Kwk
