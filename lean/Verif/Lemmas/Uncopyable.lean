import Verif.Spec.Uncopyable
import Verif.Lemmas.Identity
import Verif.Props.Sequences

/-!
# Lemmas: calls that copy elements
-/

namespace Kwk
open Spec

variable {α : Type}

/-- Entries of a reversed container. -/
theorem entries_reverse {c : Container} (hc : c.Default) {m : Mem α} {es : List (Ptr × α)} (h : Entries c m es) :
    Entries (reverse c) m es.reverse := by
  unfold Entries at h ⊢
  rw [List.map_reverse, ← h, ← List.map_reverse, ← positions_mirror, List.map_map]
  refine List.map_congr_left fun p hp => ?_
  have hb := mem_positions.1 hp
  have := (C46_reverse_partial (α := α) hc.toWF (C46_default_corner hc ⟨p, hb⟩)).2 p hb
  exact Prod.ext this.1 (this.2 m)

theorem through_le (g : Ptr × α → Bool) (es : List (Ptr × α)) : (through g es).length ≤ es.length := by
  induction es with
  | nil => simp [through]
  | cons e es ih =>
    unfold through
    split
    · simp
    · simpa using ih

theorem drop_result {β : Type} {x : Watched β} {t t' : Trace} {b : β} (h : x t = .ok (b, t')) :
    (do let _ ← x : Watched Unit) t = .ok ((), t') := by
  show (x t >>= _) = _
  rw [h]
  rfl

theorem last_place {c : Container} {m : Mem α} {es : List (Ptr × α)} (h : Entries c m es) (g : Ptr × α → Bool) :
    (place (reverse c).shape (es.reverse.findIdx g)).map (fun pos => c.shape.zipWith (fun d i => d - 1 - i) pos) =
      (es.reverse.findIdx? g).bind fun k => place c.shape (es.length - 1 - k) := by
  have hlen : es.length = (positions c.shape).length := by
    have := congrArg List.length h
    simpa using this.symm
  show ((positions c.shape)[_]?).map _ = _
  cases hi : es.reverse.findIdx? g with
  | none =>
    rw [List.findIdx?_eq_none_iff_findIdx_eq.1 hi, List.length_reverse, hlen, List.getElem?_eq_none (Nat.le_refl _)]
    rfl
  | some k =>
    have hk : k < es.length := by
      obtain ⟨h, -⟩ := List.findIdx?_eq_some_iff_getElem.1 hi
      simpa using h
    rw [(List.findIdx?_eq_some_iff_findIdx_eq.1 hi).2]
    show _ = (positions c.shape)[_]?
    rw [hlen] at hk ⊢
    have e := List.getElem?_eq_getElem hk
    rw [place_mirror e, e]
    rfl

/-- What `any_of` copies if `g` copies its argument. -/
theorem any_copies {m : Mem α} {c : Container} {g : Given × α → Watched Bool} (b : Ptr × α → Bool)
    (hg : ∀ e t, g (.temp e.1, e.2) t = .ok (b e, ⟨t.copied ++ [e.1], t.given⟩)) {l : List (List Int)} {es : List (Ptr × α)}
    (h : l.map (fun p => (c.addr p, c.get m p)) = es.map fun e => (e.1, .ok e.2)) (t : Trace) :
    (l.foldlM (fun a p => do
      let x ← refTo m c p
      let e ← byValue x
      if a then pure true else g e) false : Watched Bool) t =
      .ok (es.any b, ⟨t.copied ++ ((through b es).flatMap (fun e => [e.1, e.1]) ++ (es.drop (through b es).length).map (·.1)), t.given⟩) := by
  have done : ∀ {l : List (List Int)} {es : List (Ptr × α)}, l.map (fun p => (c.addr p, c.get m p)) = (es.map fun e => (e.1, .ok e.2)) →
      ∀ t : Trace, (l.foldlM (fun a p => do
        let x ← refTo m c p
        let e ← byValue x
        if a then pure true else g e) true : Watched Bool) t = .ok (true, ⟨t.copied ++ es.map (·.1), t.given⟩) := by
    intro l
    induction l with
    | nil =>
      intro es h t
      obtain rfl : es = [] := by simpa using h.symm
      simp
      rfl
    | cons p l ih =>
      intro es h t
      cases es with
      | nil => simp at h
      | cons e es =>
        obtain ⟨h1, h2⟩ := List.cons.inj h
        rw [List.foldlM_cons]
        show ((refTo m c p t >>= fun r => (byValue r.1 >>= fun e => if true = true then pure true else g e : Watched Bool) r.2) >>=
          fun r => (List.foldlM _ r.1 l : Watched Bool) r.2) = _
        rw [refTo_ok h1]
        show (List.foldlM _ true l : Watched Bool) ⟨t.copied ++ [e.1], t.given⟩ = _
        rw [ih h2]
        simp
  induction l generalizing es t with
  | nil =>
    obtain rfl : es = [] := by simpa using h.symm
    simp [through]
    rfl
  | cons p l ih =>
    cases es with
    | nil => simp at h
    | cons e es =>
      obtain ⟨h1, h2⟩ := List.cons.inj h
      rw [List.foldlM_cons]
      show ((refTo m c p t >>= fun r => (byValue r.1 >>= fun e => if false = true then pure true else g e : Watched Bool) r.2) >>=
        fun r => (List.foldlM _ r.1 l : Watched Bool) r.2) = _
      rw [refTo_ok h1]
      show (g (.temp e.1, e.2) ⟨t.copied ++ [e.1], t.given⟩ >>= fun r => (List.foldlM _ r.1 l : Watched Bool) r.2) = _
      rw [hg]
      show (List.foldlM _ (b e) l : Watched Bool) _ = _
      cases hb : b e with
      | true =>
        rw [done h2]
        simp [through, hb]
      | false =>
        rw [ih h2]
        simp [through, hb]

end Kwk
