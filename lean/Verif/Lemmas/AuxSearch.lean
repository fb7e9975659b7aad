import Verif.Spec.Order
import Verif.Lemmas.Search
import Verif.Props.Reading

/-!
# Lemmas for `Props/Search.lean`
-/

namespace Kwk
open Spec

variable {α β σ : Type}

/-- From the run of the search to "first position where `P` fails". -/
theorem finish_isFirst (md : Mode) {m : Mem α} {c : Container} {val : List Int → α}
    (h : Elems c m val) (hne : c.shape ≠ []) (hs : NonNeg c.shape) (s : σ)
    (adv : α → StateT σ Res Bool) (P : α → Bool) (hadv : ∀ e s, adv e s = .ok (P e, s))
    (hpart : ∀ p q, InBox c.shape p → InBox c.shape q → p < q → P (val q) = true → P (val p) = true) :
    ∃ r, finish md m c adv s = .ok (r, s) ∧ IsFirst c.shape (fun p => P (val p) = false) r := by
  obtain ⟨j, hj0, hj1, hchar, hnone, hpt⟩ := partition_point hne hs (fun p => P (val p)) hpart
  obtain ⟨r, es, h1, _, _, h4, h5⟩ := finish_run md h hne hs adv (fun e _ => P e) (fun _ s => s)
    (fun p _ s => hadv _ s) s
  obtain ⟨h6, h7⟩ := h5 j hj0 hj1 (fun p hp _ => hchar p hp)
  have hfold : es.foldl (fun (s : σ) _ => s) s = s := by
    clear * -
    induction es with
    | nil => rfl
    | cons e es ih =>
      rw [List.foldl_cons]
      exact ih
  rw [hfold] at h1
  refine ⟨r, h1, ?_, ?_⟩
  · rw [h6, hnone]; simp
  · intro p
    constructor
    · intro e
      obtain ⟨g1, g2⟩ := hpt p (h4 p e) (h7 p e)
      exact ⟨h4 p e, g1, fun q hq hlt => by simpa using g2 q hq hlt⟩
    · rintro ⟨hb, hP, hmin⟩
      cases r with
      | none =>
        have := hnone.1 (h6.1 rfl) p hb
        rw [hP] at this; cases this
      | some p' =>
        have hb' := h4 p' rfl
        obtain ⟨g1, g2⟩ := hpt p' hb' (h7 p' rfl)
        congr 1
        apply lin_inj hb' hb
        rcases lt_trichotomy (linearize (sfx c.shape) p') (linearize (sfx c.shape) p) with hlt | e | hlt
        · exact absurd g1 (hmin p' hb' ((lin_lt_iff hb' hb).1 hlt))
        · exact e
        · have := g2 p hb ((lin_lt_iff hb hb').1 hlt)
          rw [hP] at this; cases this

theorem StrictWeak.split {lt : α → α → Bool} (h : StrictWeak lt) (a b c : α) (hab : lt a b = true) :
    lt a c = true ∨ lt c b = true := by
  by_contra hn
  push Not at hn
  obtain ⟨h1, h2⟩ := hn
  have h1 : lt a c = false := by simpa using h1
  have h2 : lt c b = false := by simpa using h2
  have h3 : lt c a = false := by
    by_contra hc
    rw [h.trans c a b (by simpa using hc) hab] at h2; cases h2
  have h4 : lt b c = false := by
    by_contra hc
    rw [h.trans a b c hab (by simpa using hc)] at h1; cases h1
  have := (h.incomp a c b h1 h3 h2 h4).1
  rw [hab] at this; cases this

theorem foldl_append_all (es seen : List α) :
    es.foldl (fun (s : List α) e => s ++ [e]) seen = seen ++ es := by
  induction es generalizing seen with
  | nil => simp
  | cons e es ih => simp [ih]

end Kwk
