import Verif.Lemmas.Uncopyable
import Verif.Props.Identity

/-!
# Property C161: algorithms that read accept elements that cannot be copied
-/

namespace Kwk
open Spec

variable {α : Type}

/-- The full property: every algorithm that only reads compiles for elements without copy constructor. -/
def C161_statement : Prop := ∀ r : Reader, r.compiles false = true

/-- **C161** What a call copies: nothing if no parameter takes the element by value; else each element looked at once for each such
parameter, that is all elements where the whole container is looked at. -/
theorem C161_copies [DecidableEq α] [Add α] [Zero α] (r : Reader) {c : Container} (hc : c.Default) {m : Mem α} {es : List (Ptr × α)}
    (h : Entries c m es) (f : Given → α → Bool) (v : α) (t : Trace) :
    ∃ t' l, r.run m c f v t = .ok ((), t') ∧ t'.copied = t.copied ++ l ∧ (∀ p ∈ l, p ∈ es.map (·.1)) ∧
      l.length ≤ (r.takes.count .value) * es.length ∧ (Full r → l.length = (r.takes.count .value) * es.length) ∧
      (es ≠ [] → .value ∈ r.takes → l ≠ []) := by
  have hr := entries_reverse hc h
  have sub : ∀ (g : Ptr × α → Bool) (es : List (Ptr × α)), ∀ p ∈ (through g es).map (·.1), p ∈ es.map (·.1) := by
    intro g es
    induction es with
    | nil => simp [through]
    | cons e es ih =>
      intro p hp
      unfold through at hp
      split at hp
      · simp at hp; simp [hp]
      · simp only [List.map_cons, List.mem_cons] at hp ⊢
        exact hp.imp id (ih p)
  have sub' : ∀ g : Ptr × α → Bool, ∀ p ∈ (through g es.reverse).map (·.1), p ∈ es.map (·.1) := by
    intro g p hp
    simpa using sub g es.reverse p hp
  have ne : ∀ (g : Ptr × α → Bool) (es : List (Ptr × α)), es ≠ [] → (through g es).map (·.1) ≠ [] := by
    intro g es hes
    cases es with
    | nil => exact absurd rfl hes
    | cons e es => unfold through; split <;> simp
  have le' : ∀ g : Ptr × α → Bool, (through g es.reverse).length ≤ es.length := fun g => by
    simpa using through_le g es.reverse
  have last : ∀ {β : Type} {x : Watched β} {k : β → β} {b : β} {t' : Trace}, x t = .ok (b, t') →
      (do let r ← x; pure (k r) : Watched β) t = .ok (k b, t') := by
    intro β x k b t' h
    show (x t >>= _) = _
    rw [h]
    rfl
  obtain ⟨a1, a2, a3, a4, a5⟩ := C160_copies h t f
  obtain ⟨b1, b2, b3⟩ := C160_values h t v
  obtain ⟨c1, -, c3⟩ := C160_references_partial h t f (fun (a : Nat) _ _ => a) 0 fun _ _ => ()
  have c2 := (C160_references_partial h t f (fun a g x => a || f g x) false fun _ _ => ()).2.1
  obtain ⟨d1, d2⟩ := C160_find_last_partial hc h t f
  have d3 := last (k := fun r => r.map fun pos => c.shape.zipWith (fun d i => d - 1 - i) pos) (C160_values hr t v).2.2
  have all : ∀ p ∈ es.map (·.1), p ∈ es.map (·.1) := fun _ h => h
  have alln : es ≠ [] → es.map (·.1) ≠ [] := by simp
  cases r
  case allOf => exact ⟨_, _, drop_result a1, rfl, all, by simp [Reader.takes], by simp [Reader.takes], fun h _ => alln h⟩
  case anyOf => exact ⟨_, _, drop_result a2, rfl, all, by simp [Reader.takes], by simp [Reader.takes], fun h _ => alln h⟩
  case noneOf => exact ⟨_, _, drop_result a3, rfl, all, by simp [Reader.takes], by simp [Reader.takes], fun h _ => alln h⟩
  case countIf => exact ⟨_, _, drop_result a4, rfl, all, by simp [Reader.takes], by simp [Reader.takes], fun h _ => alln h⟩
  case count => exact ⟨_, _, drop_result b1, rfl, all, by simp [Reader.takes], by simp [Reader.takes], fun h _ => alln h⟩
  case reduceSum => exact ⟨_, _, drop_result b2, rfl, all, by simp [Reader.takes], by simp [Reader.takes], fun h _ => alln h⟩
  case find => exact ⟨_, _, drop_result b3, rfl, sub _ _, by simpa [Reader.takes] using through_le _ es, by simp [Full], fun h _ => ne _ _ h⟩
  case findIfNot => exact ⟨_, _, drop_result a5, rfl, sub _ _, by simpa [Reader.takes] using through_le _ es, by simp [Full], fun h _ => ne _ _ h⟩
  case findLast => exact ⟨_, _, drop_result d3, rfl, sub' _, by simpa [Reader.takes] using le' _, by simp [Full], fun h _ => ne _ _ (by simpa using h)⟩
  case findLastIfNot => exact ⟨_, _, drop_result d2, rfl, sub' _, by simpa [Reader.takes] using le' _, by simp [Full], fun h _ => ne _ _ (by simpa using h)⟩
  case findIf => exact ⟨_, [], drop_result c1, by simp, by simp, by simp, by simp [Full], by simp [Reader.takes]⟩
  case findLastIf => exact ⟨_, [], drop_result d1, by simp, by simp, by simp, by simp [Full], by simp [Reader.takes]⟩
  case reduce => exact ⟨_, [], drop_result c2, by simp, by simp, by simp, by simp [Reader.takes], by simp [Reader.takes]⟩
  case forEach => exact ⟨_, [], c3, by simp, by simp, by simp, by simp [Reader.takes], by simp [Reader.takes]⟩

example := C161_copies .findLast (c := .ofShape ⟨0, 0⟩ [2, 2]) (m := oneBlock 0 [1, 2, 3, 4])
  (es := [(⟨0, 0⟩, (1 : Int)), (⟨0, 1⟩, 2), (⟨0, 2⟩, 3), (⟨0, 3⟩, 4)]) (ofShape_default (by simp)) rfl (fun _ _ => true) 3 ⟨[], []⟩

/-- **C161** `find_last(out, value)` answers with the last place of the value, and copies the elements from there on. -/
theorem C161_find_last [DecidableEq α] [Add α] [Zero α] {c : Container} (hc : c.Default) {m : Mem α} {es : List (Ptr × α)}
    (h : Entries c m es) (v : α) (t : Trace) :
    findLastSeen m c v t = .ok ((es.reverse.findIdx? fun e => decide (e.2 = v)).bind fun k => place c.shape (es.length - 1 - k),
      ⟨t.copied ++ (through (fun e => decide (e.2 = v)) es.reverse).map (·.1), t.given⟩) := by
  unfold findLastSeen
  show (findSeen m (reverse c) v t >>= _) = _
  rw [(C160_values (entries_reverse hc h) t v).2.2, ← last_place h]
  rfl

example : findLastSeen (oneBlock 0 [(1 : Int), 3, 3, 4]) (.ofShape ⟨0, 0⟩ [2, 2]) 3 ⟨[], []⟩ = .ok (some [1, 0], ⟨[⟨0, 3⟩, ⟨0, 2⟩], []⟩) :=
  C161_find_last (c := .ofShape ⟨0, 0⟩ [2, 2]) (m := oneBlock 0 [1, 3, 3, 4])
    (es := [(⟨0, 0⟩, 1), (⟨0, 1⟩, 3), (⟨0, 2⟩, 3), (⟨0, 3⟩, 4)]) (ofShape_default (by simp)) rfl 3 ⟨[], []⟩

/-- **C161** `find_first_of(out, in)` answers with the first place of one of the values.  For each element looked at it copies the element
and all elements of `in`, those up to the first equal one twice. -/
theorem C161_find_first_of [DecidableEq α] {c d : Container} {m : Mem α} {es vs : List (Ptr × α)} (h : Entries c m es) (hd : Entries d m vs)
    (t : Trace) :
    findFirstOfSeen m c d t = .ok (place c.shape (es.findIdx fun e => decide (e.2 ∈ vs.map (·.2))),
      ⟨t.copied ++ (through (fun e => decide (e.2 ∈ vs.map (·.2))) es).flatMap (fun e =>
        e.1 :: ((through (fun x => decide (x.2 = e.2)) vs).flatMap (fun x => [x.1, x.1]) ++
          (vs.drop (through (fun x => decide (x.2 = e.2)) vs).length).map (·.1))), t.given⟩) := by
  unfold findFirstOfSeen
  rw [findIfM_eq, hit_seen (fun e => decide (e.2 ∈ vs.map (·.2))) (fun e =>
        e.1 :: ((through (fun x => decide (x.2 = e.2)) vs).flatMap (fun x => [x.1, x.1]) ++
          (vs.drop (through (fun x => decide (x.2 = e.2)) vs).length).map (·.1))) (fun _ => []) ?_ h, none_flat, List.append_nil]
  · rfl
  · intro e t
    show (anyOfWith m d _ : Watched Bool) ⟨t.copied ++ [e.1], t.given⟩ = _
    unfold anyOfWith
    rw [reduceM_eq, any_copies (fun x => decide (x.2 = e.2)) (fun _ _ => rfl) hd]
    have e1 : (vs.any fun x => decide (x.2 = e.2)) = decide (e.2 ∈ vs.map (·.2)) := by
      rw [Bool.eq_iff_iff]
      simp
    rw [e1]
    simp

example : findFirstOfSeen (oneBlock 0 [(5 : Int), 1, 7, 7, 2]) (.ofShape ⟨0, 0⟩ [3]) (.ofShape ⟨0, 3⟩ [2]) ⟨[], []⟩ = .ok (some [2],
    ⟨[⟨0, 0⟩, ⟨0, 3⟩, ⟨0, 3⟩, ⟨0, 4⟩, ⟨0, 4⟩, ⟨0, 1⟩, ⟨0, 3⟩, ⟨0, 3⟩, ⟨0, 4⟩, ⟨0, 4⟩, ⟨0, 2⟩, ⟨0, 3⟩, ⟨0, 3⟩, ⟨0, 4⟩], []⟩) :=
  C161_find_first_of (c := .ofShape ⟨0, 0⟩ [3]) (d := .ofShape ⟨0, 3⟩ [2]) (m := oneBlock 0 [5, 1, 7, 7, 2])
    (es := [(⟨0, 0⟩, 5), (⟨0, 1⟩, 1), (⟨0, 2⟩, 7)]) (vs := [(⟨0, 3⟩, 7), (⟨0, 4⟩, 2)]) rfl rfl ⟨[], []⟩

/-- **C161** An algorithm compiles for elements without copy constructor exactly if no call of it ever copies an element; with one, all
compile. -/
theorem C161_iff (r : Reader) : (r.compiles false = true ↔ NeverCopies r) ∧ r.compiles true = true := by
  have hv : r.compiles false = true ↔ .value ∉ r.takes := by cases r <;> decide
  refine ⟨?_, by cases r <;> rfl⟩
  rw [hv]
  constructor
  · intro h c m es f v t hc he
    obtain ⟨t', l, h1, h2, -, h4, -⟩ := C161_copies r hc he f v t
    rw [List.count_eq_zero_of_not_mem h, Nat.zero_mul] at h4
    refine ⟨t', h1, ?_⟩
    rw [h2, List.length_eq_zero_iff.1 (Nat.le_zero.1 h4), List.append_nil]
  · intro h hm
    have hd : (Container.ofShape ⟨0, 0⟩ [1]).Default := ofShape_default (by simp)
    obtain ⟨t1, e1, e2⟩ := h _ _ _ (fun _ _ => true) 0 ⟨[], []⟩ hd (one_entry ⟨0, 0⟩ (7 : Int))
    obtain ⟨t2, l, h1, h2, -, -, -, h6⟩ := C161_copies r hd (one_entry ⟨0, 0⟩ (7 : Int)) (fun _ _ => true) 0 ⟨[], []⟩
    rw [h1] at e1
    obtain rfl := (Prod.mk.inj (Except.ok.inj e1)).2
    rw [h2] at e2
    exact h6 (by simp) hm (by simpa using e2)

example : NeverCopies .findLastIf := (C161_iff .findLastIf).1.1 (by decide)

/-- **C161** is false: `count_if` needs a copy constructor. -/
theorem C161_not : ¬ C161_statement := fun h => absurd (h .countIf) (by decide)

/-- **C161** The algorithms that compile for elements without copy constructor. -/
theorem C161_which_partial (r : Reader) : r.compiles false = true ↔ r = .findIf ∨ r = .findLastIf ∨ r = .reduce ∨ r = .forEach := by
  cases r <;> decide

example : Reader.compiles .reduce false = true := (C161_which_partial _).2 (by simp)

end Kwk
