import Verif.Lemmas.Positions
import Verif.Spec.Text

/-!
# Lemmas: written text
-/

namespace Kwk
open Spec

theorem concat_append (a b : List String) : concat (a ++ b) = concat a ++ concat b := by
  induction a with
  | nil => simp [concat]
  | cons s a ih => simp [concat, ih, String.append_assoc]

theorem concat_flatMap {β : Type} (f : β → List String) (l : List β) :
    concat (l.flatMap f) = concat (l.map fun x => concat (f x)) := by
  induction l with
  | nil => rfl
  | cons x l ih => simp [concat_append, concat, ih]

theorem positions_append (s t : List Int) :
    positions (s ++ t) = (positions s).flatMap fun p => (positions t).map fun q => p ++ q := by
  induction s with
  | nil => simp [positions]
  | cons d s ih =>
    simp only [List.cons_append, positions, ih, List.flatMap_assoc, List.map_flatMap, List.flatMap_map, List.map_map]
    rfl

/-- The pieces written along the innermost axis make a row. -/
theorem row_pieces {b : Int} (hb : 0 < b) (pre sp : String) (val : Int → String) :
    concat ((upTo b).map fun j => (if j = 0 then pre else "") ++ (if j = 0 then sp ++ "[ " else "") ++ (val j ++ " ") ++
      (if j = b - 1 then "]\n" else "")) = pre ++ rowText sp ((upTo b).map val) := by
  obtain ⟨n, rfl⟩ : ∃ n : Nat, b = (n : Int) + 1 := ⟨(b - 1).toNat, by omega⟩
  have key : ∀ (k r : Nat), k + r = n →
      concat ((List.range' k (r + 1)).map fun (i : Nat) => (if (i : Int) = 0 then pre else "") ++
        (if (i : Int) = 0 then sp ++ "[ " else "") ++ (val i ++ " ") ++ (if (i : Int) = n + 1 - 1 then "]\n" else "")) =
      (if k = 0 then pre ++ (sp ++ "[ ") else "") ++ concat ((List.range' k (r + 1)).map fun (i : Nat) => val i ++ " ") ++
        "]\n" := by
    intro k r
    induction r generalizing k with
    | zero =>
      intro h
      have : k = n := by omega
      subst this
      by_cases h0 : k = 0 <;> simp [concat, h0, String.append_assoc]
    | succ r ih =>
      intro h
      rw [List.range'_succ, List.map_cons, concat, ih (k + 1) (by omega)]
      have h1 : ¬ ((k : Int) = n + 1 - 1) := by omega
      have h2 : ¬ (k = n) := by omega
      by_cases h0 : k = 0
      · subst h0
        have h3 : ¬ (0 = (n : Int)) := by omega
        simp [concat, h3, String.append_assoc]
      · simp [concat, h0, h2, String.append_assoc]
  have := key 0 n (by omega)
  simp only [upTo, List.map_map, rowText]
  rw [show ((n : Int) + 1).toNat = n + 1 by omega, List.range_eq_range']
  simp only [Function.comp_def, Int.ofNat_eq_natCast]
  rw [this]
  simp [String.append_assoc]

theorem positions_one (b : Int) : positions [b] = (upTo b).map fun j => [j] := by
  rw [positions]
  induction upTo b with
  | nil => rfl
  | cons x l ih => rw [List.flatMap_cons, ih]; rfl

theorem upTo_eq_cons {a : Int} (h : 0 < a) : ∃ l, upTo a = 0 :: l ∧ ∀ i ∈ l, 0 < i := by
  obtain ⟨n, rfl⟩ : ∃ n : Nat, a = (n : Int) + 1 := ⟨(a - 1).toNat, by omega⟩
  refine ⟨(List.range n).map fun i => ((i + 1 : Nat) : Int), ?_, ?_⟩
  · rw [upTo, show ((n : Int) + 1).toNat = n + 1 by omega, List.range_succ_eq_map]
    simp [Function.comp_def]
  · intro i hi
    obtain ⟨k, _, rfl⟩ := List.mem_map.1 hi
    omega

/-- The pieces written in a panel: the separator comes first. -/
theorem panel_pieces {a : Int} (ha : 0 < a) (pre : String) (f : Int → String) :
    concat ((upTo a).map fun i => (if i = 0 then pre else "") ++ f i) = pre ++ concat ((upTo a).map f) := by
  obtain ⟨l, hl, hpos⟩ := upTo_eq_cons ha
  have : l.map (fun i => (if i = 0 then pre else "") ++ f i) = l.map f :=
    List.map_congr_left fun i hi => by rw [if_neg (by have := hpos i hi; omega)]; simp
  rw [hl, List.map_cons, List.map_cons, concat, concat, this]
  simp [String.append_assoc]

/-- A separator before every piece but the first. -/
theorem sep_pieces {β : Type} (P : β → Prop) [DecidablePred P] (f : β → String) (x : β) (l : List β) (hx : ¬ P x)
    (hl : ∀ y ∈ l, P y) :
    concat ((x :: l).map fun y => (if P y then "\n" else "") ++ f y) = panelsText ((x :: l).map f) := by
  have key : ∀ (l : List β), (∀ y ∈ l, P y) → ∀ x, f x ++ concat (l.map fun y => (if P y then "\n" else "") ++ f y) =
      concat ((f x :: l.map f).intersperse "\n") := by
    intro l
    induction l with
    | nil => intro _ x; simp [concat]
    | cons y l ih =>
      intro hl x
      rw [List.map_cons, List.map_cons, List.intersperse_cons_cons, concat, concat, concat, if_pos (hl y (by simp)),
        ← ih (fun z hz => hl z (by simp [hz])) y]
      simp only [String.append_assoc]
  rw [List.map_cons, concat, if_neg hx, String.empty_append, panelsText, List.map_cons]
  exact key l hl x

theorem concat_length (l : List String) : (concat l).length = (l.map String.length).sum := by
  induction l with
  | nil => rfl
  | cons s l ih => rw [concat, String.length_append, ih, List.map_cons, List.sum_cons]

theorem sep_length {β : Type} (P : β → Prop) [DecidablePred P] (f : β → String) (l : List β) :
    (concat (l.map fun y => (if P y then "\n" else "") ++ f y)).length =
      l.countP (fun y => decide (P y)) + (l.map fun y => (f y).length).sum := by
  induction l with
  | nil => rfl
  | cons y l ih =>
    rw [List.map_cons, concat, String.length_append, ih, String.length_append, List.countP_cons, List.map_cons, List.sum_cons]
    have : ("\n" : String).length = 1 := rfl
    have : ("" : String).length = 0 := rfl
    by_cases h : P y <;> simp [h] <;> omega

theorem panelsText_length {β : Type} (f : β → String) (l : List β) :
    (panelsText (l.map f)).length = (l.length - 1) + (l.map fun y => (f y).length).sum := by
  unfold panelsText
  induction l with
  | nil => rfl
  | cons x l ih =>
    cases l with
    | nil => simp [concat]
    | cons y l =>
      have : ("\n" : String).length = 1 := rfl
      rw [List.map_cons, List.map_cons, List.intersperse_cons_cons, concat, concat, ← List.map_cons, String.length_append,
        String.length_append, ih, List.map_cons, List.map_cons, List.map_cons, List.sum_cons, List.sum_cons, List.length_cons]
      simp only [List.length_cons, List.sum_cons]
      omega

/-- The positions that start a run along the last axis. -/
theorem count_last_zero (lead : List Int) {k : Int} (hk : 0 < k) :
    (positions (lead ++ [k])).countP (fun o => decide (0 < o.getLastD 0)) + (positions lead).length =
      (positions (lead ++ [k])).length := by
  obtain ⟨l, hl, hl0⟩ := upTo_eq_cons hk
  rw [positions_append, positions_one, hl]
  generalize positions lead = ps
  induction ps with
  | nil => rfl
  | cons p ps ih =>
    rw [List.flatMap_cons, List.countP_append, List.length_append, List.length_cons, ← ih]
    have h1 : (((0 :: l).map fun j => [j]).map fun q => p ++ q).countP (fun o => decide (0 < o.getLastD 0)) = l.length := by
      rw [List.map_map, List.countP_map, List.countP_cons_of_neg (by simp [List.getLastD_eq_getLast?])]
      rw [List.countP_eq_length]
      intro j hj
      simpa [List.getLastD_eq_getLast?] using hl0 j hj
    rw [h1]
    simp only [List.length_map, List.length_cons]
    omega

theorem prod_pos_of_pos {l : List Int} (h : ∀ d ∈ l, 0 < d) : 0 < l.prod := by
  induction l with
  | nil => decide
  | cons d ds ih => exact Int.mul_pos (h d (by simp)) (ih fun e he => h e (by simp [he]))

end Kwk
