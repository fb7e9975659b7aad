import Verif.Lemmas.AuxPrint
import Verif.Props.Effects
import Verif.Props.EndRatio
import Verif.Props.Reading
import Verif.Props.Slicing
import Verif.Lemmas.Print

/-!
# Property C72: containers written to a stream
-/

namespace Kwk
open Spec

variable {α : Type}

/-! ## C72

Full property: `os << c` writes the label line, then the rows of the container in row-major order, with an empty line
between panels (2D parts), or `[ ]` for an empty container.  The empty line is missing in order 4 and above when the last
panel index starts again (`C72_order_four_false`). -/

/-- The full property, for containers of order two and more that are not empty. -/
def C72_statement : Prop :=
  ∀ (c : Container) (m : Mem Int) (val : List Int → Int) (outer : List Int) (a b : Int), Elems c m val →
    c.shape = outer ++ [a, b] → (∀ d ∈ c.shape, 0 < d) →
    c.print toString m = .ok (labelText c.label ++ panelsText ((positions outer).map fun o =>
      panelText (indent c.label) a b fun i j => toString (val (o ++ [i, j]))))

/-- **C72** (empty) An empty container of any order is written as `[ ]` under its label. -/
theorem C72_print_empty (c : Container) (m : Mem α) (text : α → String) (hne : c.shape ≠ []) (hs : NonNeg c.shape)
    (h : ∀ p, ¬ InBox c.shape p) : c.print text m = .ok (labelText c.label ++ indent c.label ++ "[ ]") := by
  have he := (C76_size_queries c hne hs).2.2.1.2 h
  unfold Container.print
  rw [if_pos he]
  cases c.label <;> simp [labelText, indent, String.append_assoc, pure, Except.pure]

example := C72_print_empty (Container.ofShape ⟨0, 0⟩ [2, 0, 3]) exTwo toString (by decide) (by decide)
  (fun p hp => by have := mem_positions.2 hp; revert this; exact (by decide : positions [2, 0, 3] = []) ▸ List.not_mem_nil)

/-- **C72** (1D) One row. -/
theorem C72_print_1d (c : Container) (m : Mem α) (val : List Int → α) (text : α → String) (b : Int)
    (h : Elems c m val) (hs : c.shape = [b]) (hb : 0 < b) :
    c.print text m = .ok (labelText c.label ++ rowText (indent c.label) ((upTo b).map fun j => text (val [j]))) := by
  rw [print_eq h text (by simp [hs]) (by simpa [hs] using hb)]
  congr 2
  have := row_pieces hb "" (indent c.label) fun j => text (val [j])
  simp only [ite_self, String.empty_append] at this
  rw [← this, hs, positions_one, List.map_map]
  congr 1

example := C72_print_1d (Container.ofShape ⟨0, 0⟩ [3]) exTwo (fun p => p.headD 0 + 1) toString 3
  (fun p hp => (by decide : ∀ p ∈ positions [3], (Container.ofShape ⟨0, 0⟩ [3]).get exTwo p = .ok (p.headD 0 + 1)) p (mem_positions.2 hp))
  rfl (by decide)

/-- **C72** (partial, any order of at least two) What is written: the rows of all panels in order; an empty line precedes
a panel exactly when its last index is positive.  Missing: the empty line before the other panels but the first one,
in order four and above (false). -/
theorem C72_print_partial (c : Container) (m : Mem α) (val : List Int → α) (text : α → String) (outer : List Int)
    (a b : Int) (h : Elems c m val) (hs : c.shape = outer ++ [a, b]) (hpos : ∀ d ∈ c.shape, 0 < d) :
    c.print text m = .ok (labelText c.label ++ concat ((positions outer).map fun o =>
      (if 0 < o.getLastD 0 then "\n" else "") ++
        panelText (indent c.label) a b fun i j => text (val (o ++ [i, j])))) := by
  have ha : 0 < a := hpos a (by simp [hs])
  have hb : 0 < b := hpos b (by simp [hs])
  rw [print_eq h text (by simp [hs]) hpos]
  congr 2
  rw [hs, positions_append, List.map_flatMap, concat_flatMap]
  congr 1
  refine List.map_congr_left fun o ho => ?_
  have hlen : outer.length = o.length := (mem_positions.1 ho).length_eq
  have hstep : ∀ i j, printStep (indent c.label) (outer ++ [a, b]) (o ++ [i, j]) (text (val (o ++ [i, j]))) =
      (if j = 0 then (if i = 0 then (if 0 < o.getLastD 0 then "\n" else "") else "") else "") ++
      (if j = 0 then indent c.label ++ "[ " else "") ++ (text (val (o ++ [i, j])) ++ " ") ++
      (if j = b - 1 then "]\n" else "") := by
    intro i j
    have h1 : (o ++ [i, j]).drop ((outer ++ [a, b]).length - 2) = [i, j] := by
      rw [show (outer ++ [a, b]).length - 2 = o.length by simp [hlen]]; simp
    have h2 : (o ++ [i, j]).getLastD 0 = j := by simp [List.getLastD_eq_getLast?]
    have h3 : (outer ++ [a, b]).getLastD 0 = b := by simp [List.getLastD_eq_getLast?]
    unfold printStep
    rw [h1, h2, h3]
    congr 3
    rcases List.eq_nil_or_concat o with rfl | ⟨o', x, rfl⟩
    · simp [List.length_eq_zero_iff.1 hlen]
    · rw [List.concat_eq_append] at *
      have h4 : ((o' ++ [x]) ++ [i, j]).getD ((outer ++ [a, b]).length - 3) 0 = x := by
        rw [show (outer ++ [a, b]).length - 3 = o'.length by simp [hlen]]; simp
      rw [h4]
      have h5 : (outer ++ [a, b]).length ≥ 3 := by simp [hlen]
      simp only [h5, List.getLastD_eq_getLast?, List.getLast?_append, List.getLast?_singleton, true_and,
        List.cons.injEq, and_true]
      by_cases hi : i = 0 <;> by_cases hj : j = 0 <;> by_cases hx : 0 < x <;> simp [hi, hj, hx]
  have hrow : ∀ i, concat ((positions [b]).map fun q => printStep (indent c.label) (outer ++ [a, b]) (o ++ i :: q)
      (text (val (o ++ i :: q)))) = (if i = 0 then (if 0 < o.getLastD 0 then "\n" else "") else "") ++
      rowText (indent c.label) ((upTo b).map fun j => text (val (o ++ [i, j]))) := by
    intro i
    rw [← row_pieces hb, positions_one, List.map_map]
    congr 1
    exact List.map_congr_left fun j _ => hstep i j
  rw [positions, List.map_flatMap, List.map_flatMap, concat_flatMap]
  simp only [List.map_map, Function.comp_def, hrow]
  rw [panel_pieces ha, panelText]

example := C72_print_partial exIn exTwo exInVal toString [] 2 2 exIn_elems rfl (by decide)

/-- **C72** (exactly when) In order three and above, with `k` panels along the last outer axis, the text is the expected one
exactly if all extents before that axis are 1. -/
theorem C72_print_exact_partial (c : Container) (m : Mem α) (val : List Int → α) (text : α → String) (lead : List Int)
    (k a b : Int) (h : Elems c m val) (hs : c.shape = lead ++ [k, a, b]) (hpos : ∀ d ∈ c.shape, 0 < d) :
    (c.print text m = .ok (labelText c.label ++ panelsText ((positions (lead ++ [k])).map fun o =>
      panelText (indent c.label) a b fun i j => text (val (o ++ [i, j]))))) ↔ ∀ d ∈ lead, d = 1 := by
  rw [C72_print_partial c m val text (lead ++ [k]) a b h (by simp [hs]) hpos]
  have hk : 0 < k := hpos k (by simp [hs])
  have hlead : ∀ d ∈ lead, 0 < d := fun d hd => hpos d (by simp [hs, hd])
  constructor
  · intro e
    have e := congrArg String.length (Except.ok.inj e)
    rw [String.length_append, String.length_append,
      sep_length (fun o : List Int => 0 < o.getLastD 0) (fun o => panelText (indent c.label) a b fun i j => text (val (o ++ [i, j]))),
      panelsText_length] at e
    have hc := count_last_zero lead hk
    have hlen := positions_length (s := lead) fun d hd => (hlead d hd).le
    have hp : 0 < lead.prod := prod_pos_of_pos hlead
    have h1 : lead.prod = 1 := by omega
    clear * - h1 hlead
    induction lead with
    | nil => simp
    | cons d ds ih =>
      have hd := hlead d (by simp)
      have hds : 0 < ds.prod := prod_pos_of_pos fun e he => hlead e (by simp [he])
      rw [List.prod_cons] at h1
      have : d = 1 := by nlinarith
      have : ds.prod = 1 := by nlinarith
      intro e he
      rcases List.mem_cons.1 he with rfl | he
      · assumption
      · exact ih (fun e he => hlead e (by simp [he])) this e he
  · intro h1
    congr 2
    have hz : positions lead = [lead.map fun _ => 0] := by
      clear * - h1
      induction lead with
      | nil => rfl
      | cons d ds ih =>
        rw [positions, ih fun e he => h1 e (by simp [he]), h1 d (by simp)]
        rfl
    obtain ⟨l, hl, hl0⟩ := upTo_eq_cons hk
    rw [positions_append, hz, positions_one, hl]
    rw [List.flatMap_cons, List.flatMap_nil, List.append_nil, List.map_cons (f := fun j => [j]),
      List.map_cons (f := fun q => _ ++ q)]
    apply sep_pieces (fun o : List Int => 0 < o.getLastD 0)
      (fun o => panelText (indent c.label) a b fun i j => text (val (o ++ [i, j])))
    · simp [List.getLastD_eq_getLast?]
    · intro o ho
      obtain ⟨q, hq, rfl⟩ := List.mem_map.1 ho
      obtain ⟨j, hj, rfl⟩ := List.mem_map.1 hq
      simpa [List.getLastD_eq_getLast?] using hl0 j hj

example := C72_print_exact_partial (Container.ofShape ⟨0, 0⟩ [2, 1, 2, 2]) exTwo
  (fun p => if p.headD 0 = 1 then 0 else exInVal (p.drop 2)) toString [2] 1 2 2
  (fun p hp => (by decide : ∀ p ∈ positions [2, 1, 2, 2], (Container.ofShape ⟨0, 0⟩ [2, 1, 2, 2]).get exTwo p =
    .ok (if p.headD 0 = 1 then 0 else exInVal (p.drop 2))) p (mem_positions.2 hp)) rfl (by decide)

/-- **C72** (partial) In order two and three the text is the expected one. -/
theorem C72_print_order_three_partial (c : Container) (m : Mem α) (val : List Int → α) (text : α → String)
    (outer : List Int) (a b : Int) (h : Elems c m val) (hs : c.shape = outer ++ [a, b])
    (hpos : ∀ d ∈ c.shape, 0 < d) (ho : outer.length ≤ 1) :
    c.print text m = .ok (labelText c.label ++ panelsText ((positions outer).map fun o =>
      panelText (indent c.label) a b fun i j => text (val (o ++ [i, j])))) := by
  match outer, ho with
  | [], _ =>
    rw [C72_print_partial c m val text [] a b h hs hpos]
    simp [positions, panelsText, concat]
  | [k], _ => exact (C72_print_exact_partial c m val text [] k a b h hs hpos).2 (by simp)

example := C72_print_order_three_partial (Container.ofShape ⟨0, 0⟩ [2, 2, 2]) exTwo
  (fun p => if p.headD 0 = 1 then 0 else exInVal p.tail) toString [2] 2 2
  (fun p hp => (by decide : ∀ p ∈ positions [2, 2, 2], (Container.ofShape ⟨0, 0⟩ [2, 2, 2]).get exTwo p =
    .ok (if p.headD 0 = 1 then 0 else exInVal p.tail)) p (mem_positions.2 hp)) rfl (by decide) (by decide)

/-- **C72** is false in order four: the two panels of a container of shape `[2,1,1,1]` are not separated. -/
theorem C72_order_four_false : ¬ C72_statement := by
  intro h
  have := h (Container.ofShape ⟨0, 0⟩ [2, 1, 1, 1]) (oneBlock 0 [7, 8]) (fun p => 7 + p.headD 0) [2, 1] 1 1
    (by
      intro p hp
      have hall : ∀ p ∈ positions [2, 1, 1, 1], (Container.ofShape ⟨0, 0⟩ [2, 1, 1, 1]).get (oneBlock 0 [7, 8]) p =
          .ok (7 + p.headD 0) := by decide
      exact hall p (mem_positions.2 hp)) rfl (by decide)
  revert this
  decide +kernel

example : (Container.ofShape ⟨0, 0⟩ [2, 2, 3]).print (fun (x : Int) => toString x)
    (oneBlock 0 [1, 2, 3, 4, 5, 6, 7, 8, 9, 10, 11, 12]) =
    .ok "[ 1 2 3 ]\n[ 4 5 6 ]\n\n[ 7 8 9 ]\n[ 10 11 12 ]\n" := by decide +kernel
example : ({ Container.ofShape ⟨0, 0⟩ [2] with label := some "v" }).print (fun (x : Int) => toString x)
    (oneBlock 0 [1, 2]) = .ok "v:\n  [ 1 2 ]\n" := by decide +kernel

end Kwk
