import Verif.Lemmas.AuxViews
import Verif.Lemmas.Contiguous
import Verif.Lemmas.Witnesses

/-!
# Properties C51, C54, C63: views built from other containers

All three go through `settings()`, which forgets the strides.  They hold for containers of default
layout (`_partial` theorems) and fail for strided views (negations with a witness).
-/

namespace Kwk
open Spec

variable {α : Type}

/-- Full statement of **C51**: reshaping to the same number of elements keeps the row-major sequence
of elements, for every well-formed container. -/
def C51_statement : Prop :=
  ∀ (c : Container) (sz : Shape) (m : Mem Int), c.WF → NonNeg c.shape → NonNeg sz → sz ≠ [] →
    sz.prod = c.shape.prod → rowMajor (reshape c sz) m = rowMajor c m

/-- **C51**, partial: holds for every container of default layout.  Missing: strided containers, for
which it is false (`C51_strided_false`). -/
theorem C51_reshape_partial (c : Container) (sz : Shape) (m : Mem α) (h : c.Default)
    (hn : NonNeg c.shape) (hz : NonNeg sz) (hne : sz ≠ []) (hp : sz.prod = c.shape.prod) :
    rowMajor (reshape c sz) m = rowMajor c m ∧ (reshape c sz).shape = sz := by
  refine ⟨?_, rfl⟩
  rw [rowMajor_default h hn, rowMajor_default (c := reshape c sz) (viewOfSettings_default hne) hz]
  show (upTo sz.prod).map _ = _
  rw [hp]; rfl

example : rowMajor (reshape (Container.ofShape ⟨0, 0⟩ [2, 3]) [3, 2]) (oneBlock 0 [1, 2, 3, 4, 5, 6])
    = [.ok 1, .ok 2, .ok 3, .ok 4, .ok 5, .ok 6] := by decide

/-- **C51**, partial: an index computation on positions: elements of the same row-major rank coincide. -/
theorem C51_reshape_rank_partial (c : Container) (sz : Shape) (m : Mem α) (h : c.Default)
    (hn : NonNeg c.shape) (hz : NonNeg sz) (hne : sz ≠ []) (hp : sz.prod = c.shape.prod)
    (k : Nat) (p q : List Int) (hk : (positions c.shape)[k]? = some p)
    (hq : (positions sz)[k]? = some q) :
    (reshape c sz).get m q = c.get m p := by
  have e := (C51_reshape_partial c sz m h hn hz hne hp).1
  have e2 := congrArg (fun l => l[k]?) e
  simp only [rowMajor, List.getElem?_map] at e2
  rw [hk, show (reshape c sz).shape = sz from rfl, hq] at e2
  simpa using e2

example : (reshape exIn [4]).get exTwo [2] = exIn.get exTwo [1, 0] :=
  C51_reshape_rank_partial exIn [4] exTwo exIn_default (by decide) (by decide) (by decide) (by decide) 2 _ _ rfl rfl

/-- **C51** (exactly when) For a non-empty well-formed container, reshaping keeps the row-major sequence of cells if and
only if every axis with more than one position has its row-major stride. -/
theorem C51_reshape_exact_partial (c : Container) (sz : Shape) (h : c.WF) (hpos : ∀ d ∈ c.shape, 0 < d)
    (hz : NonNeg sz) (hne : sz ≠ []) (hp : sz.prod = c.shape.prod) :
    cells (reshape c sz) = cells c ↔ RowMajorStrides c.shape c.strides := by
  have hn : NonNeg c.shape := fun d hd => (hpos d hd).le
  have e1 : cells (reshape c sz) = (positions c.shape).map fun p => c.base.add (linearize (sfx c.shape) p) := by
    have hd : (reshape c sz).Default := viewOfSettings_default hne
    rw [← Function.comp_def, ← List.map_map, positions_map_lin hn, ← hp, ← positions_map_lin hz, List.map_map, cells]
    refine List.map_congr_left fun p hp => ?_
    rw [addr_default hd (mem_positions.1 hp)]; rfl
  rw [e1, ← addr_rank_iff h hpos, cells, List.map_inj_left]
  exact ⟨fun hh p hp => (hh p (mem_positions.2 hp)).symm, fun hh p hp => (hh p (mem_positions.1 hp)).symm⟩

example := (C51_reshape_exact_partial exIn [4] exIn_default.toWF (by decide) (by decide) (by decide) (by decide)).1 (by decide)

/-- **C51** is false for strided views: the 2x2 left part of a 2x3 block shows 1 2 4 5, its reshape
to 4 elements shows 1 2 3 4. -/
theorem C51_strided_false : ¬ C51_statement := by
  intro h
  have := h (Container.ofStrides ⟨0, 0⟩ [2, 2] [3, 1]) [4] (oneBlock 0 [1, 2, 3, 4, 5, 6])
    (ofStrides_WF (by simp) rfl) (by decide)
    (by decide) (by simp) rfl
  revert this; decide

/-- **C51**: `reshape` does not check the number of elements: a too large shape reads outside. -/
theorem C51_unchecked_numel : ∃ (c : Container) (m : Mem Int) (sz : Shape), c.Default ∧ Valid c m ∧
    ¬ Valid (reshape c sz) m := by
  refine ⟨Container.ofShape ⟨0, 0⟩ [2], oneBlock 0 [1, 2], [3], ofShape_default (by simp), ?_, ?_⟩
  · intro p hp
    have : p ∈ positions [2] := mem_positions.2 hp
    have hall : ∀ p ∈ positions [2], (Container.ofShape ⟨0, 0⟩ [2]).get (oneBlock 0 [1, 2]) p
      = .ok (p.headD 0 + 1) := by decide
    exact ⟨_, hall p this⟩
  · intro h
    obtain ⟨v, hv⟩ := h [2] (mem_positions.1 (by decide))
    revert hv
    have : (reshape (Container.ofShape ⟨0, 0⟩ [2]) [3]).get (oneBlock 0 [1, 2]) [2]
      = (.error .outOfBounds : Res Int) := by decide
    rw [this]; simp

/-- Full statement of **C54**: relabelling keeps shape and elements, for every well-formed container. -/
def C54_statement : Prop :=
  ∀ (c : Container) (l : String) (m : Mem Int), c.WF →
    (relabel c l).label = some l ∧ (relabel c l).shape = c.shape ∧
    ∀ p, InBox c.shape p → (relabel c l).get m p = c.get m p

/-- **C54**, partial: holds for every container of default layout.  Missing: strided containers, for
which it is false (`C54_strided_false`). -/
theorem C54_relabel_partial (c : Container) (l : String) (m : Mem α) (h : c.Default) :
    (relabel c l).label = some l ∧ (relabel c l).shape = c.shape ∧
    ∀ p, InBox c.shape p → (relabel c l).get m p = c.get m p ∧ (relabel c l).addr p = c.addr p := by
  refine ⟨rfl, rfl, fun p hp => ⟨?_, ?_⟩⟩
  · exact (default_get_eq h (viewOfSettings_default h.ne) rfl rfl m p hp).symm
  · rw [addr_default h hp]
    exact addr_default (c := relabel c l) (viewOfSettings_default h.ne) hp

example := C54_relabel_partial exIn "A" exTwo exIn_default

/-- **C54** (exactly when) For a non-empty well-formed container, relabelling keeps the cells if and only if every axis
with more than one position has its row-major stride. -/
theorem C54_relabel_exact_partial (c : Container) (l : String) (h : c.WF) (hpos : ∀ d ∈ c.shape, 0 < d) :
    (∀ p, InBox c.shape p → (relabel c l).addr p = c.addr p) ↔ RowMajorStrides c.shape c.strides := by
  rw [← addr_rank_iff h hpos]
  refine forall₂_congr fun p hp => ?_
  rw [addr_default (c := relabel c l) (viewOfSettings_default h.ne) hp, eq_comm]; rfl

example := mt (C54_relabel_exact_partial (Container.ofStrides ⟨0, 0⟩ [2, 2] [3, 1]) "A" ⟨by decide, rfl, nofun⟩ (by decide)).1 fun h =>
  absurd (h 0 (by decide)) (by decide)

/-- **C54**: for every container the label and the shape are as requested. -/
theorem C54_label (c : Container) (l : String) :
    (relabel c l).label = some l ∧ (relabel c l).shape = c.shape ∧ (relabel c l).base = c.base :=
  ⟨rfl, rfl, rfl⟩

example : (relabel (Container.ofShape ⟨0, 0⟩ [2, 3]) "A").get (oneBlock 0 [1, 2, 3, 4, 5, 6]) [1, 0]
    = .ok 4 := by decide

/-- **C54** is false for strided views: relabelling the left 2x2 part of a 2x3 block changes the
elements shown. -/
theorem C54_strided_false : ¬ C54_statement := by
  intro h
  have := (h (Container.ofStrides ⟨0, 0⟩ [2, 2] [3, 1]) "A" (oneBlock 0 [1, 2, 3, 4, 5, 6])
    (ofStrides_WF (by simp) rfl)).2.2 [1, 0] (mem_positions.1 (by decide))
  revert this; decide

/-- Full statement of **C63**: a view of a container shows the same cells at the same positions. -/
def C63_statement : Prop :=
  ∀ c : Container, c.WF → (viewOf c).shape = c.shape ∧
    ∀ p, InBox c.shape p → (viewOf c).addr p = c.addr p

/-- **C63**, partial: holds for every container of default layout; in particular a write through one
is seen through the other.  Missing: strided containers of another type (`C63_strided_false`). -/
theorem C63_view_partial (c : Container) (h : c.Default) :
    (viewOf c).shape = c.shape ∧
    (∀ p, InBox c.shape p → (viewOf c).addr p = c.addr p) ∧
    (∀ (m m' : Mem α) (p : List Int) (v : α), InBox c.shape p →
      store m (c.addr p) v = .ok m' → (viewOf c).get m' p = .ok v) := by
  have ha : ∀ p, InBox c.shape p → (viewOf c).addr p = c.addr p := by
    intro p hp
    rw [addr_default h hp]
    exact addr_default (c := viewOf c) (viewOfSettings_default h.ne) hp
  refine ⟨rfl, ha, ?_⟩
  intro m m' p v hp hs
  rw [Container.get, ha p hp]
  unfold store at hs
  split at hs
  · cases hs; simp [load]
  · cases hs

example := C63_view_partial (α := Int) exIn exIn_default

/-- **C63** (exactly when) For a non-empty well-formed container, a view of it shows the same cells if and only if every
axis with more than one position has its row-major stride. -/
theorem C63_view_exact_partial (c : Container) (h : c.WF) (hpos : ∀ d ∈ c.shape, 0 < d) :
    (∀ p, InBox c.shape p → (viewOf c).addr p = c.addr p) ↔ RowMajorStrides c.shape c.strides := by
  rw [← addr_rank_iff h hpos]
  refine forall₂_congr fun p hp => ?_
  rw [addr_default (c := viewOf c) (viewOfSettings_default h.ne) hp, eq_comm]; rfl

/-- The stride of an axis with one position does not matter; the others do. -/
example : RowMajorStrides [2, 1, 3] [3, 77, 1] ∧ ¬ RowMajorStrides [2, 2] [3, 1] := by
  refine ⟨?_, fun h => absurd (h 0 (by decide)) (by decide)⟩
  rw [rowMajorStrides_cons, rowMajorStrides_cons, rowMajorStrides_cons]
  exact ⟨by decide, by decide, by decide, fun i hi => by simp at hi⟩

example : (viewOf (Container.ofShape ⟨0, 0⟩ [2, 3])).addr [1, 2] = ⟨0, 5⟩ := by decide

/-- **C63** is false for strided containers. -/
theorem C63_strided_false : ¬ C63_statement := by
  intro h
  have := (h (Container.ofStrides ⟨0, 0⟩ [2, 2] [3, 1]) (ofStrides_WF (by simp) rfl)).2 [1, 0]
    (mem_positions.1 (by decide))
  revert this; decide

end Kwk
