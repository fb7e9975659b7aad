import Verif.Lemmas.AuxConversions
import Verif.Model.Conversions
import Verif.Props.Axes

/-!
# Property C129: conversions between shape types that are accepted work

`std::is_constructible` and `std::is_assignable` answer by the constraint of the converting constructor and assignment of `shape`,
`isConstructibleFrom`.  The program then has to compile, and the conversion has to succeed whatever the run-time extents are: the
documentation (`test/doc/shape/compatible.cpp:24-25`) announces a run-time extent where a compile-time one is expected as incompatible.
-/

namespace Kwk
open Spec

/-- The conversion of shapes declared by `fs` to the type declared by `es` compiles, and succeeds for all shapes. -/
def ConversionWorks (es fs : List Extent) : Prop :=
  constructCompiles (normalizeExtents es) (normalizeExtents fs) = true ∧
  ∀ (vs : List Arg) (src : Prefilled), vs.length = fs.length → Prefilled.ofExtents .checked (normalizeExtents fs) 0 vs = .ok src →
    ∃ s, convertPrefilled .checked (normalizeExtents es) src = .ok s

/-- The full property. -/
def C129_full : Prop :=
  ∀ es fs : List Extent, es ≠ [] → fs ≠ [] → ProperNames es → ProperNames fs →
    isConstructibleFrom (normalizeExtents es) (normalizeExtents fs) = true → ConversionWorks es fs

/-- Leading axes that have no counterpart in the source may only have the compile-time size 1; an axis with a compile-time size has a
counterpart with the same compile-time size; a destination of lower order has no names. -/
def SettledByTypes (es fs : List Extent) : Prop :=
  if fs.length ≤ es.length then
    (∀ e ∈ es.take (es.length - fs.length), ∀ x, writtenSize e = some x → x = 1) ∧
    List.Forall₂ (fun e f => ∀ x, writtenSize e = some x → writtenSize f = some x) (es.drop (es.length - fs.length)) fs
  else ∀ e ∈ es, writtenName e = none

/-- **C129** (partial) An accepted conversion compiles and succeeds for all shapes exactly if: each leading axis without counterpart has
a run-time size or size 1, each other compile-time size is one in the source too, and a destination of lower order has no names.
Missing: the other accepted conversions, for which it is false. -/
theorem C129_exact_partial {es fs : List Extent} (h0 : es ≠ []) (h1 : fs ≠ []) (he : ProperNames es) (hf : ProperNames fs)
    (ht : ∀ f ∈ fs, 1 < (writtenType f).bits) (hacc : isConstructibleFrom (normalizeExtents es) (normalizeExtents fs) = true) :
    ConversionWorks es fs ↔ SettledByTypes es fs := by
  rw [C18_acceptance es fs he hf] at hacc
  unfold ConversionWorks SettledByTypes
  by_cases hle : fs.length ≤ es.length
  · rw [if_pos hle] at hacc ⊢
    have hcomp : constructCompiles (normalizeExtents es) (normalizeExtents fs) = true := by
      rw [constructCompiles, normalizeExtents_length, normalizeExtents_length, if_neg (by omega)]
    have hconv : ∀ s : Shape, s.length = fs.length → convertShape es.length s = List.replicate (es.length - fs.length) 1 ++ s := by
      intro s hs
      rw [convertShape, hs]
      split
      · next h => rw [h, Nat.sub_self]; rfl
      · rw [if_pos (by omega)]
    have hcons : ∀ s : Shape, s.length = fs.length →
        (List.Forall₂ Consistent (normalizeExtents es) ((convertShape es.length s).map .val) ↔
          (∀ e ∈ es.take (es.length - fs.length), ∀ x, writtenSize e = some x → x = 1) ∧
          ∀ (i : Nat) (hi : i < fs.length) (x : Int), writtenSize (es[es.length - fs.length + i]'(by omega)) = some x → s[i]? = some x) := by
      intro s hs
      have hcon : ∀ (n : Nat) (e : Extent) (w : Int),
          Consistent (normalizeExtent n e) (.val w) ↔ ∀ x, writtenSize e = some x → w = x := by
        intro n e w
        unfold Consistent
        rw [normalizeExtent_content]
        cases writtenSize e <;> simp
      rw [hconv s hs, List.forall₂_iff_get]
      constructor
      · rintro ⟨-, h⟩
        constructor
        · intro e hm x hx
          obtain ⟨i, hi, rfl⟩ := List.mem_iff_getElem.1 hm
          simp only [List.length_take] at hi
          rw [List.getElem_take] at hx
          have := h i (by rw [normalizeExtents_length]; omega) (by simp; omega)
          simp only [List.get_eq_getElem, List.getElem_map] at this
          rw [normalizeExtents_getElem es i (by omega), List.getElem_append_left (by simp; omega), List.getElem_replicate, hcon] at this
          exact (this x hx).symm
        · intro i hi x hx
          have := h (es.length - fs.length + i) (by rw [normalizeExtents_length]; omega) (by simp; omega)
          simp only [List.get_eq_getElem, List.getElem_map] at this
          rw [normalizeExtents_getElem es _ (by omega), List.getElem_append_right (by simp), hcon] at this
          have := this x hx
          simp only [List.length_replicate, Nat.add_sub_cancel_left] at this
          rw [List.getElem?_eq_getElem (by omega), this]
      · rintro ⟨ha, hb⟩
        refine ⟨by simp [normalizeExtents_length]; omega, fun i hi hj => ?_⟩
        rw [normalizeExtents_length] at hi
        simp only [List.get_eq_getElem, List.getElem_map]
        rw [normalizeExtents_getElem es i hi, hcon]
        intro x hx
        by_cases hlt : i < es.length - fs.length
        · rw [List.getElem_append_left (by simpa using hlt), List.getElem_replicate]
          exact (ha _ (List.mem_iff_getElem.2 ⟨i, by simp; omega, by rw [List.getElem_take]⟩) x hx).symm
        · rw [List.getElem_append_right (by simpa using hlt)]
          have := hb (i - (es.length - fs.length)) (by omega) x (by
            rw [show es[es.length - fs.length + (i - (es.length - fs.length))] = es[i] by congr 1; omega]
            exact hx)
          rw [List.getElem?_eq_getElem (by omega)] at this
          simpa using Option.some.inj this
    constructor
    · rintro ⟨-, hall⟩
      have hfit : ∀ c : Int, c = 0 ∨ c = 1 → ∀ f ∈ fs, (writtenType f).Fits c := by
        intro c hc f hm
        have hb := ht f hm
        generalize writtenType f = t at hb ⊢
        obtain ⟨n, hn⟩ : ∃ n, t.bits = n + 2 := ⟨t.bits - 2, by omega⟩
        have hp : (0 : Int) < 2 ^ n := by positivity
        have e1 : (2 : Int) ^ t.bits = 4 * 2 ^ n := by rw [hn]; ring
        unfold IntType.Fits IntType.lo IntType.hi
        rw [e1]
        generalize (2 : Int) ^ n = m at hp
        rcases hc with rfl | rfl <;> cases t.signed <;> simp <;> omega
      have hrun : ∀ c : Int, c = 0 ∨ c = 1 →
          (∀ e ∈ es.take (es.length - fs.length), ∀ x, writtenSize e = some x → x = 1) ∧
          ∀ (i : Nat) (hi : i < fs.length) (x : Int), writtenSize (es[es.length - fs.length + i]'(by omega)) = some x →
            (fs.map fun f => (writtenSize f).getD c)[i]? = some x := by
        intro c hc
        obtain ⟨vs, src, hl, hb, hv⟩ := exists_filled c (hfit c hc)
        have := hall vs src hl hb
        rw [convert_succeeds_iff (built_spec hl hb).1 h0 h1, hv, hcons _ (by simp)] at this
        exact this
      refine ⟨(hrun 0 (.inl rfl)).1, ?_⟩
      rw [List.forall₂_iff_get]
      refine ⟨by simp; omega, fun i hi hj x hx => ?_⟩
      simp only [List.get_eq_getElem, List.getElem_drop] at hx ⊢
      have a := (hrun 0 (.inl rfl)).2 i hj x hx
      have b := (hrun 1 (.inr rfl)).2 i hj x hx
      rw [List.getElem?_map, List.getElem?_eq_getElem hj] at a b
      simp only [Option.map_some, Option.some.injEq] at a b
      cases hy : writtenSize fs[i] with
      | some y => rw [hy] at a; simpa using a
      | none => rw [hy] at a b; simp at a b; omega
    · rintro ⟨ha, hb⟩
      refine ⟨hcomp, fun vs src hl hbuilt => ?_⟩
      obtain ⟨hd, hst⟩ := built_spec hl hbuilt
      rw [convert_succeeds_iff hd h0 h1, hcons _ (by rw [values_length, hd, normalizeExtents_length])]
      refine ⟨ha, fun i hi x hx => hst i hi x ?_⟩
      have := (List.forall₂_iff_get.1 hb).2 i (by simp; omega) hi x
      simp only [List.get_eq_getElem, List.getElem_drop] at this
      exact this hx
  · rw [if_neg hle] at hacc ⊢
    rw [compiles_lower he h0 (by rw [normalizeExtents_length]; omega) hacc]
    refine ⟨fun h => h.1, fun h => ⟨h, fun vs src hl hbuilt => ?_⟩⟩
    obtain ⟨hd, -⟩ := built_spec hl hbuilt
    rw [convert_succeeds_iff hd h0 h1, List.forall₂_iff_get]
    have hv : src.values ≠ [] := by
      intro e
      have := values_length src
      rw [e, hd, normalizeExtents_length] at this
      exact h1 (List.length_eq_zero_iff.1 this.symm)
    have hlen := (C13_convert_numel es.length src.values (List.length_pos_iff.2 h0) hv).1
    refine ⟨by rw [List.length_map, normalizeExtents_length, hlen], fun i hi hj x w hx => ?_⟩
    rw [normalizeExtents_length] at hi
    simp only [List.get_eq_getElem] at hx
    rw [normalizeExtents_getElem es i hi, normalizeExtent_content, hacc _ (List.getElem_mem _)] at hx
    cases hx

/-- `shape<1, _, 3>` from `shape<width, 3>` is not accepted, from `shape<_, 3>` it works. -/
example : ConversionWorks [.int 1, .joker, .int 3] [.joker, .int 3] := by
  refine (C129_exact_partial (by decide) (by decide) ?_ ?_ (by decide) (by decide)).2 ?_
  · exact ⟨by decide, by simp [writtenName]⟩
  · exact ⟨by decide, by simp [writtenName]⟩
  · exact ⟨by simp [writtenSize], .cons (by simp [writtenSize]) (.cons (by simp [writtenSize]) .nil)⟩

/-- **C129** The type of a compressed shape: the outer axes `a, b, ...` become one, whose extent is a compile-time value exactly if all of
theirs are, then their product, and otherwise has the common type of theirs; the other axes keep their extents; no names. -/
theorem C129_compressed_types {n : Nat} {a : Extent} {bs cs : List Extent} (hn : n = cs.length + 1) (hb : bs ≠ []) :
    ∃ h t, compressTypes n (normalizeExtents (a :: bs ++ cs)) = h :: t ∧
      (∀ x, writtenSize h = some x ↔ ∃ xs : List Int, (a :: bs).map writtenSize = xs.map some ∧ x = xs.prod) ∧
      (writtenType h = (bs.map writtenType).foldl IntType.common (writtenType a)) ∧
      t.map writtenSize = cs.map writtenSize ∧ t.map writtenType = cs.map writtenType ∧
      ∀ e ∈ h :: t, writtenName e = none := by
  have hlb : 0 < bs.length := List.length_pos_iff.2 hb
  have hlen : (normalizeExtents (a :: bs ++ cs)).length = 1 + bs.length + cs.length := by
    rw [normalizeExtents_length]; simp; omega
  have hk : (normalizeExtents (a :: bs ++ cs)).length - n + 1 = (a :: bs).length := by
    rw [hlen, List.length_cons]; omega
  have hnames := (compressTypes_spec (n := n) (d := normalizeExtents (a :: bs ++ cs)) (by omega) (by omega)).2
  have hc := normalized_content (a :: bs ++ cs)
  have htake : ((normalizeExtents (a :: bs ++ cs)).take (a :: bs).length).map (fun a => a.content.extent) = (a :: bs).map unnamed := by
    rw [List.map_take, hc, ← List.map_take, List.take_left]
  have hdrop : ((normalizeExtents (a :: bs ++ cs)).drop (a :: bs).length).map (fun a => a.content.extent) = cs.map unnamed := by
    rw [List.map_drop, hc, ← List.map_drop, List.drop_left]
  unfold compressTypes at hnames ⊢
  simp only [hk] at hnames ⊢
  cases hh : ((normalizeExtents (a :: bs ++ cs)).take (a :: bs).length).map (·.content) with
  | nil =>
    have := congrArg List.length hh
    simp only [List.length_map, List.length_take, hlen, List.length_nil, List.length_cons] at this
    omega
  | cons c ds =>
    rw [hh] at hnames
    have hex : (c :: ds).map Content.extent = (a :: bs).map unnamed := by
      rw [← hh, List.map_map]
      exact htake
    rw [List.map_cons, List.map_cons, List.cons.injEq] at hex
    obtain ⟨f1, f2⟩ := foldl_content c ds
    have g1 : (ds.map fun c => writtenSize c.extent) = bs.map writtenSize := by
      have := congrArg (List.map writtenSize) hex.2
      rw [List.map_map, List.map_map] at this
      exact this.trans (List.map_congr_left fun e _ => unnamed_size e)
    have g2 : (ds.map fun c => writtenType c.extent) = bs.map writtenType := by
      have := congrArg (List.map writtenType) hex.2
      rw [List.map_map, List.map_map] at this
      exact this.trans (List.map_congr_left fun e _ => unnamed_type e)
    refine ⟨_, _, rfl, fun x => ?_, ?_, ?_, ?_, hnames⟩
    · rw [f1, g1, hex.1, unnamed_size, foldl_option_mul]
      rfl
    · rw [f2, g2, hex.1, unnamed_type]
    · rw [hdrop, List.map_map]
      exact List.map_congr_left fun e _ => unnamed_size e
    · rw [hdrop, List.map_map]
      exact List.map_congr_left fun e _ => unnamed_type e

/-- `compress<2>` of `2_c x 3_c x width` and of `2_c x height x 5_c`. -/
example : compressTypes 2 (normalizeExtents [.int 2, .int 3, .axis (.named "width") none]) = [.int 6, .type .i32] ∧
    compressTypes 2 (normalizeExtents [.int 2, .axis (.named "height") none, .int 5]) = [.type .i32, .int 5] := by decide

/-- **C129** is false: `shape<_, 3, _>` is accepted from `of_size(4, n, 5_c)`, contrary to the documentation, and fails for `n = 7`;
`shape<width, height>` is accepted from a shape of three axes, but the conversion does not compile. -/
theorem C129_full_false : ¬ C129_full ∧
    (isConstructibleFrom (normalizeExtents [.joker, .int 3, .joker]) (normalizeExtents [.joker, .joker, .int 5]) = true ∧
      convertPrefilled .checked (normalizeExtents [.joker, .int 3, .joker])
        ⟨normalizeExtents [.joker, .joker, .int 5], [4, 7]⟩ = .error .assertion ∧
      (convertPrefilled .unchecked (normalizeExtents [.joker, .int 3, .joker])
        ⟨normalizeExtents [.joker, .joker, .int 5], [4, 7]⟩).map (·.values) = .ok [4, 3, 5]) ∧
    (isConstructibleFrom (normalizeExtents [.axis (.named "width") none, .axis (.named "height") none])
        (normalizeExtents [.joker, .joker, .joker]) = true ∧
      constructCompiles (normalizeExtents [.axis (.named "width") none, .axis (.named "height") none])
        (normalizeExtents [.joker, .joker, .joker]) = false) := by
  refine ⟨fun h => ?_, by decide, by decide⟩
  have := (h [.axis (.named "width") none, .axis (.named "height") none] [.joker, .joker, .joker] (by decide) (by decide)
    ⟨by decide, by simp [writtenName]⟩ ⟨by decide, by simp [writtenName]⟩ (by decide)).1
  revert this
  decide

end Kwk
