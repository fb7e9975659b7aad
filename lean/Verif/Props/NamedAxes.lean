import Verif.Props.Axes
import Verif.Lemmas.NamedAxes
import Verif.Spec.Box

/-!
# C153: axes for which no value is given by name

The full claim is false in the code: run-time axes without a value are `0`, not `1` as documented, so that the shape has no position at all
(`C153_missing_false`), and shapes of which all axes are compile-time ones do not look at the values (`C153_static_false`).
-/

namespace Kwk

open Spec

/-- Full statement of **C153**: shapes built from named extents have the documented extents, and checked builds reject values that
contradict compile-time ones. -/
def C153_statement : Prop :=
  ∀ (d : Desc) (dflt : Int) (vs : List (AxisId × Arg)), NamedCall d dflt vs →
    (AllConsistent d vs → ∀ md, ∃ s, Prefilled.ofNamed md d dflt vs = .ok s ∧ List.Forall₂ (DocumentedExtent dflt vs) d s.values) ∧
    (¬ AllConsistent d vs → Prefilled.ofNamed .checked d dflt vs = .error .assertion)

/-- `shape<height, width[3], depth>{depth = 4}`. -/
def exMissing : List (AxisId × Arg) := [(.named "depth", .val 4)]

theorem exMissing_call : NamedCall exNamed 0 exMissing where
  axes := by decide
  once := by decide
  known := by decide
  fits := by
    intro a ha v hv t ht
    rw [exMissing, List.mem_singleton] at hv
    obtain rfl : v = .val 4 := congrArg Prod.snd hv
    clear hv
    rw [show exNamed = [⟨.named "height", .dynamic .i32⟩, ⟨.named "width", .static 3⟩, ⟨.named "depth", .dynamic .i32⟩] from by decide] at ha
    simp only [List.mem_cons, List.not_mem_nil, or_false] at ha
    rcases ha with rfl | rfl | rfl
    · cases ht; decide
    · cases ht
    · cases ht; decide

theorem exMissing_consistent : AllConsistent exNamed exMissing := by
  intro a ha v hv x w hx hw
  rw [exMissing, List.mem_singleton] at hv
  rw [show exNamed = [⟨.named "height", .dynamic .i32⟩, ⟨.named "width", .static 3⟩, ⟨.named "depth", .dynamic .i32⟩] from by decide] at ha
  simp only [List.mem_cons, List.not_mem_nil, or_false] at ha
  rcases ha with rfl | rfl | rfl
  · cases hx
  · injection hv with h _; exact absurd h (by decide)
  · cases hx

/-- **C153** (exact, partial) A shape built from named extents has the documented ones exactly if a value is given for every run-time axis.
Missing: axes without a value, which are `0` (`C153_missing_false`). -/
theorem C153_missing_exact_partial {d : Desc} {dflt : Int} {vs : List (AxisId × Arg)} (hv : NamedCall d dflt vs) (md : Mode)
    (hc : md = .checked → AllConsistent d vs) :
    ∃ s, Prefilled.ofNamed md d dflt vs = .ok s ∧
      (List.Forall₂ (DocumentedExtent dflt vs) d s.values ↔ AllGiven d vs) := by
  obtain ⟨s, h1, h2, h3, h4⟩ := C17_named_read_back md d dflt vs hv.axes hv.once hv.known hv.fits hc
  refine ⟨s, h1, ?_⟩
  subst h2
  rw [values_forall₂ hv.axes]
  have hmiss : ∀ a ∈ s.desc, ∀ t, a.content = .dynamic t → (∀ v, (a.id, v) ∉ vs) → s.at a.id = 0 := by
    intro a ha t ht hn
    rw [h4 a ha]
    · simp [extentOf, ht]
    · intro hm
      obtain ⟨p, hp, e⟩ := List.mem_map.1 hm
      exact hn p.2 (by rw [← e]; exact hp)
  constructor
  · intro h a ha t ht
    by_contra hn
    have hn : ∀ v, (a.id, v) ∉ vs := fun v hv => hn ⟨v, hv⟩
    have h0 := hmiss a ha t ht hn
    have := h a ha
    rw [h0] at this
    generalize hx : (0 : Int) = x at this
    cases this with
    | static h => rw [ht] at h; cases h
    | given _ hv => exact hn _ hv
    | joker _ hv => exact hn _ hv
    | missing => omega
  · intro h a ha
    cases hcont : a.content with
    | static x =>
      have : s.at a.id = x := by
        by_cases hm : ∃ v, (a.id, v) ∈ vs
        · obtain ⟨v, hv⟩ := hm
          rw [h3 a ha v hv]; simp [extentOf, hcont]
        · rw [h4 a ha]
          · simp [extentOf, hcont]
          · intro hm'
            obtain ⟨p, hp, e⟩ := List.mem_map.1 hm'
            exact hm ⟨p.2, by rw [← e]; exact hp⟩
      rw [this]
      exact .static hcont
    | dynamic t =>
      obtain ⟨v, hv⟩ := h a ha t hcont
      rw [h3 a ha v hv]
      cases v with
      | val w => simp only [extentOf, hcont]; exact .given hcont hv
      | joker => simp only [extentOf, hcont]; exact .joker hcont hv

example := C153_missing_exact_partial exMissing_call .checked fun _ => exMissing_consistent

/-- **C153** If no value is given for some run-time axis, the shape has no positions. -/
theorem C153_missing_empty {d : Desc} {dflt : Int} {vs : List (AxisId × Arg)} (hv : NamedCall d dflt vs) {md : Mode}
    (hc : md = .checked → AllConsistent d vs) {s : Prefilled} (h : Prefilled.ofNamed md d dflt vs = .ok s)
    (hm : ¬ AllGiven d vs) (p : List Int) : ¬ InBox s.values p := by
  obtain ⟨s', h1, h2, _, h4⟩ := C17_named_read_back md d dflt vs hv.axes hv.once hv.known hv.fits hc
  rw [h] at h1
  cases h1
  subst h2
  simp only [AllGiven, not_forall, not_exists] at hm
  obtain ⟨a, ha, t, ht, hn⟩ := hm
  have h0 : s.at a.id = 0 := by
    rw [h4 a ha]
    · simp [extentOf, ht]
    · intro hm
      obtain ⟨q, hq, e⟩ := List.mem_map.1 hm
      exact hn q.2 (by rw [← e]; exact hq)
  obtain ⟨i, hi, rfl⟩ := List.getElem_of_mem ha
  rw [Prefilled.at, findAxis_eq hv.axes (List.getElem?_eq_getElem hi)] at h0
  intro hb
  have hmem : (0 : Int) ∈ s.values := by
    rw [← h0]
    exact List.mem_map_of_mem (List.mem_range.2 hi)
  clear h0
  generalize s.values = ns at hb hmem
  unfold InBox at hb
  induction hb with
  | nil => cases hmem
  | cons hx _ ih =>
    rcases List.mem_cons.1 hmem with rfl | hmem
    · omega
    · exact ih hmem

example (p : List Int) : ¬ InBox [0, 3, 4] p :=
  C153_missing_empty exMissing_call (md := .checked) (fun _ => exMissing_consistent) (s := ⟨exNamed, [0, 4]⟩) (by decide)
    (fun h => by
      obtain ⟨v, hv⟩ := h ⟨.named "height", .dynamic .i32⟩ (by decide) .i32 rfl
      rw [exMissing, List.mem_singleton] at hv; injection hv with h _; revert h; decide) p

/-- **C153** (exact, partial) Checked builds reject values that contradict compile-time extents exactly if the shape has a run-time axis.
Missing: shapes without (`C153_static_false`). -/
theorem C153_reject_exact_partial {d : Desc} {dflt : Int} {vs : List (AxisId × Arg)} (hv : NamedCall d dflt vs) :
    Prefilled.ofNamed .checked d dflt vs = .error .assertion ↔ (∃ a ∈ d, ∃ t, a.content = .dynamic t) ∧ ¬ AllConsistent d vs := by
  have hdyn : dynamicSize d = 0 ↔ ¬ ∃ a ∈ d, ∃ t, a.content = .dynamic t := by
    rw [dynamicSize_eq, List.countP_eq_zero]
    constructor
    · rintro h ⟨a, ha, t, ht⟩
      exact h a ha (by simp [Axis.isDynamic, ht])
    · intro h a ha hd
      cases hx : a.content with
      | static x => simp [Axis.isDynamic, hx] at hd
      | dynamic t => exact h ⟨a, ha, t, hx⟩
  constructor
  · intro h
    constructor
    · by_contra h0
      rw [Prefilled.ofNamed, Prefilled.constructNamed, if_pos (by exact hdyn.2 h0)] at h
      cases h
    · intro hc
      obtain ⟨s, h1, _⟩ := C153_missing_exact_partial hv .checked fun _ => hc
      rw [h1] at h
      cases h
  · rintro ⟨h0, hc⟩
    rw [Prefilled.ofNamed, constructNamed_eq .checked dflt _ vs (fun h => hdyn.1 h h0)]
    apply fillAxes_asserts dflt (default_wf d)
    intro hag
    apply hc
    intro a ha v hm x w hx hw
    subst hw
    obtain ⟨i, hi⟩ := List.mem_iff_getElem?.1 ha
    have := hag i (.val w) (List.mem_map.2 ⟨(a.id, .val w), hm, by rw [← findAxis_eq hv.axes hi]; rfl⟩)
      (by rw [show (Prefilled.default d).desc = d from rfl, desc_dyn hi]; simp [Axis.isDynamic, hx])
    rw [static_value (s := .default d) hi hx] at this
    simpa [staticMatches] using this

example : Prefilled.ofNamed .checked exNamed 0 [(.named "width", .val 5)] = .error .assertion := by decide

/-- **C153** is false: `shape<height, width[3], depth>{depth = 4}` is `[ 0 3 4 ]`. -/
theorem C153_missing_false : ¬ C153_statement := by
  intro h
  obtain ⟨s, h1, h2⟩ := (h exNamed 0 exMissing exMissing_call).1 exMissing_consistent .checked
  have e : s.values = [0, 3, 4] := by
    have := C17_named_deviations.1
    rw [show [((AxisId.named "depth"), Arg.val 4)] = exMissing from rfl, h1] at this
    exact Except.ok.inj this
  rw [e, show exNamed = [⟨.named "height", .dynamic .i32⟩, ⟨.named "width", .static 3⟩, ⟨.named "depth", .dynamic .i32⟩] from by decide] at h2
  cases h2 with
  | cons h _ =>
    generalize hx : (0 : Int) = x at h
    cases h with
    | static h => cases h
    | given _ hv => rw [exMissing, List.mem_singleton] at hv; injection hv with h _; revert h; decide
    | joker _ hv => rw [exMissing, List.mem_singleton] at hv; injection hv with h _; revert h; decide
    | missing => omega

/-- **C153** is false: `shape<width[3]>{width = 5}` is accepted by checked builds. -/
theorem C153_static_false : ¬ C153_statement := by
  intro h
  have h1 := (h [⟨.named "width", .static 3⟩] 0 [(.named "width", .val 5)] ⟨by decide, by decide, by decide, by
    intro a ha v hv t ht
    rw [List.mem_singleton] at ha
    subst ha
    cases ht⟩).2 fun hc => by
      have := hc ⟨.named "width", .static 3⟩ List.mem_cons_self (.val 5) List.mem_cons_self 3 5 rfl rfl
      omega
  revert h1
  decide

end Kwk
