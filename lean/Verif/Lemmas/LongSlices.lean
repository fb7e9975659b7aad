import Verif.Lemmas.LongAxes

/-! # Lemmas: slices of views with 64-bit extents -/

namespace Kwk
open Spec

theorem long_of_i64 {c : Coord} (ht : c.type = .i64) (h : IntType.i64.Fits c.value) : LongNumber c :=
  ⟨by rw [ht]; decide, by rw [ht]; exact h⟩

theorem axes_long {s : List Coord} {g : List Int} {xs : List SlicerT} {ls : List (List Int)}
    (ht : ∀ c ∈ s, c.type = .i64) (hs : ∀ c ∈ s, IntType.i64.Fits c.value)
    (hx : SlicerT.LongAll (vals s) g xs) (hlen : g.length = s.length)
    (hp : PicksAll (vals s) (xs.map (·.erase)) ls) (hne : ∀ l ∈ ls, l ≠ []) :
    ∃ xcs os shp, xs.mapM SlicerT.build = .ok xcs ∧
      (s.zip xcs).mapM (fun x : Coord × SlicerC => reindexT x.1 x.2) = .ok os ∧
      ((vals s).zip (xs.map (·.erase))).mapM (fun x : Int × Slicer => reindex x.1 x.2) = .ok (vals os) ∧ (∀ o ∈ os, LongNumber o) ∧
      (s.zip xcs).mapM (fun x : Coord × SlicerC => sliceExtentT x.1 x.2) = .ok shp ∧ vals shp = pickShape ls ∧
      List.Forall₂ (fun x xc => ∀ gc, (restrideT gc xc = .ok gc ∧ SlicerT.step x = ⟨.i32, 1⟩) ∨
        restrideT gc xc = constMul (SlicerT.step x) gc) xs xcs := by
  induction s generalizing g xs ls with
  | nil =>
    cases xs with
    | cons => cases hp
    | nil =>
      cases hp
      exact ⟨[], [], [], rfl, rfl, rfl, by simp, rfl, rfl, .nil⟩
  | cons d s ih =>
    cases xs with
    | nil => cases hp
    | cons x xs =>
      cases g with
      | nil => simp at hlen
      | cons v g =>
        cases hp with
        | @cons _ _ _ _ l ls hp hps =>
          obtain ⟨xcs, os, shp, a1, a2, a3, a3', a4, a5, a6⟩ := ih (fun c hc => ht c (by simp [hc])) (fun c hc => hs c (by simp [hc]))
            (g := g) hx.2 (by simpa using hlen) hps (fun l hl => hne l (by simp [hl]))
          obtain ⟨xc, o, n, b1, b2, b3, b3', b4, b5, b6⟩ := axis_long (ht d (by simp)) (hs d (by simp)) hx.1 hp (hne l (by simp))
          refine ⟨xc :: xcs, o :: os, n :: shp, ?_, ?_, ?_, ?_, ?_, ?_, .cons b6 a6⟩
          · rw [List.mapM_cons, b1, a1]; rfl
          · rw [List.zip_cons_cons, List.mapM_cons]
            simp only [b2, a2]; rfl
          · simp only [vals, List.map_cons, List.zip_cons_cons, List.mapM_cons] at a3 ⊢
            simp only [b3, a3]; rfl
          · intro y hy
            rcases List.mem_cons.1 hy with rfl | hy
            · exact b3'
            · exact a3' y hy
          · rw [List.zip_cons_cons, List.mapM_cons]
            simp only [b4, a4]; rfl
          · rw [pickShape, List.map_cons, ← b5]
            show n.value :: vals shp = _
            rw [a5]
            rfl

/-- Strides of a shape with 64-bit extents: the last is the constant one. -/
def LongStrides : List Coord → Prop
  | [] => True
  | [c] => c = fixedOne
  | c :: d :: r => c.type = .i64 ∧ LongStrides (d :: r)

/-- Every product but the last is of the 64-bit type. -/
def Wides : List Coord → List Coord → Prop
  | g :: g' :: gs, i :: is => (g.type = .i64 ∨ i.type = .i64) ∧ Wides (g' :: gs) is
  | _, _ => True

/-- The last product is in range. -/
def LastOk : List Coord → List Coord → Prop
  | [g], [i] => (g.type.common i.type).Fits (g.value * i.value)
  | _ :: gs, _ :: is => LastOk gs is
  | _, _ => True

theorem wides_of_strides {st : List Coord} (h : LongStrides st) (is : List Coord) : Wides st is := by
  induction st generalizing is with
  | nil => simp [Wides]
  | cons c st ih =>
    cases st with
    | nil => cases is <;> simp [Wides]
    | cons d st =>
      cases is with
      | nil => simp [Wides]
      | cons i is => exact ⟨.inl h.1, ih h.2 is⟩

theorem lastOk_of_strides {st is : List Coord} (h : LongStrides st) (hi : ∀ c ∈ is, LongNumber c) : LastOk st is := by
  induction st generalizing is with
  | nil => simp [LastOk]
  | cons c st ih =>
    cases is with
    | nil => simp [LastOk]
    | cons i is =>
      cases st with
      | nil =>
        cases is with
        | nil =>
          obtain rfl : c = fixedOne := h
          show (fixedOne.type.common i.type).Fits (1 * i.value)
          rw [one_mul]
          have hi := hi i (by simp)
          exact IntType.common_fits_right hi.2 (common_signed_true (by decide) hi.1).1
        | cons => simp [LastOk]
      | cons d st =>
        have := ih (is := is) h.2 fun c hc => hi c (by simp [hc])
        simpa [LastOk] using this

theorem strides_long {s : List Coord} (ht : ∀ c ∈ s, c.type = .i64) (hs : ∀ d ∈ vals s, 0 < d) (hf : (vals s).prod < 2 ^ 63) :
    ∃ r, asStrideT s = .ok r ∧ vals r = sfx (vals s) ∧ LongStrides r ∧ ∀ c ∈ r, LongNumber c := by
  have key : ∀ s : List Coord, (∀ c ∈ s, c.type = .i64) → (∀ d ∈ vals s, 0 < d) → (vals s).prod < 2 ^ 63 →
      ∃ r, strideFoldT s = .ok r ∧ vals r = (vals s).prod :: sfx (vals s) ∧ LongStrides r ∧ ∀ c ∈ r, LongNumber c := by
    intro s
    unfold strideFoldT kumiFoldLeft
    induction s with
    | nil => intros; exact ⟨[fixedOne], rfl, rfl, rfl, by simpa using long_fixedOne⟩
    | cons d s ih =>
      intro ht hs hf
      have hs' : ∀ d ∈ vals s, 0 < d := fun x hx => hs x (List.mem_cons_of_mem _ hx)
      have h0 : 0 < (vals s).prod := by rw [← padded_eq_prod hs']; exact lt_of_lt_of_le zero_lt_one (paddedCount_pos _)
      have hd : 0 < d.value := hs _ (by simp)
      rw [show vals (d :: s) = d.value :: vals s from rfl, List.prod_cons] at hf
      have hlt : (vals s).prod < 2 ^ 63 := by nlinarith
      have hdl : d.value < 2 ^ 63 := by nlinarith
      obtain ⟨r, e, hv, hst, hl⟩ := ih (fun c hc => ht c (by simp [hc])) hs' hlt
      rw [List.foldr_cons, e]
      cases r with
      | nil => simp at hv
      | cons a r =>
        have ha : a.value = (vals s).prod := (List.cons.inj hv).1
        have hdt := ht d (by simp)
        have hdl' : LongNumber d := long_of_i64 hdt (i64_fits.2 ⟨by omega, by simpa using hdl⟩)
        have hal := hl a (by simp)
        have hpos : 0 < d.value * (vals s).prod := by positivity
        obtain ⟨g1, g2⟩ := long_op (f := (· * ·)) hdl' hal (common_fits_of hdl'.1 hal.1 (.inr ⟨.inl hdt, by
          show IntType.i64.Fits (d.value * a.value)
          rw [ha, i64_fits]
          norm_num at hf
          omega⟩))
        refine ⟨⟨d.type.common a.type, d.value * a.value⟩ :: a :: r, ?_, ?_, ⟨?_, hst⟩, ?_⟩
        · simp only [bind, Except.bind, List.headD_cons]
          rw [show constMul d a = _ from g1]
          rfl
        · show d.value * a.value :: vals (a :: r) = _
          rw [hv, ha]
          simp [sfx]
        · rcases common_cases hdl'.1 hal.1 with ⟨e, -⟩ | ⟨-, e, -⟩
          · exact e
          · exact absurd hdt e
        · intro c hc
          rcases List.mem_cons.1 hc with rfl | hc
          · exact g2
          · exact hl c hc
  cases s with
  | nil => exact ⟨[], rfl, rfl, trivial, by simp⟩
  | cons d s =>
    have hs' : ∀ d ∈ vals s, 0 < d := fun x hx => hs x (List.mem_cons_of_mem _ hx)
    have h0 : 0 < (vals s).prod := by rw [← padded_eq_prod hs']; exact lt_of_lt_of_le zero_lt_one (paddedCount_pos _)
    have hd : 0 < d.value := hs _ (by simp)
    rw [show vals (d :: s) = d.value :: vals s from rfl, List.prod_cons] at hf
    obtain ⟨r, e, hv, hr⟩ := key s (fun c hc => ht c (by simp [hc])) hs' (by nlinarith)
    exact ⟨r, by rw [asStrideT_cons]; exact e, by rw [hv]; simp [sfx], hr⟩

/-- The sum of the products, if the last of them is in range; otherwise the computation overflows. -/
theorem long_linearize {st is : List Coord} {acc : Coord} (hst : ∀ c ∈ st, LongNumber c) (his : ∀ c ∈ is, LongNumber c)
    (hlen : st.length = is.length) (ha : LongNumber acc) (hz : acc.type = .i64 ∨ acc.value = 0) (hw : Wides st is)
    (hsum : |acc.value| + (((vals st).zipWith (· * ·) (vals is)).map (|·|)).sum < 9223372036854775808) :
    (LastOk st is → ∃ r, (st.zip is).foldlM (fun acc (gi : Coord × Coord) => do constAdd acc (← constMul gi.1 gi.2)) acc =
      (.ok r : Res Coord) ∧ r.value = acc.value + linearize (vals st) (vals is) ∧ LongNumber r) ∧
    (¬ LastOk st is → (st.zip is).foldlM (fun acc (gi : Coord × Coord) => do constAdd acc (← constMul gi.1 gi.2)) acc =
      (.error .overflow : Res Coord)) := by
  induction st generalizing is acc with
  | nil =>
    cases is with
    | cons => simp at hlen
    | nil => exact ⟨fun _ => ⟨acc, rfl, by simp [linearize], ha⟩, fun h => absurd (by simp [LastOk]) h⟩
  | cons g st ih =>
    cases is with
    | nil => simp at hlen
    | cons i is =>
      have hg := hst g (by simp)
      have hi := his i (by simp)
      simp only [vals, List.map_cons, List.zipWith_cons_cons, List.sum_cons] at hsum
      have hnn : 0 ≤ (((vals st).zipWith (· * ·) (vals is)).map (|·|)).sum := by
        apply List.sum_nonneg
        simp only [List.mem_map]
        rintro _ ⟨z, _, rfl⟩
        exact abs_nonneg z
      simp only [vals] at hnn
      have ha0 := abs_nonneg acc.value
      have hb1 : |g.value * i.value| < 9223372036854775808 := by omega
      have hb2 : |acc.value + g.value * i.value| < 9223372036854775808 :=
        lt_of_le_of_lt (abs_add_le _ _) (by omega)
      rw [abs_lt] at hb1
      have hb2' := abs_lt.1 hb2
      cases st with
      | nil =>
        cases is with
        | cons => simp at hlen
        | nil =>
          constructor
          · intro hl
            obtain ⟨e1, l1⟩ := long_op (f := (· * ·)) hg hi hl
            obtain ⟨e2, l2⟩ := long_op (f := (· + ·)) ha l1 (by
              rcases hz with hz | hz
              · exact common_fits_of ha.1 l1.1 (.inr ⟨.inl hz, i64_fits.2 ⟨hb2'.1.le, hb2'.2⟩⟩)
              · show (acc.type.common (g.type.common i.type)).Fits (acc.value + g.value * i.value)
                rw [hz, zero_add]
                exact IntType.common_fits_right l1.2 (common_signed_true ha.1 l1.1).1)
            refine ⟨_, ?_, ?_, l2⟩
            · simp only [List.zip_cons_cons, List.zip_nil_left, List.foldlM_cons, List.foldlM_nil, bind, Except.bind]
              rw [show constMul g i = _ from e1]
              simp only
              rw [show constAdd acc _ = _ from e2]
              rfl
            · simp only [vals, List.map_cons, List.map_nil]
              rw [linearize_cons]
              simp [linearize]
          · intro hl
            simp only [List.zip_cons_cons, List.zip_nil_left, List.foldlM_cons, List.foldlM_nil, bind, Except.bind]
            rw [show constMul g i = _ from long_op_overflow hg hi hl]
      | cons g' st =>
        cases is with
        | nil => simp at hlen
        | cons i' is =>
          obtain ⟨hw1, hw2⟩ := hw
          obtain ⟨e1, l1⟩ := long_op (f := (· * ·)) hg hi (common_fits_of hg.1 hi.1 (.inr ⟨hw1, i64_fits.2 ⟨hb1.1.le, hb1.2⟩⟩))
          have t1 : g.type.common i.type = .i64 := by
            rcases common_cases hg.1 hi.1 with ⟨e, -⟩ | ⟨-, h1, h2⟩
            · exact e
            · rcases hw1 with h | h
              · exact absurd h h1
              · exact absurd h h2
          rw [t1] at e1 l1
          have t2 : acc.type.common .i64 = .i64 := by
            rcases common_cases ha.1 (u := .i64) (by decide) with ⟨e, -⟩ | ⟨-, -, h2⟩
            · exact e
            · exact absurd rfl h2
          obtain ⟨e2, l2⟩ := long_op (f := (· + ·)) ha l1 (common_fits_of ha.1 l1.1 (.inr ⟨.inr rfl, i64_fits.2 ⟨hb2'.1.le, hb2'.2⟩⟩))
          simp only [t2] at e2 l2
          have habs := abs_add_le acc.value (g.value * i.value)
          obtain ⟨ih1, ih2⟩ := ih (is := i' :: is) (acc := ⟨.i64, acc.value + g.value * i.value⟩) (fun c hc => hst c (by simp [hc]))
            (fun c hc => his c (by simp [hc])) (by simpa using hlen) l2 (.inl rfl) hw2 (by simp only [vals, List.map_cons] at hsum ⊢; omega)
          have estep : ((g :: g' :: st).zip (i :: i' :: is)).foldlM
              (fun acc (gi : Coord × Coord) => do constAdd acc (← constMul gi.1 gi.2)) acc =
              (((g' :: st).zip (i' :: is)).foldlM (fun acc (gi : Coord × Coord) => do constAdd acc (← constMul gi.1 gi.2))
                ⟨.i64, acc.value + g.value * i.value⟩ : Res Coord) := by
            rw [List.zip_cons_cons, List.foldlM_cons]
            simp only [bind, Except.bind]
            rw [show constMul g i = _ from e1]
            simp only
            rw [show constAdd acc _ = _ from e2]
          rw [estep]
          refine ⟨fun hl => ?_, fun hl => ih2 hl⟩
          obtain ⟨r, er, vr, lr⟩ := ih1 hl
          refine ⟨r, er, ?_, lr⟩
          rw [vr]
          simp only [vals, List.map_cons]
          rw [linearize_cons (g := g.value), ← add_assoc]

/-- The strides of a slice. -/
theorem restrides_long {s st : List Coord} {xs : List SlicerT} {xcs : List SlicerC}
    (hst : LongStrides st) (hl : ∀ c ∈ st, LongNumber c) (hx : SlicerT.LongAll (vals s) (vals st) xs) (hs : s.length = st.length)
    (hxc : List.Forall₂ (fun x xc => ∀ gc, (restrideT gc xc = .ok gc ∧ SlicerT.step x = ⟨.i32, 1⟩) ∨
        restrideT gc xc = constMul (SlicerT.step x) gc) xs xcs) (hlen : xs.length = st.length) :
    ∃ str, (st.zip xcs).mapM (fun x : Coord × SlicerC => restrideT x.1 x.2) = .ok str ∧
      vals str = (vals st).zipWith restride (xs.map (·.erase)) ∧ (∀ c ∈ str, LongNumber c) ∧ str.length = st.length ∧
      (∀ p : List Coord, Wides str p) ∧
      ∀ p : List Coord, (∀ c ∈ p, LongNumber c) → p.length = st.length → (LastOk str p ↔ LastInRange xs p) := by
  induction st generalizing xs xcs s with
  | nil =>
    cases xs with
    | cons => simp at hlen
    | nil =>
      refine ⟨[], rfl, rfl, by simp, rfl, by simp [Wides], fun p _ hp => ?_⟩
      simp [LastOk, LastInRange]
  | cons g st ih =>
    cases hxc with
    | nil => simp at hlen
    | @cons x xc xs xcs h1 h2 =>
      cases s with
      | nil => simp at hs
      | cons d s =>
        have hx1 : x.LongAt d.value g.value := hx.1
        have hx2 : SlicerT.LongAll (vals s) (vals st) xs := hx.2
        have hg := hl g (by simp)
        have hstep := hx1.1
        have hI := hx1.2.2.1
        have hst' : LongStrides st := by
          cases st with
          | nil => trivial
          | cons => exact hst.2
        obtain ⟨str, e, hv, hr, hlen', hwide, hlast⟩ := ih (s := s) hst' (fun c hc => hl c (by simp [hc])) hx2 (by simpa using hs) h2
          (by simpa using hlen)
        have : ∃ r, restrideT g xc = .ok r ∧ r.value = restride g.value x.erase ∧ LongNumber r ∧
            (st ≠ [] → r.type = .i64) ∧ (st = [] → r.type = x.step.type.common .i32 ∧ r.value = x.step.value) := by
          rw [restride_eq, step_erase]
          have hlastg : st = [] → g = fixedOne := by rintro rfl; exact hst
          have hng : st ≠ [] → g.type = .i64 := by
            intro h
            cases st with
            | nil => exact absurd rfl h
            | cons => exact hst.1
          rcases h1 g with ⟨h, h'⟩ | h
          · refine ⟨g, h, ?_, hg, hng, fun h0 => ?_⟩
            · rw [h', one_mul]
            · rw [hlastg h0, h']; exact ⟨rfl, rfl⟩
          · have hfit : (x.step.type.common g.type).Fits (x.step.value * g.value) := by
              by_cases h0 : st = []
              · rw [hlastg h0]
                show (x.step.type.common .i32).Fits (x.step.value * 1)
                rw [mul_one]
                exact IntType.common_fits hstep.2 (common_signed_true hstep.1 (by decide)).1
              · exact common_fits_of hstep.1 hg.1 (.inr ⟨.inr (hng h0), i64_of hI⟩)
            obtain ⟨e1, l1⟩ := long_op (f := (· * ·)) hstep hg hfit
            refine ⟨_, h.trans e1, rfl, l1, fun h0 => ?_, fun h0 => ?_⟩
            · rcases common_cases hstep.1 hg.1 with ⟨e, -⟩ | ⟨-, -, e⟩
              · exact e
              · exact absurd (hng h0) e
            · rw [hlastg h0]; exact ⟨rfl, mul_one _⟩
        obtain ⟨r, er, hv', hr', hnl, hla⟩ := this
        refine ⟨r :: str, ?_, ?_, ?_, by simp [hlen'], ?_, ?_⟩
        · rw [List.zip_cons_cons, List.mapM_cons]
          simp only [er, e]; rfl
        · show r.value :: vals str = restride g.value x.erase :: (vals st).zipWith restride (xs.map (·.erase))
          rw [hv, hv']
        · intro y hy
          rcases List.mem_cons.1 hy with rfl | hy
          · exact hr'
          · exact hr y hy
        · intro p
          cases p with
          | nil => cases str <;> simp [Wides]
          | cons i p =>
            cases str with
            | nil => simp [Wides]
            | cons r' str =>
              refine ⟨.inl (hnl ?_), hwide p⟩
              rintro rfl
              simp at hlen'
        · intro p hp hpl
          cases p with
          | nil => simp at hpl
          | cons i p =>
            have hi := hp i (by simp)
            cases st with
            | nil =>
              obtain rfl : str = [] := List.length_eq_zero_iff.1 (by simpa using hlen')
              obtain rfl : p = [] := List.length_eq_zero_iff.1 (by simpa using hpl)
              obtain rfl : xs = [] := List.length_eq_zero_iff.1 (by simpa using hlen)
              obtain ⟨t1, t2⟩ := hla rfl
              show (r.type.common i.type).Fits (r.value * i.value) ↔ (x.step.type.common i.type).Fits (x.step.value * i.value)
              have : r.type.common i.type = x.step.type.common i.type := by
                rw [t1]
                have a1 := hstep.1
                have a2 := hi.1
                simp only [ComputesSigned, List.mem_cons, List.not_mem_nil, or_false] at a1 a2
                rcases a1 with e | e | e | e | e | e <;> rw [e] <;>
                  rcases a2 with e' | e' | e' | e' | e' | e' <;> rw [e'] <;> decide
              rw [this, t2]
            | cons g' st =>
              have := hlast p (fun c hc => hp c (by simp [hc])) (by simpa using hpl)
              have hstr : str ≠ [] := by rintro rfl; simp at hlen'
              have hxs : xs ≠ [] := by rintro rfl; simp at hlen
              obtain ⟨r', str, rfl⟩ := List.exists_cons_of_ne_nil hstr
              obtain ⟨x', xs, rfl⟩ := List.exists_cons_of_ne_nil hxs
              simpa [LastOk, LastInRange] using this

end Kwk
