import Verif.Spec.Known
import Verif.Lemmas.TypedSlice

/-!
# Property C113: sizes known at compile time stay known

`x.static`: the number `x` is a compile-time constant.  Slicers are given as written: the numbers and the expressions on
`end` in them may be constants or not.
-/

namespace Kwk
open Spec

private theorem op_static {f : Coord → Coord → Res Coord} {a b r : Known} (h : Known.op f a b = .ok r) :
    r.static = (a.static && b.static) := by
  unfold Known.op at h
  cases e : f a.coord b.coord with
  | error x => rw [e] at h; cases h
  | ok v => rw [e] at h; cases h; rfl

private theorem neg_static {a r : Known} (h : a.neg = .ok r) : r.static = a.static := by
  unfold Known.neg at h
  cases e : constNeg a.coord with
  | error x => rw [e] at h; cases h
  | ok v => rw [e] at h; cases h; rfl

private theorem bind_ok {α β : Type} {x : Res α} {f : α → Res β} {b : β} (h : (x >>= f) = .ok b) :
    ∃ a, x = .ok a ∧ f a = .ok b := by
  cases x with
  | error e => cases h
  | ok a => exact ⟨a, rfl, h⟩

private theorem build_static {e : EndExprK} {k : EndK} (h : e.build = .ok k) :
    (k.shift.static && k.num.static && k.denum.static) = e.numbers.all (·.static) := by
  induction e generalizing k with
  | all => cases h; rfl
  | add e o ih =>
    obtain ⟨k1, e1, h⟩ := bind_ok h
    obtain ⟨x, ex, h⟩ := bind_ok h
    obtain ⟨y, ey, h⟩ := bind_ok h
    cases h
    have := ih e1
    rw [EndExprK.numbers, List.all_cons, ← this]
    simp only
    rw [op_static ey, op_static ex]
    cases k1.shift.static <;> cases k1.num.static <;> cases k1.denum.static <;> cases o.static <;> rfl
  | sub e o ih =>
    obtain ⟨k1, e1, h⟩ := bind_ok h
    obtain ⟨x, ex, h⟩ := bind_ok h
    obtain ⟨y, ey, h⟩ := bind_ok h
    cases h
    have := ih e1
    rw [EndExprK.numbers, List.all_cons, ← this]
    simp only
    rw [op_static ey, op_static ex]
    cases k1.shift.static <;> cases k1.num.static <;> cases k1.denum.static <;> cases o.static <;> rfl
  | rsub o e ih =>
    obtain ⟨k1, e1, h⟩ := bind_ok h
    obtain ⟨x, ex, h⟩ := bind_ok h
    obtain ⟨y, ey, h⟩ := bind_ok h
    obtain ⟨z, ez, h⟩ := bind_ok h
    cases h
    have := ih e1
    rw [EndExprK.numbers, List.all_cons, ← this]
    simp only
    rw [op_static ey, op_static ex, neg_static ez]
    cases k1.shift.static <;> cases k1.num.static <;> cases k1.denum.static <;> cases o.static <;> rfl
  | mul e o ih =>
    obtain ⟨k1, e1, h⟩ := bind_ok h
    obtain ⟨x, ex, h⟩ := bind_ok h
    obtain ⟨y, ey, h⟩ := bind_ok h
    cases h
    have := ih e1
    rw [EndExprK.numbers, List.all_cons, ← this]
    simp only
    rw [op_static ey, op_static ex]
    cases k1.shift.static <;> cases k1.num.static <;> cases k1.denum.static <;> cases o.static <;> rfl
  | div e o ih =>
    obtain ⟨k1, e1, h⟩ := bind_ok h
    obtain ⟨x, ex, h⟩ := bind_ok h
    cases h
    have := ih e1
    rw [EndExprK.numbers, List.all_cons, ← this]
    simp only
    rw [op_static ex]
    cases k1.shift.static <;> cases k1.num.static <;> cases k1.denum.static <;> cases o.static <;> rfl

/-- **C113** (`end` expressions) The value of an expression on `end` is known at compile time iff the extent of the axis and
all numbers in the expression are. -/
theorem C113_end_expressions (d : Known) (e : EndExprK) {k : EndK} {r : Known} (hk : e.build = .ok k) (hr : k.size d = .ok r) :
    r.static = true ↔ d.static = true ∧ ∀ x ∈ e.numbers, x.static = true := by
  obtain ⟨x, ex, h⟩ := bind_ok hr
  obtain ⟨y, ey, h⟩ := bind_ok h
  have := build_static hk
  rw [← List.all_eq_true, ← this, op_static h, op_static ey, op_static ex]
  simp only [Bool.and_eq_true]
  tauto

/-- `(2_c * end - 1_c) / 3_c` and `(2_c * end - n) / 3_c` on an axis of 8. -/
example : (do
    let e ← (EndExprK.div (.sub (.mul .all ⟨⟨.u8, 2⟩, true⟩) ⟨⟨.u8, 1⟩, true⟩) ⟨⟨.u8, 3⟩, true⟩).build
    e.size ⟨⟨.i32, 8⟩, true⟩) = .ok ⟨⟨.i32, 5⟩, true⟩ ∧ (do
    let e ← (EndExprK.div (.sub (.mul .all ⟨⟨.u8, 2⟩, true⟩) ⟨⟨.i32, 1⟩, false⟩) ⟨⟨.u8, 3⟩, true⟩).build
    e.size ⟨⟨.i32, 8⟩, true⟩) = .ok ⟨⟨.i32, 5⟩, false⟩ := by decide

private theorem value_static {d : Known} {b : WrittenBound} {k : BoundK} {r : Known} (hk : b.build = .ok k)
    (hr : k.value d = .ok r) : r.static = true ↔ ∀ x ∈ b.numbers d, x.static = true := by
  cases b with
  | int i => cases hk; cases hr; simp [WrittenBound.numbers]
  | ext e =>
    obtain ⟨k1, e1, h⟩ := bind_ok hk
    cases h
    rw [C113_end_expressions d e e1 hr]
    simp [WrittenBound.numbers]

private theorem foldlM_static {hs : List Known} {c r : Known} (h : hs.foldlM (Known.op constMul) c = .ok r) :
    r.static = (c.static && hs.all (·.static)) := by
  induction hs generalizing c with
  | nil => cases h; simp
  | cons d hs ih =>
    rw [List.foldlM_cons] at h
    obtain ⟨x, ex, h⟩ := bind_ok h
    rw [ih h, op_static ex, List.all_cons, Bool.and_assoc]

/-- **C113** (compress) The merged extent is known iff all the extents merged are, and the other extents are known iff they were. -/
theorem C113_compress (n : Nat) (s c : List Known) (h0 : 0 < n) (hn : n ≤ s.length) (h : compressK n s = .ok c) :
    c.map (·.static) = (s.take (s.length - n + 1)).all (·.static) :: (s.drop (s.length - n + 1)).map (·.static) := by
  unfold compressK at h
  split at h
  · next e =>
    cases h
    cases s with
    | nil => simp at hn; omega
    | cons d s => rw [e]; simp
  · cases s with
    | nil => simp at hn; omega
    | cons d s =>
      rw [List.take_succ_cons] at h ⊢
      simp only at h
      obtain ⟨x, ex, h⟩ := bind_ok h
      cases h
      rw [List.map_cons, foldlM_static ex, List.all_cons]

example : (compressK 2 [⟨⟨.i32, 2⟩, true⟩, ⟨⟨.i32, 3⟩, true⟩, ⟨⟨.i32, 4⟩, false⟩]) =
      .ok [⟨⟨.i32, 6⟩, true⟩, ⟨⟨.i32, 4⟩, false⟩] ∧
    (compressK 1 [⟨⟨.i32, 2⟩, true⟩, ⟨⟨.i32, 3⟩, true⟩, ⟨⟨.i32, 4⟩, false⟩]) = .ok [⟨⟨.i32, 24⟩, false⟩] := by decide

/-- **C113** (indexes and whole axes) The extent of an axis sliced by `_` is known iff it was; by an index, it is known. -/
theorem C113_whole_axes (d : Known) (i : Known) (e : EndK) :
    (∃ r, sliceExtentK d .joker = .ok r ∧ r.static = d.static) ∧
    (∃ r, sliceExtentK d (.index i) = .ok r ∧ r.static = true ∧ r.coord.value = 1) ∧
    (∃ r, sliceExtentK d (.ext e) = .ok r ∧ r.static = true ∧ r.coord.value = 1) :=
  ⟨⟨_, rfl, rfl⟩, ⟨_, rfl, rfl, rfl⟩, ⟨_, rfl, rfl, rfl⟩⟩

/-- **C113** (intervals, partial) The extent of `slice(from = b, by = s, to = e, length = l)`, each of them optional, is known iff the numbers it
depends on are; unless a step comes together with `from` or `to` (and no length).  Missing: that case, in which the extent is usually not known:
see `C113_stepped_false`. -/
theorem C113_intervals_partial (d : Known) (b : Option WrittenBound) (s : Option Known) (e l : Option WrittenBound)
    {bk ek lk : Option BoundK} (hb : buildBound b = .ok bk) (he : buildBound e = .ok ek) (hl : buildBound l = .ok lk)
    (hcase : l.isSome ∨ s = none ∨ (b = none ∧ e = none)) {r : Known}
    (h : sliceExtentK d (.interval bk s ek lk) = .ok r) :
    r.static = true ↔ ∀ x ∈ dependsOn d b s e l, x.static = true := by
  have hsome : ∀ {w : Option WrittenBound} {k : Option BoundK}, buildBound w = .ok k →
      (w = none ∧ k = none) ∨ ∃ w' k', w = some w' ∧ k = some k' ∧ w'.build = .ok k' := by
    intro w k hw
    cases w with
    | none => cases hw; exact .inl ⟨rfl, rfl⟩
    | some w =>
      obtain ⟨k', e', hw⟩ := bind_ok hw
      cases hw
      exact .inr ⟨w, k', rfl, rfl, e'⟩
  rcases hsome hl with ⟨rfl, rfl⟩ | ⟨l', lk', rfl, rfl, el⟩
  · -- no length
    have hb' : ∀ x, fixExtremumK d bk ⟨⟨.i32, 0⟩, true⟩ = .ok x →
        (x.static = true ↔ ∀ y ∈ (match b with | some b => b.numbers d | none => []), y.static = true) := by
      intro x hx
      rcases hsome hb with ⟨rfl, rfl⟩ | ⟨b', bk', rfl, rfl, eb⟩
      · cases hx; simp
      · exact value_static eb hx
    have he' : ∀ x, fixExtremumK d ek d = .ok x →
        (x.static = true ↔ ∀ y ∈ (match e with | some e => e.numbers d | none => [d]), y.static = true) := by
      intro x hx
      rcases hsome he with ⟨rfl, rfl⟩ | ⟨e', ek', rfl, rfl, ee⟩
      · cases hx; simp
      · exact value_static ee hx
    have hev : ∀ {x y z : Known}, sliceEvalK x y = .ok z → z.static = (x.static && y.static) := by
      intro x y z hz
      obtain ⟨v, ev, hz⟩ := bind_ok hz
      cases hz; rfl
    simp only [dependsOn, List.mem_append, or_imp, forall_and]
    simp only [sliceExtentK] at h
    split at h
    · next hany =>
      have hs : s = none := by
        rcases hcase with hc | hc | ⟨rfl, rfl⟩
        · simp at hc
        · exact hc
        · cases hb; cases he; simp at hany
      subst hs
      obtain ⟨x, ex, h⟩ := bind_ok h
      obtain ⟨y, ey, h⟩ := bind_ok h
      simp only [Option.isSome_none, Bool.false_eq_true, if_false] at h
      obtain ⟨z, ez, h⟩ := bind_ok h
      rw [hev h, op_static ez, Bool.and_eq_true, Bool.and_eq_true, hb' x ex, he' y ey]
      simp only [Known.one, Option.toList_none, List.not_mem_nil, false_implies, implies_true, and_true]
      exact and_comm
    · next hany =>
      have hbn : b = none := by
        rcases hsome hb with ⟨rfl, _⟩ | ⟨b', bk', _, rfl, _⟩
        · rfl
        · simp at hany
      have hen : e = none := by
        rcases hsome he with ⟨rfl, _⟩ | ⟨b', bk', _, rfl, _⟩
        · rfl
        · simp at hany
      subst hbn hen
      rw [hev h]
      cases s <;> simp [Known.one]
  · exact value_static el h

example := C113_intervals_partial ⟨⟨.i32, 8⟩, true⟩ (some (.int ⟨⟨.i32, 3⟩, false⟩)) none (some (.ext (.sub .all ⟨⟨.u8, 1⟩, true⟩))) none
  (bk := some (.int ⟨⟨.i32, 3⟩, false⟩)) (ek := some (.ext ⟨⟨⟨.i32, -1⟩, true⟩, ⟨fixedOne, true⟩, ⟨fixedOne, true⟩⟩)) (lk := none) rfl
  (by decide) rfl (.inr (.inl rfl)) (r := ⟨⟨.i32, 4⟩, false⟩) (by decide)

/-- **C113** (intervals, one direction) In all cases an extent that is known at compile time depends on compile-time numbers only. -/
theorem C113_known_only_if (d : Known) (b : Option WrittenBound) (s : Option Known) (e l : Option WrittenBound)
    {bk ek lk : Option BoundK} (hb : buildBound b = .ok bk) (he : buildBound e = .ok ek) (hl : buildBound l = .ok lk)
    {r : Known} (h : sliceExtentK d (.interval bk s ek lk) = .ok r) (hr : r.static = true) :
    ∀ x ∈ dependsOn d b s e l, x.static = true := by
  by_cases hcase : l.isSome ∨ s = none ∨ (b = none ∧ e = none)
  · exact (C113_intervals_partial d b s e l hb he hl hcase h).1 hr
  · simp only [not_or] at hcase
    obtain ⟨hl', hs', hbe⟩ := hcase
    obtain ⟨s, rfl⟩ := Option.ne_none_iff_exists'.1 hs'
    have hln : l = none := by cases l <;> simp at hl' ⊢
    subst hln
    cases hl
    have hb' : ∀ x, fixExtremumK d bk ⟨⟨.i32, 0⟩, true⟩ = .ok x → x.static = true →
        ∀ y ∈ (match b with | some b => b.numbers d | none => []), y.static = true := by
      intro x hx hxs
      cases b with
      | none => simp
      | some b =>
        obtain ⟨k', e', hb⟩ := bind_ok hb
        cases hb
        exact (value_static e' hx).1 hxs
    have he' : ∀ x, fixExtremumK d ek d = .ok x → x.static = true →
        ∀ y ∈ (match e with | some e => e.numbers d | none => [d]), y.static = true := by
      intro x hx hxs
      cases e with
      | none => cases he; cases hx; simpa using hxs
      | some e =>
        obtain ⟨k', e', he⟩ := bind_ok he
        cases he
        exact (value_static e' hx).1 hxs
    have hany : (bk.isSome || ek.isSome) = true := by
      cases b with
      | some b => obtain ⟨k', _, hb⟩ := bind_ok hb; cases hb; rfl
      | none =>
        cases e with
        | some e => obtain ⟨k', _, he⟩ := bind_ok he; cases he; simp
        | none => simp at hbe
    have hev : ∀ {x y z : Known}, sliceEvalK x y = .ok z → z.static = (x.static && y.static) := by
      intro x y z hz
      obtain ⟨v, ev, hz⟩ := bind_ok hz
      cases hz; rfl
    have htern : ∀ {t : IntType} {x : Known} {y : Res Known}, (ternaryK t x y).static = true →
        x.static = true ∧ ∃ z, y = .ok z ∧ z.static = true := by
      intro t x y ht
      unfold ternaryK at ht
      cases y with
      | error e => simp at ht
      | ok z => simp only [Bool.and_eq_true] at ht; exact ⟨ht.1.1, z, rfl, ht.1.2⟩
    simp only [sliceExtentK, hany, if_true, Option.isSome_some, Option.getD_some] at h
    obtain ⟨x, ex, h⟩ := bind_ok h
    obtain ⟨y, ey, h⟩ := bind_ok h
    have hup : ∀ {z : Known}, (do sliceEvalK (← Known.op constSub y x) s) = .ok z → z.static = true →
        y.static = true ∧ x.static = true ∧ s.static = true := by
      intro z hz hzs
      obtain ⟨v, ev, hz⟩ := bind_ok hz
      rw [hev hz, op_static ev] at hzs
      simp only [Bool.and_eq_true] at hzs
      exact ⟨hzs.1.1, hzs.1.2, hzs.2⟩
    have hall : y.static = true ∧ x.static = true ∧ s.static = true := by
      split at h
      · obtain ⟨u, eu, h⟩ := bind_ok h
        cases h
        exact hup eu (htern hr).1
      · obtain ⟨u, eu, h⟩ := bind_ok h
        cases h
        obtain ⟨_, z, ez, hz⟩ := htern hr
        exact hup ez hz
    simp only [dependsOn, List.mem_append, Option.toList_some, List.mem_singleton]
    rintro z ((hz | hz) | rfl)
    · exact hb' x ex hall.2.1 z hz
    · exact he' y ey hall.1 z hz
    · exact hall.2.2

/-- `slice(from = 1_c, to = end - 1_c)` and `slice(by = 2_c)` of an axis of 8; `slice(from = n)`. -/
example : (do sliceExtentK ⟨⟨.i32, 8⟩, true⟩ (.interval (some (.int ⟨⟨.u8, 1⟩, true⟩)) none
      (some (.ext (← EndK.sub .all ⟨⟨.u8, 1⟩, true⟩))) none)) = .ok ⟨⟨.i32, 6⟩, true⟩ ∧
    sliceExtentK ⟨⟨.i32, 8⟩, true⟩ (.interval none (some ⟨⟨.u8, 2⟩, true⟩) none none) = .ok ⟨⟨.i32, 4⟩, true⟩ ∧
    sliceExtentK ⟨⟨.i32, 8⟩, true⟩ (.interval (some (.int ⟨⟨.i32, 3⟩, false⟩)) none none none) = .ok ⟨⟨.i32, 5⟩, false⟩ := by
  decide

private theorem evalT_i32 {v c r : Coord} (hv : v.type = .i32) (hc : c.type = .i32) (h : sliceEvalT v c = .ok r) :
    r.type = .i32 := by
  unfold sliceEvalT at h
  split at h
  · cases h
    simp only
    rw [hv, hc]; rfl
  · obtain ⟨w, ew, h⟩ := bind_ok h
    have hw : w.type = .i32 := by
      unfold absT at ew
      split at ew
      · unfold constNeg at ew
        obtain ⟨x, ex, ew⟩ := bind_ok ew
        cases ew
        rw [hc]; rfl
      · cases ew
        rw [hc]; rfl
    obtain ⟨x, ex, h⟩ := bind_ok h
    obtain ⟨y, ey, h⟩ := bind_ok h
    rw [constOp_type h]
    unfold constDiv at ey
    obtain ⟨z, ez, ey⟩ := bind_ok ey
    obtain ⟨z', ez', ey⟩ := bind_ok ey
    cases ey
    simp only
    rw [hv, hw]; rfl

/-- **C113** (steps, partial) The exact condition for `slice(from = b, by = s, to = e)` with `int` constants and a positive step: the extent is
right, but it is known only if going up from `b` to `e` selects as many indexes as going down from `b` to `0`, because the type of
the extent is that of a conditional expression on both numbers. -/
theorem C113_stepped_exact_partial (d b e s : Int) (hs : 0 < s) (hs' : s < 2147483648) (hb : 0 ≤ b) (hbe : b ≤ e) (he : e ≤ d)
    (hbd : b < d) (hd : d < 2147483648) :
    ∃ r, sliceExtentK ⟨⟨.i32, d⟩, true⟩ (.interval (some (.int ⟨⟨.i32, b⟩, true⟩)) (some ⟨⟨.i32, s⟩, true⟩)
        (some (.int ⟨⟨.i32, e⟩, true⟩)) none) = .ok r ∧
      r.coord.value = (selectUp d b e s).length ∧
      (r.static = true ↔ (selectUp d b e s).length = (selectDown d b (-s)).length) := by
  have hst : StepOK ⟨.i32, s⟩ := ⟨by unfold IntType.Fits; simp only [IntType.i32, IntType.lo, IntType.hi]; norm_num; omega,
    ⟨by simp only; omega, hs'⟩, fun h => by simp only at h; omega, by simp only; omega⟩
  have hlt : ltT ⟨.i32, s⟩ ⟨.i32, 0⟩ = false := by rw [(ltT_step hst).1]; simp only [decide_eq_false_iff_not]; omega
  have hlen : ∀ n : Int, 0 ≤ n → ((upTo n).length : Int) = n := fun n hn => by simp [upTo, hn]
  have lu : ((selectUp d b e s).length : Int) = steps (e - b) s := by
    rw [selectUp_eq hs hb he, List.length_map, hlen _ (steps_nonneg hs (by omega))]
  have ld : ((selectDown d b (-s)).length : Int) = steps (b + 1) s := by
    rw [selectDown_eq (by omega) hbd, List.length_map, neg_neg, hlen _ (steps_nonneg hs (by omega))]
  have e1 : constSub ⟨.i32, e⟩ ⟨.i32, b⟩ = .ok ⟨.i32, e - b⟩ := by
    obtain ⟨t, et⟩ := constOp_small (f := (· - ·)) (a := ⟨.i32, e⟩) (b := ⟨.i32, b⟩) ⟨by simp only; omega, by simp only; omega⟩
      ⟨hb, by simp only; omega⟩ ⟨by simp only; omega, by simp only; omega⟩
    have := constOp_type et
    simp only at this
    rw [this] at et
    exact et
  have e2 : constAdd ⟨.i32, b⟩ ⟨.u8, 1⟩ = .ok ⟨.i32, b + 1⟩ := by
    obtain ⟨t, et⟩ := constAdd_small (a := ⟨.i32, b⟩) (b := ⟨.u8, 1⟩) ⟨hb, by simp only; omega⟩ (by decide : (0 : Int) ≤ 1 ∧ (1 : Int) < 2147483648)
      ⟨by simp only; omega, by simp only; omega⟩
    have := constOp_type et
    simp only at this
    rw [this] at et
    exact et
  obtain ⟨u, eu, hu⟩ := sliceEvalT_ok (v := ⟨.i32, e - b⟩) ⟨by simp only; omega, by simp only; omega⟩ hst
  obtain ⟨w, ew, hw⟩ := sliceEvalT_ok (v := ⟨.i32, b + 1⟩) ⟨by simp only; omega, by simp only; omega⟩ hst
  have tu := evalT_i32 rfl rfl eu
  have tw := evalT_i32 rfl rfl ew
  rw [sliceEval_pos hs (by simp only; omega)] at hu hw
  have vu := Except.ok.inj hu
  have vw := Except.ok.inj hw
  simp only at vu vw
  have hcv : u.convert (steppedType .i32 .i32 .i32) = u := by
    have hsm : Small u.value := by
      rw [← vu]
      exact ⟨steps_nonneg hs (by omega), lt_of_le_of_lt (steps_le hs (by omega)) (by omega)⟩
    have := convert_small hsm .i32 .i32 .i32
    cases u
    simp only at tu
    subst tu
    exact congrArg (Coord.mk .i32) this
  refine ⟨⟨u, decide (u = w)⟩, ?_, by rw [lu, vu], ?_⟩
  · simp only [sliceExtentK, fixExtremumK, BoundK.value, Option.isSome_some, Bool.true_or, if_true, Option.getD_some, hlt, Bool.not_false,
      Known.op, e1, e2, sliceEvalK, eu, ew, ternaryK, hcv, bind, Except.bind, pure, Except.pure, Bool.and_self, Bool.true_and]
  · simp only [decide_eq_true_eq]
    rw [← Nat.cast_inj (R := Int), lu, ld, vu, vw]
    exact ⟨fun h => by rw [h], fun h => by cases u; cases w; simp_all⟩

example := C113_stepped_exact_partial 8 1 7 2 (by decide) (by decide) (by decide) (by decide) (by decide) (by decide) (by decide)

/-- **C113** (negation) `slice(from = 0_c, to = 8_c, by = 2_c)` of an axis of 8 known at compile time has a run-time extent, although
`slice(by = 2_c)` and `slice(from = 0_c, to = 8_c)` do not. -/
theorem C113_stepped_false :
    sliceExtentK ⟨⟨.i32, 8⟩, true⟩ (.interval (some (.int ⟨⟨.u8, 0⟩, true⟩)) (some ⟨⟨.u8, 2⟩, true⟩)
      (some (.int ⟨⟨.u8, 8⟩, true⟩)) none) = .ok ⟨⟨.i32, 4⟩, false⟩ ∧
    sliceExtentK ⟨⟨.i32, 8⟩, true⟩ (.interval none (some ⟨⟨.u8, 2⟩, true⟩) none none) = .ok ⟨⟨.i32, 4⟩, true⟩ ∧
    sliceExtentK ⟨⟨.i32, 8⟩, true⟩ (.interval (some (.int ⟨⟨.u8, 0⟩, true⟩)) none (some (.int ⟨⟨.u8, 8⟩, true⟩)) none) =
      .ok ⟨⟨.i32, 8⟩, true⟩ := by decide

/-- **C113** The full property for slicers as written and for `compress` (the values are `C113_values`). -/
def C113_statement : Prop :=
  (∀ (d : Known) (b : Option WrittenBound) (s : Option Known) (e l : Option WrittenBound) (bk ek lk : Option BoundK) (r : Known),
    buildBound b = .ok bk → buildBound e = .ok ek → buildBound l = .ok lk →
    sliceExtentK d (.interval bk s ek lk) = .ok r →
    (r.static = true ↔ ∀ x ∈ dependsOn d b s e l, x.static = true)) ∧
  (∀ (n : Nat) (s c : List Known), 0 < n → n ≤ s.length → compressK n s = .ok c →
    c.map (·.static) = (s.take (s.length - n + 1)).all (·.static) :: (s.drop (s.length - n + 1)).map (·.static))

theorem C113_statement_false : ¬ C113_statement := by
  rintro ⟨h, -⟩
  have := (h ⟨⟨.i32, 8⟩, true⟩ (some (.int ⟨⟨.u8, 0⟩, true⟩)) (some ⟨⟨.u8, 2⟩, true⟩) (some (.int ⟨⟨.u8, 8⟩, true⟩)) none _ _ _ _
    rfl rfl rfl C113_stepped_false.1).2 (by decide)
  exact absurd this (by decide)

private theorem op_map (f : Coord → Coord → Res Coord) (a b : Known) :
    (Known.op f a b).map (·.coord) = f a.coord b.coord := by
  unfold Known.op
  cases f a.coord b.coord <;> rfl

private theorem map_inv {α β : Type} {f : α → β} {x : Res α} {y : Res β} (h : x.map f = y) :
    (∃ a, x = .ok a ∧ y = .ok (f a)) ∨ ∃ e, x = .error e ∧ y = .error e := by
  cases x with
  | error e => exact .inr ⟨e, rfl, h.symm⟩
  | ok a => exact .inl ⟨a, rfl, h.symm⟩

private theorem size_map (e : EndK) (n : Known) : (e.size n).map (·.coord) = (eraseEnd e).size n.coord := by
  simp only [EndK.size, EndC.size, eraseEnd]
  rcases map_inv (op_map constMul n e.num) with ⟨x, h1, h2⟩ | ⟨x, h1, h2⟩ <;> rw [h1, h2]
  · simp only [bind, Except.bind]
    rcases map_inv (op_map constAdd x e.shift) with ⟨y, h1, h2⟩ | ⟨y, h1, h2⟩ <;> rw [h1, h2]
    · exact op_map _ _ _
    · rfl
  · rfl

private theorem value_map (b : BoundK) (n : Known) : (b.value n).map (·.coord) = (eraseBound b).value n.coord := by
  cases b with
  | int i => rfl
  | ext e => exact size_map e n

private theorem extremum_map (b : Option BoundK) (n dflt : Known) :
    (fixExtremumK n b dflt).map (·.coord) = fixExtremumT n.coord (b.map eraseBound) dflt.coord := by
  cases b with
  | none => rfl
  | some b => exact value_map b n

private theorem eval_map (s b : Known) : (sliceEvalK s b).map (·.coord) = sliceEvalT s.coord b.coord := by
  unfold sliceEvalK
  cases sliceEvalT s.coord b.coord <;> rfl

private theorem ternary_coord (t : IntType) (x : Known) (y : Res Known) : (ternaryK t x y).coord = x.coord.convert t := by
  unfold ternaryK
  cases y <;> rfl

private theorem extent_map (d : Known) (x : SlicerK) :
    (sliceExtentK d x).map (·.coord) = sliceExtentT d.coord (eraseSlicer x) := by
  cases x with
  | joker => rfl
  | index i => rfl
  | ext e => rfl
  | interval b s e l =>
    cases l with
    | some l => exact value_map l d
    | none =>
      simp only [sliceExtentK, eraseSlicer, sliceExtentT, Option.map_none, Option.isSome_map]
      have hsc : (s.map (·.coord)).getD fixedOne = (s.getD .one).coord := by cases s <;> rfl
      rw [hsc]
      split
      · rcases map_inv (extremum_map b d ⟨⟨.i32, 0⟩, true⟩) with ⟨x, h1, h2⟩ | ⟨x, h1, h2⟩ <;> simp only at h2 <;> rw [h1, h2]
        · simp only [bind, Except.bind]
          rcases map_inv (extremum_map e d d) with ⟨y, h1, h2⟩ | ⟨y, h1, h2⟩ <;> rw [h1, h2]
          · simp only
            split
            · split
              · rcases map_inv (op_map constSub y x) with ⟨z, h1, h2⟩ | ⟨z, h1, h2⟩ <;> rw [h1, h2]
                · simp only
                  rcases map_inv (eval_map z (s.getD .one)) with ⟨w, h1, h2⟩ | ⟨w, h1, h2⟩ <;> rw [h1, h2]
                  · exact congrArg Except.ok (ternary_coord _ _ _)
                  · rfl
                · rfl
              · rcases map_inv (op_map constAdd x ⟨⟨.u8, 1⟩, true⟩) with ⟨z, h1, h2⟩ | ⟨z, h1, h2⟩ <;> simp only at h2 <;> rw [h1, h2]
                · simp only
                  rcases map_inv (eval_map z (s.getD .one)) with ⟨w, h1, h2⟩ | ⟨w, h1, h2⟩ <;> rw [h1, h2]
                  · exact congrArg Except.ok (ternary_coord _ _ _)
                  · rfl
                · rfl
            · rcases map_inv (op_map constSub y x) with ⟨z, h1, h2⟩ | ⟨z, h1, h2⟩ <;> rw [h1, h2]
              · exact eval_map z .one
              · rfl
          · rfl
        · rfl
      · exact eval_map d _

private theorem fold_map (hs : List Known) (c : Known) :
    (hs.foldlM (Known.op constMul) c).map (·.coord) = (hs.map (·.coord)).foldlM constMul c.coord := by
  induction hs generalizing c with
  | nil => rfl
  | cons d hs ih =>
    rw [List.map_cons, List.foldlM_cons, List.foldlM_cons]
    rcases map_inv (op_map constMul c d) with ⟨z, h1, h2⟩ | ⟨z, h1, h2⟩ <;> rw [h1, h2]
    · exact ih z
    · rfl

private theorem compress_map (n : Nat) (s : List Known) :
    (compressK n s).map (List.map Known.coord) = compressT n (s.map (·.coord)) := by
  unfold compressK compressT
  rw [List.length_map]
  split
  · rfl
  · rw [← List.map_take, ← List.map_drop]
    cases s.take (s.length - n + 1) with
    | nil => rfl
    | cons d hs =>
      simp only [List.map_cons]
      rcases map_inv (fold_map hs d) with ⟨z, h1, h2⟩ | ⟨z, h1, h2⟩ <;> rw [h1, h2] <;> rfl

/-- **C113** (values) What is known at compile time does not change the extents: they are those computed from the same
numbers at run time. -/
theorem C113_values (s : List Known) (sl : List SlicerK) :
    (sliceShapeK s sl).map (List.map Known.coord) = (do
      let c ← compressT sl.length (s.map (·.coord))
      (c.zip (sl.map eraseSlicer)).mapM fun (d, x) => sliceExtentT d x) := by
  have hm : ∀ (c : List Known) (sl : List SlicerK),
      ((c.zip sl).mapM fun p => sliceExtentK p.1 p.2).map (List.map Known.coord) =
        ((c.map (·.coord)).zip (sl.map eraseSlicer)).mapM fun (d, x) => sliceExtentT d x := by
    intro c
    induction c with
    | nil => intro sl; rfl
    | cons d c ih =>
      intro sl
      cases sl with
      | nil => rfl
      | cons x sl =>
        simp only [List.zip_cons_cons, List.map_cons, List.mapM_cons, bind, Except.bind]
        rcases map_inv (extent_map d x) with ⟨z, h1, h2⟩ | ⟨z, h1, h2⟩ <;> rw [h1, h2]
        · simp only
          rcases map_inv (ih sl) with ⟨w, h1, h2⟩ | ⟨w, h1, h2⟩ <;> rw [h1, h2] <;> rfl
        · rfl
  unfold sliceShapeK
  rcases map_inv (compress_map sl.length s) with ⟨z, h1, h2⟩ | ⟨z, h1, h2⟩ <;> rw [h1, h2]
  · exact hm z sl
  · rfl

private theorem build_end (e : EndExprK) : e.build.map eraseEnd = e.erase.build := by
  induction e with
  | all => rfl
  | add e o ih =>
    simp only [EndExprK.build, EndExprK.erase, EndExprT.build, EndK.add, EndC.add, bind, Except.bind]
    rcases map_inv ih with ⟨k, h1, h2⟩ | ⟨k, h1, h2⟩ <;> rw [h1, h2]
    · simp only [eraseEnd]
      rcases map_inv (op_map constMul o k.denum) with ⟨x, h1, h2⟩ | ⟨x, h1, h2⟩ <;> rw [h1, h2]
      · simp only
        rcases map_inv (op_map constAdd k.shift x) with ⟨y, h1, h2⟩ | ⟨y, h1, h2⟩ <;> rw [h1, h2] <;> rfl
      · rfl
    · rfl
  | sub e o ih =>
    simp only [EndExprK.build, EndExprK.erase, EndExprT.build, EndK.sub, EndC.sub, bind, Except.bind]
    rcases map_inv ih with ⟨k, h1, h2⟩ | ⟨k, h1, h2⟩ <;> rw [h1, h2]
    · simp only [eraseEnd]
      rcases map_inv (op_map constMul o k.denum) with ⟨x, h1, h2⟩ | ⟨x, h1, h2⟩ <;> rw [h1, h2]
      · simp only
        rcases map_inv (op_map constSub k.shift x) with ⟨y, h1, h2⟩ | ⟨y, h1, h2⟩ <;> rw [h1, h2] <;> rfl
      · rfl
    · rfl
  | rsub o e ih =>
    simp only [EndExprK.build, EndExprK.erase, EndExprT.build, EndK.rsub, EndC.rsub, bind, Except.bind]
    rcases map_inv ih with ⟨k, h1, h2⟩ | ⟨k, h1, h2⟩ <;> rw [h1, h2]
    · simp only [eraseEnd]
      rcases map_inv (op_map constMul o k.denum) with ⟨x, h1, h2⟩ | ⟨x, h1, h2⟩ <;> rw [h1, h2]
      · simp only
        rcases map_inv (op_map constSub x k.shift) with ⟨y, h1, h2⟩ | ⟨y, h1, h2⟩ <;> rw [h1, h2]
        · simp only [Known.neg, bind, Except.bind]
          cases constNeg k.num.coord <;> rfl
        · rfl
      · rfl
    · rfl
  | mul e o ih =>
    simp only [EndExprK.build, EndExprK.erase, EndExprT.build, EndK.mul, EndC.mul, bind, Except.bind]
    rcases map_inv ih with ⟨k, h1, h2⟩ | ⟨k, h1, h2⟩ <;> rw [h1, h2]
    · simp only [eraseEnd]
      rcases map_inv (op_map constMul k.shift o) with ⟨x, h1, h2⟩ | ⟨x, h1, h2⟩ <;> rw [h1, h2]
      · simp only
        rcases map_inv (op_map constMul k.num o) with ⟨y, h1, h2⟩ | ⟨y, h1, h2⟩ <;> rw [h1, h2] <;> rfl
      · rfl
    · rfl
  | div e o ih =>
    simp only [EndExprK.build, EndExprK.erase, EndExprT.build, EndK.div, EndC.div, bind, Except.bind]
    rcases map_inv ih with ⟨k, h1, h2⟩ | ⟨k, h1, h2⟩ <;> rw [h1, h2]
    · simp only [eraseEnd]
      rcases map_inv (op_map constMul k.denum o) with ⟨x, h1, h2⟩ | ⟨x, h1, h2⟩ <;> rw [h1, h2] <;> rfl
    · rfl

private theorem build_bound (b : Option WrittenBound) :
    (buildBound b).map (Option.map eraseBound) = SlicerT.buildOpt (b.map (·.erase)) := by
  cases b with
  | none => rfl
  | some b =>
    cases b with
    | int i => rfl
    | ext e =>
      simp only [buildBound, WrittenBound.build, Option.map_some, WrittenBound.erase, SlicerT.buildOpt, BoundT.build, bind, Except.bind]
      rcases map_inv (build_end e) with ⟨k, h1, h2⟩ | ⟨k, h1, h2⟩ <;> rw [h1, h2] <;> rfl

private theorem build_slicer (x : WrittenSlicer) : x.build.map eraseSlicer = x.erase.build := by
  cases x with
  | joker => rfl
  | index i => rfl
  | ext e =>
    simp only [WrittenSlicer.build, WrittenSlicer.erase, SlicerT.build, bind, Except.bind]
    rcases map_inv (build_end e) with ⟨k, h1, h2⟩ | ⟨k, h1, h2⟩ <;> rw [h1, h2] <;> rfl
  | interval b s e l =>
    simp only [WrittenSlicer.build, WrittenSlicer.erase, SlicerT.build, bind, Except.bind]
    rcases map_inv (build_bound b) with ⟨k, h1, h2⟩ | ⟨k, h1, h2⟩ <;> rw [h1, h2]
    · simp only
      rcases map_inv (build_bound e) with ⟨k', h1, h2⟩ | ⟨k', h1, h2⟩ <;> rw [h1, h2]
      · simp only
        rcases map_inv (build_bound l) with ⟨k'', h1, h2⟩ | ⟨k'', h1, h2⟩ <;> rw [h1, h2] <;> rfl
      · rfl
    · rfl

private theorem build_slicers (sl : List WrittenSlicer) :
    (sl.mapM WrittenSlicer.build).map (List.map eraseSlicer) = sl.mapM (fun x => x.erase.build) := by
  induction sl with
  | nil => rfl
  | cons x sl ih =>
    simp only [List.mapM_cons, bind, Except.bind]
    rcases map_inv (build_slicer x) with ⟨k, h1, h2⟩ | ⟨k, h1, h2⟩ <;> rw [h1, h2]
    · simp only
      rcases map_inv ih with ⟨w, h1, h2⟩ | ⟨w, h1, h2⟩ <;> rw [h1, h2] <;> rfl
    · rfl

/-- **C113** (values, from the text of the program) Likewise for slicers as written: declaring numbers of a slicer or of an expression on
`end` as constants does not change the extents of the slice. -/
theorem C113_written_values (s : List Known) (sl : List WrittenSlicer) :
    (do
      let ks ← sl.mapM WrittenSlicer.build
      sliceShapeK s ks).map (List.map Known.coord) = (do
      let xs ← sl.mapM fun x => x.erase.build
      let c ← compressT sl.length (s.map (·.coord))
      (c.zip xs).mapM fun (d, x) => sliceExtentT d x) := by
  rcases map_inv (build_slicers sl) with ⟨ks, h1, h2⟩ | ⟨ks, h1, h2⟩ <;> rw [h1, h2]
  · have hlen : ks.length = sl.length := by
      clear h2
      induction sl generalizing ks with
      | nil => cases h1; rfl
      | cons x sl ih =>
        rw [List.mapM_cons] at h1
        obtain ⟨k, _, h1⟩ := bind_ok h1
        obtain ⟨w, h3, h1⟩ := bind_ok h1
        cases h1
        simp [ih w h3]
    rw [← hlen]
    exact C113_values s ks
  · rfl

/-- `slice(from = end - 3_c, to = end)` and `slice(from = end - n, to = end)` with `n = 3`, on an axis of 8. -/
example (k : Bool) : (do
      let ks ← [WrittenSlicer.interval (some (.ext (.sub .all ⟨⟨.u8, 3⟩, k⟩))) none (some (.ext .all)) none].mapM WrittenSlicer.build
      sliceShapeK [⟨⟨.i32, 8⟩, true⟩] ks) = .ok [⟨⟨.i32, 3⟩, k⟩] := by cases k <;> decide

/-- A 2x4x8 shape, the first two extents known, sliced by `(_, slice(by = 2_c))`. -/
example : sliceShapeK [⟨⟨.i32, 2⟩, true⟩, ⟨⟨.i32, 4⟩, true⟩, ⟨⟨.i32, 8⟩, false⟩] [.joker, .interval none (some ⟨⟨.u8, 2⟩, true⟩) none none] =
    .ok [⟨⟨.i32, 8⟩, true⟩, ⟨⟨.i32, 4⟩, false⟩] := by decide

/-! ## C121

Full property: a container can be sliced by whatever slices its shape, wherever the numbers in the slicers come from. -/

/-- The full property. -/
def C121_statement : Prop :=
  ∀ (md : Mode) (s : List Known) (sl : List WrittenSlicer) (ks : List SlicerK) (shp : List Known),
    sl.mapM WrittenSlicer.build = .ok ks → 0 < sl.length → sl.length ≤ s.length → sliceShapeK s ks = .ok shp →
    originK md s ks ≠ .ok none

/-- **C121** (negation) `v(slice(from = 1_c))` does not compile, for a view of 4 elements, although the shape of `v` can be sliced so;
nor does `v(slice(from = end / 2_c))` when the extent is known at compile time. -/
theorem C121_constant_start_false : ¬ C121_statement ∧
    (do
      let e ← EndK.div .all ⟨⟨.u8, 2⟩, true⟩
      originK .checked [⟨⟨.i32, 4⟩, true⟩] [.interval (some (.ext e)) none none none]) = .ok none := by
  refine ⟨fun h => ?_, by decide⟩
  exact h .checked [⟨⟨.i32, 4⟩, false⟩] [.interval (some (.int ⟨⟨.u8, 1⟩, true⟩)) none none none]
    [.interval (some (.int ⟨⟨.u8, 1⟩, true⟩)) none none none] [⟨⟨.i32, 3⟩, false⟩] rfl (by decide) (by decide) (by decide) (by decide)

private theorem start_static {d : Known} {x : WrittenSlicer} {k : SlicerK} {r : Known} (hk : x.build = .ok k)
    (hr : reindexK d k = .ok r) : r.static = false ↔ x.RunTimeStart d := by
  have key : ∀ {l : List Known}, (r.static = true ↔ ∀ y ∈ l, y.static = true) → (r.static = false ↔ ∃ y ∈ l, y.static = false) := by
    intro l h
    rw [← Bool.not_eq_true, h]
    simp
  cases x with
  | joker => cases hk; cases hr; simp [WrittenSlicer.RunTimeStart]
  | index i => cases hk; cases hr; rfl
  | ext e =>
    obtain ⟨k1, e1, h⟩ := bind_ok hk
    cases h
    refine key ?_
    rw [C113_end_expressions d e e1 hr]
    simp
  | interval b s e l =>
    obtain ⟨bk, eb, h⟩ := bind_ok hk
    obtain ⟨ek, ee, h⟩ := bind_ok h
    obtain ⟨lk, el, h⟩ := bind_ok h
    cases h
    cases b with
    | none =>
      cases eb
      obtain ⟨v, ev, h⟩ := bind_ok hr
      cases h
      simp [WrittenSlicer.RunTimeStart]
    | some b =>
      obtain ⟨bk', eb', h⟩ := bind_ok eb
      cases h
      exact key (value_static eb' hr)

/-- **C121** (partial, exact) A slice of a container compiles exactly if every start that is written depends on some number known at
run time only.  Missing: the other slices (false). -/
theorem C121_exact_partial (md : Mode) (s c : List Known) (sl : List WrittenSlicer) (ks : List SlicerK) (r : Option Coord)
    (hb : sl.mapM WrittenSlicer.build = .ok ks) (hc : compressK sl.length s = .ok c) (hr : originK md s ks = .ok r) :
    r.isSome = true ↔ ∀ p ∈ c.zip sl, p.2.RunTimeStart p.1 := by
  have hlen : ∀ {sl : List WrittenSlicer} {ks : List SlicerK}, sl.mapM WrittenSlicer.build = .ok ks → ks.length = sl.length := by
    intro sl
    induction sl with
    | nil => intro ks h; cases h; rfl
    | cons x sl ih =>
      intro ks h
      rw [List.mapM_cons] at h
      obtain ⟨k, ek, h⟩ := bind_ok h
      obtain ⟨ks', eks, h⟩ := bind_ok h
      cases h
      simp [ih eks]
  have hall : ∀ (c : List Known) (sl : List WrittenSlicer) (ks : List SlicerK) (idx : List Known),
      sl.mapM WrittenSlicer.build = .ok ks → ((c.zip ks).mapM fun (d, x) => reindexK d x) = .ok idx →
      ((idx.all fun i => !i.static) = true ↔ ∀ p ∈ c.zip sl, p.2.RunTimeStart p.1) := by
    intro c
    induction c with
    | nil => intro sl ks idx h1 h2; cases h2; simp
    | cons d c ih =>
      intro sl ks idx h1 h2
      cases sl with
      | nil => cases h1; cases h2; simp
      | cons x sl =>
        rw [List.mapM_cons] at h1
        obtain ⟨k, ek, h1⟩ := bind_ok h1
        obtain ⟨ks', eks, h1⟩ := bind_ok h1
        cases h1
        rw [List.zip_cons_cons, List.mapM_cons] at h2
        obtain ⟨i, ei, h2⟩ := bind_ok h2
        obtain ⟨is, eis, h2⟩ := bind_ok h2
        cases h2
        have h3 := start_static ek ei
        have h4 := ih sl ks' is eks eis
        rw [List.all_cons, Bool.and_eq_true, h4, Bool.not_eq_true', h3]
        simp
  unfold originK at hr
  rw [hlen hb, hc] at hr
  obtain ⟨c', ec, hr⟩ := bind_ok hr
  cases ec
  obtain ⟨idx, ei, hr⟩ := bind_ok hr
  rw [← hall c sl ks idx hb ei]
  split at hr
  · next h =>
    obtain ⟨o, eo, hr⟩ := bind_ok hr
    cases hr
    simp [h]
  · next h =>
    cases hr
    simpa using h

example := C121_exact_partial .checked [⟨⟨.i32, 4⟩, false⟩, ⟨⟨.i32, 6⟩, true⟩] [⟨⟨.i32, 4⟩, false⟩, ⟨⟨.i32, 6⟩, true⟩]
  [.interval (some (.int ⟨⟨.i32, 2⟩, false⟩)) none none none, .interval none (some ⟨⟨.u8, 2⟩, true⟩) none none]
  [.interval (some (.int ⟨⟨.i32, 2⟩, false⟩)) none none none, .interval none (some ⟨⟨.u8, 2⟩, true⟩) none none] (some ⟨.i32, 12⟩) rfl
  (by decide) (by decide)

private theorem reindex_map (d : Known) (x : SlicerK) : (reindexK d x).map (·.coord) = reindexT d.coord (eraseSlicer x) := by
  cases x with
  | joker => rfl
  | index i => rfl
  | ext e => exact size_map e d
  | interval b s e l =>
    cases b with
    | none =>
      simp only [reindexK, eraseSlicer, Option.map_none]
      cases s with
      | none => rfl
      | some s =>
        simp only [Option.map_some, reindexT]
        split
        · rfl
        · cases constSub d.coord ⟨.i32, 1⟩ <;> rfl
    | some b => exact value_map b d

/-- **C121** (values) A slice that compiles starts where it starts when all its numbers are known at run time only. -/
theorem C121_values (md : Mode) (s : List Known) (sl : List SlicerK) (o : Coord) (h : originK md s sl = .ok (some o)) :
    (do
      let c ← compressT sl.length (s.map Known.coord)
      let idx ← (c.zip (sl.map eraseSlicer)).mapM fun (d, x) => reindexT d x
      linearIndexT md c idx) = .ok o := by
  have hm : ∀ (c : List Known) (sl : List SlicerK),
      ((c.zip sl).mapM fun (d, x) => reindexK d x).map (List.map Known.coord) =
        ((c.map (·.coord)).zip (sl.map eraseSlicer)).mapM fun (d, x) => reindexT d x := by
    intro c
    induction c with
    | nil => intro sl; rfl
    | cons d c ih =>
      intro sl
      cases sl with
      | nil => rfl
      | cons x sl =>
        simp only [List.zip_cons_cons, List.map_cons, List.mapM_cons, bind, Except.bind]
        rcases map_inv (reindex_map d x) with ⟨z, h1, h2⟩ | ⟨z, h1, h2⟩ <;> rw [h1, h2]
        · simp only
          rcases map_inv (ih sl) with ⟨w, h1, h2⟩ | ⟨w, h1, h2⟩ <;> rw [h1, h2] <;> rfl
        · rfl
  obtain ⟨c, ec, h⟩ := bind_ok h
  obtain ⟨idx, ei, h⟩ := bind_ok h
  rw [← compress_map, ec]
  simp only [Except.map, bind, Except.bind]
  rw [← hm, ei]
  simp only [Except.map]
  split at h
  · obtain ⟨o', eo, h⟩ := bind_ok h
    cases h
    exact eo
  · cases h

example := C121_values .checked [⟨⟨.i32, 4⟩, false⟩, ⟨⟨.i32, 6⟩, true⟩]
  [.interval (some (.int ⟨⟨.i32, 2⟩, false⟩)) none none none, .interval none (some ⟨⟨.u8, 2⟩, true⟩) none none] ⟨.i32, 12⟩ (by decide)

/-- **C121** (values, from the text of the program) Likewise for slicers as written. -/
theorem C121_written_values (md : Mode) (s : List Known) (sl : List WrittenSlicer) (ks : List SlicerK) (o : Coord)
    (hb : sl.mapM WrittenSlicer.build = .ok ks) (h : originK md s ks = .ok (some o)) :
    (do
      let xs ← sl.mapM fun x : WrittenSlicer => x.erase.build
      let c ← compressT sl.length (s.map Known.coord)
      let idx ← (c.zip xs).mapM fun (d, x) => reindexT d x
      linearIndexT md c idx) = .ok o := by
  have hlen : ks.length = sl.length := by
    clear h
    induction sl generalizing ks with
    | nil => cases hb; rfl
    | cons x sl ih =>
      rw [List.mapM_cons] at hb
      obtain ⟨k, _, h1⟩ := bind_ok hb
      obtain ⟨w, h3, h1⟩ := bind_ok h1
      cases h1
      simp [ih w h3]
  rw [← build_slicers sl, hb, ← hlen]
  exact C121_values md s ks o h

/-- Rows `n` to the end and every second column of a 4x6 view, the number of columns being known at compile time. -/
example : originK .checked [⟨⟨.i32, 4⟩, false⟩, ⟨⟨.i32, 6⟩, true⟩]
      [.interval (some (.int ⟨⟨.i32, 2⟩, false⟩)) none none none, .interval none (some ⟨⟨.u8, 2⟩, true⟩) none none] =
    .ok (some ⟨.i32, 12⟩) := by decide
example : (WrittenSlicer.interval (some (.ext (.sub .all ⟨⟨.i32, 2⟩, false⟩))) none none none).RunTimeStart ⟨⟨.i32, 6⟩, true⟩ :=
  ⟨⟨⟨.i32, 2⟩, false⟩, by simp [WrittenBound.numbers, EndExprK.numbers], rfl⟩

end Kwk
