import Verif.Model.TypedViews
import Verif.Spec.Machine
import Verif.Lemmas.Mixed
import Verif.Lemmas.Typed
import Verif.Lemmas.Mirror
import Verif.Lemmas.Slice

/-! # Lemmas: typed numbers that represent an integer, possibly modulo `2^64` -/

namespace Kwk
open Spec

/-- The typed number stands for `v`: it is `v`, or `v` modulo `2^64` in the unsigned 64-bit type. -/
structure Rep (c : Coord) (v : Int) : Prop where
  plain : NotUnsignedInt c.type
  small : I32 v
  value : c.value = v ∨ (c.type = .u64 ∧ c.value = IntType.u64.wrap v)

theorem common_plain {t u : IntType} (ht : NotUnsignedInt t) (hu : NotUnsignedInt u) :
    NotUnsignedInt (t.common u) ∧ ((t.common u).signed = true ∧ t ≠ .u64 ∧ u ≠ .u64 ∧ 32 ≤ (t.common u).bits ∨
      t.common u = .u64) := by
  simp only [NotUnsignedInt, List.mem_cons, List.not_mem_nil, or_false] at ht hu
  rcases ht with rfl | rfl | rfl | rfl | rfl | rfl | rfl <;>
    rcases hu with rfl | rfl | rfl | rfl | rfl | rfl | rfl <;> decide

theorem promote_plain {t : IntType} (ht : NotUnsignedInt t) :
    NotUnsignedInt t.promote ∧ (t.promote.signed = true ∧ t ≠ .u64 ∧ 32 ≤ t.promote.bits ∨ t.promote = .u64) := by
  simp only [NotUnsignedInt, List.mem_cons, List.not_mem_nil, or_false] at ht
  rcases ht with rfl | rfl | rfl | rfl | rfl | rfl | rfl <;> decide

theorem fits_signed {t : IntType} (hs : t.signed = true) (hb : 32 ≤ t.bits) {v : Int} (h : I32 v) : t.Fits v := by
  have : (2 : Int) ^ 32 ≤ 2 ^ t.bits := pow_le_pow_right₀ (by decide) hb
  unfold IntType.Fits IntType.lo IntType.hi
  rw [if_pos hs, if_pos hs]
  have := h.1; have := h.2
  omega

theorem Rep.exact {c : Coord} {v : Int} (h : Rep c v) (h0 : 0 ≤ v) : c.value = v := by
  rcases h.value with e | ⟨-, e⟩
  · exact e
  · rw [e]
    exact IntType.wrap_fits (IntType.fits_of_bits (by decide) h0 h.small.2)

theorem Rep.mk_exact {t : IntType} {v : Int} (ht : NotUnsignedInt t) (h : I32 v) : Rep ⟨t, v⟩ v := ⟨ht, h, .inl rfl⟩

/-- The value converted to the unsigned 64-bit type. -/
theorem Rep.u64 {c : Coord} {v : Int} (h : Rep c v) : IntType.u64.wrap c.value = IntType.u64.wrap v := by
  rcases h.value with e | ⟨-, e⟩
  · rw [e]
  · rw [e, IntType.wrap_wrap le_rfl]

theorem Rep.signed {c : Coord} {v : Int} (h : Rep c v) (hc : c.type ≠ .u64) : c.value = v := by
  rcases h.value with e | ⟨e, -⟩
  · exact e
  · exact absurd e hc

theorem Rep.ptr {c : Coord} {v : Int} (h : Rep c v) (off : Int) : ptrAdd off c = off + v := by
  have hv : IntType.i64.wrap v = v := IntType.wrap_fits (fits_signed rfl (by decide) h.small)
  unfold ptrAdd
  rcases h.value with e | ⟨-, e⟩
  · rw [e, hv]
  · rw [e, IntType.wrap_wrap (by decide), hv]

/-- An operation that respects congruences. -/
def Modular (f : Int → Int → Int) : Prop :=
  ∀ (t : IntType) (a b : Int), t.wrap (f (t.wrap a) (t.wrap b)) = t.wrap (f a b)

theorem modular_add : Modular (· + ·) := fun t a b => IntType.wrap_add_wrap t a b
theorem modular_mul : Modular (· * ·) := fun t a b => IntType.wrap_mul_wrap t a b
theorem modular_sub : Modular (· - ·) := fun t a b => IntType.wrap_congr (by
  show (t.wrap a - t.wrap b) % _ = (a - b) % _
  rw [Int.sub_emod, IntType.wrap_mod, IntType.wrap_mod, ← Int.sub_emod])

theorem rep_op {f : Int → Int → Int} (hf : Modular f) {a b : Coord} {v w : Int} (ha : Rep a v) (hb : Rep b w)
    (h : I32 (f v w)) : ∃ r, constOp f a b = .ok r ∧ Rep r (f v w) ∧ r.type = a.type.common b.type := by
  obtain ⟨hp, hc | hc⟩ := common_plain ha.plain hb.plain
  · refine ⟨⟨a.type.common b.type, f v w⟩, ?_, .mk_exact hp h, rfl⟩
    unfold constOp
    simp only
    rw [ha.signed hc.2.1, hb.signed hc.2.2.1, IntType.wrap_fits (fits_signed hc.1 hc.2.2.2 ha.small),
      IntType.wrap_fits (fits_signed hc.1 hc.2.2.2 hb.small), IntType.op_fits (fits_signed hc.1 hc.2.2.2 h)]
    rfl
  · refine ⟨⟨.u64, IntType.u64.wrap (f v w)⟩, ?_, ⟨show NotUnsignedInt .u64 by decide, h, .inr ⟨rfl, rfl⟩⟩, hc.symm⟩
    unfold constOp
    simp only
    rw [hc, ha.u64, hb.u64]
    unfold IntType.op
    rw [if_neg (by decide), hf]
    rfl

theorem rep_neg {a : Coord} {v : Int} (ha : Rep a v) : ∃ r, constNeg a = .ok r ∧ Rep r (-v) := by
  have h : I32 (-v) := ⟨by have := ha.small.2; omega, by have := ha.small.1; omega⟩
  obtain ⟨hp, hc | hc⟩ := promote_plain ha.plain
  · refine ⟨⟨a.type.promote, -v⟩, ?_, .mk_exact hp h⟩
    unfold constNeg
    simp only
    rw [ha.signed hc.2.1, IntType.wrap_fits (fits_signed hc.1 hc.2.2 ha.small),
      IntType.op_fits (fits_signed hc.1 hc.2.2 h)]
    rfl
  · refine ⟨⟨.u64, IntType.u64.wrap (-v)⟩, ?_, ⟨show NotUnsignedInt .u64 by decide, h, .inr ⟨rfl, rfl⟩⟩⟩
    unfold constNeg
    simp only
    rw [hc, ha.u64]
    unfold IntType.op
    rw [if_neg (by decide)]
    have := modular_sub .u64 0 v
    simp only [zero_sub] at this
    rw [← this, show IntType.u64.wrap 0 = 0 by decide, zero_sub]
    rfl

/-- `linearize` on represented strides and coordinates. -/
theorem rep_linearize {st is : List Coord} {g i : List Int} (hst : List.Forall₂ Rep st g) (his : List.Forall₂ Rep is i)
    {acc : Coord} {a : Int} (ha : Rep acc a) (hsum : |a| + ((g.zipWith (· * ·) i).map (|·|)).sum < 2147483648) :
    ∃ r, (st.zip is).foldlM (fun acc (gi : Coord × Coord) => do constAdd acc (← constMul gi.1 gi.2)) acc =
      (.ok r : Res Coord) ∧ Rep r (a + linearize g i) := by
  induction hst generalizing is i acc a with
  | nil => exact ⟨acc, rfl, by simpa [linearize] using ha⟩
  | @cons x v st g hx _ ih =>
    cases his with
    | nil => exact ⟨acc, rfl, by simpa [linearize] using ha⟩
    | @cons y w is i hy his =>
      rw [List.zipWith_cons_cons, List.map_cons, List.sum_cons] at hsum
      have hnn : 0 ≤ ((g.zipWith (· * ·) i).map (|·|)).sum := by
        apply List.sum_nonneg
        simp only [List.mem_map]
        rintro _ ⟨z, _, rfl⟩
        exact abs_nonneg z
      have h1 : I32 (v * w) := by
        have := abs_nonneg a
        exact abs_lt.1 (by omega)
      have hs := abs_add_le a (v * w)
      have h2 : I32 (a + v * w) := abs_lt.1 (by omega)
      obtain ⟨m, em, hm, -⟩ := rep_op modular_mul hx hy h1
      obtain ⟨s, es, hs', -⟩ := rep_op modular_add ha hm h2
      obtain ⟨r, er, hr⟩ := ih his hs' (by omega)
      refine ⟨r, ?_, ?_⟩
      · rw [List.zip_cons_cons, List.foldlM_cons]
        simp only [bind, Except.bind] at er ⊢
        rw [show constMul x y = _ from em]
        simp only
        rw [show constAdd acc m = _ from es]
        exact er
      · rw [linearize_cons, ← add_assoc]
        exact hr

theorem abs_sum_box {s p : List Int} (hp : InBox s p) {e : List Int} (he : List.Forall₂ (fun i j => |j| ≤ i) p e) :
    (((sfx s).zipWith (· * ·) e).map (|·|)).sum ≤ linearize (sfx s) p := by
  induction hp generalizing e with
  | nil => cases he; simp [linearize, sfx]
  | @cons d i s p h t ih =>
    cases he with
    | @cons _ j _ e h1 h2 =>
      have := ih h2
      have hp : 0 < s.prod := Spec.InBox.prod_pos t
      simp only [sfx, List.zipWith_cons_cons, List.map_cons, List.sum_cons, linearize_cons]
      rw [abs_mul, abs_of_pos hp]
      nlinarith

theorem rep_fixedOne : Rep fixedOne 1 := ⟨by decide, by unfold I32; omega, .inl rfl⟩

theorem rep_asStride_fold {s : List Coord} (hp : ∀ c ∈ s, NotUnsignedInt c.type) (hs : ∀ d ∈ vals s, 0 < d)
    (hf : (vals s).prod < 2147483648) :
    ∃ r, kumiFoldLeft (fun (a : Res (List Coord)) (m : Coord) => do
      let a ← a
      let g ← constMul m (a.headD fixedOne)
      pure (g :: a)) s (pure [fixedOne]) = .ok r ∧ List.Forall₂ Rep r ((vals s).prod :: sfx (vals s)) := by
  unfold kumiFoldLeft
  induction s with
  | nil => exact ⟨[fixedOne], rfl, .cons rep_fixedOne .nil⟩
  | cons d s ih =>
    have hs' : ∀ d ∈ vals s, 0 < d := fun x hx => hs x (List.mem_cons_of_mem _ hx)
    have h0 : 0 < (vals s).prod := by rw [← padded_eq_prod hs']; have := paddedCount_pos (vals s); omega
    have hd : 0 < d.value := hs _ (by simp)
    rw [show vals (d :: s) = d.value :: vals s from rfl, List.prod_cons] at hf
    have hlt : (vals s).prod < 2147483648 := by nlinarith
    have hdl : d.value < 2147483648 := by nlinarith
    obtain ⟨r, e, hr⟩ := ih (fun c hc => hp c (by simp [hc])) hs' hlt
    rw [List.foldr_cons, e]
    cases hr with
    | @cons a _ r _ ha hr =>
      obtain ⟨g, eg, hg, -⟩ := rep_op modular_mul (a := d) (v := d.value)
        ⟨hp d (by simp), ⟨by omega, hdl⟩, .inl rfl⟩ ha ⟨by nlinarith, hf⟩
      refine ⟨g :: a :: r, ?_, ?_⟩
      · simp only [bind, Except.bind, List.headD_cons]
        rw [show constMul d a = _ from eg]
        rfl
      · rw [show vals (d :: s) = d.value :: vals s from rfl, List.prod_cons]
        exact .cons hg (.cons ha hr)

theorem rep_asStride {s : List Coord} (hp : ∀ c ∈ s, NotUnsignedInt c.type) (hs : ∀ d ∈ vals s, 0 < d)
    (hf : (vals s).prod < 2147483648) : ∃ r, asStrideT s = .ok r ∧ List.Forall₂ Rep r (sfx (vals s)) := by
  match s with
  | [] => exact ⟨[], rfl, .nil⟩
  | [d] => exact ⟨[fixedOne], rfl, .cons rep_fixedOne .nil⟩
  | d :: e :: ds =>
    have hd : 0 < d.value := hs _ (by simp)
    have h0 : 0 < (vals (e :: ds)).prod := by
      rw [← padded_eq_prod fun x hx => hs x (List.mem_cons_of_mem _ hx)]; exact lt_of_lt_of_le zero_lt_one (paddedCount_pos _)
    rw [show vals (d :: e :: ds) = d.value :: vals (e :: ds) from rfl, List.prod_cons] at hf
    exact rep_asStride_fold (s := e :: ds) (fun c hc => hp c (List.mem_cons_of_mem _ hc))
      (fun x hx => hs x (List.mem_cons_of_mem _ hx)) (by nlinarith)

theorem rep_negs {st : List Coord} {g : List Int} (h : List.Forall₂ Rep st g) :
    ∃ r, st.mapM constNeg = .ok r ∧ List.Forall₂ Rep r (g.map fun m => -m) := by
  induction h with
  | nil => exact ⟨[], rfl, .nil⟩
  | @cons x v st g hx _ ih =>
    obtain ⟨r, e, hr⟩ := ih
    obtain ⟨y, ey, hy⟩ := rep_neg hx
    refine ⟨y :: r, ?_, .cons hy hr⟩
    rw [List.mapM_cons, ey, e]
    rfl

/-- Coordinates of a valid position. -/
theorem rep_inBox {s p : List Coord} (hp : InBox (vals s) (vals p)) (ht : ∀ c ∈ p, NotUnsignedInt c.type)
    (hf : ∀ d ∈ vals s, d ≤ 2147483648) : List.Forall₂ Rep p (vals p) := by
  induction s generalizing p with
  | nil => cases p with
    | nil => exact .nil
    | cons => cases hp
  | cons d s ih =>
    cases p with
    | nil => cases hp
    | cons c p =>
      obtain ⟨h, t⟩ := inBox_cons.1 hp
      have h : 0 ≤ c.value ∧ c.value < d.value := h
      refine .cons ⟨ht c (by simp), ⟨by omega, ?_⟩, .inl rfl⟩
        (ih t (fun c hc => ht c (by simp [hc])) fun x hx => hf x (List.mem_cons_of_mem _ hx))
      exact lt_of_lt_of_le h.2 (hf d.value (by simp))

theorem abs_zipWith_neg (g i : List Int) :
    ((g.map fun m => -m).zipWith (· * ·) i).map (|·|) = (g.zipWith (· * ·) i).map (|·|) := by
  induction g generalizing i with
  | nil => rfl
  | cons v g ih =>
    cases i with
    | nil => rfl
    | cons w i => simp [ih, neg_mul, abs_neg]

theorem numelT_fold_i64 {s : List Coord} (ht : ∀ c ∈ s, c.type = .i64) (hs : ∀ d ∈ vals s, 0 < d)
    (hf : (vals s).prod < 2 ^ 63) :
    ∃ t, kumiFoldLeft (fun (a : Res Coord) (b : Coord) => do constMul (← a) b) s (pure fixedOne) =
      .ok ⟨t, (vals s).prod⟩ ∧ (t = .i32 ∨ t = .i64) := by
  unfold kumiFoldLeft
  induction s with
  | nil => exact ⟨.i32, rfl, .inl rfl⟩
  | cons d s ih =>
    have hs' : ∀ d ∈ vals s, 0 < d := fun x hx => hs x (List.mem_cons_of_mem _ hx)
    have h0 : 0 < (vals s).prod := by rw [← padded_eq_prod hs']; exact lt_of_lt_of_le zero_lt_one (paddedCount_pos _)
    have hd : 0 < d.value := hs _ (by simp)
    rw [show vals (d :: s) = d.value :: vals s from rfl, List.prod_cons] at hf ⊢
    have hlt : (vals s).prod < 2 ^ 63 := by nlinarith
    have hdl : d.value < 2 ^ 63 := by nlinarith
    obtain ⟨t, e, ht'⟩ := ih (fun c hc => ht c (by simp [hc])) hs' hlt
    have hty : t.common d.type = .i64 := by
      rw [ht d (by simp)]
      rcases ht' with rfl | rfl <;> rfl
    have fits : ∀ v : Int, 0 ≤ v → v < 2 ^ 63 → IntType.i64.Fits v := by
      intro v h1 h2
      exact ⟨le_trans (by decide) h1, h2⟩
    refine ⟨.i64, ?_, .inr rfl⟩
    rw [List.foldr_cons, e]
    simp only [bind, Except.bind]
    unfold constMul constOp
    simp only
    rw [hty, IntType.wrap_fits (fits _ h0.le hlt), IntType.wrap_fits (fits _ hd.le hdl),
      IntType.op_fits (fits _ (by positivity) (by rwa [mul_comm])), mul_comm]
    rfl

theorem inBox_coords_nonneg {s p : List Int} (h : InBox s p) : ∀ i ∈ p, 0 ≤ i := by
  induction h with
  | nil => simp
  | @cons d i s p h _ ih =>
    intro x hx
    rcases List.mem_cons.1 hx with rfl | hx
    · exact h.1
    · exact ih x hx

/-- A 32-bit number that stands for `v` modulo `2^32`. -/
def Mod32 (c : Coord) (v : Int) : Prop := (c.type = .i32 ∨ c.type = .u32) ∧ IntType.u32.wrap c.value = IntType.u32.wrap v

theorem mod32_op {f : Int → Int → Int} (hf : Modular f) {a b : Coord} {v w : Int} (ha : Mod32 a v) (hb : Mod32 b w)
    (h : a.type = .u32 ∨ b.type = .u32) :
    constOp f a b = .ok ⟨.u32, IntType.u32.wrap (f v w)⟩ := by
  have hc : a.type.common b.type = .u32 := by
    rcases ha.1 with e | e <;> rcases hb.1 with e' | e' <;> rw [e, e'] <;> rw [e, e'] at h <;> first | rfl | (revert h; decide)
  unfold constOp
  simp only
  rw [hc, ha.2, hb.2]
  unfold IntType.op
  rw [if_neg (by decide), hf]
  rfl

theorem mod32_u32 (v : Int) : Mod32 ⟨.u32, IntType.u32.wrap v⟩ v := ⟨.inr rfl, IntType.wrap_wrap le_rfl v⟩

theorem mod32_linearize {st is : List Coord} {g : List Int} (hst : List.Forall₂ Mod32 st g) (his : ∀ c ∈ is, c.type = .u32)
    (hlen : st.length = is.length) {acc : Coord} {a : Int} (ha : Mod32 acc a) :
    ∃ r, (st.zip is).foldlM (fun acc (gi : Coord × Coord) => do constAdd acc (← constMul gi.1 gi.2)) acc =
      (.ok r : Res Coord) ∧ Mod32 r (a + linearize g (vals is)) ∧ (st ≠ [] → r = ⟨.u32, IntType.u32.wrap (a + linearize g (vals is))⟩) := by
  induction hst generalizing is acc a with
  | nil => exact ⟨acc, rfl, by simpa [linearize] using ha, by simp⟩
  | @cons x v st g hx _ ih =>
    cases is with
    | nil => simp at hlen
    | cons y is =>
      have em := mod32_op modular_mul hx (b := y) (w := y.value) ⟨.inr (his y (by simp)), rfl⟩ (.inr (his y (by simp)))
      have es := mod32_op modular_add ha (mod32_u32 (v * y.value)) (.inr rfl)
      obtain ⟨r, er, hr, hr'⟩ := ih (is := is) (fun c hc => his c (by simp [hc])) (by simpa using hlen) (mod32_u32 (a + v * y.value))
      refine ⟨r, ?_, ?_, fun _ => ?_⟩
      · rw [List.zip_cons_cons, List.foldlM_cons]
        simp only [bind, Except.bind] at er ⊢
        rw [show constMul x y = _ from em]
        simp only
        rw [show constAdd acc _ = _ from es]
        exact er
      · rw [vals, List.map_cons, linearize_cons, ← add_assoc]
        exact hr
      · rw [vals, List.map_cons, linearize_cons, ← add_assoc]
        cases st with
        | nil =>
          simp only [List.zip_nil_left, List.foldlM_nil] at er
          cases er
          have : is = [] := by cases is with
            | nil => rfl
            | cons => simp at hlen
          subst this
          simp [linearize]
        | cons => exact hr' (by simp)

theorem mod32_negs {st : List Coord} {g : List Int} (h : List.Forall₂ (fun c v => (c.type = .i32 ∨ c.type = .u32) ∧ c.value = v ∧ Small v) st g) :
    ∃ r, st.mapM constNeg = .ok r ∧ List.Forall₂ Mod32 r (g.map fun m => -m) := by
  induction h with
  | nil => exact ⟨[], rfl, .nil⟩
  | @cons x v st g hx _ ih =>
    obtain ⟨r, e, hr⟩ := ih
    have : ∃ y, constNeg x = .ok y ∧ Mod32 y (-v) := by
      obtain ⟨xt, xv⟩ := x
      obtain ⟨h1, rfl, h3⟩ := hx
      have h3 : 0 ≤ xv ∧ xv < 2147483648 := h3
      rcases h1 with h1 | h1 <;> simp only at h1 <;> subst h1
      · refine ⟨⟨.i32, -xv⟩, ?_, .inl rfl, rfl⟩
        unfold constNeg
        simp only
        rw [show IntType.i32.promote = .i32 from rfl, IntType.wrap_fits (fits_signed rfl (by decide) ⟨by simp only; omega, h3.2⟩),
          IntType.op_fits (fits_signed rfl (by decide) ⟨by simp only; omega, by simp only; omega⟩)]
        rfl
      · refine ⟨⟨.u32, IntType.u32.wrap (-xv)⟩, ?_, mod32_u32 _⟩
        unfold constNeg
        simp only
        rw [show IntType.u32.promote = .u32 from rfl, IntType.wrap_fits (IntType.fits_of_bits (by decide) h3.1 h3.2)]
        unfold IntType.op
        rw [if_neg (by decide)]
        rfl
    obtain ⟨y, ey, hy⟩ := this
    refine ⟨y :: r, ?_, .cons hy hr⟩
    rw [List.mapM_cons, ey, e]
    rfl

theorem constOp_type {f : Int → Int → Int} {a b r : Coord} (h : constOp f a b = .ok r) : r.type = a.type.common b.type := by
  unfold constOp at h
  simp only [bind, Except.bind] at h
  split at h
  · cases h
  · cases h; rfl

theorem asStrideT_types {s r : List Coord} (hs : ∀ c ∈ s, c.type = .u32) (h : asStrideT s = .ok r) :
    ∀ c ∈ r, c.type = .i32 ∨ c.type = .u32 := by
  have fold : ∀ (s : List Coord), (∀ c ∈ s, c.type = .u32) → ∀ r,
      kumiFoldLeft (fun (a : Res (List Coord)) (m : Coord) => do
        let a ← a
        let g ← constMul m (a.headD fixedOne)
        pure (g :: a)) s (pure [fixedOne]) = .ok r → ∀ c ∈ r, c.type = .i32 ∨ c.type = .u32 := by
    intro s hs
    unfold kumiFoldLeft
    induction s with
    | nil =>
      intro r e
      cases e
      simp [fixedOne]
    | cons d s ih =>
      intro r e
      rw [List.foldr_cons] at e
      simp only [bind, Except.bind] at e ih
      split at e
      · cases e
      rename_i a ea
      split at e
      · cases e
      rename_i g eg
      cases e
      have ha := ih (fun c hc => hs c (by simp [hc])) a ea
      have hh : (a.headD fixedOne).type = .i32 ∨ (a.headD fixedOne).type = .u32 := by
        cases a with
        | nil => exact .inl rfl
        | cons x a => exact ha x (by simp)
      intro c hc
      rcases List.mem_cons.1 hc with rfl | hc
      · right
        rw [constOp_type eg, hs d (by simp)]
        rcases hh with e | e <;> rw [e] <;> rfl
      · exact ha c hc
  match s with
  | [] => cases h; simp
  | [d] => cases h; simp [fixedOne]
  | d :: e :: ds => exact fold (e :: ds) (fun c hc => hs c (List.mem_cons_of_mem _ hc)) r h

theorem inBox_small {s p : List Int} (h : InBox s p) (hf : ∀ d ∈ s, d ≤ 2147483648) : ∀ i ∈ p, Small i := by
  induction h with
  | nil => simp
  | @cons d i s p h _ ih =>
    intro x hx
    rcases List.mem_cons.1 hx with rfl | hx
    · exact ⟨h.1, by have := hf d (by simp); omega⟩
    · exact ih (fun d hd => hf d (by simp [hd])) x hx

theorem constSub_exact {a b : Coord} (ha : (a.type.common b.type).Fits a.value) (hb : Small b.value)
    (h : Small (a.value - b.value)) : constSub a b = .ok ⟨a.type.common b.type, a.value - b.value⟩ := by
  have hb32 := IntType.common_bits a.type b.type
  unfold constSub constOp
  simp only
  rw [IntType.wrap_fits ha, IntType.wrap_fits (IntType.fits_of_bits hb32 hb.1 hb.2),
    IntType.op_fits (IntType.fits_of_bits hb32 h.1 h.2)]
  rfl

/-- `get<i>(shape) - 1 - r`. -/
theorem mirror_axis {d : Coord} {r : Int} (hd : d.type.Fits d.value) (hf : d.value ≤ 2147483648) (h0 : 0 ≤ r) (h1 : r < d.value) :
    (do
      let v ← constSub (← constSub d ⟨.i32, 1⟩) ⟨.i32, r⟩
      pure (IntType.i32.wrap v.value)) = (.ok (d.value - 1 - r) : Res Int) := by
  have hfit : (d.type.common .i32).Fits d.value := by
    by_cases hs : (d.type.common .i32).signed = true
    · exact IntType.common_fits hd hs
    · have hb := IntType.common_bits d.type .i32
      have : (2 : Int) ^ 32 ≤ 2 ^ (d.type.common .i32).bits := pow_le_pow_right₀ (by decide) hb
      unfold IntType.Fits IntType.lo IntType.hi
      rw [if_neg hs, if_neg hs]
      omega
  rw [constSub_exact (b := ⟨.i32, 1⟩) hfit ⟨by simp only; omega, by simp only; omega⟩ ⟨by simp only; omega, by simp only; omega⟩]
  simp only [bind, Except.bind]
  rw [constSub_exact (a := ⟨_, d.value - 1⟩) (b := ⟨.i32, r⟩)
    (IntType.fits_of_bits (IntType.common_bits _ _) (by simp only; omega) (by simp only; omega))
    ⟨h0, by simp only; omega⟩ ⟨by simp only; omega, by simp only; omega⟩]
  simp only
  rw [IntType.wrap_fits (IntType.fits_of_bits (by decide) (by omega) (by omega))]
  rfl

end Kwk
