import Verif.Lemmas.TypedPrint
import Verif.Props.Texts

/-!
# Properties C104, C105: texts of numbers of all integer types
-/

namespace Kwk
open Spec

/-! ## C104

Full property: written `end` expressions, slicers and ratios show the values of their numbers, whatever the types of these numbers and
whether they are constants.  False for offsets of unsigned types, which are written without a sign, and for numbers of
8-bit types, which are written as characters (`C104_numbers_false`).  Expressions that already fail C77 are left out. -/

/-- All integer types. -/
def AnyType (t : IntType) : Prop := t ∈ [IntType.i8, .u8, .i16, .u16, .i32, .u32, .i64, .u64]

instance (t : IntType) : Decidable (AnyType t) := by unfold AnyType; infer_instance

/-- Expressions for which C77 holds. -/
def Plain (e : EndExprT) : Prop := e.erase.NoZeroDiv ∧ (e.divisor = 1 ∨ e.offset = 0)

/-- The value of a bound for an extent `d`. -/
def shownValue (d : ℚ) : BoundT → ℚ
  | .int i => i.value
  | .ext e => e.erase.value d

/-- The full property, for `end` expressions. -/
def C104_end_statement : Prop :=
  ∀ (e : EndExprT) (c : EndC) (k : Bool × Bool × Bool) (n : Int), e.Moderate AnyType → Plain e → e.build = .ok c →
    readText (c.print k) n = some (e.erase.value n)

/-- The full property, for slicers without length. -/
def C104_slicer_statement : Prop :=
  ∀ (begin stop : Option BoundT) (step : Option Coord) (b e : Option BoundC) (kb ke : Bool × Bool × Bool) (ks : Bool)
    (d : Int), begin.mapM BoundT.build = .ok b → stop.mapM BoundT.build = .ok e →
    (∀ x, begin = some (.ext x) ∨ stop = some (.ext x) → x.Moderate AnyType ∧ Plain x) →
    readSlicer (slicerPrint kb ks ke b step e) d =
      some ((begin.map (shownValue d)).getD 0, (((step.map (·.value)).getD 1 : Int) : ℚ), (stop.map (shownValue d)).getD d)

/-- **C104** (partial, `end` expressions) True when all numbers have types that compute as signed numbers. Missing: `unsigned`
types of 32 and 64 bits (false). -/
theorem C104_end_partial (e : EndExprT) (h : e.Moderate ComputesSigned) (hp : Plain e) :
    ∃ c, e.build = .ok c ∧ ∀ (k : Bool × Bool × Bool) (n : Int), readText (c.print k) n = some (e.erase.value n) := by
  obtain ⟨c, hc, hs⟩ := signed_build h
  refine ⟨c, hc, fun k n => ?_⟩
  rw [read_signed hs, ← read_render]
  exact (C77_text_partial e.erase hp.1 n).2 hp.2

example := C104_end_partial (.sub (.mul .all ⟨.i64, 2⟩) ⟨.u8, 3⟩)
  ⟨⟨trivial, by decide, by decide, by decide, by decide⟩, by decide, by decide, by decide, by decide⟩ ⟨trivial, .inl (by decide)⟩

/-- How the bound must be given to be written well: no run-time number of 8 bits. -/
def Spec.BoundT.Written (k : Bool) : BoundT → Prop
  | .int i => i.type.bits ≠ 8 ∨ k = true
  | .ext e => e.Moderate ComputesSigned ∧ Plain e

theorem read_boundT {b : BoundT} {k : Bool × Bool × Bool} (h : b.Written k.1) :
    ∃ c, b.build = .ok c ∧ ∀ d : Int, readText (c.print k) d = some (shownValue d b) := by
  cases b with
  | int i =>
    refine ⟨.int i, rfl, fun d => ?_⟩
    show readText (i.put false k.1) d = _
    rw [put_plain h, read_int]
    rfl
  | ext e =>
    obtain ⟨c, hc, hr⟩ := C104_end_partial e h.1 h.2
    refine ⟨.ext c, ?_, hr k⟩
    simp only [BoundT.build, hc]
    rfl

/-- **C104** (partial, slicers) True when in addition the bounds and the step are not run-time numbers of 8-bit types.
Missing: those (false), and slicers with a length (see C78). -/
theorem C104_slicer_partial (begin stop : Option BoundT) (step : Option Coord) (kb ke : Bool × Bool × Bool) (ks : Bool)
    (hb : ∀ x ∈ begin, x.Written kb.1) (he : ∀ x ∈ stop, x.Written ke.1) (hs : ∀ s ∈ step, s.type.bits ≠ 8 ∨ ks = true) :
    ∃ b e, begin.mapM BoundT.build = .ok b ∧ stop.mapM BoundT.build = .ok e ∧ ∀ d : Int,
      readSlicer (slicerPrint kb ks ke b step e) d =
        some ((begin.map (shownValue d)).getD 0, (((step.map (·.value)).getD 1 : Int) : ℚ), (stop.map (shownValue d)).getD d) := by
  have key : ∀ (o : Option BoundT) (k : Bool × Bool × Bool) (word : String) (v : Int → ℚ), (∀ x ∈ o, x.Written k.1) →
      ':' ∉ word.toList → (∀ d : Int, readBound word.toList d = some (v d)) →
      ∃ c, o.mapM BoundT.build = .ok c ∧ ∀ d : Int,
        readBound (boundOr k word c).toList d = some ((o.map (shownValue d)).getD (v d)) ∧
        ':' ∉ (boundOr k word c).toList := by
    intro o k word v ho hw hv
    cases o with
    | none => exact ⟨none, rfl, fun d => ⟨hv d, hw⟩⟩
    | some b =>
      obtain ⟨c, hc, hr⟩ := read_boundT (ho b rfl)
      refine ⟨some c, ?_, fun d => ⟨readBound_text (hr d), no_colon (hr d)⟩⟩
      simp only [Option.mapM, hc]
      rfl
  have hend : ∀ d : Int, readBound "end".toList (d : ℚ) = some (d : ℚ) := by
    intro d
    refine readBound_text ?_
    unfold readText
    rw [show lex none "end".toList = some [.ext] by decide +kernel]
    simp [evalToks, atom, evalRest]
  obtain ⟨b, eb, kb'⟩ := key begin kb "begin" (fun _ => 0) hb (by decide +kernel) (fun d => read_begin d)
  obtain ⟨e, ee, ke'⟩ := key stop ke "end" (fun d => d) he (by decide +kernel) hend
  refine ⟨b, e, eb, ee, fun d => ?_⟩
  obtain ⟨b1, b2⟩ := kb' d
  obtain ⟨e1, e2⟩ := ke' d
  unfold readSlicer slicerPrint
  cases step with
  | none =>
    simp only [String.toList_append, List.append_assoc]
    rw [show ":".toList = [':'] from rfl, show "".toList = [] from rfl]
    simp only [List.cons_append, List.nil_append]
    rw [cut_colon b2, cut_nil e2]
    simp [b1, e1]
  | some s =>
    have hr := read_int s.value ks d
    simp only [String.toList_append, List.append_assoc]
    rw [show ":".toList = [':'] from rfl, put_plain (hs s rfl)]
    simp only [List.cons_append, List.nil_append]
    rw [cut_colon b2, cut_colon (no_colon hr), cut_nil e2]
    simp only [b1, e1, String.ofList_toList, hr]
    simp

example := C104_slicer_partial (some (.int ⟨.u64, 4⟩)) (some (.ext (.sub .all ⟨.u8, 1⟩))) (some ⟨.i32, 2⟩) (false, false, false)
  (true, true, false) false (by simp [BoundT.Written, IntType.u64])
  (by
    simp only [Option.mem_def, Option.some.injEq, forall_eq']
    exact ⟨⟨trivial, by decide, by decide, by decide, by decide⟩, trivial, .inl (by decide)⟩) (by simp [IntType.i32])

/-- **C104** (ratios) The text of a ratio has its value, unless a run-time number has an 8-bit type. -/
theorem C104_ratio_partial (n d : Coord) (kn kd : Bool) (hn : n.type.bits ≠ 8 ∨ kn = true)
    (hd : d.type.bits ≠ 8 ∨ kd = true) (x : ℚ) :
    readText (ratioPrint kn kd n d) x = some (ratioValue ⟨n.value, d.value⟩) := by
  unfold readText ratioPrint ratioValue
  rw [put_plain hn, put_plain hd]
  have e := lex_int d.value kd Follow.nil
  rw [List.append_nil, ← String.toList_append] at e
  have e2 := lex_int n.value kn (r := '/' :: (toString d.value ++ mark kd).toList) (Follow.cons (by decide))
  simp only [String.toList_append, List.append_assoc] at e2 e ⊢
  rw [show "/".toList = ['/'] from rfl, List.cons_append, List.nil_append, e2]
  simp only [lex, e, flush, Option.map_some, Option.bind_some, List.append_nil]
  unfold intToks
  split <;> split <;> rename_i h1 h2 <;>
    simp only [List.cons_append, List.nil_append, evalToks, evalRest, atom, Option.bind_some, Option.some.injEq, zero_add]
  · rw [show ((n.value.toNat : ℕ) : ℚ) = n.value by exact_mod_cast Int.toNat_of_nonneg h1,
      show ((d.value.toNat : ℕ) : ℚ) = d.value by exact_mod_cast Int.toNat_of_nonneg h2]
  · rw [show ((n.value.toNat : ℕ) : ℚ) = n.value by exact_mod_cast Int.toNat_of_nonneg h1,
      show (((-d.value).toNat : ℕ) : ℚ) = -d.value by exact_mod_cast Int.toNat_of_nonneg (by omega), neg_neg]
  · rw [show (((-n.value).toNat : ℕ) : ℚ) = -n.value by exact_mod_cast Int.toNat_of_nonneg (by omega),
      show ((d.value.toNat : ℕ) : ℚ) = d.value by exact_mod_cast Int.toNat_of_nonneg h2, neg_neg]
  · rw [show (((-n.value).toNat : ℕ) : ℚ) = -n.value by exact_mod_cast Int.toNat_of_nonneg (by omega),
      show (((-d.value).toNat : ℕ) : ℚ) = -d.value by exact_mod_cast Int.toNat_of_nonneg (by omega), neg_neg, neg_neg]

example := C104_ratio_partial ⟨.u8, 2⟩ ⟨.i32, -3⟩ true false (.inr rfl) (.inl (by decide)) 5

/-- **C104** (exact, partial: one number) The text of a number shows its value exactly if the number is not a run-time number
of an 8-bit type.  Missing: those (false). -/
theorem C104_number_exact_partial (v : Coord) (k : Bool) (n : ℚ) :
    readText (v.put false k) n = some (v.value : ℚ) ↔ v.type.bits ≠ 8 ∨ k = true := by
  constructor
  · intro h
    by_contra hc
    simp only [not_or, not_not, Bool.not_eq_true] at hc
    unfold Coord.put at h
    rw [if_pos hc] at h
    have hw := IntType.u8.wrap_mem (by decide) v.value
    have hmod : IntType.u8.wrap v.value % 256 = v.value % 256 := IntType.wrap_mod IntType.u8 v.value
    have hl : IntType.u8.lo = 0 := by decide
    have hh : IntType.u8.hi = 256 := by decide
    obtain ⟨h1, h2⟩ := hw
    rw [hl] at h1
    rw [hh] at h2
    have hlt : (IntType.u8.wrap v.value).toNat < 256 := by omega
    have key : ∀ w < 256, lex none [Char.ofNat w] = none ∨ lex none [Char.ofNat w] = some [] ∨
        (∃ t ∈ [Tok.plus, .minus, .times, .over], lex none [Char.ofNat w] = some [t]) ∨
        48 ≤ w ∧ lex none [Char.ofNat w] = some [.num (w - 48)] := by decide +kernel
    unfold readText at h
    rw [String.toList_singleton] at h
    rcases key _ hlt with e | e | ⟨t, ht, e⟩ | ⟨h48, e⟩
    · rw [e] at h; cases h
    · rw [e] at h; cases h
    · rw [e] at h
      simp only [List.mem_cons, List.not_mem_nil, or_false] at ht
      rcases ht with rfl | rfl | rfl | rfl <;> cases h
    · rw [e] at h
      simp only [Option.bind_some, evalToks, atom, evalRest, zero_add, Option.some.injEq] at h
      have : (((IntType.u8.wrap v.value).toNat - 48 : ℕ) : Int) = v.value := by exact_mod_cast h
      omega
  · intro h
    rw [put_plain h, read_int]

example : (⟨.i8, 53⟩ : Coord).put false false = "5" ∧ (⟨.i8, 53⟩ : Coord).put false true = "53_c" := by decide +kernel

/-- **C104** (exact, partial: offsets) The text of an `end` expression whose members are not run-time numbers of 8-bit types, and
with a divisor or an offset but not both (C77), shows the value given by its members exactly if the offset is not
positive, or has a signed type, or is a constant whose type promotes to a signed one.  Missing: the other offsets (false). -/
theorem C104_offset_exact_partial (c : EndC) (k : Bool × Bool × Bool) (n : ℚ) (h1 : c.num.type.bits ≠ 8 ∨ k.1 = true)
    (h2 : c.denum.type.bits ≠ 8 ∨ k.2.1 = true) (h3 : c.shift.type.bits ≠ 8 ∨ k.2.2 = true)
    (hp : c.denum.value = 1 ∨ c.shift.value = 0) :
    readText (c.print k) n = some (c.num.value * n / c.denum.value + c.shift.value) ↔
      c.shift.value ≤ 0 ∨ (if k.2.2 then c.shift.type.promote else c.shift.type).signed = true := by
  have hput : c.shift.put true k.2.2 =
      (if (if k.2.2 then c.shift.type.promote else c.shift.type).signed = true ∧ 0 ≤ c.shift.value then "+" else "") ++ (toString c.shift.value ++ mark k.2.2) := by
    unfold Coord.put mark
    rw [if_neg (by rintro ⟨h1, h2⟩; rcases h3 with h | h <;> simp_all)]
    simp [String.append_assoc]
  have hprint : c.print k = factorText c.num.value k.1 ++ divisorText c.denum.value k.2.1 ++
      (if c.shift.value ≠ 0 then c.shift.put true k.2.2 else "") := by
    unfold EndC.print factorText divisorText
    rw [put_plain h1, put_plain h2]
  constructor
  · intro h
    by_contra hc
    simp only [not_or, not_le] at hc
    have hd : c.denum.value = 1 := hp.resolve_right (by omega)
    rw [hprint, if_pos hc.1.ne', hput, if_neg (fun h => hc.2 h.1), hd] at h
    unfold readText at h
    rw [show divisorText 1 k.2.1 = "" from rfl, String.append_empty, String.empty_append, String.toList_append, lex_factor] at h
    have e := lex_int c.shift.value k.2.2 Follow.nil
    rw [List.append_nil, ← String.toList_append] at e
    rw [e] at h
    simp only [lex, flush, Option.map_some, Option.bind_some, List.append_nil] at h
    rw [evalToks_factor, intToks, if_pos hc.1.le] at h
    cases h
  · intro h
    rw [hprint]
    have : (if c.shift.value ≠ 0 then c.shift.put true k.2.2 else "") = offsetText c.shift.value k.2.2 := by
      unfold offsetText
      by_cases h0 : c.shift.value = 0
      · simp [h0]
      · rw [if_pos h0, if_pos h0, hput]
        congr 1
        rcases h with h | h
        · rw [if_neg (by omega), if_neg (by omega)]
        · simp [h]
    rw [this, read_end]

example : (EndC.mk ⟨.u16, 3⟩ fixedOne fixedOne).print (true, true, true) = "end+3_c" ∧
    (EndC.mk ⟨.u16, 3⟩ fixedOne fixedOne).print (true, true, false) = "end3" ∧
    (EndC.mk ⟨.u64, 3⟩ fixedOne fixedOne).print (false, false, false) = "end3" := by decide +kernel

/-- **C104** is false: `end + 3u` is written `end3`, `end - 3u` is written `end4294967293`, and the slicer
`from = std::int8_t{65}` is written `A:end`. -/
theorem C104_numbers_false : ¬ C104_end_statement ∧ ¬ C104_slicer_statement ∧
    (EndC.all.add ⟨.u32, 3⟩).map (EndC.print (true, true, false)) = .ok "end3" ∧
    (EndC.all.sub ⟨.u32, 3⟩).map (EndC.print (true, true, false)) = .ok "end4294967293" ∧
    slicerPrint (false, false, false) false (false, false, false) (some (.int ⟨.i8, 65⟩)) none none = "A:end" := by
  refine ⟨fun h => ?_, fun h => ?_, by decide +kernel, by decide +kernel, by decide +kernel⟩
  · have := h (.add .all ⟨.u32, 3⟩) ⟨⟨.u32, 3⟩, fixedOne, fixedOne⟩ (true, true, false) 5
      ⟨trivial, by decide, by decide, by decide, by decide⟩ ⟨trivial, .inl (by decide)⟩ (by decide)
    rw [show EndC.print (true, true, false) ⟨⟨.u32, 3⟩, fixedOne, fixedOne⟩ = "end3" by decide +kernel,
      show readText "end3" (5 : Int) = none by decide +kernel] at this
    cases this
  · have := h (some (.int ⟨.i8, 65⟩)) none none (some (.int ⟨.i8, 65⟩)) none (false, false, false) (false, false, false) false 70
      rfl rfl (by simp)
    rw [show slicerPrint (false, false, false) false (false, false, false) (some (.int ⟨.i8, 65⟩)) none none = "A:end" by
        decide +kernel, show readSlicer "A:end" (70 : Int) = none by decide +kernel] at this
    cases this

example : (EndExprT.sub (.mul .all ⟨.i64, 2⟩) ⟨.u8, 3⟩).Moderate ComputesSigned ∧
    Plain (EndExprT.sub (.mul .all ⟨.i64, 2⟩) ⟨.u8, 3⟩) :=
  ⟨⟨⟨trivial, by decide, by decide, by decide, by decide⟩, by decide, by decide, by decide, by decide⟩, trivial,
    .inl (by decide)⟩
example : slicerPrint (false, false, false) false (true, true, false) (some (.int ⟨.u64, 4⟩)) (some ⟨.i32, 2⟩)
    (some (.ext ⟨⟨.i32, -1⟩, ⟨.i32, 1⟩, ⟨.i32, 1⟩⟩)) = "4:2:end-1" := by decide +kernel
example : ratioPrint true false ⟨.u8, 2⟩ ⟨.i32, -3⟩ = "2_c/-3" := by decide +kernel

/-! ## C105 -/

theorem numbers_shape (s : List (Coord × Bool)) (hs : ∀ v ∈ s, AnyType v.1.type) (r : List Char) (hr : Follow r) (os : String) :
    ∃ t : List Char, (s.foldl (fun os (v, k) => os ++ (" " ++ (Coord.plus k v).put false k)) os).toList = os.toList ++ t ∧
      numbersFrom false none (t ++ r) = s.map (fun v => (v.1.value, v.2)) ++ numbersFrom false none r ∧ Follow (t ++ r) := by
  induction s generalizing os with
  | nil => exact ⟨[], by simp, rfl, hr⟩
  | cons v s ih =>
    obtain ⟨v, k⟩ := v
    obtain ⟨t, h1, h2, h3⟩ := ih (fun x hx => hs x (by simp [hx])) (os ++ (" " ++ (Coord.plus k v).put false k))
    have hp : (Coord.plus k v).put false k = toString v.value ++ mark k := by
      rw [put_plain]
      · unfold Coord.plus
        split <;> rfl
      · unfold Coord.plus
        cases k
        · refine .inl ?_
          have := hs (v, false) (by simp)
          simp only [AnyType, List.mem_cons, List.not_mem_nil, or_false] at this
          simp only [Bool.false_eq_true, if_false]
          rcases this with h | h | h | h | h | h | h | h <;> rw [h] <;> decide
        · exact .inr rfl
    refine ⟨' ' :: (toString v.value ++ mark k).toList ++ t, ?_, ?_, Follow.cons (by decide)⟩
    · simp only [List.foldl_cons]
      rw [h1, hp]
      simp only [String.toList_append, show " ".toList = [' '] from rfl]
      simp
    · have := numbers_int v.value k h3
      simp only [String.toList_append, List.append_assoc, List.cons_append]
      rw [← List.singleton_append, numbers_skip (by decide), this, h2]
      simp

/-- **C105** (shapes and strides) The text of a shape or stride shows its extents, in order, constants being marked with `_c`, for all
integer types. -/
theorem C105_shape_text (s : List (Coord × Bool)) (hs : ∀ v ∈ s, AnyType v.1.type) :
    numbersIn (shapePrint s) = s.map fun v => (v.1.value, v.2) := by
  obtain ⟨t, h1, h2, -⟩ := numbers_shape s hs " ]".toList (Follow.cons (by decide)) "["
  unfold numbersIn shapePrint
  rw [String.toList_append, h1, show "[".toList = ['['] from rfl, List.append_assoc, numbers_skip (by decide), h2]
  simp [numbersFrom, ending]

example := C105_shape_text [(⟨.u8, 4⟩, true), (⟨.i8, 65⟩, false), (⟨.u64, 7⟩, false)] (by decide)

/-- **C105** (equal texts) Shapes with the same text have the same extents, constant or not. -/
theorem C105_shape_text_inj (s s' : List (Coord × Bool)) (hs : ∀ v ∈ s, AnyType v.1.type)
    (hs' : ∀ v ∈ s', AnyType v.1.type) (h : shapePrint s = shapePrint s') :
    s.map (fun v => (v.1.value, v.2)) = s'.map fun v => (v.1.value, v.2) := by
  rw [← C105_shape_text s hs, h, C105_shape_text s' hs']

example : shapePrint [(⟨.u8, 4⟩, true), (⟨.i8, 65⟩, false), (⟨.u64, 7⟩, false)] = "[ 4_c 65 7 ]" := by decide +kernel

theorem numbers_position (p l : List Int) (k : Nat) (h : p.drop k = l) (os : String) :
    ∃ t : List Char, ((List.range' k l.length).foldl
        (fun os i => os ++ toString (p.getD i 0) ++ (if i + 1 ≠ p.length then ", " else "")) os).toList = os.toList ++ t ∧
      numbersFrom false none (t ++ [')']) = l.map fun i => (i, false) := by
  induction l generalizing k os with
  | nil => exact ⟨[], by simp, by decide⟩
  | cons i l ih =>
    have hk : p.getD k 0 = i ∧ p.drop (k + 1) = l := by
      have h1 : p[k]? = some i := by rw [← List.head?_drop, h]; rfl
      refine ⟨by rw [List.getD_eq_getElem?_getD, h1]; rfl, ?_⟩
      rw [← List.tail_drop, h]; rfl
    obtain ⟨t, h1, h2⟩ := ih (k + 1) hk.2 (os ++ toString (p.getD k 0) ++ (if k + 1 ≠ p.length then ", " else ""))
    refine ⟨(toString i).toList ++ ((mark false).toList ++ ((if k + 1 ≠ p.length then ", " else "").toList ++ t)), ?_, ?_⟩
    · simp only [List.length_cons, List.range'_succ, List.foldl_cons]
      rw [h1, hk.1]
      simp [mark]
    · simp only [List.append_assoc]
      have hf : Follow ((if k + 1 ≠ p.length then ", " else "").toList ++ (t ++ [')'])) := by
        split
        · exact Follow.cons (by decide)
        · rename_i hn
          have : l = [] := by
            rw [← hk.2, List.drop_eq_nil_iff]
            omega
          subst this
          simp only [List.length_nil, List.range'_zero, List.foldl_nil] at h1
          have : t = [] := by
            have := congrArg List.length h1
            simp only [List.length_append] at this
            exact List.length_eq_zero_iff.1 (by omega)
          subst this
          exact Follow.cons (by decide)
      rw [numbers_int i false hf, numbers_skip (by split <;> decide), h2]
      rfl

/-- **C105** (positions) The text of a position shows its order, then its coordinates in order. -/
theorem C105_position_text (p : List Int) :
    numbersIn (positionPrint p) = ((p.length : Int), false) :: p.map fun i => (i, false) := by
  obtain ⟨t, h1, h2⟩ := numbers_position p p 0 rfl ("position<" ++ toString p.length ++ ">(")
  unfold numbersIn positionPrint
  rw [List.range_eq_range', String.toList_append, h1]
  have e := numbers_int p.length false (r := ">(".toList ++ (t ++ [')'])) (Follow.cons (by decide))
  simp only [String.toList_append, List.append_assoc]
  rw [show ")".toList = [')'] from rfl, numbers_skip (by decide +kernel)]
  simp only [mark, Bool.false_eq_true, if_false, String.toList_empty, List.nil_append] at e
  rw [show toString ((p.length : ℕ) : Int) = toString p.length from rfl] at e
  rw [e, numbers_skip (by decide), h2]

example : positionPrint [0, -1, 2] = "position<3>(0, -1, 2)" := by decide +kernel

end Kwk
