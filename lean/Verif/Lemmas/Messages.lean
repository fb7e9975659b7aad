import Verif.Model.Messages
import Verif.Lemmas.Prefilled
import Verif.Lemmas.Reader
import Verif.Lemmas.TypedPrint
import Verif.Spec.Messages

/-! # Lemmas: messages of assertions -/

namespace Kwk
open Spec

/-! ## Numbers of texts put together -/

/-- A character that ends a number and begins none. -/
def sep (c : Char) : Bool := !c.isDigit && c != '-' && c != '_' && c != 'c'

theorem numbers_minus (neg : Bool) (cur : Option Nat) (r : List Char) :
    numbersFrom neg cur ('-' :: r) = ending neg cur ++ numbersFrom true none r := by
  rw [numbersFrom.eq_def]
  split
  · rename_i e; cases e
  · rename_i e; cases e
  · rename_i e; cases e; rfl
  · rename_i h _ e; cases e; exact absurd rfl h

theorem numbers_other {x : Char} (hx : x.isDigit = false) (hm : x ≠ '-') (neg : Bool) (cur : Option Nat) (r : List Char)
    (h : ¬ (cur.isSome ∧ x = '_' ∧ r.head? = some 'c')) :
    numbersFrom neg cur (x :: r) = ending neg cur ++ numbersFrom false none r := by
  rw [numbersFrom.eq_def]
  split <;> simp_all

theorem numbers_sep {c : Char} (hc : sep c = true) (w r : List Char) (neg : Bool) (cur : Option Nat) :
    numbersFrom neg cur (w ++ c :: r) = numbersFrom neg cur w ++ numbersFrom false none r := by
  simp only [sep, Bool.and_eq_true, Bool.not_eq_true', bne_iff_ne, ne_eq] at hc
  obtain ⟨⟨⟨h1, h2⟩, h3⟩, h4⟩ := hc
  induction hn : w.length using Nat.strong_induction_on generalizing w neg cur with
  | _ n ih =>
  cases w with
  | nil =>
    rw [List.nil_append, numbers_other h1 h2 _ _ _ (by simp [h3])]
    simp [numbersFrom]
  | cons x w =>
    have ih1 := fun neg cur => ih w.length (by simp [← hn]) w neg cur rfl
    rw [List.cons_append]
    by_cases hd : x.isDigit = true
    · rw [numbers_digit hd, numbers_digit hd, ih1]
    · have hd : x.isDigit = false := by simpa using hd
      by_cases hm : x = '-'
      · rw [hm, numbers_minus, numbers_minus, ih1, List.append_assoc]
      · by_cases hs : cur.isSome ∧ x = '_' ∧ w.head? = some 'c'
        · obtain ⟨hs1, hs2, hs3⟩ := hs
          obtain ⟨n, rfl⟩ := Option.isSome_iff_exists.1 hs1
          obtain ⟨w', rfl⟩ := List.head?_eq_some_iff.1 hs3
          have ih2 := fun neg cur => ih w'.length (by simp only [← hn, List.length_cons]; omega) w' neg cur rfl
          subst hs2
          simp [numbersFrom, ih2]
        · rw [numbers_other hd hm _ _ _ hs, numbers_other hd hm, ih1, List.append_assoc]
          rintro ⟨g1, g2, g3⟩
          refine hs ⟨g1, g2, ?_⟩
          cases w with
          | nil => simp only [List.nil_append, List.head?_cons, Option.some.injEq] at g3; exact absurd g3 h4
          | cons y w => simpa using g3

/-- A text whose last character ends numbers. -/
def endsSep (a : String) : Bool := a.toList.getLast?.any sep

/-- A text whose first character ends numbers. -/
def startsSep (a : String) : Bool := a.toList.head?.any sep

theorem numbersIn_left {a : String} (h : endsSep a = true) (b : String) : numbersIn (a ++ b) = numbersIn a ++ numbersIn b := by
  unfold numbersIn
  rw [String.toList_append]
  cases hl : a.toList.getLast? with
  | none => rw [endsSep, hl] at h; cases h
  | some c =>
    rw [endsSep, hl] at h
    obtain ⟨w, hw⟩ := List.getLast?_eq_some_iff.1 hl
    rw [hw, List.append_assoc, List.singleton_append, numbers_sep (by simpa using h), numbers_sep (by simpa using h)]
    simp [numbersFrom, ending]

theorem numbersIn_right (a : String) {b : String} (h : startsSep b = true) : numbersIn (a ++ b) = numbersIn a ++ numbersIn b := by
  unfold numbersIn
  rw [String.toList_append]
  cases hl : b.toList with
  | nil => rw [startsSep, hl] at h; cases h
  | cons c r =>
    rw [startsSep, hl] at h
    have e : numbersFrom false none (c :: r) = numbersFrom false none ([] ++ c :: r) := rfl
    rw [e, numbers_sep (by simpa using h), numbers_sep (by simpa using h)]
    simp [numbersFrom, ending]

theorem numbersIn_int (i : Int) (k : Bool) : numbersIn (toString i ++ mark k) = [(i, k)] := by
  have := numbers_int i k Follow.nil
  unfold numbersIn
  rw [String.toList_append]
  simpa [numbersFrom, ending] using this

/-! ## Numbers that are written -/

theorem numbersIn_char {v : Coord} (h8 : v.type.bits = 8) (hf : v.type.Fits v.value) :
    (numbersIn (v.put false false)).length ≤ 1 ∧ numbersIn (v.put false false) ≠ [(v.value, false)] := by
  have hp : v.put false false = String.singleton (Char.ofNat (IntType.u8.wrap v.value).toNat) := by
    simp [Coord.put, h8]
  have hb : -128 ≤ v.value ∧ v.value < 256 := by
    unfold IntType.Fits IntType.lo IntType.hi at hf
    rw [h8] at hf
    cases hs : v.type.signed <;> simp [hs] at hf <;> omega
  have hr : (IntType.u8.wrap v.value).toNat < 256 ∧
      ((IntType.u8.wrap v.value : Int) = v.value ∨ (IntType.u8.wrap v.value : Int) = v.value + 256 ∧ v.value < 0) := by
    have : IntType.u8.wrap v.value = v.value % 256 := by simp [IntType.wrap, IntType.u8]
    rw [this]
    omega
  have hn : 0 ≤ IntType.u8.wrap v.value := by
    have : IntType.u8.wrap v.value = v.value % 256 := by simp [IntType.wrap, IntType.u8]
    rw [this]; omega
  rw [hp]
  have htab : ∀ n : Nat, n < 256 → (numbersIn (String.singleton (Char.ofNat n))).length ≤ 1 ∧
      ∀ x ∈ numbersIn (String.singleton (Char.ofNat n)), x.1 + 48 = n := by decide +kernel
  obtain ⟨h1, h2⟩ := htab _ hr.1
  refine ⟨h1, fun h => ?_⟩
  have := h2 (v.value, false) (by rw [h]; simp)
  simp only at this
  omega

theorem numbersIn_put {v : Coord} {k : Bool} (h : v.type.bits ≠ 8 ∨ k = true) : numbersIn (v.put false k) = [(v.value, k)] := by
  rw [put_plain h, numbersIn_int]

/-- Numbers not written as characters. -/
def Readable (l : List (Coord × Bool)) : Prop := ∀ g ∈ l, g.1.type.bits ≠ 8 ∨ g.2 = true

/-- What is shown of the numbers. -/
def shownOf (l : List (Coord × Bool)) : List (Int × Bool) := l.flatMap fun g => numbersIn (g.1.put false g.2)

theorem shownOf_iff (l : List (Coord × Bool)) (hf : ∀ g ∈ l, g.1.type.Fits g.1.value) :
    shownOf l = l.map (fun g => (g.1.value, g.2)) ↔ Readable l := by
  have hone : ∀ g ∈ l, (numbersIn (g.1.put false g.2)).length ≤ 1 := by
    intro g hg
    obtain ⟨v, k⟩ := g
    by_cases h : v.type.bits ≠ 8 ∨ k = true
    · rw [numbersIn_put h]; simp
    · simp only [not_or, not_not, Bool.not_eq_true] at h
      cases h.2
      exact (numbersIn_char h.1 (hf _ hg)).1
  have hle : ∀ l' : List (Coord × Bool), (∀ g ∈ l', g ∈ l) → (shownOf l').length ≤ l'.length := by
    intro l' h'
    induction l' with
    | nil => simp [shownOf]
    | cons g l' ih =>
      have := ih fun x hx => h' x (by simp [hx])
      have h1 := hone g (h' g (by simp))
      simp only [shownOf, List.flatMap_cons, List.length_append, List.length_cons] at this ⊢
      omega
  suffices hh : ∀ l' : List (Coord × Bool), (∀ g ∈ l', g ∈ l) →
      (shownOf l' = l'.map (fun g => (g.1.value, g.2)) ↔ Readable l') from hh l fun _ h => h
  intro l' h'
  induction l' with
  | nil => simp [shownOf, Readable]
  | cons g l' ih =>
    have ih := ih fun x hx => h' x (by simp [hx])
    have h1 := hone g (h' g (by simp))
    have h2 := hle l' fun x hx => h' x (by simp [hx])
    have hR : Readable (g :: l') ↔ (g.1.type.bits ≠ 8 ∨ g.2 = true) ∧ Readable l' := by simp [Readable]
    rw [hR, ← ih]
    constructor
    · intro h
      have hlen := congrArg List.length h
      simp only [shownOf, List.flatMap_cons, List.length_append, List.map_cons, List.length_cons, List.length_map] at hlen h h2
      have h3 : (numbersIn (g.1.put false g.2)).length = 1 := by omega
      obtain ⟨x, hx⟩ := List.length_eq_one_iff.1 h3
      rw [hx, List.singleton_append, List.cons.injEq] at h
      refine ⟨?_, h.2⟩
      by_contra hc
      obtain ⟨v, k⟩ := g
      simp only [not_or, not_not, Bool.not_eq_true] at hc
      cases hc.2
      exact (numbersIn_char hc.1 (hf (v, false) (h' _ (by simp)))).2 (hx.trans (by rw [h.1]))
    · rintro ⟨h3, h4⟩
      rw [shownOf, List.flatMap_cons, numbersIn_put h3]
      rw [shownOf] at h4
      rw [h4]; rfl

theorem numbersIn_tuple (l : List (Coord × Bool)) (os : String) (h : endsSep os = true) :
    numbersIn (l.foldl (fun os (v, k) => os ++ (v.put false k ++ " ")) os) = numbersIn os ++ shownOf l ∧
      endsSep (l.foldl (fun os (v, k) => os ++ (v.put false k ++ " ")) os) = true := by
  induction l generalizing os with
  | nil => simp [shownOf, h]
  | cons g l ih =>
    have he : endsSep (os ++ (g.1.put false g.2 ++ " ")) = true := by
      rw [endsSep, String.toList_append, String.toList_append, ← List.append_assoc, show " ".toList = [' '] from rfl,
        List.getLast?_append_of_ne_nil _ (by simp)]
      decide
    obtain ⟨h1, h2⟩ := ih (os ++ (g.1.put false g.2 ++ " ")) he
    refine ⟨?_, h2⟩
    rw [List.foldl_cons, h1, numbersIn_left h, numbersIn_right _ (by decide), show numbersIn " " = [] by decide]
    simp [shownOf]

theorem numbersIn_tuplePrint (l : List (Coord × Bool)) : numbersIn (tuplePrint l) = shownOf l := by
  obtain ⟨h1, h2⟩ := numbersIn_tuple l "( " (by decide)
  rw [tuplePrint, numbersIn_left h2, h1]
  simp [show numbersIn "( " = [] by decide, show numbersIn ")" = [] by decide]

/-! ## Streams -/

/-- The details of a message. -/
def detailText (ps : List Put) : String := ps.foldl (fun os p => os ++ p.write) ""

theorem foldl_write (ps : List Put) (os : String) : ps.foldl (fun os p => os ++ p.write) os = os ++ detailText ps := by
  induction ps generalizing os with
  | nil => simp [detailText]
  | cons p ps ih =>
    have e : detailText (p :: ps) = ps.foldl (fun os p => os ++ p.write) ("" ++ p.write) := rfl
    rw [List.foldl_cons, ih, e, ih ("" ++ p.write), String.empty_append, String.append_assoc]

theorem detailText_cons (p : Put) (ps : List Put) : detailText (p :: ps) = p.write ++ detailText ps := by
  rw [detailText, List.foldl_cons, foldl_write, String.empty_append]

theorem stream_write (ps : List Put) (H D : List Char) :
    ps.foldl (fun os p => os.put p.write) (⟨D ++ H.drop D.length, D.length⟩ : StringStream) =
      ⟨(D ++ (detailText ps).toList) ++ H.drop (D ++ (detailText ps).toList).length, (D ++ (detailText ps).toList).length⟩ := by
  induction ps generalizing D with
  | nil => simp [detailText]
  | cons p ps ih =>
    have : StringStream.put ⟨D ++ H.drop D.length, D.length⟩ p.write =
        ⟨(D ++ p.write.toList) ++ H.drop (D ++ p.write.toList).length, (D ++ p.write.toList).length⟩ := by
      simp [StringStream.put, List.drop_append]
    rw [List.foldl_cons, this, ih, detailText_cons, String.toList_append]
    simp only [List.append_assoc]

/-- The text of a Boost handler: the details are written over the beginning of the header. -/
theorem boostText_eq (c : Check) : (boostText c).toList =
    (detailText c.details).toList ++ "[KIWAKU] Assertion failed: ".toList.drop (detailText c.details).toList.length := by
  have := stream_write c.details "[KIWAKU] Assertion failed: ".toList []
  simp only [List.nil_append, List.length_nil, List.drop_zero] at this
  rw [boostText, StringStream.ofText, this]
  simp [StringStream.str]

/-! ## Evaluations -/

/-- Without the reports. -/
def Told.erase {α : Type} (x : Told α) : Res α :=
  match x.outcome with
  | .done a => .ok a
  | .fault f => .error f
  | .ended _ => .error .assertion

variable {α β : Type}

theorem told_pure_bind (a : α) (f : α → Told β) : (pure a >>= f : Told β) = f a := rfl

theorem told_fail_bind (cfg : Config) (c : Check) (f : α → Told β) : (failCheck cfg c >>= f : Told β) = failCheck cfg c := by
  simp only [bind, Told.andThen, failCheck]
  split_ifs
  · rfl
  · cases cfg.boost <;> rfl

theorem erase_pure (a : α) : (pure a : Told α).erase = .ok a := rfl

theorem erase_ofRes (x : Res α) : (Told.ofRes x).erase = x := by cases x <;> rfl

theorem erase_bind (x : Told α) (f : α → Told β) : (x >>= f).erase = (x.erase >>= fun a => (f a).erase) := by
  simp only [bind, Told.andThen, Told.erase]
  cases x.outcome <;> rfl

theorem erase_fail (cfg : Config) (c : Check) : (failCheck cfg c : Told α).erase = .error .assertion := by
  rw [failCheck]
  split_ifs
  · rfl
  · cases cfg.boost <;> rfl

theorem erase_assert (cfg : Config) (md : Mode) (b : Bool) (c : Check) : (assertTold cfg md b c).erase = kwkAssert md b := by
  cases md with
  | unchecked => rfl
  | checked =>
    cases b
    · exact erase_fail cfg c
    · rfl

theorem erase_foldlM {σ X : Type} (f : σ → X → Told σ) (l : List X) (s : σ) :
    (l.foldlM f s).erase = l.foldlM (fun s x => (f s x).erase) s := by
  induction l generalizing s with
  | nil => rfl
  | cons x l ih =>
    rw [List.foldlM_cons, List.foldlM_cons, erase_bind]
    congr 1
    funext a
    exact ih a

/-- Nothing is reported and the program goes on (or has undefined behaviour outside assertions). -/
def Quiet (x : Told α) : Prop := x.reports = [] ∧ ∀ e, x.outcome ≠ .ended e

theorem quiet_pure (a : α) : Quiet (pure a : Told α) := ⟨rfl, fun _ h => by cases h⟩

theorem quiet_ofRes (x : Res α) : Quiet (Told.ofRes x) := by cases x <;> exact ⟨rfl, fun _ h => by cases h⟩

theorem quiet_bind {x : Told α} {f : α → Told β} (hx : Quiet x) (hf : ∀ a, x.outcome = .done a → Quiet (f a)) :
    Quiet (x >>= f) := by
  simp only [bind, Told.andThen, Quiet]
  cases h : x.outcome with
  | done a => exact ⟨by simp [hx.1, (hf a h).1], (hf a h).2⟩
  | fault e => exact ⟨hx.1, fun _ h => by cases h⟩
  | ended e => exact absurd h (hx.2 e)

theorem assert_true (cfg : Config) (c : Check) : assertTold cfg .checked true c = pure () := rfl
theorem assert_false (cfg : Config) (c : Check) : assertTold cfg .checked false c = failCheck cfg c := rfl

/-! ## The loops of the constructors -/

/-- One step of the constructors. -/
def fillStep {X : Type} (cfg : Config) (md : Mode) (idx : X → Nat) (new : X → Int) (ok : X → Int → Bool)
    (chk : X → Desc → Int → Check) (s : Prefilled) (x : X) : Told Prefilled :=
  if hasStorage s.desc (idx x) then pure (s.set (idx x) (new x))
  else do
    assertTold cfg md (ok x (s.get (idx x))) (chk x s.desc (s.get (idx x)))
    pure s

theorem get_keeps {s s' : Prefilled} (hd : s'.desc = s.desc) {i : Nat} (hi : hasStorage s.desc i = false) : s'.get i = s.get i := by
  rw [get_static hi, get_static (by rw [hd]; exact hi), hd]

theorem fill_checked {X : Type} (cfg : Config) (idx : X → Nat) (new : X → Int) (ok : X → Int → Bool)
    (chk : X → Desc → Int → Check) (l : List X) (s : Prefilled) :
    match l.find? fun x => !hasStorage s.desc (idx x) && !ok x (s.get (idx x)) with
    | none => ∃ s', l.foldlM (fillStep cfg .checked idx new ok chk) s = pure s'
    | some x => l.foldlM (fillStep cfg .checked idx new ok chk) s = failCheck cfg (chk x s.desc (s.get (idx x))) := by
  induction l generalizing s with
  | nil => exact ⟨s, rfl⟩
  | cons x l ih =>
    rw [List.find?_cons, List.foldlM_cons]
    cases hh : hasStorage s.desc (idx x)
    · have hs : fillStep cfg .checked idx new ok chk s x = (do
          assertTold cfg .checked (ok x (s.get (idx x))) (chk x s.desc (s.get (idx x)))
          pure s) := by
        rw [fillStep, hh]; rfl
      rw [hs]
      cases ho : ok x (s.get (idx x))
      · simp only [Bool.not_false, Bool.and_self]
        rw [assert_false, told_fail_bind, told_fail_bind]
      · simp only [Bool.not_true, Bool.and_false]
        exact ih s
    · have hs : fillStep cfg .checked idx new ok chk s x = pure (s.set (idx x) (new x)) := by
        rw [fillStep, hh]; rfl
      rw [hs]
      simp only [Bool.not_true, Bool.false_and]
      have := ih (s.set (idx x) (new x))
      have hd := set_desc s (idx x) (new x)
      rw [hd] at this
      have hp : (fun y => !hasStorage s.desc (idx y) && !ok y ((s.set (idx x) (new x)).get (idx y))) =
          fun y => !hasStorage s.desc (idx y) && !ok y (s.get (idx y)) := by
        funext y
        cases hy : hasStorage s.desc (idx y)
        · rw [get_keeps hd hy]
        · rfl
      rw [hp] at this
      revert this
      cases hf : l.find? fun y => !hasStorage s.desc (idx y) && !ok y (s.get (idx y)) with
      | none => exact id
      | some y =>
        simp only
        intro this
        have hy : hasStorage s.desc (idx y) = false := by
          have := List.find?_some hf
          simp only [Bool.and_eq_true, Bool.not_eq_true'] at this
          exact this.1
        rw [get_keeps hd hy] at this
        exact this

theorem fill_unchecked {X : Type} (cfg : Config) (idx : X → Nat) (new : X → Int) (ok : X → Int → Bool)
    (chk : X → Desc → Int → Check) (l : List X) (s : Prefilled) :
    ∃ s', l.foldlM (fillStep cfg .unchecked idx new ok chk) s = pure s' := by
  induction l generalizing s with
  | nil => exact ⟨s, rfl⟩
  | cons x l ih =>
    rw [List.foldlM_cons]
    cases hh : hasStorage s.desc (idx x)
    · have hs : fillStep cfg .unchecked idx new ok chk s x = pure s := by rw [fillStep, hh]; rfl
      rw [hs]; exact ih s
    · have hs : fillStep cfg .unchecked idx new ok chk s x = pure (s.set (idx x) (new x)) := by rw [fillStep, hh]; rfl
      rw [hs]; exact ih _

end Kwk
