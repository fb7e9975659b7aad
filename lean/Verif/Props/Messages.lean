import Verif.Lemmas.Messages
import Verif.Props.TypedTexts

/-!
# Properties: messages of failed assertions

C158.
-/

namespace Kwk
open Spec

variable {α β γ : Type}

/-- A call of one of the functions of the library that have assertions. -/
inductive AssertCall (α β γ : Type) where
  /-- `linear_index(s, p...)` -/
  | linear (s : List (Coord × Bool)) (p : List Coord)
  /-- `coordinates(idx, s)` -/
  | coordinates (idx : Coord) (s : List (Coord × Bool))
  /-- `inner_product(c1, c2, init, f1, f2)` -/
  | inner (m : Mem α) (c1 c2 : DataT) (k1 k2 : Nat → Bool) (init : β) (f1 : β → γ → β) (f2 : α → α → γ)
  /-- a shape from extents -/
  | extents (d : Desc) (dflt : Int) (vs : List TypedArg)
  /-- a shape from named extents -/
  | named (d : Desc) (dflt : Int) (vs : List (AxisId × TypedArg))
  /-- a shape from another shape -/
  | convert (d : Desc) (vs : List (Coord × Bool))
  /-- `s[i]` -/
  | subscript (s : Prefilled) (i : Nat)

/-- What the call does. -/
def AssertCall.run (cfg : Config) (md : Mode) : AssertCall α β γ → Told Unit
  | .linear s p => do let _ ← linearIndexTold cfg md s p; pure ()
  | .coordinates idx s => do let _ ← coordinatesTold cfg md idx s; pure ()
  | .inner m c1 c2 k1 k2 init f1 f2 => do let _ ← innerProductTold cfg md m c1 c2 k1 k2 init f1 f2; pure ()
  | .extents d dflt vs => do let _ ← ofExtentsTold cfg md d dflt vs; pure ()
  | .named d dflt vs => do let _ ← constructNamedTold cfg md (Prefilled.default d) dflt vs; pure ()
  | .convert d vs => do let _ ← ofValuesTold cfg md d vs; pure ()
  | .subscript s i => do let _ ← subscriptTold cfg md s i; pure ()

/-- The name of an axis. -/
def axisName : AxisId → String
  | .implicit n => "implicit<" ++ toString n ++ ">"
  | .along n => "along<" ++ toString n ++ ">"
  | .named s => s

/-- An extent given for a compile-time axis that has another one. -/
def clashOf : Option Axis → TypedArg → Option (AxisId × Int × Coord × Bool)
  | some ⟨id, .static n⟩, some c => if c.1.value = n then none else some (id, n, c)
  | _, _ => none

/-- The extents of a shape: values, constant or not. -/
def extentsOf (s : List (Coord × Bool)) : List (Int × Bool) := s.map fun v => (v.1.value, v.2)

/-- What has to be told about an axis. -/
def axisFailure (cond : String) (line : Nat) (x : AxisId × Int × Coord × Bool) : Failure (Coord × Bool) where
  cond := cond
  file := "kwk/detail/sequence/prefilled.hpp"
  line := line
  names := [axisName x.1]
  before := numbersIn (axisName x.1) ++ [(x.2.1, false)]
  given := [x.2.2]
  after := []

/-- As many extents as axes: ones are put in front. -/
def paddedArgs (d : Desc) (vs : List TypedArg) : List TypedArg := List.replicate (d.length - vs.length) (some (⟨.i32, 1⟩, false)) ++ vs

/-- The elements of a sequence: constants, and numbers of the types of the axes. -/
def elementsOf (s : Prefilled) : List (Coord × Bool) := s.desc.zipIdx.map fun ai =>
  match ai.1.content with
  | .static v => (⟨.i32, v⟩, true)
  | .dynamic t => (⟨t, s.get ai.2⟩, false)

/-- The assertion that fails when the call is made, and what has to be told: the indexes and the extents, or the axis, its extent and the one
given.  `none`: no assertion fails. -/
def AssertCall.failure : AssertCall α β γ → Option (Failure (Coord × Bool))
  | .linear s p =>
    if containsM (s.map (·.1.value)) p then none
    else some ⟨"sh.contains(idx...)", "kwk/utility/linear_index.hpp", 32, [], [], p.map fun c => (c, false), extentsOf s⟩
  | .coordinates idx s =>
    match numelT (s.map (·.1)) with
    | .ok n => if ltT idx n then none
      else some ⟨"idx < shp.numel()", "kwk/utility/coordinates.hpp", 35, [], [], [(idx, false)], extentsOf s⟩
    | .error _ => none
  | .inner _ c1 c2 k1 k2 _ _ _ =>
    match shapeEqT c1.shape c2.shape with
    | .ok false => some ⟨"in1.shape() == in2.shape()", "kwk/algorithm/algos/numeric.hpp", 94, [],
        (c1.shape.zipIdx.map fun ci => (ci.1.value, k1 ci.2)) ++ c2.shape.zipIdx.map fun ci => (ci.1.value, k2 ci.2), [], []⟩
    | _ => none
  | .extents d _ vs =>
    ((paddedArgs d vs).zipIdx.findSome? fun vi => clashOf d[vi.2]? vi.1).map
      (axisFailure "(v == _) || v == __get<I::value>()" 92)
  | .named d _ vs =>
    if d.any Axis.isDynamic then
      (vs.findSome? fun av => clashOf (d.find? fun a => decide (a.id = av.1)) av.2).map
        (axisFailure "(input[x.base()] == _) || input[x.base()] == (*this)[x]" 119)
    else none
  | .convert d vs =>
    (vs.zipIdx.findSome? fun vi => (clashOf d[vi.2]? (some vi.1)).map fun x => (vi.2, x.2)).map fun x =>
      ⟨"value == get<i>(*this)", "kwk/detail/sequence/prefilled.hpp", 196, [], [((x.1 : Int), false), (x.2.1, true)], [x.2.2], []⟩
  | .subscript s i =>
    if i < s.desc.length then
      if (s.desc[i]?).any Axis.isDynamic then none
      else some ⟨"contains(idx)", "kwk/detail/sequence/prefilled.hpp", 282, [], [((i : Int), false)], elementsOf s, []⟩
    else some ⟨"idx<static_size", "kwk/detail/sequence/prefilled.hpp", 278, [], [((i : Int), false), ((s.desc.length : Int), false)], [], []⟩

/-- The types are integer types, values fit in them, and the call compiles: not too many extents, axes of the shape, as many extents. -/
def AssertCall.Ok : AssertCall α β γ → Prop
  | .linear s p => (∀ v ∈ s, AnyType v.1.type) ∧ ∀ c ∈ p, c.type.Fits c.value
  | .coordinates idx s => (∀ v ∈ s, AnyType v.1.type) ∧ idx.type.Fits idx.value
  | .inner _ c1 c2 _ _ _ _ _ => (∀ c ∈ c1.shape, AnyType c.type) ∧ ∀ c ∈ c2.shape, AnyType c.type
  | .extents d _ vs => vs.length ≤ d.length ∧ ∀ v ∈ vs, ∀ c, v = some c → c.1.type.Fits c.1.value
  | .named d _ vs => (∀ av ∈ vs, av.1 ∈ d.map (·.id)) ∧ ∀ av ∈ vs, ∀ c, av.2 = some c → c.1.type.Fits c.1.value
  | .convert d vs => vs.length = d.length ∧ ∀ v ∈ vs, v.1.type.Fits v.1.value
  | .subscript s _ => ∀ v ∈ elementsOf s, v.1.type.Fits v.1.value

/-- The values and constness of numbers. -/
def givenValue (g : Coord × Bool) : Int × Bool := (g.1.value, g.2)

/-- The first part of a message on `std::cerr`. -/
def ownHeader (dir : String) (f : Failure (Coord × Bool)) : String :=
  "[KIWAKU] Assertion '" ++ f.cond ++ "' failed in " ++ (dir ++ f.file) ++ ":" ++ toString f.line ++ " - "

/-- A report identifies the assertion, says that it is one of the library, and tells what has to be told. -/
def Explains (dir : String) (f : Failure (Coord × Bool)) : Report → Prop
  | .stderr t => ∃ d, t = ownHeader dir f ++ d ∧ Tells givenValue f d
  | .handler cond msg file line => cond = f.cond ∧ file = dir ++ f.file ∧ line = f.line ∧
      ∃ d, msg = "[KIWAKU] Assertion failed: " ++ d ∧ Tells givenValue f d

/-- **C158**, full statement: when an assertion fails there is one report that explains the failure, and the program ends without undefined
behaviour; otherwise there is no report. -/
def C158_statement : Prop :=
  ∀ (cfg : Config) (call : AssertCall Int Int Int), call.Ok → cfg.dbgBreak = false →
    match call.failure with
    | none => Quiet (call.run cfg .checked)
    | some f => ∃ r e, call.run cfg .checked = ⟨[r], .ended e⟩ ∧ Explains cfg.dir f r ∧ e ≠ .undefined

/-! ## What is evaluated -/

/-- **C158** (same results) Apart from the reports, the functions compute what they compute in the rest of the model. -/
theorem C158_same (cfg : Config) (md : Mode) (s : List (Coord × Bool)) (p : List Coord) (idx : Coord) (m : Mem α) (c1 c2 : DataT)
    (k1 k2 : Nat → Bool) (init : β) (f1 : β → γ → β) (f2 : α → α → γ) (d : Desc) (dflt : Int) (vs : List TypedArg)
    (ns : List (AxisId × TypedArg)) (ws : List (Coord × Bool)) (x : Prefilled) (i : Nat) :
    (linearIndexTold cfg md s p).erase = linearIndexT md (s.map (·.1)) p ∧
    (coordinatesTold cfg md idx s).erase = coordinatesT md idx (s.map (·.1)) ∧
    (innerProductTold cfg md m c1 c2 k1 k2 init f1 f2).erase = innerProductD md m c1 c2 init f1 f2 ∧
    (ofExtentsTold cfg md d dflt vs).erase = Prefilled.ofExtents md d dflt (vs.map TypedArg.erase) ∧
    (constructNamedTold cfg md x dflt ns).erase = x.constructNamed md dflt (ns.map fun a => (a.1, a.2.erase)) ∧
    (ofValuesTold cfg md d ws).erase = Prefilled.ofValues md d (ws.map fun w => w.1.value) ∧
    (subscriptTold cfg md x i).erase = x.subscript md i := by
  have hcon : ∀ (s : Prefilled) (vs : List TypedArg),
      (constructTold cfg md s dflt vs).erase = s.construct md dflt (vs.map TypedArg.erase) := by
    intro s vs
    rw [constructTold, Prefilled.construct, erase_foldlM, List.zipIdx_map, List.foldlM_map]
    congr 1
    funext s x
    obtain ⟨v, i⟩ := x
    simp only [Prod.map, id]
    split_ifs
    · rfl
    · rw [erase_bind, erase_assert]; rfl
  refine ⟨?_, ?_, ?_, ?_, ?_, ?_, ?_⟩
  · rw [linearIndexTold, erase_bind, erase_assert, linearIndexT, List.map_map]
    congr 1
    funext _
    exact erase_ofRes _
  · cases md with
    | unchecked =>
      rw [coordinatesTold, coordinatesT]
      exact erase_ofRes _
    | checked =>
      simp only [coordinatesTold, coordinatesT, checkIndexT]
      simp only [erase_bind, erase_assert, erase_ofRes, bind_assoc]
      cases numelT (s.map (·.1)) with
      | error e => rfl
      | ok n =>
        cases h : ltT idx n <;> simp only [kwkAssert, h, bind, Except.bind] <;> rfl
  · cases md with
    | unchecked => exact erase_ofRes _
    | checked =>
      simp only [innerProductTold, innerProductD]
      simp only [erase_bind, erase_assert, erase_ofRes]
  · rw [ofExtentsTold, Prefilled.ofExtents, List.length_map]
    split_ifs
    · exact hcon _ _
    · rw [hcon, List.map_append, List.map_replicate]; rfl
  · rw [constructNamedTold, Prefilled.constructNamed]
    split_ifs
    · rfl
    · rw [erase_foldlM, List.foldlM_map]
      congr 1
      funext s y
      obtain ⟨a, v⟩ := y
      simp only
      split_ifs
      · rfl
      · rw [erase_bind, erase_assert]; rfl
  · rw [ofValuesTold, Prefilled.ofValues, erase_foldlM, List.zipIdx_map, List.foldlM_map]
    congr 1
    funext s y
    obtain ⟨v, i⟩ := y
    simp only [Prod.map, id]
    split_ifs
    · rfl
    · rw [erase_bind, erase_assert]; rfl
  · simp only [subscriptTold, Prefilled.subscript, erase_bind, erase_assert, erase_ofRes]
    rfl

/-! ## Which assertion fails -/

theorem run_quiet {x : Told α} (h : Quiet x) : Quiet (do let _ ← x; pure () : Told Unit) := quiet_bind h fun _ _ => quiet_pure ()

theorem findSome_find {X Y : Type} (l : List X) (p : X → Bool) (g : X → Option Y) (h : ∀ x ∈ l, p x = (g x).isSome) :
    l.findSome? g = (l.find? p).bind g := by
  induction l with
  | nil => rfl
  | cons x l ih =>
    have hx := h x (by simp)
    have ih := ih fun y hy => h y (by simp [hy])
    rw [List.findSome?_cons, List.find?_cons]
    cases hg : g x with
    | none => rw [hx, hg]; exact ih
    | some y => rw [hx, hg]; simp [hg]

theorem clash_iff {d : Desc} {i : Nat} (hi : i < d.length) (v : TypedArg) (s : Prefilled) (hs : s.desc = d) :
    (!hasStorage d i && !staticMatches v.erase (s.get i)) = (clashOf d[i]? v).isSome := by
  subst hs
  rw [hasStorage_eq]
  cases h : hasStorage s.desc i
  · have hg := get_static h
    rw [hasStorage_eq] at h
    rw [List.getElem?_eq_getElem hi] at h ⊢
    rw [List.getD_eq_getElem?_getD, List.getElem?_map, List.getElem?_eq_getElem hi] at hg
    obtain ⟨id, c, hc⟩ : ∃ id c, s.desc[i] = ⟨id, c⟩ := ⟨_, _, rfl⟩
    rw [hc] at h hg ⊢
    cases c with
    | dynamic t => simp [Axis.isDynamic] at h
    | static n =>
      simp only [Option.map_some, Option.getD_some] at hg
      cases v with
      | none => simp [clashOf, TypedArg.erase, staticMatches, Axis.isDynamic]
      | some c =>
        simp only [clashOf, TypedArg.erase, staticMatches, Axis.isDynamic, hg, Option.any_some]
        by_cases e : c.1.value = n <;> simp [e]
  · rw [hasStorage_eq] at h
    rw [List.getElem?_eq_getElem hi] at h ⊢
    obtain ⟨id, c, hc⟩ : ∃ id c, s.desc[i] = ⟨id, c⟩ := ⟨_, _, rfl⟩
    rw [hc] at h ⊢
    cases c with
    | dynamic t => simp [clashOf, Axis.isDynamic]
    | static n => simp [Axis.isDynamic] at h

theorem clash_some {a : Option Axis} {v : TypedArg} {x : AxisId × Int × Coord × Bool} (h : clashOf a v = some x) :
    a = some ⟨x.1, .static x.2.1⟩ ∧ v = some x.2.2 ∧ x.2.2.1.value ≠ x.2.1 := by
  unfold clashOf at h
  split at h
  · split_ifs at h with hc
    cases h
    exact ⟨rfl, rfl, hc⟩
  · cases h

theorem toString_natCast (n : Nat) : toString (n : Int) = toString n := rfl

theorem id_text (a : AxisId) : a.text = axisName a := by
  cases a with
  | implicit n =>
    simp only [AxisId.text, AxisId.code, axisName]
    rw [if_pos (by omega), show (-(-(n : Int) - 1) - 1) = (n : Int) by omega]
    rfl
  | along n =>
    simp only [AxisId.text, AxisId.code, axisName]
    rw [if_neg (by omega)]
    rfl
  | named s => rfl

/-- The text of the details has the names, the numbers, is longer than the header for Boost's handlers and does not begin with it. -/
def GoodDetails (f : Failure (Coord × Bool)) (d : String) : Prop :=
  (∀ w ∈ f.names, w.toList <:+: d.toList) ∧ numbersIn d = f.before ++ shownOf f.given ++ f.after ∧
    27 ≤ d.toList.length ∧ ¬ "[KIWAKU] Assertion failed: ".toList <+: d.toList ∧ ∀ g ∈ f.given, g.1.type.Fits g.1.value

/-- The call ends with the failure `f`, details `d`. -/
def FailsWith (call : AssertCall α β γ) (f : Failure (Coord × Bool)) (d : String) : Prop :=
  ∀ cfg, ∃ c, call.run cfg .checked = failCheck cfg c ∧ c.cond = f.cond ∧ c.file = cfg.dir ++ f.file ∧ c.line = f.line ∧
    detailText c.details = d

theorem not_prefix {a b r : List Char} (n : Nat) (h : a.take n ≠ b.take n) (hb : n ≤ b.length) (ha : n ≤ a.length) : ¬ a <+: b ++ r := by
  intro hp
  obtain ⟨t, ht⟩ := hp
  have := congrArg (List.take n) ht
  rw [List.take_append_of_le_length ha, List.take_append_of_le_length hb] at this
  exact h this

theorem startsSep_append {a : String} (h : startsSep a = true) (b : String) : startsSep (a ++ b) = true := by
  rw [startsSep] at h ⊢
  rw [String.toList_append]
  cases ha : a.toList with
  | nil => rw [ha] at h; cases h
  | cons c r => rw [ha] at h; simpa using h

theorem numbersIn_axis (id : AxisId) (n : Int) :
    numbersIn (AxisVal.text ⟨id, some ⟨.i32, n⟩⟩) = numbersIn (axisName id) ++ [(n, false)] := by
  have := numbersIn_int n false
  simp only [mark, Bool.false_eq_true, if_false, String.append_empty] at this
  rw [AxisVal.text, id_text, valueText, String.append_assoc, String.append_assoc, numbersIn_right _ (startsSep_append (by decide) _),
    numbersIn_left (by decide), numbersIn_right _ (by decide), this]
  simp [show numbersIn "[" = [] by decide, show numbersIn "]" = [] by decide]

theorem good_axis (cond : String) (line : Nat) (x : AxisId × Int × Coord × Bool) (hf : x.2.2.1.type.Fits x.2.2.1.value) :
    GoodDetails (axisFailure cond line x) (detailText [.text "[KWK] - Runtime/Compile-time mismatch for axis ",
      .axis ⟨x.1, some ⟨.i32, x.2.1⟩⟩, .text " as ", TypedArg.put (some x.2.2), .text " was provided instead."]) := by
  simp only [detailText_cons, Put.write, TypedArg.put]
  refine ⟨?_, ?_, ?_, ?_, ?_⟩
  · intro w hw
    rw [List.mem_singleton.1 hw, AxisVal.text, id_text]
    simp only [String.toList_append]
    exact ⟨"[KWK] - Runtime/Compile-time mismatch for axis ".toList, _, by
      simp only [List.append_assoc, List.append_cancel_left_eq]; rfl⟩
  · rw [numbersIn_left (by decide +kernel), numbersIn_right (AxisVal.text _) (startsSep_append (by decide) _),
      numbersIn_axis, numbersIn_left (by decide), numbersIn_right (Coord.put _ _ _) (startsSep_append (by decide) _)]
    have e1 : numbersIn "[KWK] - Runtime/Compile-time mismatch for axis " = [] := by decide +kernel
    have e2 : numbersIn " as " = [] := by decide +kernel
    have e3 : numbersIn (" was provided instead." ++ detailText []) = [] := by decide +kernel
    rw [e1, e2, e3]
    simp [axisFailure, shownOf]
  · simp only [String.toList_append, List.length_append]
    have : 27 ≤ "[KWK] - Runtime/Compile-time mismatch for axis ".toList.length := by decide +kernel
    omega
  · simp only [String.toList_append]
    exact not_prefix 3 (by decide +kernel) (by decide +kernel) (by decide +kernel)
  · intro g hg
    rw [List.mem_singleton.1 hg]
    exact hf

theorem numbersIn_nat (n : Nat) : numbersIn (Coord.put false false ⟨.u64, n⟩) = [((n : Int), false)] :=
  numbersIn_put (.inl (show IntType.u64.bits ≠ 8 by decide))

theorem good_linear (s : List (Coord × Bool)) (p : List Coord) (hs : ∀ v ∈ s, AnyType v.1.type) (hp : ∀ c ∈ p, c.type.Fits c.value)
    (cfg : Config) : GoodDetails ⟨"sh.contains(idx...)", "kwk/utility/linear_index.hpp", 32, [], [], p.map fun c => (c, false), extentsOf s⟩
      (detailText (linearCheck cfg s p).details) := by
  simp only [linearCheck, detailText_cons, Put.write]
  refine ⟨by simp, ?_, ?_, ?_, ?_⟩
  · rw [numbersIn_left (by decide +kernel), numbersIn_right (tuplePrint _) (startsSep_append (by decide) _), numbersIn_tuplePrint,
      numbersIn_left (by decide)]
    have e0 : shapePrint s ++ detailText [] = shapePrint s := String.append_empty
    have e1 : numbersIn "Linearizing out of bounds indexes " = [] := by decide +kernel
    have e2 : numbersIn " within shape " = [] := by decide +kernel
    rw [e0, e1, e2, C105_shape_text s hs]
    simp [extentsOf]
  · simp only [String.toList_append, List.length_append]
    have : 27 ≤ "Linearizing out of bounds indexes ".toList.length := by decide +kernel
    omega
  · simp only [String.toList_append]
    exact not_prefix 3 (by decide +kernel) (by decide +kernel) (by decide +kernel)
  · intro g hg
    obtain ⟨c, hc, rfl⟩ := List.mem_map.1 hg
    exact hp c hc

theorem good_coordinates (idx : Coord) (s : List (Coord × Bool)) (hs : ∀ v ∈ s, AnyType v.1.type) (hi : idx.type.Fits idx.value)
    (cfg : Config) : GoodDetails ⟨"idx < shp.numel()", "kwk/utility/coordinates.hpp", 35, [], [], [(idx, false)], extentsOf s⟩
      (detailText (coordinatesCheck cfg idx s).details) := by
  simp only [coordinatesCheck, detailText_cons, Put.write]
  refine ⟨by simp, ?_, ?_, ?_, ?_⟩
  · rw [numbersIn_left (by decide +kernel), numbersIn_right (Coord.put _ _ _) (startsSep_append (by decide) _),
      numbersIn_left (by decide)]
    have e0 : shapePrint s ++ detailText [] = shapePrint s := String.append_empty
    have e1 : numbersIn "Converting index " = [] := by decide +kernel
    have e2 : numbersIn " to an out of bounds coordinates for shape " = [] := by decide +kernel
    rw [e0, e1, e2, C105_shape_text s hs]
    simp [extentsOf, shownOf]
  · simp only [String.toList_append, List.length_append]
    have : 27 ≤ " to an out of bounds coordinates for shape ".toList.length := by decide +kernel
    omega
  · simp only [String.toList_append]
    exact not_prefix 3 (by decide +kernel) (by decide +kernel) (by decide +kernel)
  · intro g hg
    rw [List.mem_singleton.1 hg]
    exact hi

theorem good_inner (s1 s2 : List (Coord × Bool)) (h1 : ∀ v ∈ s1, AnyType v.1.type) (h2 : ∀ v ∈ s2, AnyType v.1.type)
    (cfg : Config) : GoodDetails ⟨"in1.shape() == in2.shape()", "kwk/algorithm/algos/numeric.hpp", 94, [], extentsOf s1 ++ extentsOf s2, [], []⟩
      (detailText (innerCheck cfg s1 s2).details) := by
  simp only [innerCheck, detailText_cons, Put.write]
  refine ⟨by simp, ?_, ?_, ?_, by simp⟩
  · rw [numbersIn_left (by decide +kernel), numbersIn_right (shapePrint s1) (startsSep_append (by decide) _),
      numbersIn_left (by decide), numbersIn_right (shapePrint s2) (startsSep_append (by decide) _)]
    have e1 : numbersIn "[KWK] - Inner product dimensions do not match, container one dimensions are " = [] := by decide +kernel
    have e2 : numbersIn ",  container two dimensions are " = [] := by decide +kernel
    have e3 : numbersIn ("." ++ detailText []) = [] := by decide +kernel
    rw [e1, e2, e3, C105_shape_text s1 h1, C105_shape_text s2 h2]
    simp [extentsOf, shownOf]
  · simp only [String.toList_append, List.length_append]
    have : 27 ≤ "[KWK] - Inner product dimensions do not match, container one dimensions are ".toList.length := by decide +kernel
    omega
  · simp only [String.toList_append]
    exact not_prefix 3 (by decide +kernel) (by decide +kernel) (by decide +kernel)

theorem good_values (i : Nat) (g : Int) (v : Coord × Bool) (hv : v.1.type.Fits v.1.value) (cfg : Config) :
    GoodDetails ⟨"value == get<i>(*this)", "kwk/detail/sequence/prefilled.hpp", 196, [], [((i : Int), false), (g, true)], [v], []⟩
      (detailText (valuesCheck cfg i g v).details) := by
  simp only [valuesCheck, detailText_cons, Put.write]
  refine ⟨by simp, ?_, ?_, ?_, ?_⟩
  · rw [numbersIn_left (by decide +kernel), numbersIn_right (Coord.put _ _ _) (startsSep_append (by decide) _), numbersIn_nat,
      numbersIn_left (by decide), numbersIn_right (Coord.put _ _ _) (startsSep_append (by decide) _), numbersIn_put (.inr rfl),
      numbersIn_left (by decide), numbersIn_right (Coord.put _ _ _) (startsSep_append (by decide) _)]
    have e1 : numbersIn "[KWK] - Runtime/Compile-time mismatch at index " = [] := by decide +kernel
    have e2 : numbersIn " - Expected " = [] := by decide +kernel
    have e3 : numbersIn " but " = [] := by decide +kernel
    have e4 : numbersIn (" was provided" ++ detailText []) = [] := by decide +kernel
    rw [e1, e2, e3, e4]
    simp [shownOf]
  · simp only [String.toList_append, List.length_append]
    have : 27 ≤ "[KWK] - Runtime/Compile-time mismatch at index ".toList.length := by decide +kernel
    omega
  · simp only [String.toList_append]
    exact not_prefix 3 (by decide +kernel) (by decide +kernel) (by decide +kernel)
  · intro g hg
    rw [List.mem_singleton.1 hg]
    exact hv

theorem good_range (i n : Nat) (cfg : Config) :
    GoodDetails ⟨"idx<static_size", "kwk/detail/sequence/prefilled.hpp", 278, [], [((i : Int), false), ((n : Int), false)], [], []⟩
      (detailText (rangeCheck cfg i n).details) := by
  simp only [rangeCheck, detailText_cons, Put.write]
  refine ⟨by simp, ?_, ?_, ?_, by simp⟩
  · rw [numbersIn_left (by decide +kernel), numbersIn_right (Coord.put _ _ _) (startsSep_append (by decide) _), numbersIn_nat,
      numbersIn_left (by decide)]
    have e0 : Coord.put false false ⟨.u64, (n : Int)⟩ ++ detailText [] = Coord.put false false ⟨.u64, (n : Int)⟩ := String.append_empty
    have e1 : numbersIn "[KWK] - Out of bounds access at index: " = [] := by decide +kernel
    have e2 : numbersIn " for a max. of " = [] := by decide +kernel
    rw [e0, e1, e2, numbersIn_nat]
    simp [shownOf]
  · simp only [String.toList_append, List.length_append]
    have : 27 ≤ "[KWK] - Out of bounds access at index: ".toList.length := by decide +kernel
    omega
  · simp only [String.toList_append]
    exact not_prefix 3 (by decide +kernel) (by decide +kernel) (by decide +kernel)

theorem good_storage (i : Nat) (s : Prefilled) (hs : ∀ v ∈ s.typed, v.1.type.Fits v.1.value) (cfg : Config) :
    GoodDetails ⟨"contains(idx)", "kwk/detail/sequence/prefilled.hpp", 282, [], [((i : Int), false)], s.typed, []⟩
      (detailText (storageCheck cfg i s).details) := by
  simp only [storageCheck, detailText_cons, Put.write]
  refine ⟨by simp, ?_, ?_, ?_, hs⟩
  · rw [numbersIn_left (by decide +kernel), numbersIn_right (Coord.put _ _ _) (startsSep_append (by decide) _), numbersIn_nat,
      numbersIn_left (by decide)]
    have e0 : tuplePrint s.typed ++ detailText [] = tuplePrint s.typed := String.append_empty
    have e1 : numbersIn "[KWK] - Access at index " = [] := by decide +kernel
    have e2 : numbersIn " overwrites a compile-time value of " = [] := by decide +kernel
    rw [e0, e1, e2, numbersIn_tuplePrint]
    simp
  · simp only [String.toList_append, List.length_append]
    have : 27 ≤ " overwrites a compile-time value of ".toList.length := by decide +kernel
    omega
  · simp only [String.toList_append]
    exact not_prefix 3 (by decide +kernel) (by decide +kernel) (by decide +kernel)

/-! ## The calls -/

/-- What a call does in a build with assertions. -/
def MatchesReport (call : AssertCall α β γ) : Prop :=
  match call.failure with
  | none => ∀ cfg, Quiet (call.run cfg .checked)
  | some f => ∃ d, GoodDetails f d ∧ FailsWith call f d

theorem matches_linear (s : List (Coord × Bool)) (p : List Coord) (h : (AssertCall.linear s p : AssertCall α β γ).Ok) :
    MatchesReport (AssertCall.linear s p : AssertCall α β γ) := by
  unfold MatchesReport
  simp only [AssertCall.failure]
  cases hc : containsM (s.map (·.1.value)) p
  · simp only [Bool.false_eq_true, if_false]
    refine ⟨_, good_linear s p h.1 h.2 ⟨none, false, ""⟩, fun cfg => ⟨linearCheck cfg s p, ?_, rfl, rfl, rfl, rfl⟩⟩
    simp only [AssertCall.run, linearIndexTold, hc]
    rw [assert_false, told_fail_bind, told_fail_bind]
  · simp only [if_true]
    intro cfg
    refine run_quiet ?_
    simp only [linearIndexTold, hc]
    exact quiet_ofRes _

theorem matches_coordinates (idx : Coord) (s : List (Coord × Bool)) (h : (AssertCall.coordinates idx s : AssertCall α β γ).Ok) :
    MatchesReport (AssertCall.coordinates idx s : AssertCall α β γ) := by
  unfold MatchesReport
  simp only [AssertCall.failure]
  cases hn : numelT (s.map (·.1)) with
  | error e =>
    intro cfg
    refine run_quiet ?_
    simp only [coordinatesTold, hn]
    exact ⟨rfl, fun _ h => by cases h⟩
  | ok n =>
    cases hc : ltT idx n
    · simp only [hc, Bool.false_eq_true, if_false]
      refine ⟨_, good_coordinates idx s h.1 h.2 ⟨none, false, ""⟩, fun cfg => ⟨coordinatesCheck cfg idx s, ?_, rfl, rfl, rfl, rfl⟩⟩
      simp only [AssertCall.run, coordinatesTold, hn]
      show ((assertTold cfg .checked (ltT idx n) _ >>= _) >>= _) = _
      rw [hc, assert_false, told_fail_bind, told_fail_bind]
    · simp only [hc, if_true]
      intro cfg
      refine run_quiet ?_
      simp only [coordinatesTold, hn]
      show Quiet (assertTold cfg .checked (ltT idx n) _ >>= _)
      rw [hc, assert_true]
      exact quiet_ofRes _

theorem marked_any {k : Nat → Bool} {s : List Coord} (h : ∀ c ∈ s, AnyType c.type) : ∀ v ∈ marked k s, AnyType v.1.type := by
  intro v hv
  obtain ⟨⟨c, i⟩, hx, rfl⟩ := List.mem_map.1 hv
  exact h c (List.fst_mem_of_mem_zipIdx hx)

theorem matches_inner (m : Mem α) (c1 c2 : DataT) (k1 k2 : Nat → Bool) (init : β) (f1 : β → γ → β) (f2 : α → α → γ)
    (h : (AssertCall.inner m c1 c2 k1 k2 init f1 f2 : AssertCall α β γ).Ok) : MatchesReport (AssertCall.inner m c1 c2 k1 k2 init f1 f2) := by
  unfold MatchesReport
  simp only [AssertCall.failure]
  cases hn : shapeEqT c1.shape c2.shape with
  | error e =>
    intro cfg
    refine run_quiet ?_
    simp only [innerProductTold, hn]
    exact ⟨rfl, fun _ h => by cases h⟩
  | ok b =>
    cases b
    · have e : ∀ (k : Nat → Bool) (s : List Coord), s.zipIdx.map (fun ci => (ci.1.value, k ci.2)) = extentsOf (marked k s) := by
        intro k s
        simp [extentsOf, marked]
      simp only [e]
      refine ⟨_, good_inner _ _ (marked_any h.1) (marked_any h.2) ⟨none, false, ""⟩, fun cfg => ⟨innerCheck cfg _ _, ?_, rfl, rfl, rfl, rfl⟩⟩
      simp only [AssertCall.run, innerProductTold, hn]
      show ((assertTold cfg .checked false _ >>= _) >>= _) = _
      rw [assert_false, told_fail_bind, told_fail_bind]
    · intro cfg
      refine run_quiet ?_
      simp only [innerProductTold, hn]
      exact quiet_ofRes _

/-- The loop of the constructors and the first clash. -/
theorem fill_matches {X Y : Type} (call : AssertCall α β γ) (d : Desc) (l : List X) (idx : X → Nat) (new : X → Int) (ok : X → Int → Bool)
    (chk : Config → X → Desc → Int → Check) (g : X → Option Y) (mk : Y → Failure (Coord × Bool))
    (hrun : ∀ cfg, call.run cfg .checked = (do
      let _ ← l.foldlM (fillStep cfg .checked idx new ok (chk cfg)) (Prefilled.default d)
      pure ()))
    (hfail : call.failure = (l.findSome? g).map mk)
    (hg : ∀ x ∈ l, (!hasStorage d (idx x) && !ok x ((Prefilled.default d).get (idx x))) = (g x).isSome)
    (hgood : ∀ x ∈ l, ∀ y, g x = some y → ∃ t, GoodDetails (mk y) t ∧ ∀ cfg,
      (chk cfg x d ((Prefilled.default d).get (idx x))).cond = (mk y).cond ∧
      (chk cfg x d ((Prefilled.default d).get (idx x))).file = cfg.dir ++ (mk y).file ∧
      (chk cfg x d ((Prefilled.default d).get (idx x))).line = (mk y).line ∧
      detailText (chk cfg x d ((Prefilled.default d).get (idx x))).details = t) : MatchesReport call := by
  unfold MatchesReport
  rw [hfail, findSome_find l _ g hg]
  have hfc := fun cfg => fill_checked cfg idx new ok (chk cfg) l (Prefilled.default d)
  rw [show (Prefilled.default d).desc = d from rfl] at hfc
  cases hf : l.find? fun x => !hasStorage d (idx x) && !ok x ((Prefilled.default d).get (idx x)) with
  | none =>
    rw [hf] at hfc
    intro cfg
    obtain ⟨s', hs'⟩ := hfc cfg
    rw [hrun, hs']
    exact run_quiet (quiet_pure s')
  | some x =>
    rw [hf] at hfc
    have hx := List.mem_of_find?_eq_some hf
    have hp := List.find?_some hf
    rw [hg x hx] at hp
    obtain ⟨y, hy⟩ := Option.isSome_iff_exists.1 hp
    obtain ⟨t, ht, hc⟩ := hgood x hx y hy
    simp only [Option.bind_some, hy, Option.map_some]
    refine ⟨t, ht, fun cfg => ⟨_, ?_, hc cfg⟩⟩
    rw [hrun, hfc cfg, told_fail_bind]

theorem static_get {d : Desc} {i : Nat} {id : AxisId} {n : Int} (h : d[i]? = some ⟨id, .static n⟩) :
    (Prefilled.default d).get i = n ∧ descAt d i = ⟨id, some ⟨.i32, n⟩⟩ := by
  constructor
  · rw [get_static (by rw [hasStorage_eq, show (Prefilled.default d).desc = d from rfl, h]; rfl), List.getD_eq_getElem?_getD,
      show (Prefilled.default d).desc = d from rfl, List.getElem?_map, h]
    rfl
  · rw [descAt, List.getD_eq_getElem?_getD, h]
    rfl

theorem padded_length {d : Desc} {vs : List TypedArg} (h : vs.length ≤ d.length) : (paddedArgs d vs).length = d.length := by
  rw [paddedArgs, List.length_append, List.length_replicate]
  omega

theorem ofExtentsTold_eq (cfg : Config) (md : Mode) (d : Desc) (dflt : Int) (vs : List TypedArg) :
    ofExtentsTold cfg md d dflt vs = constructTold cfg md (Prefilled.default d) dflt (paddedArgs d vs) := by
  rw [ofExtentsTold, paddedArgs]
  split_ifs with e
  · rw [e]; simp
  · rfl

theorem matches_extents (d : Desc) (dflt : Int) (vs : List TypedArg) (h : (AssertCall.extents d dflt vs : AssertCall α β γ).Ok) :
    MatchesReport (AssertCall.extents d dflt vs : AssertCall α β γ) := by
  refine fill_matches _ d (paddedArgs d vs).zipIdx (fun vi => vi.2) (fun vi => asDimension vi.1.erase dflt)
    (fun vi g => staticMatches vi.1.erase g) (fun cfg vi d _ => extentCheck cfg (descAt d vi.2) vi.1) (fun vi => clashOf d[vi.2]? vi.1)
    (axisFailure "(v == _) || v == __get<I::value>()" 92) ?_ rfl ?_ ?_
  · intro cfg
    simp only [AssertCall.run, ofExtentsTold_eq cfg .checked d dflt vs]
    rfl
  · intro x hx
    have hi := List.snd_lt_of_mem_zipIdx hx
    rw [padded_length h.1] at hi
    exact clash_iff (by omega) x.1 _ rfl
  · intro x hx y hy
    obtain ⟨h1, h2, -⟩ := clash_some hy
    have hm := List.fst_mem_of_mem_zipIdx hx
    refine ⟨_, good_axis _ 92 y ?_, fun cfg => ⟨rfl, rfl, rfl, ?_⟩⟩
    · rw [h2, paddedArgs, List.mem_append] at hm
      rcases hm with hm | hm
      · have := Option.some.inj (List.mem_replicate.1 hm).2
        rw [this]
        decide
      · exact h.2 _ hm _ rfl
    · simp only [extentCheck]
      rw [(static_get h1).2, h2]

theorem matches_named (d : Desc) (dflt : Int) (vs : List (AxisId × TypedArg)) (h : (AssertCall.named d dflt vs : AssertCall α β γ).Ok) :
    MatchesReport (AssertCall.named d dflt vs : AssertCall α β γ) := by
  cases hd : d.any Axis.isDynamic
  · have h0 : dynamicSize d = 0 := by
      rw [dynamicSize_eq, List.countP_eq_zero]
      intro a ha hx
      rw [List.any_eq_false] at hd
      exact hd a ha hx
    unfold MatchesReport
    simp only [AssertCall.failure, hd, Bool.false_eq_true, if_false]
    intro cfg
    refine run_quiet ?_
    rw [constructNamedTold, if_pos (by exact h0)]
    exact quiet_pure _
  · have h0 : dynamicSize d ≠ 0 := by
      rw [dynamicSize_eq]
      intro hc
      rw [List.countP_eq_zero] at hc
      obtain ⟨a, ha, hx⟩ := List.any_eq_true.1 hd
      exact hc a ha hx
    have hfind : ∀ a, d[findAxis d a]? = d.find? fun m => decide (m.id = a) := by
      intro a
      rw [findAxis, kumiLocate, List.find?_eq_getElem?_findIdx]
    refine fill_matches _ d vs (fun av => findAxis d av.1) (fun av => asDimension av.2.erase dflt)
      (fun av g => staticMatches av.2.erase g) (fun cfg av d _ => namedCheck cfg (descAt d (findAxis d av.1)) av.2)
      (fun av => clashOf (d.find? fun a => decide (a.id = av.1)) av.2)
      (axisFailure "(input[x.base()] == _) || input[x.base()] == (*this)[x]" 119) ?_ ?_ ?_ ?_
    · intro cfg
      simp only [AssertCall.run, constructNamedTold]
      rw [if_neg (by exact h0)]
      congr 1
      suffices hs : ∀ (l : List (AxisId × TypedArg)) (s : Prefilled), s.desc = d → l.foldlM (fun s (x : AxisId × TypedArg) =>
          if hasStorage s.desc (findAxis s.desc x.1) then pure (s.set (findAxis s.desc x.1) (asDimension x.2.erase dflt))
          else do
            assertTold cfg .checked (staticMatches x.2.erase (s.get (findAxis s.desc x.1)))
              (namedCheck cfg (descAt s.desc (findAxis s.desc x.1)) x.2)
            pure s) s = l.foldlM (fillStep cfg .checked (fun av => findAxis d av.1) (fun av => asDimension av.2.erase dflt)
              (fun av g => staticMatches av.2.erase g) (fun av d _ => namedCheck cfg (descAt d (findAxis d av.1)) av.2)) s from
        hs vs _ rfl
      intro l
      induction l with
      | nil => intro s _; rfl
      | cons x l ih =>
        intro s hs
        rw [List.foldlM_cons, List.foldlM_cons]
        simp only [fillStep, hs]
        cases hst : hasStorage d (findAxis d x.1)
        · simp only [Bool.false_eq_true, if_false]
          cases hm : staticMatches x.2.erase (s.get (findAxis d x.1))
          · rw [assert_false, told_fail_bind, told_fail_bind, told_fail_bind]
          · exact ih s hs
        · simp only [if_true]
          exact ih _ (by rw [set_desc]; exact hs)
    · simp only [AssertCall.failure, hd, if_true]
    · intro x hx
      have hi : findAxis d x.1 < d.length := by
        obtain ⟨a, ha, hax⟩ := List.mem_map.1 (h.1 x hx)
        exact List.findIdx_lt_length_of_exists ⟨a, ha, by simpa using hax⟩
      rw [← hfind]
      exact clash_iff hi x.2 _ rfl
    · intro x hx y hy
      rw [← hfind] at hy
      obtain ⟨h1, h2, -⟩ := clash_some hy
      refine ⟨_, good_axis _ 119 y (h.2 x hx _ h2), fun cfg => ⟨rfl, rfl, rfl, ?_⟩⟩
      simp only [namedCheck]
      rw [(static_get h1).2, h2]

theorem matches_convert (d : Desc) (vs : List (Coord × Bool)) (h : (AssertCall.convert d vs : AssertCall α β γ).Ok) :
    MatchesReport (AssertCall.convert d vs : AssertCall α β γ) := by
  refine fill_matches _ d vs.zipIdx (fun vi => vi.2) (fun vi => vi.1.1.value) (fun vi g => decide (vi.1.1.value = g))
    (fun cfg vi _ g => valuesCheck cfg vi.2 g vi.1) (fun vi => (clashOf d[vi.2]? (some vi.1)).map fun x => (vi.2, x.2))
    (fun x => ⟨"value == get<i>(*this)", "kwk/detail/sequence/prefilled.hpp", 196, [], [((x.1 : Int), false), (x.2.1, true)], [x.2.2], []⟩)
    ?_ rfl ?_ ?_
  · intro cfg
    rfl
  · intro x hx
    have hi := List.snd_lt_of_mem_zipIdx hx
    rw [h.1] at hi
    have := clash_iff (by omega : x.2 < d.length) (some x.1) (Prefilled.default d) rfl
    rw [Option.isSome_map, ← this]
    rfl
  · intro x hx y hy
    obtain ⟨z, hz, rfl⟩ := Option.map_eq_some_iff.1 hy
    obtain ⟨h1, h2, -⟩ := clash_some hz
    have h2 : x.1 = z.2.2 := by simpa using h2
    have hm := List.fst_mem_of_mem_zipIdx hx
    refine ⟨_, good_values x.2 z.2.1 z.2.2 (by rw [← h2]; exact h.2 _ hm) ⟨none, false, ""⟩, fun cfg => ⟨rfl, rfl, rfl, ?_⟩⟩
    simp only [valuesCheck]
    rw [(static_get h1).1, h2]

theorem elements_typed (s : Prefilled) : elementsOf s = s.typed := by
  apply List.ext_getElem
  · simp [elementsOf, Prefilled.typed]
  · intro i h1 h2
    have hi : i < s.desc.length := by simpa [elementsOf] using h1
    simp only [elementsOf, Prefilled.typed, List.getElem_map, List.getElem_zipIdx, List.getElem_range, Nat.zero_add]
    have hh := hasStorage_eq s.desc i
    rw [List.getElem?_eq_getElem hi] at hh
    cases hc : s.desc[i].content with
    | static v =>
      have h0 : hasStorage s.desc i = false := by rw [hh]; simp [Axis.isDynamic, hc]
      have hg := get_static h0
      rw [List.getD_eq_getElem?_getD, List.getElem?_map, List.getElem?_eq_getElem hi] at hg
      simp only [Option.map_some, Option.getD_some, hc] at hg
      have ht : storedType s.desc i = .i32 := by
        rw [storedType, List.getD_eq_getElem?_getD, List.getElem?_map, List.getElem?_eq_getElem hi]
        simp [hc]
      simp [hg, ht, h0]
    | dynamic t =>
      have h0 : hasStorage s.desc i = true := by rw [hh]; simp [Axis.isDynamic, hc]
      have ht : storedType s.desc i = t := by
        rw [storedType, List.getD_eq_getElem?_getD, List.getElem?_map, List.getElem?_eq_getElem hi]
        simp [hc]
      simp [ht, h0]

theorem matches_subscript (s : Prefilled) (i : Nat) (h : (AssertCall.subscript s i : AssertCall α β γ).Ok) :
    MatchesReport (AssertCall.subscript s i : AssertCall α β γ) := by
  unfold MatchesReport
  simp only [AssertCall.failure]
  simp only [AssertCall.Ok] at h
  rw [elements_typed] at h ⊢
  by_cases hi : i < s.desc.length
  · rw [if_pos hi]
    cases ha : (s.desc[i]?).any Axis.isDynamic
    · simp only [Bool.false_eq_true, if_false]
      refine ⟨_, good_storage i s h ⟨none, false, ""⟩, fun cfg => ⟨storageCheck cfg i s, ?_, rfl, rfl, rfl, rfl⟩⟩
      simp only [AssertCall.run, subscriptTold, hi, hasStorage_eq, ha, decide_true]
      rw [assert_true, told_pure_bind, assert_false, told_fail_bind, told_fail_bind]
    · simp only [if_true]
      intro cfg
      refine run_quiet ?_
      simp only [subscriptTold, hi, hasStorage_eq, ha, decide_true]
      exact quiet_ofRes _
  · rw [if_neg hi]
    refine ⟨_, good_range i s.desc.length ⟨none, false, ""⟩, fun cfg => ⟨rangeCheck cfg i s.desc.length, ?_, rfl, rfl, rfl, rfl⟩⟩
    simp only [AssertCall.run, subscriptTold, hi, decide_false]
    rw [assert_false, told_fail_bind, told_fail_bind]

theorem matches_all (call : AssertCall α β γ) (h : call.Ok) : MatchesReport call := by
  cases call with
  | linear s p => exact matches_linear s p h
  | coordinates idx s => exact matches_coordinates idx s h
  | inner m c1 c2 k1 k2 init f1 f2 => exact matches_inner m c1 c2 k1 k2 init f1 f2 h
  | extents d dflt vs => exact matches_extents d dflt vs h
  | named d dflt vs => exact matches_named d dflt vs h
  | convert d vs => exact matches_convert d vs h
  | subscript s i => exact matches_subscript s i h

/-! ## C158 -/

/-- **C158** (no failure, no report) Nothing is reported and the program does not end when no assertion fails, or when the assertions are
disabled. -/
theorem C158_quiet (cfg : Config) (call : AssertCall α β γ) :
    (call.Ok → call.failure = none → Quiet (call.run cfg .checked)) ∧ Quiet (call.run cfg .unchecked) := by
  refine ⟨fun h hf => ?_, ?_⟩
  · have := matches_all call h
    rw [MatchesReport, hf] at this
    exact this cfg
  · cases call with
    | linear s p => exact run_quiet (quiet_ofRes _)
    | coordinates idx s => exact run_quiet (quiet_ofRes _)
    | inner m c1 c2 k1 k2 init f1 f2 => exact run_quiet (quiet_ofRes _)
    | extents d dflt vs =>
      refine run_quiet ?_
      have hq : ∀ l, Quiet (constructTold cfg .unchecked (Prefilled.default d) dflt l) := by
        intro l
        obtain ⟨s', hs'⟩ := fill_unchecked cfg (fun vi : TypedArg × Nat => vi.2) (fun vi => asDimension vi.1.erase dflt)
          (fun vi g => staticMatches vi.1.erase g) (fun vi d _ => extentCheck cfg (descAt d vi.2) vi.1) l.zipIdx (Prefilled.default d)
        have e : constructTold cfg .unchecked (Prefilled.default d) dflt l = pure s' := hs'
        rw [e]
        exact quiet_pure s'
      rw [ofExtentsTold]
      split_ifs
      · exact hq _
      · exact hq _
    | named d dflt vs =>
      refine run_quiet ?_
      rw [constructNamedTold]
      split_ifs
      · exact quiet_pure _
      · generalize Prefilled.default d = s
        induction vs generalizing s with
        | nil => exact quiet_pure s
        | cons x l ih =>
          rw [List.foldlM_cons]
          refine quiet_bind ?_ fun a _ => ih a
          simp only
          split_ifs
          · exact quiet_pure _
          · exact quiet_pure s
    | convert d vs =>
      refine run_quiet ?_
      obtain ⟨s', hs'⟩ := fill_unchecked cfg (fun vi : (Coord × Bool) × Nat => vi.2) (fun vi => vi.1.1.value)
        (fun vi g => decide (vi.1.1.value = g)) (fun vi _ g => valuesCheck cfg vi.2 g vi.1) vs.zipIdx (Prefilled.default d)
      have e : ofValuesTold cfg .unchecked d vs = pure s' := hs'
      rw [e]
      exact quiet_pure s'
    | subscript s i => exact run_quiet (quiet_ofRes _)

theorem ownText_eq (c : Check) : ownText c =
    "[KIWAKU] Assertion '" ++ c.cond ++ "' failed in " ++ c.file ++ ":" ++ toString c.line ++ " - " ++ detailText c.details := by
  rw [ownText, foldl_write]

theorem ownText_of {c : Check} {f : Failure (Coord × Bool)} {dir d : String} (h1 : c.cond = f.cond) (h2 : c.file = dir ++ f.file)
    (h3 : c.line = f.line) (h4 : detailText c.details = d) : ownText c = ownHeader dir f ++ d := by
  rw [ownText_eq, h1, h2, h3, h4]
  rfl

theorem boostText_good {c : Check} {f : Failure (Coord × Bool)} {d : String} (hg : GoodDetails f d) (hd : detailText c.details = d) :
    boostText c = d := by
  apply String.toList_injective
  rw [boostText_eq, hd, List.drop_eq_nil_of_le, List.append_nil]
  have := hg.2.2.1
  have e : "[KIWAKU] Assertion failed: ".toList.length = 27 := by decide +kernel
  omega

/-- **C158** (reports of the library) With the library's own reports, the message of a failed assertion begins with the condition, the file
and the line; then come the names and the numbers, and these are all right exactly if no number given by the program has a run-time 8-bit
type.  Then the program is aborted. -/
theorem C158_own (cfg : Config) (hb : cfg.boost = none) (hk : cfg.dbgBreak = false) (call : AssertCall α β γ) (h : call.Ok)
    (f : Failure (Coord × Bool)) (hf : call.failure = some f) :
    ∃ d, call.run cfg .checked = ⟨[.stderr (ownHeader cfg.dir f ++ d)], .ended .abort⟩ ∧
      (Tells givenValue f d ↔ ∀ g ∈ f.given, g.1.type.bits ≠ 8 ∨ g.2 = true) := by
  have := matches_all call h
  rw [MatchesReport, hf] at this
  obtain ⟨d, hg, hr⟩ := this
  obtain ⟨c, hc, h1, h2, h3, h4⟩ := hr cfg
  refine ⟨d, ?_, ?_⟩
  · rw [hc, failCheck, hk, hb, ownText_of h1 h2 h3 h4]
    rfl
  · obtain ⟨hn, hnum, -, -, hfit⟩ := hg
    have := shownOf_iff f.given hfit
    unfold Readable at this
    rw [← this, Tells, hnum, Failure.shown, List.append_left_inj, List.append_right_inj]
    exact ⟨fun h => h.2, fun h => ⟨hn, h⟩⟩

/-- **C158** (partial; missing: numbers of run-time 8-bit types, Boost's handlers) A failed assertion is explained by the one message of the
library, then the program is aborted, if no number given by the program has a run-time 8-bit type. -/
theorem C158_explained_partial (cfg : Config) (hb : cfg.boost = none) (hk : cfg.dbgBreak = false) (call : AssertCall α β γ) (h : call.Ok)
    (f : Failure (Coord × Bool)) (hf : call.failure = some f) (hr : ∀ g ∈ f.given, g.1.type.bits ≠ 8 ∨ g.2 = true) :
    ∃ r, call.run cfg .checked = ⟨[r], .ended .abort⟩ ∧ Explains cfg.dir f r := by
  obtain ⟨d, h1, h2⟩ := C158_own cfg hb hk call h f hf
  exact ⟨_, h1, d, rfl, h2.2 hr⟩

/-- What follows a call of a handler. -/
def afterHandler : Handler → Ending
  | .ends => .handler
  | .returns => .undefined
  | .throws => .terminate

/-- **C158** (reports to Boost) With Boost's handlers, the handler is called once, with the condition, the file, the line, and the same
details as in the message of the library, but never with the header that the library means to write before them.  If the handler returns, the
behaviour is undefined; if it throws, the program is terminated. -/
theorem C158_boost (cfg : Config) (hd : Handler) (hb : cfg.boost = some hd) (hk : cfg.dbgBreak = false) (call : AssertCall α β γ) (h : call.Ok)
    (f : Failure (Coord × Bool)) (hf : call.failure = some f) :
    ∃ d, call.run cfg .checked = ⟨[.handler f.cond d (cfg.dir ++ f.file) f.line],
        .ended (afterHandler hd)⟩ ∧
      call.run { cfg with boost := none } .checked = ⟨[.stderr (ownHeader cfg.dir f ++ d)], .ended .abort⟩ ∧
      ¬ "[KIWAKU] Assertion failed: ".toList <+: d.toList := by
  have := matches_all call h
  rw [MatchesReport, hf] at this
  obtain ⟨d, hg, hr⟩ := this
  obtain ⟨c, hc, h1, h2, h3, h4⟩ := hr cfg
  obtain ⟨c', hc', g1, g2, g3, g4⟩ := hr { cfg with boost := none }
  refine ⟨d, ?_, ?_, hg.2.2.2.1⟩
  · rw [hc, failCheck, hk, hb, h1, h2, h3, boostText_good hg h4]
    cases hd <;> rfl
  · have g2 : c'.file = cfg.dir ++ f.file := g2
    have ht := ownText_of g1 g2 g3 g4
    have hk' : ({ cfg with boost := none } : Config).dbgBreak = false := hk
    rw [hc', failCheck, hk', ht]
    rfl

/-- **C158** (debugger) With `KIWAKU_ASSERT_USE_DBG_BREAK` the program stops before anything is reported. -/
theorem C158_break (cfg : Config) (hk : cfg.dbgBreak = true) (call : AssertCall α β γ) (h : call.Ok) (f : Failure (Coord × Bool))
    (hf : call.failure = some f) : call.run cfg .checked = ⟨[], .ended .trap⟩ := by
  have := matches_all call h
  rw [MatchesReport, hf] at this
  obtain ⟨d, -, hr⟩ := this
  obtain ⟨c, hc, -⟩ := hr cfg
  rw [hc, failCheck, if_pos hk]

/-- **C158** (exactly when) A failed assertion is explained by one report, after which the program ends without undefined behaviour, exactly
if the reports are those of the library and no number given by the program has a run-time 8-bit type. -/
theorem C158_iff (cfg : Config) (hk : cfg.dbgBreak = false) (call : AssertCall α β γ) (h : call.Ok) (f : Failure (Coord × Bool))
    (hf : call.failure = some f) :
    (∃ r e, call.run cfg .checked = ⟨[r], .ended e⟩ ∧ Explains cfg.dir f r ∧ e ≠ .undefined) ↔
      cfg.boost = none ∧ ∀ g ∈ f.given, g.1.type.bits ≠ 8 ∨ g.2 = true := by
  constructor
  · rintro ⟨r, e, hr, hx, -⟩
    cases hb : cfg.boost with
    | none =>
      refine ⟨rfl, ?_⟩
      obtain ⟨d, hd, hiff⟩ := C158_own cfg hb hk call h f hf
      rw [hd] at hr
      cases hr
      obtain ⟨d', hd', ht⟩ := hx
      have : d = d' := by
        have := congrArg String.toList hd'
        rw [String.toList_append, String.toList_append, List.append_cancel_left_eq] at this
        exact String.toList_injective this
      subst this
      exact hiff.1 ht
    | some x =>
      obtain ⟨d, hd, -, hn⟩ := C158_boost cfg x hb hk call h f hf
      rw [hd] at hr
      cases hr
      obtain ⟨-, -, -, d', hd', -⟩ := hx
      exact absurd ⟨d'.toList, by rw [hd', String.toList_append]⟩ hn
  · rintro ⟨hb, hr⟩
    obtain ⟨r, h1, h2⟩ := C158_explained_partial cfg hb hk call h f hf hr
    exact ⟨r, .abort, h1, h2, by decide⟩

/-- A call with a run-time 8-bit index out of the shape. -/
def badIndex : AssertCall Int Int Int := .linear [(⟨.i32, 3⟩, false)] [⟨.u8, 65⟩]

/-- **C158** The full statement fails: a run-time 8-bit index is shown as a character. -/
theorem C158_not : ¬ C158_statement := by
  intro h
  have h1 := h ⟨none, false, "/include/"⟩ badIndex ⟨by decide, by decide⟩ rfl
  have hf : badIndex.failure =
      some ⟨"sh.contains(idx...)", "kwk/utility/linear_index.hpp", 32, [], [], [(⟨.u8, 65⟩, false)], [(3, false)]⟩ := rfl
  rw [hf] at h1
  have := ((C158_iff ⟨none, false, "/include/"⟩ rfl badIndex ⟨by decide, by decide⟩ _ hf).1 h1).2 (⟨.u8, 65⟩, false) (by simp)
  simp [IntType.u8] at this

example : badIndex.run ⟨none, false, "/include/"⟩ .checked = ⟨[.stderr ("[KIWAKU] Assertion 'sh.contains(idx...)' failed in " ++
    "/include/kwk/utility/linear_index.hpp:32 - Linearizing out of bounds indexes ( A ) within shape [ 3 ]")], .ended .abort⟩ := by
  decide +kernel

/-- A 2D shape with a compile-time extent, made from other extents. -/
def badExtents : AssertCall Int Int Int :=
  .extents [⟨.named "height", .static 4⟩, ⟨.implicit 0, .dynamic .i32⟩] 1 [some (⟨.i32, 5⟩, false), some (⟨.i32, 2⟩, false)]

example : badExtents.Ok ∧ badExtents.failure.isSome := by
  refine ⟨⟨by decide, ?_⟩, rfl⟩
  intro v hv c hc
  subst hc
  simp only [List.mem_cons, Option.some.injEq, List.not_mem_nil, or_false] at hv
  rcases hv with rfl | rfl <;> decide

example : badExtents.run ⟨none, false, ""⟩ .checked = ⟨[.stderr ("[KIWAKU] Assertion '(v == _) || v == __get<I::value>()' failed in " ++
    "kwk/detail/sequence/prefilled.hpp:92 - [KWK] - Runtime/Compile-time mismatch for axis height[4] as 5 was provided instead.")],
    .ended .abort⟩ := by decide +kernel

example : badExtents.run ⟨some .returns, false, ""⟩ .checked = ⟨[.handler "(v == _) || v == __get<I::value>()"
    "[KWK] - Runtime/Compile-time mismatch for axis height[4] as 5 was provided instead." "kwk/detail/sequence/prefilled.hpp" 92],
    .ended .undefined⟩ ∧ badExtents.run ⟨none, true, ""⟩ .checked = ⟨[], .ended .trap⟩ ∧
    badExtents.run ⟨none, false, ""⟩ .unchecked = ⟨[], .done ()⟩ := by decide +kernel

example : boostText ⟨"c", "f", 1, [.text "too big"]⟩ = "too big] Assertion failed: " ∧ boostText ⟨"c", "f", 1, []⟩ =
    "[KIWAKU] Assertion failed: " := by decide +kernel

example : (AssertCall.coordinates ⟨.i32, 12⟩ [(⟨.i32, 3⟩, false), (⟨.u8, 4⟩, true)] : AssertCall Int Int Int).run ⟨none, false, ""⟩ .checked =
    ⟨[.stderr ("[KIWAKU] Assertion 'idx < shp.numel()' failed in kwk/utility/coordinates.hpp:35 - " ++
      "Converting index 12 to an out of bounds coordinates for shape [ 3 4_c ]")], .ended .abort⟩ := by decide +kernel

example : (AssertCall.subscript ⟨[⟨.implicit 1, .static 4⟩, ⟨.implicit 0, .dynamic .i32⟩], [7]⟩ 0 : AssertCall Int Int Int).run
    ⟨none, false, ""⟩ .checked = ⟨[.stderr ("[KIWAKU] Assertion 'contains(idx)' failed in kwk/detail/sequence/prefilled.hpp:282 - " ++
      "[KWK] - Access at index 0 overwrites a compile-time value of ( 4_c 7 )")], .ended .abort⟩ := by decide +kernel

example : (AssertCall.convert [⟨.implicit 1, .static 4⟩, ⟨.implicit 0, .dynamic .i32⟩] [(⟨.i16, 6⟩, false), (⟨.i32, 2⟩, true)] : AssertCall Int Int Int).run
    ⟨none, false, ""⟩ .checked = ⟨[.stderr ("[KIWAKU] Assertion 'value == get<i>(*this)' failed in kwk/detail/sequence/prefilled.hpp:196 - " ++
      "[KWK] - Runtime/Compile-time mismatch at index 0 - Expected 4_c but 6 was provided")], .ended .abort⟩ := by decide +kernel

example := C158_own ⟨none, false, "/include/"⟩ rfl rfl badIndex ⟨by decide, by decide⟩ _ rfl
example := C158_boost ⟨some .throws, false, "/include/"⟩ .throws rfl rfl badIndex ⟨by decide, by decide⟩ _ rfl
example := C158_break ⟨none, true, "/include/"⟩ rfl badIndex ⟨by decide, by decide⟩ _ rfl
example := C158_explained_partial ⟨none, false, ""⟩ rfl rfl
  (.subscript ⟨[⟨.implicit 1, .static 4⟩, ⟨.implicit 0, .dynamic .i32⟩], [7]⟩ 5 : AssertCall Int Int Int) (by simp only [AssertCall.Ok]; decide) _ rfl
  (by decide)
example := (C158_quiet ⟨none, false, ""⟩ (.linear [(⟨.i32, 3⟩, false)] [⟨.u8, 2⟩] : AssertCall Int Int Int)).1 ⟨by decide, by decide⟩ rfl
example := C158_iff ⟨some .ends, false, ""⟩ rfl badIndex ⟨by decide, by decide⟩ _ rfl

example := C158_same ⟨some .throws, false, ""⟩ .checked [(⟨.i32, 3⟩, false)] [⟨.u8, 65⟩] ⟨.i32, 7⟩ (fun _ => some 4)
  ⟨⟨0, 0⟩, [⟨.i32, 3⟩], [⟨.i32, 1⟩], false, false⟩ ⟨⟨1, 0⟩, [⟨.i32, 4⟩], [⟨.i32, 1⟩], false, false⟩ (fun _ => false) (fun _ => true) 0 (· + ·) (· * ·)
  [⟨.implicit 0, .static 4⟩] 1 [none] [(.implicit 0, none)] [(⟨.i32, 5⟩, false)] ⟨[⟨.implicit 0, .dynamic .i32⟩], [7]⟩ 3

end Kwk
