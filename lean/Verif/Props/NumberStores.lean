import Verif.Lemmas.NumberStores
import Verif.Lemmas.NumberWitnesses
import Verif.Lemmas.Writing
import Verif.Props.Numbers
import Verif.Props.Writing

/-!
# Property C136: storing integers and floating-point numbers

`Stored t v w`: an element of type `t` is `w` after `v` has been assigned to it.  `Assigns t c m run sel v`: the run assigns `v q` at
the positions `q` in `sel` and nothing else, and is undefined if one of these numbers can not be stored.  Both in `Spec/Numbers.lean`.
-/

namespace Kwk
open Spec

/-- **C136** `fill` assigns the value to all elements. -/
theorem C136_fill (p : ℕ) (t : NumType) (ht : IsType p t) (m : Mem Num) (c : Container) (hd : Distinct c) (hv : Valid c m) (v : Num) :
    Assigns t c m (fillN t m c v) (fun _ => True) (fun _ => v) :=
  assigns_congr (fun _ _ => by simp) (fun _ _ => rfl)
    (assigns_loop ht hd hv _ (fun _ => true) (fun _ => v) (fun _ _ _ _ _ => rfl))

/-- **C136** `generate` assigns `f q` at every position `q`. -/
theorem C136_generate (p : ℕ) (t : NumType) (ht : IsType p t) (m : Mem Num) (c : Container) (hd : Distinct c) (hv : Valid c m)
    (f : List Int → Num) : Assigns t c m (generateN t m f c) (fun _ => True) f :=
  assigns_congr (fun _ _ => by simp) (fun _ _ => rfl)
    (assigns_loop ht hd hv _ (fun _ => true) f (fun _ _ _ _ _ => rfl))

example := C136_generate 24 (.int .i32) (by decide : 0 < 32) exHalves exOut exOut_distinct exHalves_valid exHalf

/-- **C136** `transform` assigns the value of `f` on the former elements of the inputs, if none of them is overwritten too early. -/
theorem C136_transform (p : ℕ) (t : NumType) (ht : IsType p t) (m : Mem Num) (f : List Num → Num) (out : Container)
    (ins : List Container) (hd : Distinct out) (hv : Valid out m) (hc : ∀ c ∈ ins, NoClobber out c) (vals : List Int → List Num)
    (hvals : ∀ q, InBox out.shape q → ins.mapM (fun c => c.get m q) = .ok (vals q)) :
    Assigns t out m (transformN t m f out ins) (fun _ => True) (fun q => f (vals q)) := by
  refine assigns_congr (fun _ _ => by simp) (fun _ _ => rfl)
    (assigns_loop ht hd hv _ (fun _ => true) (fun q => f (vals q)) (fun q hq m1 ha hs => ?_))
  have := mapM_load_congr (m1 := m1) ins q (vals q) (fun c hcm => ha _ fun w hw hlt => hc c hcm q w hq hw hlt) (hvals q hq)
  show ((ins.map fun c => c.addr q).mapM (fun i => load m1 i) >>= _) = _
  rw [this]; rfl

example := C136_transform 24 (.int .i32) (by decide : 0 < 32) exHalves (fun v => v.headD (.int ⟨.i32, 0⟩)) exOut [exIn] exOut_distinct
  exHalves_valid (by simp only [List.mem_singleton, forall_eq]; exact ex_noClobber) (fun p => [exHalf p])
  (fun p hp => by simp [exHalves_elems p hp])

/-- **C136** `copy` assigns the elements of the input. -/
theorem C136_copy (p : ℕ) (t : NumType) (ht : IsType p t) (m : Mem Num) (out inp : Container) (hd : Distinct out) (hv : Valid out m)
    (hc : NoClobber out inp) (val : List Int → Num) (h : ∀ q, InBox out.shape q → inp.get m q = .ok (val q)) :
    Assigns t out m (copyN t m out inp) (fun _ => True) val :=
  C136_transform p t ht m (fun vs => vs.headD (.int ⟨.i32, 0⟩)) out [inp] hd hv (by simpa using hc) (fun q => [val q])
    (fun q hq => by simp [h q hq, pure, Except.pure, bind, Except.bind])

example := C136_copy 24 (.int .i32) (by decide : 0 < 32) exHalves exOut exIn exOut_distinct exHalves_valid ex_noClobber exHalf exHalves_elems

/-- **C136** `copy_if` assigns the elements of the input that satisfy the predicate; the others need not be storable. -/
theorem C136_copy_if (p : ℕ) (t : NumType) (ht : IsType p t) (m : Mem Num) (f : Num → Bool) (out inp : Container) (hd : Distinct out)
    (hv : Valid out m) (hc : NoClobber out inp) (val : List Int → Num) (h : ∀ q, InBox out.shape q → inp.get m q = .ok (val q)) :
    Assigns t out m (copyIfN t m f out inp) (fun q => f (val q) = true) val := by
  refine assigns_loop ht hd hv _ (fun q => f (val q)) val (fun q hq m1 ha hs => ?_)
  have e : load m1 (inp.addr q) = .ok (val q) := by
    apply load_ok
    rw [ha _ fun w hw hlt => hc q w hq hw hlt]
    exact get_ok_iff.1 (h q hq)
  show (load m1 (inp.addr q) >>= _) = _
  rw [e]; rfl

example := C136_copy_if 24 (.int .i32) (by decide : 0 < 32) exHalves (fun e => ltN (.int ⟨.i32, 1⟩) e) exOut exIn exOut_distinct
  exHalves_valid ex_noClobber exHalf exHalves_elems

/-- **C136** `replace_if` assigns the new value to the elements that satisfy the predicate. -/
theorem C136_replace_if (p : ℕ) (t : NumType) (ht : IsType p t) (m : Mem Num) (c : Container) (hd : Distinct c) (val : List Int → Num)
    (h : Elems c m val) (f : Num → Bool) (new : Num) :
    Assigns t c m (replaceIfN t m c f new) (fun q => f (val q) = true) (fun _ => new) := by
  refine assigns_loop ht hd (fun q hq => ⟨_, h q hq⟩) _ (fun q => f (val q)) (fun _ => new) (fun q hq m1 ha hs => ?_)
  have e : load m1 (c.addr q) = .ok (val q) := by
    apply load_ok
    rw [own_cell hd hq ha]
    exact get_ok_iff.1 (h q hq)
  show (load m1 (c.addr q) >>= _) = _
  rw [e]; rfl

example := C136_replace_if 24 (.flt (roundBits 24)) (roundBits_rounds (by decide)) exHalves exIn exIn_distinct exHalf exHalves_elems
  (fun e => ltN (.int ⟨.i32, 1⟩) e) (.int ⟨.i32, 9⟩)

/-- **C136** `replace` assigns the new value to the elements that are the old number, if they compare with it by value (see C134). -/
theorem C136_replace (p p' : ℕ) (t t' : NumType) (ht : IsType p t) (ht' : IsType p' t') (m : Mem Num) (c : Container) (hd : Distinct c)
    (val : List Int → Num) (h : Elems c m val) (hf : ∀ q, InBox c.shape q → OfType p t (val q)) (old new : Num)
    (ho : OfType p' t' old) (hq : EqualsNumber t old) :
    Assigns t c m (replaceN t m c old new) (fun q => SameNumber (val q) old) (fun _ => new) :=
  assigns_congr (fun q hq' => (eqN_exact ht ht' ho).2 hq _ (hf q hq')) (fun _ _ => rfl)
    (C136_replace_if p t ht m c hd val h (fun x => eqN x old) new)

example := C136_replace 24 1 (.flt (roundBits 24)) (.int .i32) (roundBits_rounds (by decide)) (by decide : 0 < 32) exHalves exIn exIn_distinct
  exHalf exHalves_elems exHalves_typed (.int ⟨.i32, 1⟩) (.int ⟨.i32, 9⟩) ⟨rfl, by decide⟩
  (by decide +kernel : roundBits 24 ((1 : Int) : ℚ) = ((1 : Int) : ℚ))

/-- **C136** What is stored: there is at most one result; a number which the element type has is stored unchanged, and NaN in
floating-point elements too; what can not be stored is exactly NaN, the infinities and numbers with an integer part that does not fit,
in integers. -/
theorem C136_stored (p : ℕ) (t : NumType) (ht : IsType p t) (v : Num) :
    (∀ w w', Stored t v w → Stored t v w' → w = w') ∧
    (∀ w, OfType p t w → SameNumber w v → Stored t v w) ∧
    (∀ r, t = .flt r → IsNaN v → ∃ w, Stored t v w ∧ IsNaN w) ∧
    ((∀ w, ¬ Stored t v w) ↔ ∃ i r x, t = .int i ∧ v = .flt r x ∧
      ∀ q, x = .num q → ∀ n : ℤ, i.Fits n → ¬ ((0 ≤ q → n ≤ q ∧ q < n + 1) ∧ (q < 0 → n - 1 < q ∧ q ≤ n))) := by
  refine ⟨fun w w' => stored_unique ht, fun w => stored_same ht, ?_, ?_⟩
  · rintro r rfl hn
    cases v with
    | int c => cases hn
    | flt r' x => cases x with
      | nan => exact ⟨_, rfl, rfl⟩
      | _ => cases hn
  · constructor
    · intro hu
      cases t with
      | flt r =>
        rcases convertN_error (.flt r) v with ⟨w, hw⟩ | hw
        · exact absurd ((convertN_ok ht).1 hw) (hu w)
        · cases v with
          | int c => cases hw
          | flt r' x => cases x <;> cases hw
      | int i =>
        cases v with
        | int c => exact absurd ⟨_, rfl, i.wrap_mem ht _, IntType.wrap_mod _ _⟩ (hu (.int ⟨i, i.wrap c.value⟩))
        | flt r x =>
          refine ⟨i, r, x, rfl, rfl, ?_⟩
          rintro q rfl n hn ⟨h1, h2⟩
          exact hu _ ⟨n, rfl, hn, h1, h2⟩
    · rintro ⟨i, r, x, rfl, rfl, h⟩ w hw
      cases x with
      | num q =>
        obtain ⟨n, -, hn, h1, h2⟩ := hw
        exact h q rfl n hn ⟨h1, h2⟩
      | _ => exact hw

/-- `float` and `double` as used in the examples. -/
private def f32 (q : ℚ) : Num := .flt (roundBits 24) (.num q)
private def f64 (q : ℚ) : Num := .flt (roundBits 53) (.num q)

private def nums : Mem Num := oneBlock 0 [.int ⟨.i32, 5⟩, .int ⟨.i32, 7⟩, f64 (-5/2), .flt (roundBits 53) .nan]

example : (fillN (.int .i32) nums (.ofShape ⟨0, 0⟩ [2]) (f64 (-7/2))).map (fun m => (m ⟨0, 1⟩).map number) =
      .ok (some (some (((-3 : ℚ) : WithTop ℚ) : WithBot (WithTop ℚ)))) ∧
    (copyN (.int .i32) nums (.ofShape ⟨0, 0⟩ [2]) (.ofShape ⟨0, 2⟩ [2])).isOk = false ∧
    (copyIfN (.int .i32) nums (fun e => eqN e e) (.ofShape ⟨0, 0⟩ [2]) (.ofShape ⟨0, 2⟩ [2])).isOk = true ∧
    (replaceN (.int .i32) nums (.ofShape ⟨0, 0⟩ [2]) (f32 7) (f32 300000000000)).isOk = false ∧
    (replaceN (.int .i32) nums (.ofShape ⟨0, 0⟩ [2]) (f32 8) (f32 300000000000)).isOk = true := by
  refine ⟨by decide +kernel, by decide +kernel, by decide +kernel, by decide +kernel, by decide +kernel⟩

/-- Two `int` elements, filled with `-3.5`: both are `-3`; with NaN: undefined. -/
example : (∃ m', fillN (.int .i32) nums (.ofShape ⟨0, 0⟩ [2]) (f64 (-7/2)) = .ok m' ∧
      (Container.ofShape ⟨0, 0⟩ [2]).get m' [1] = .ok (.int ⟨.i32, -3⟩)) ∧
    fillN (.int .i32) nums (.ofShape ⟨0, 0⟩ [2]) (.flt (roundBits 53) .nan) = .error .overflow := by
  have hd : Distinct (Container.ofShape ⟨0, 0⟩ [2]) :=
    default_distinct (ofShape_default (show ([2] : Shape) ≠ [] by decide))
  have hv : Valid (Container.ofShape ⟨0, 0⟩ [2]) nums := by
    intro q hq
    have : q ∈ positions [2] := mem_positions.2 hq
    rw [show positions [2] = [[0], [1]] by decide] at this
    simp only [List.mem_cons, List.not_mem_nil, or_false] at this
    rcases this with rfl | rfl <;> exact ⟨_, rfl⟩
  constructor
  · obtain ⟨m', h1, -, h3⟩ := (C136_fill 1 (.int .i32) (show 0 < IntType.i32.bits by decide) nums _ hd hv (f64 (-7/2))).1 (fun _ => .int ⟨.i32, -3⟩)
      (fun _ _ _ => ⟨-3, rfl, by decide, by norm_num, by norm_num⟩)
    exact ⟨m', h1, (h3 [1] (by decide)).1 trivial⟩
  · exact (C136_fill 1 (.int .i32) (show 0 < IntType.i32.bits by decide) nums _ hd hv _).2 ⟨[0], by decide, trivial, fun _ h => h⟩

end Kwk
