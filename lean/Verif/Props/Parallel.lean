import Verif.Lemmas.Parallel
import Verif.Props.Contexts

/-!
# Property C141: algorithms in a context that runs the calls concurrently

Intended: whatever the order of the accesses, there is no data race, and once the calls have ended the result is the one of the
sequential algorithm.  True for the algorithms that work element by element.  `reduce` and all that is built on it, `iota` and the scans
write a captured variable in every call: two calls race, and updates can be lost.
-/

namespace Kwk
open Spec

variable {α β γ : Type}

/-! ## Element by element -/

/-- **C141** `fill`: any schedule of its calls is without fault and without race, and sets every element when the calls have ended. -/
theorem C141_fill (m : Mem α) (c : Container) (hd : Distinct c) (hv : Valid c m) (v : α) {l : List (List Int)}
    (hl : Schedules c.shape l) :
    ∃ st, (PState.start (fillTask c) v m).schedule l = .ok st ∧ ¬ Race st ∧
      (Finished c.shape st → (∀ p, InBox c.shape p → c.get st.mem p = .ok v) ∧ SameOutside c m st.mem) := by
  obtain ⟨st, h1, h2, h3⟩ := schedule_own (s := c.shape) (R := fun _ _ => False) (W := fun p a => c.addr p = a) (task := fillTask c)
    (v := v) (m0 := m) (fin := fun p => wr m (c.addr p) (some v)) (fun p _ s => ⟨rfl, trivial⟩)
    (fun p q hp hq hne a ha => ⟨id, fun hb => hne (hd p q hp hq (ha.trans hb.symm))⟩)
    (fun p hp => by
      obtain ⟨w, hw⟩ := hv p hp
      simp only [fillTask, CallStep.run, store_ok (isSome_of_get hw)]; rfl) hl
  refine ⟨st, h1, h2, fun hf => ⟨fun p hp => ?_, fun a ha => (h3 hf).2 a ha⟩⟩
  rw [get_ok_iff, (h3 hf).1 p hp _ rfl, wr_self]

example := C141_fill exTwo exOut exOut_distinct exOut_valid 7 exSchedule_schedules

/-- **C141** `generate`. -/
theorem C141_generate (m : Mem α) (c : Container) (hd : Distinct c) (hv : Valid c m) (f : List Int → α) {l : List (List Int)}
    (hl : Schedules c.shape l) :
    ∃ st, (PState.start (generateTask f c) () m).schedule l = .ok st ∧ ¬ Race st ∧
      (Finished c.shape st → (∀ p, InBox c.shape p → c.get st.mem p = .ok (f p)) ∧ SameOutside c m st.mem) := by
  obtain ⟨st, h1, h2, h3⟩ := schedule_own (s := c.shape) (R := fun _ _ => False) (W := fun p a => c.addr p = a)
    (task := generateTask f c) (v := ()) (m0 := m) (fin := fun p => wr m (c.addr p) (some (f p))) (fun p _ => ⟨rfl, trivial⟩)
    (fun p q hp hq hne a ha => ⟨id, fun hb => hne (hd p q hp hq (ha.trans hb.symm))⟩)
    (fun p hp => by
      obtain ⟨w, hw⟩ := hv p hp
      simp only [generateTask, CallStep.run, store_ok (isSome_of_get hw)]; rfl) hl
  refine ⟨st, h1, h2, fun hf => ⟨fun p hp => ?_, fun a ha => (h3 hf).2 a ha⟩⟩
  rw [get_ok_iff, (h3 hf).1 p hp _ rfl, wr_self]

example := C141_generate exTwo exOut exOut_distinct exOut_valid exInVal exSchedule_schedules

/-- **C141** `transform` (and `copy`), when no input is stored where another element of the output is. -/
theorem C141_transform (m : Mem α) (f : List α → α) (out : Container) (ins : List Container) (hd : Distinct out) (hv : Valid out m)
    (ha : ∀ c ∈ ins, Apart out c) (vals : List Int → List α)
    (hin : ∀ p, InBox out.shape p → ins.mapM (fun c => c.get m p) = .ok (vals p)) {l : List (List Int)}
    (hl : Schedules out.shape l) :
    ∃ st, (PState.start (transformTask f out ins) () m).schedule l = .ok st ∧ ¬ Race st ∧
      (Finished out.shape st → (∀ p, InBox out.shape p → out.get st.mem p = .ok (f (vals p))) ∧ SameOutside out m st.mem) := by
  obtain ⟨st, h1, h2, h3⟩ := schedule_own (s := out.shape) (R := fun p a => ∃ c ∈ ins, c.addr p = a) (W := fun p a => out.addr p = a)
    (task := transformTask f out ins) (v := ()) (m0 := m) (fin := fun p => wr m (out.addr p) (some (f (vals p))))
    (fun p _ => within_loadAll (fun a ha => by
      obtain ⟨c, hc, rfl⟩ := List.mem_map.1 ha
      exact .inl ⟨c, hc, rfl⟩) fun _ => ⟨rfl, trivial⟩)
    (fun p q hp hq hne a hpa => ⟨fun ⟨c, hc, hb⟩ => ha c hc p q hp hq hne (hpa.trans hb.symm),
      fun hb => hne (hd p q hp hq (hpa.trans hb.symm))⟩)
    (fun p hp => by
      obtain ⟨w, hw⟩ := hv p hp
      unfold transformTask
      rw [run_loadAll (mapM_load_congr ins p (vals p) (fun _ _ => rfl) (hin p hp))]
      simp only [CallStep.run, store_ok (isSome_of_get hw)]; rfl) hl
  refine ⟨st, h1, h2, fun hf => ⟨fun p hp => ?_, fun a ha => (h3 hf).2 a ha⟩⟩
  rw [get_ok_iff, (h3 hf).1 p hp _ rfl, wr_self]

example := C141_transform exTwo List.sum exOut [exIn, exIn] exOut_distinct exOut_valid
  (fun c hc => by simp only [List.mem_cons, List.not_mem_nil, or_false, or_self] at hc; exact hc ▸ ex_apart)
  (fun p => [exInVal p, exInVal p]) (fun p hp => by simp [exIn_elems p hp, pure, Except.pure, bind, Except.bind]) exSchedule_schedules

/-- **C141** `copy_if`. -/
theorem C141_copy_if (m : Mem α) (f : α → Bool) (out inp : Container) (hs : out.shape = inp.shape) (hd : Distinct out)
    (ha : Apart out inp) (old val : List Int → α) (hout : Elems out m old) (hin : Elems inp m val) {l : List (List Int)}
    (hl : Schedules out.shape l) :
    ∃ st, (PState.start (copyIfTask f out inp) () m).schedule l = .ok st ∧ ¬ Race st ∧
      (Finished out.shape st → Elems out st.mem (fun p => if f (val p) then val p else old p) ∧ SameOutside out m st.mem) := by
  obtain ⟨st, h1, h2, h3⟩ := schedule_own (s := out.shape) (R := fun p a => inp.addr p = a) (W := fun p a => out.addr p = a)
    (task := copyIfTask f out inp) (v := ()) (m0 := m) (fin := fun p => wr m (out.addr p) (if f (val p) then some (val p) else none))
    (fun p _ => ⟨.inl rfl, fun v => by
      by_cases hf : f v = true
      · simp only [hf, if_true]; exact ⟨.inl rfl, fun _ => ⟨rfl, trivial⟩⟩
      · simp only [hf]; exact trivial⟩)
    (fun p q hp hq hne a hpa => ⟨fun hb => ha p q hp hq hne (hpa.trans hb.symm), fun hb => hne (hd p q hp hq (hpa.trans hb.symm))⟩)
    (fun p hp => by
      have e : load m (inp.addr p) = .ok (val p) := hin p (hs ▸ hp)
      by_cases hf : f (val p) = true
      · simp only [copyIfTask, CallStep.run, e, bind, Except.bind, hf, if_true, store_ok (isSome_of_get (hout p hp))]
      · simp only [copyIfTask, CallStep.run, e, bind, Except.bind, hf]; rfl) hl
  refine ⟨st, h1, h2, fun hf => ⟨fun p hp => ?_, fun a ha => (h3 hf).2 a ha⟩⟩
  rw [get_ok_iff, (h3 hf).1 p hp _ rfl, wr_self]
  by_cases hf : f (val p) = true
  · simp [hf]
  · simpa [hf] using get_ok_iff.1 (hout p hp)

example := C141_copy_if exTwo (fun x => x > 2) exOut exIn rfl exOut_distinct ex_apart (fun _ => 0) exInVal exOut_elems exIn_elems
  exSchedule_schedules

/-- **C141** `replace_if` (and `replace`). -/
theorem C141_replace_if (m : Mem α) (f : α → Bool) (v : α) (c : Container) (hd : Distinct c) (val : List Int → α)
    (h : Elems c m val) {l : List (List Int)} (hl : Schedules c.shape l) :
    ∃ st, (PState.start (replaceIfTask f v c) () m).schedule l = .ok st ∧ ¬ Race st ∧
      (Finished c.shape st → Elems c st.mem (fun p => if f (val p) then v else val p) ∧ SameOutside c m st.mem) := by
  obtain ⟨st, h1, h2, h3⟩ := schedule_own (s := c.shape) (R := fun _ _ => False) (W := fun p a => c.addr p = a)
    (task := replaceIfTask f v c) (v := ()) (m0 := m) (fin := fun p => wr m (c.addr p) (if f (val p) then some v else none))
    (fun p _ => ⟨.inr rfl, fun w => by
      by_cases hf : f w = true
      · simp only [hf, if_true]; exact ⟨rfl, trivial⟩
      · simp only [hf]; exact trivial⟩)
    (fun p q hp hq hne a hpa => ⟨id, fun hb => hne (hd p q hp hq (hpa.trans hb.symm))⟩)
    (fun p hp => by
      have e : load m (c.addr p) = .ok (val p) := h p hp
      by_cases hf : f (val p) = true
      · simp only [replaceIfTask, CallStep.run, e, bind, Except.bind, hf, if_true, store_ok (isSome_of_get (h p hp))]
      · simp only [replaceIfTask, CallStep.run, e, bind, Except.bind, hf]; rfl) hl
  refine ⟨st, h1, h2, fun hf => ⟨fun p hp => ?_, fun a ha => (h3 hf).2 a ha⟩⟩
  rw [get_ok_iff, (h3 hf).1 p hp _ rfl, wr_self]
  by_cases hf : f (val p) = true
  · simp [hf]
  · simpa [hf] using get_ok_iff.1 (h p hp)

example := C141_replace_if exTwo (fun x => x > 2) 9 exIn exIn_distinct exInVal exIn_elems exSchedule_schedules

/-! ## Algorithms with a captured variable -/

/-- **C141** (partial) `reduce` (and `all_of`, `any_of`, `none_of`, `count`, `count_if`): ended calls have raced exactly if there were
two of them.  Missing: containers of several elements. -/
theorem C141_reduce_race_partial (f : β → α → β) (init : β) (m : Mem α) (c : Container) {l : List (List Int)}
    (hl : Schedules c.shape l) {st : PState β α} (h : (PState.start (reduceTask f c) init m).schedule l = .ok st)
    (hf : Finished c.shape st) : Race st ↔ ∃ p q, InBox c.shape p ∧ InBox c.shape q ∧ p ≠ q :=
  race_iff (by intro p _; exact fun _ _ => trivial) hl h hf

example : ∃ st, (PState.start (reduceTask (fun a x => a + x) exIn) 0 exTwo).schedule exSchedule = .ok st ∧ Race st := by
  obtain ⟨st, h, hf⟩ := exists_of_ended (by decide : ended ((PState.start (reduceTask (fun a x => a + x) exIn) 0 exTwo).schedule exSchedule))
  exact ⟨st, h, (C141_reduce_race_partial _ _ _ _ exSchedule_schedules h hf).2 ex_two_positions⟩

/-- **C141** (partial) `transform_reduce` and `inner_product`. -/
theorem C141_transform_reduce_race_partial (R : β → γ → β) (T : α → α → γ) (init : β) (m : Mem α) (c1 c2 : Container)
    {l : List (List Int)} (hl : Schedules c1.shape l) {st : PState β α}
    (h : (PState.start (transformReduceTask R T c1 c2) init m).schedule l = .ok st) (hf : Finished c1.shape st) :
    Race st ↔ ∃ p q, InBox c1.shape p ∧ InBox c1.shape q ∧ p ≠ q :=
  race_iff (by intro p _; exact fun _ _ _ => trivial) hl h hf

example : ∃ st, (PState.start (transformReduceTask (fun a x => a + x) (fun x y => x * y) exIn exOut) 0 exTwo).schedule exSchedule = .ok st ∧
    Race st := by
  obtain ⟨st, h, hf⟩ := exists_of_ended
    (by decide : ended ((PState.start (transformReduceTask (fun a x => a + x) (fun x y => x * y) exIn exOut) 0 exTwo).schedule exSchedule))
  exact ⟨st, h, (C141_transform_reduce_race_partial _ _ _ _ _ _ exSchedule_schedules h hf).2 ex_two_positions⟩

/-- **C141** (partial) `iota`, without and with a step. -/
theorem C141_iota_race_partial [Add β] (incr : β → β) (conv : β → α) (v step : β) (m : Mem α) (c : Container)
    {l : List (List Int)} (hl : Schedules c.shape l) {st : PState β α}
    (h : (PState.start (iotaTask incr conv c) v m).schedule l = .ok st ∨
      (PState.start (iotaStepTask conv step c) v m).schedule l = .ok st) (hf : Finished c.shape st) :
    Race st ↔ ∃ p q, InBox c.shape p ∧ InBox c.shape q ∧ p ≠ q := by
  rcases h with h | h
  · exact race_iff (by intro p _; exact fun _ => trivial) hl h hf
  · exact race_iff (by intro p _; exact fun _ _ => trivial) hl h hf

example : ∃ st, (PState.start (iotaTask (fun x => x + 1) (fun x => x) exOut) 0 exTwo).schedule exSchedule = .ok st ∧ Race st := by
  obtain ⟨st, h, hf⟩ := exists_of_ended
    (by decide : ended ((PState.start (iotaTask (fun x => x + 1) (fun x => x) exOut) 0 exTwo).schedule exSchedule))
  exact ⟨st, h, (C141_iota_race_partial _ _ _ 1 _ _ exSchedule_schedules (.inl h) hf).2 ex_two_positions⟩

/-- **C141** (partial) Scans. -/
theorem C141_scan_race_partial (f1 : α → β → α) (f2 : α → β) (init : α) (m : Mem α) (inp out : Container)
    {l : List (List Int)} (hl : Schedules inp.shape l) {st : PState α α}
    (h : (PState.start (exclusiveScanTask f1 f2 inp out) init m).schedule l = .ok st ∨
      (PState.start (inclusiveScanTask f1 f2 inp out) init m).schedule l = .ok st) (hf : Finished inp.shape st) :
    Race st ↔ ∃ p q, InBox inp.shape p ∧ InBox inp.shape q ∧ p ≠ q := by
  rcases h with h | h
  · exact race_iff (by intro p _; exact fun _ _ _ => trivial) hl h hf
  · exact race_iff (by intro p _; exact fun _ _ => trivial) hl h hf

example : ∃ st, (PState.start (exclusiveScanTask (fun a x => a + x) (fun x => x) exIn exOut) 0 exTwo).schedule exSchedule = .ok st ∧
    Race st := by
  obtain ⟨st, h, hf⟩ := exists_of_ended
    (by decide : ended ((PState.start (exclusiveScanTask (fun a x => a + x) (fun x => x) exIn exOut) 0 exTwo).schedule exSchedule))
  exact ⟨st, h, (C141_scan_race_partial _ _ _ _ _ _ exSchedule_schedules (.inl h) hf).2 ex_two_positions⟩

/-! ## Ending each call before the next

The result of a context that visits the positions in any order (`Model/Contexts.lean`) is the one of a schedule. -/

/-- **C141** `reduce`. -/
theorem C141_sequential_reduce (ctx : Ctx) (hc : VisitsAll ctx) (f : β → α → β) (init : β) (m : Mem α) (c : Container) (r : β)
    (h : reduceC ctx m c f init = .ok r) :
    ∃ l st, Schedules c.shape l ∧ (PState.start (reduceTask f c) init m).schedule l = .ok st ∧
      Finished c.shape st ∧ st.var = r := by
  obtain ⟨sm, h1, h2⟩ := bind_ok h
  obtain ⟨l, st, g1, g2, g3, g4, g5⟩ := schedule_sequential (hc c.shape).1 (hc c.shape).2 (task := reduceTask f c) _ (by
    rintro ⟨s, m⟩ p; rfl) h1
  cases h2
  exact ⟨l, st, g1, g2, g3, g4⟩

example := C141_sequential_reduce backwards backwards_visits (fun a x => a + x) 0 exTwo exIn 10 rfl

/-- **C141** `transform_reduce`. -/
theorem C141_sequential_transform_reduce (ctx : Ctx) (hc : VisitsAll ctx) (R : β → γ → β) (T : α → α → γ) (init : β) (m : Mem α)
    (c1 c2 : Container) (r : β)
    (h : transformReduceC ctx m c1 c2 init R T = .ok r) :
    ∃ l st, Schedules c1.shape l ∧ (PState.start (transformReduceTask R T c1 c2) init m).schedule l = .ok st ∧
      Finished c1.shape st ∧ st.var = r := by
  obtain ⟨sm, h1, h2⟩ := bind_ok h
  obtain ⟨l, st, g1, g2, g3, g4, g5⟩ := schedule_sequential (hc c1.shape).1 (hc c1.shape).2 (task := transformReduceTask R T c1 c2) _ (by
    rintro ⟨s, m⟩ p; rfl) h1
  cases h2
  exact ⟨l, st, g1, g2, g3, g4⟩

example := C141_sequential_transform_reduce backwards backwards_visits (fun a x => a + x) (fun x y => x * y) 0 exTwo exIn exIn 30 rfl

/-- **C141** `iota`. -/
theorem C141_sequential_iota (ctx : Ctx) (hc : VisitsAll ctx) (incr : β → β) (conv : β → α) (v : β) (m : Mem α) (c : Container)
    (r : Mem α)
    (h : iotaC ctx m c incr conv v = .ok r) :
    ∃ l st, Schedules c.shape l ∧ (PState.start (iotaTask incr conv c) v m).schedule l = .ok st ∧
      Finished c.shape st ∧ st.mem = r := by
  obtain ⟨sm, h1, h2⟩ := bind_ok h
  obtain ⟨l, st, g1, g2, g3, g4, g5⟩ := schedule_sequential (hc c.shape).1 (hc c.shape).2 (task := iotaTask incr conv c) _ (by
    rintro ⟨s, m⟩ p; rfl) h1
  cases h2
  exact ⟨l, st, g1, g2, g3, g5⟩

example := C141_sequential_iota backwards backwards_visits (fun x : Int => x + 1) (fun x => x) 5 exTwo exOut _ rfl

/-- **C141** `iota` with a step. -/
theorem C141_sequential_iota_step (ctx : Ctx) (hc : VisitsAll ctx) [Add β] (conv : β → α) (v step : β) (m : Mem α) (c : Container)
    (r : Mem α)
    (h : iotaStepC ctx m c conv v step = .ok r) :
    ∃ l st, Schedules c.shape l ∧ (PState.start (iotaStepTask conv step c) v m).schedule l = .ok st ∧
      Finished c.shape st ∧ st.mem = r := by
  obtain ⟨sm, h1, h2⟩ := bind_ok h
  obtain ⟨l, st, g1, g2, g3, g4, g5⟩ := schedule_sequential (hc c.shape).1 (hc c.shape).2 (task := iotaStepTask conv step c) _ (by
    rintro ⟨s, m⟩ p; rfl) h1
  cases h2
  exact ⟨l, st, g1, g2, g3, g5⟩

example := C141_sequential_iota_step backwards backwards_visits (fun x : Int => x) 5 3 exTwo exOut _ rfl

/-- **C141** `transform_exclusive_scan`. -/
theorem C141_sequential_exclusive_scan (ctx : Ctx) (hc : VisitsAll ctx) (f1 : α → β → α) (f2 : α → β) (init : α) (m : Mem α)
    (inp out : Container) (r : Mem α)
    (h : transformExclusiveScanC ctx m inp out init f1 f2 = .ok r) :
    ∃ l st, Schedules inp.shape l ∧ (PState.start (exclusiveScanTask f1 f2 inp out) init m).schedule l = .ok st ∧
      Finished inp.shape st ∧ st.mem = r := by
  obtain ⟨sm, h1, h2⟩ := bind_ok h
  obtain ⟨l, st, g1, g2, g3, g4, g5⟩ := schedule_sequential (hc inp.shape).1 (hc inp.shape).2 (task := exclusiveScanTask f1 f2 inp out) _ (by
    rintro ⟨s, m⟩ p; rfl) h1
  cases h2
  exact ⟨l, st, g1, g2, g3, g5⟩

example := C141_sequential_exclusive_scan backwards backwards_visits (fun a x => a + x) (fun x => x) 0 exTwo exIn exOut _ rfl

/-- **C141** `transform_inclusive_scan`. -/
theorem C141_sequential_inclusive_scan (ctx : Ctx) (hc : VisitsAll ctx) (f1 : α → β → α) (f2 : α → β) (init : α) (m : Mem α)
    (inp out : Container) (r : Mem α)
    (h : transformInclusiveScanC ctx m inp out init f1 f2 = .ok r) :
    ∃ l st, Schedules inp.shape l ∧ (PState.start (inclusiveScanTask f1 f2 inp out) init m).schedule l = .ok st ∧
      Finished inp.shape st ∧ st.mem = r := by
  obtain ⟨sm, h1, h2⟩ := bind_ok h
  obtain ⟨l, st, g1, g2, g3, g4, g5⟩ := schedule_sequential (hc inp.shape).1 (hc inp.shape).2 (task := inclusiveScanTask f1 f2 inp out) _ (by
    rintro ⟨s, m⟩ p; rfl) h1
  cases h2
  exact ⟨l, st, g1, g2, g3, g5⟩

example := C141_sequential_inclusive_scan backwards backwards_visits (fun a x => a + x) (fun x => x) 0 exTwo exIn exOut _ rfl

/-- **C141** `transform`. -/
theorem C141_sequential_transform (ctx : Ctx) (hc : VisitsAll ctx) (f : List α → α) (m : Mem α) (out : Container) (ins : List Container)
    (r : Mem α)
    (h : transformC ctx m f out ins = .ok r) :
    ∃ l st, Schedules out.shape l ∧ (PState.start (transformTask f out ins) () m).schedule l = .ok st ∧
      Finished out.shape st ∧ st.mem = r := by
  obtain ⟨sm, h1, h2⟩ := bind_ok h
  obtain ⟨l, st, g1, g2, g3, g4, g5⟩ := schedule_sequential (hc out.shape).1 (hc out.shape).2 (task := transformTask f out ins) _ (by
    rintro ⟨s, m⟩ p; unfold transformTask; rw [exec_loadAll]; rfl) h1
  cases h2
  exact ⟨l, st, g1, g2, g3, g5⟩

example := C141_sequential_transform backwards backwards_visits List.sum exTwo exOut [exIn, exIn] _ rfl

/-- **C141** The full claim is false: counting two elements that both match can give 1. -/
theorem C141_count_false : ∃ l st, Schedules [2] l ∧
    (PState.start (reduceTask (fun a (e : Int) => a + (if e = 7 then 1 else 0)) (Container.ofShape ⟨0, 0⟩ [2])) 0
      (oneBlock 0 [7, 7])).schedule l = .ok st ∧ Finished [2] st ∧ st.var = 1 := by
  refine ⟨[[0], [1], [0], [1], [0], [1]], _, by intro p hp; revert p; decide, rfl, ?_, rfl⟩
  intro p hp
  have : p ∈ positions [2] := mem_positions.2 hp
  have e : positions [2] = [[0], [1]] := by decide
  rw [e] at this
  rcases List.mem_cons.1 this with rfl | h
  · rfl
  · rcases List.mem_cons.1 h with rfl | h
    · rfl
    · cases h

/-! ## Examples -/

/-- A schedule in which the calls of `fill` overlap. -/
example : ∃ st, (PState.start (fillTask exView) 7 exMem).schedule
      [[0, 0], [1, 1], [0, 1], [1, 0], [1, 0], [1, 1], [0, 1], [0, 0]] = .ok st ∧ ¬ Race st := by
  obtain ⟨st, h, h1, _⟩ := C141_fill exMem exView exDistinct exValid 7
    (l := [[0, 0], [1, 1], [0, 1], [1, 0], [1, 0], [1, 1], [0, 1], [0, 0]]) (by intro p hp; revert p; decide)
  exact ⟨st, h, h1⟩

/-- After it the calls have ended. -/
example : (((PState.start (fillTask exView) 7 exMem).schedule
      [[0, 0], [1, 1], [0, 1], [1, 0], [1, 0], [1, 1], [0, 1], [0, 0]]).map fun st =>
        (positions exView.shape).map fun p => (match st.todo p with | .done => true | _ => false, exView.get st.mem p)) =
    .ok [(true, .ok 7), (true, .ok 7), (true, .ok 7), (true, .ok 7)] := by decide

/-- One call after the other, `reduce` adds up. -/
example : (((PState.start (reduceTask (fun a e => a + e) exView) 0 exMem).schedule
      ((positions exView.shape).flatMap fun p => [p, p, p])).map fun st => st.var) = .ok 10 := by decide

end Kwk
