import Verif.Lemmas.Throws
import Verif.Lemmas.Witnesses

/-!
# Property C127: functions that throw

`pre` are the positions before `p` in row-major order: `positions out.shape = pre ++ p :: post`.
-/

namespace Kwk
open Spec

variable {α β ε : Type}

/-- **C127** (`transform`) If the function throws at `p`, the exception comes out, the elements before `p` are transformed and nothing else
is changed. -/
theorem C127_transform (m : Mem α) (f : List α → Except ε α) (out : Container) (ins : List Container) (vals : Container → List Int → α)
    (hd : Distinct out) (hv : Valid out m) (hin : ∀ c ∈ ins, ∀ p, InBox out.shape p → c.get m p = .ok (vals c p))
    (hc : ∀ c ∈ ins, NoClobber out c)
    (pre post : List (List Int)) (p : List Int) (hsplit : positions out.shape = pre ++ p :: post) (v : List Int → α) (e : ε)
    (hpre : ∀ q ∈ pre, f (ins.map fun c => vals c q) = .ok (v q)) (hp : f (ins.map fun c => vals c p) = .error e) :
    ∃ m', transformE m f out ins = .ok (.error e, m') ∧ (∀ q ∈ pre, out.get m' q = .ok (v q)) ∧
      ∀ a, (∀ q ∈ pre, out.addr q ≠ a) → m' a = m a := by
  obtain ⟨m', h1, h2, h3⟩ := run_stopped hd hv rfl
    (fun (_ : Unit) q => match f (ins.map fun c => vals c q) with | .ok v => (some v, .ok ()) | .error e => (none, .error e))
    (fun is sm => do
      let vs ← (ins.map fun c => c.addr is).mapM (fun i => load sm.2 i)
      match f vs with
      | .error e => pure (.error e, sm)
      | .ok v => do
        let m ← store sm.2 (out.addr is) v
        pure (.ok (), ((), m)))
    (by
      intro q hq s m1 hm hs
      refine ⟨(), ?_, fun _ _ => rfl⟩
      rw [mapM_load ins (fun c h => hm _ fun r hr hlt => hc c h q r hq hr hlt) fun c h => hin c h q hq]
      simp only [bind, Except.bind]
      cases f (ins.map fun c => vals c q) with
      | error e => rfl
      | ok v =>
        have hsome : (m1 (out.addr q)).isSome := by
          rw [hs]
          obtain ⟨v, hv⟩ := hv q hq
          rw [get_ok_iff.1 hv]; rfl
        simp only [store_ok hsome]; rfl)
    hsplit (untilThrow_pure (fun q => some (v q)) fun q hq => by rw [hpre q hq]) (by rw [hp])
  refine ⟨m', h1, fun q hq => get_ok_iff.2 (h2 (q, v q) (by simp [hq])), fun a ha => h3 a (by simp; rintro _ _ q hq rfl -; exact ha _ hq)⟩

example := C127_transform exTwo (fun vs => notThree vs.sum) exOut [exIn] (fun _ => exInVal) exOut_distinct exOut_valid
  (by simp only [List.mem_singleton, forall_eq]; exact exIn_elems) (by simpa using ex_noClobber) _ _ _ ex_split (fun p => 10 * exInVal p) "three" (by decide) rfl

/-- **C127** (`generate`) The same for `generate`. -/
theorem C127_generate (m : Mem α) (f : List Int → Except ε α) (out : Container) (hd : Distinct out) (hv : Valid out m)
    (pre post : List (List Int)) (p : List Int) (hsplit : positions out.shape = pre ++ p :: post) (v : List Int → α) (e : ε)
    (hpre : ∀ q ∈ pre, f q = .ok (v q)) (hp : f p = .error e) :
    ∃ m', generateE m f out = .ok (.error e, m') ∧ (∀ q ∈ pre, out.get m' q = .ok (v q)) ∧
      ∀ a, (∀ q ∈ pre, out.addr q ≠ a) → m' a = m a := by
  obtain ⟨m', h1, h2, h3⟩ := run_stopped hd hv rfl
    (fun (_ : Unit) q => match f q with | .ok v => (some v, .ok ()) | .error e => (none, .error e))
    (fun is sm => match f is with
      | .error e => pure (.error e, sm)
      | .ok v => do
        let m ← store sm.2 (out.addr is) v
        pure (.ok (), ((), m)))
    (by
      intro q hq s m1 hm hs
      refine ⟨(), ?_, fun _ _ => rfl⟩
      dsimp only
      cases f q with
      | error e => rfl
      | ok v =>
        have hsome : (m1 (out.addr q)).isSome := by
          rw [hs]
          obtain ⟨v, hv⟩ := hv q hq
          rw [get_ok_iff.1 hv]; rfl
        simp only [store_ok hsome, bind, Except.bind]; rfl)
    hsplit (untilThrow_pure (fun q => some (v q)) fun q hq => by rw [hpre q hq]) (by rw [hp])
  refine ⟨m', h1, fun q hq => get_ok_iff.2 (h2 (q, v q) (by simp [hq])), fun a ha => h3 a (by simp; rintro _ _ q hq rfl -; exact ha _ hq)⟩

example := C127_generate exTwo (fun p => notThree (exInVal p)) exOut exOut_distinct exOut_valid _ _ _ ex_split
  (fun p => 10 * exInVal p) "three" (by decide) rfl

/-- **C127** (`copy_if`) If the predicate throws at `p`, the elements before `p` that satisfy it are copied and nothing else is changed. -/
theorem C127_copy_if (m : Mem α) (f : α → Except ε Bool) (out inp : Container) (val : List Int → α)
    (hd : Distinct out) (hv : Valid out m) (hin : ∀ p, InBox out.shape p → inp.get m p = .ok (val p))
    (hc : NoClobber out inp)
    (pre post : List (List Int)) (p : List Int) (hsplit : positions out.shape = pre ++ p :: post) (b : List Int → Bool) (e : ε)
    (hpre : ∀ q ∈ pre, f (val q) = .ok (b q)) (hp : f (val p) = .error e) :
    ∃ m', copyIfE m f out inp = .ok (.error e, m') ∧ (∀ q ∈ pre, b q = true → out.get m' q = .ok (val q)) ∧
      ∀ a, (∀ q ∈ pre, b q = true → out.addr q ≠ a) → m' a = m a := by
  obtain ⟨m', h1, h2, h3⟩ := run_stopped hd hv rfl
    (fun (_ : Unit) q => match f (val q) with | .ok c => (if c then some (val q) else none, .ok ()) | .error e => (none, .error e))
    (fun is sm => do
      let v ← load sm.2 (inp.addr is)
      match f v with
      | .error e => pure (.error e, sm)
      | .ok true => do
        let m ← store sm.2 (out.addr is) v
        pure (.ok (), ((), m))
      | .ok false => pure (.ok (), sm))
    (by
      intro q hq s m1 hm hs
      refine ⟨(), ?_, fun _ _ => rfl⟩
      have hl : load m1 (inp.addr q) = .ok (val q) := by
        apply load_ok
        rw [hm _ fun r hr hlt => hc q r hq hr hlt]
        exact get_ok_iff.1 (hin q hq)
      simp only [hl, bind, Except.bind]
      cases f (val q) with
      | error e => rfl
      | ok c =>
        cases c with
        | false => rfl
        | true =>
          have hsome : (m1 (out.addr q)).isSome := by
            rw [hs]
            obtain ⟨v, hv⟩ := hv q hq
            rw [get_ok_iff.1 hv]; rfl
          simp only [store_ok hsome]; rfl)
    hsplit (untilThrow_pure (fun q => if b q then some (val q) else none) fun q hq => by rw [hpre q hq]) (by rw [hp])
  refine ⟨m', h1, fun q hq hb => get_ok_iff.2 (h2 (q, val q) ?_), fun a ha => h3 a ?_⟩
  · simp only [Option.toList_none, List.map_nil, List.append_nil, List.mem_flatMap]
    exact ⟨q, hq, by simp [hb]⟩
  · intro w hw
    simp only [Option.toList_none, List.map_nil, List.append_nil, List.mem_flatMap] at hw
    obtain ⟨q, hq, hw⟩ := hw
    cases hb : b q with
    | false => simp [hb] at hw
    | true => simp [hb] at hw; subst hw; exact ha q hq hb

example := C127_copy_if exTwo (fun x => (notThree x).map (· > 10)) exOut exIn exInVal exOut_distinct exOut_valid exIn_elems ex_noClobber
  _ _ _ ex_split (fun p => exInVal p > 1) "three" (by decide) rfl

/-- **C127** (`replace_if`) If the predicate throws at `p`, the elements before `p` that satisfy it are replaced and nothing else is
changed. -/
theorem C127_replace_if (m : Mem α) (f : α → Except ε Bool) (c : Container) (new : α) (val : List Int → α)
    (hd : Distinct c) (hin : Elems c m val)
    (pre post : List (List Int)) (p : List Int) (hsplit : positions c.shape = pre ++ p :: post) (b : List Int → Bool) (e : ε)
    (hpre : ∀ q ∈ pre, f (val q) = .ok (b q)) (hp : f (val p) = .error e) :
    ∃ m', replaceIfE m c f new = .ok (.error e, m') ∧ (∀ q ∈ pre, b q = true → c.get m' q = .ok new) ∧
      ∀ a, (∀ q ∈ pre, b q = true → c.addr q ≠ a) → m' a = m a := by
  have hv : Valid c m := fun q hq => ⟨_, hin q hq⟩
  obtain ⟨m', h1, h2, h3⟩ := run_stopped hd hv rfl
    (fun (_ : Unit) q => match f (val q) with | .ok c => (if c then some new else none, .ok ()) | .error e => (none, .error e))
    (fun is sm => do
      let v ← load sm.2 (c.addr is)
      match f v with
      | .error e => pure (.error e, sm)
      | .ok true => do
        let m ← store sm.2 (c.addr is) new
        pure (.ok (), ((), m))
      | .ok false => pure (.ok (), sm))
    (by
      intro q hq s m1 hm hs
      refine ⟨(), ?_, fun _ _ => rfl⟩
      have hl : load m1 (c.addr q) = .ok (val q) := by
        apply load_ok
        rw [hm _ fun r hr hlt heq => absurd (hd r q hr hq heq) (ne_of_lt hlt)]
        exact get_ok_iff.1 (hin q hq)
      simp only [hl, bind, Except.bind]
      cases f (val q) with
      | error e => rfl
      | ok x =>
        cases x with
        | false => rfl
        | true =>
          have hsome : (m1 (c.addr q)).isSome := by
            rw [hs]
            obtain ⟨v, hv⟩ := hv q hq
            rw [get_ok_iff.1 hv]; rfl
          simp only [store_ok hsome]; rfl)
    hsplit (untilThrow_pure (fun q => if b q then some new else none) fun q hq => by rw [hpre q hq]) (by rw [hp])
  refine ⟨m', h1, fun q hq hb => get_ok_iff.2 (h2 (q, new) ?_), fun a ha => h3 a ?_⟩
  · simp only [Option.toList_none, List.map_nil, List.append_nil, List.mem_flatMap]
    exact ⟨q, hq, by simp [hb]⟩
  · intro w hw
    simp only [Option.toList_none, List.map_nil, List.append_nil, List.mem_flatMap] at hw
    obtain ⟨q, hq, hw⟩ := hw
    cases hb : b q with
    | false => simp [hb] at hw
    | true => simp [hb] at hw; subst hw; exact ha q hq hb

example := C127_replace_if exTwo (fun x => (notThree x).map (· > 10)) exIn 9 exInVal exIn_distinct exIn_elems _ _ _ ex_split
  (fun p => exInVal p > 1) "three" (by decide) rfl

theorem partialSum_cons (f1 : α → β → Except ε α) (f2 : α → Except ε β) (val : List Int → α) (init : α) (q : List Int) (l : List (List Int)) :
    partialSum f1 f2 val init (q :: l) = (do partialSum f1 f2 val (← partialSum f1 f2 val init [q]) l) := by
  simp [partialSum, List.foldlM_cons]

/-- **C127** (exclusive scan) If a function throws at `p`, the elements up to `p` included hold the partial results and nothing else is
changed. -/
theorem C127_exclusive_scan (m : Mem α) (inp out : Container) (init : α) (f1 : α → β → Except ε α) (f2 : α → Except ε β)
    (val : List Int → α) (hd : Distinct out) (hv : Valid out m) (hin : Elems inp m val) (hs : inp.shape = out.shape)
    (hc : NoClobber out inp) (hne : ∀ p, InBox out.shape p → out.addr p ≠ inp.addr p)
    (pre post : List (List Int)) (p : List Int) (hsplit : positions out.shape = pre ++ p :: post) (s : α) (e : ε)
    (hpre : partialSum f1 f2 val init pre = .ok s) (hp : partialSum f1 f2 val s [p] = .error e) :
    ∃ m', transformExclusiveScanE m inp out init f1 f2 = .ok (.error e, m') ∧
      (∀ l1 q l2, pre = l1 ++ q :: l2 → ∀ t, partialSum f1 f2 val init l1 = .ok t → out.get m' q = .ok t) ∧
      out.get m' p = .ok s ∧ ∀ a, (∀ q ∈ pre, out.addr q ≠ a) → out.addr p ≠ a → m' a = m a := by
  let g : α → List Int → Option α × Except ε α := fun s q => (some s, partialSum f1 f2 val s [q])
  have htr : ∀ (pre : List (List Int)) (init : α), partialSum f1 f2 val init pre = .ok s →
      ∃ ws, untilThrow g init pre = (ws, .ok s) ∧
        (∀ l1 q l2, pre = l1 ++ q :: l2 → ∀ t, partialSum f1 f2 val init l1 = .ok t → (q, t) ∈ ws) ∧ ∀ w ∈ ws, w.1 ∈ pre := by
    intro pre
    induction pre with
    | nil =>
      intro init h
      cases h
      exact ⟨[], rfl, fun l1 q l2 h => by simp at h, by simp⟩
    | cons q pre ih =>
      intro init h
      rw [partialSum_cons] at h
      cases hq : partialSum f1 f2 val init [q] with
      | error e => rw [hq] at h; cases h
      | ok s2 =>
        rw [hq] at h
        obtain ⟨ws, i1, i2, i3⟩ := ih s2 h
        refine ⟨(q, init) :: ws, ?_, ?_, ?_⟩
        · simp only [untilThrow, g, hq]
          rw [i1]; rfl
        · intro l1 r l2 he t ht
          cases l1 with
          | nil =>
            cases he
            cases ht
            simp
          | cons r' l1 =>
            simp only [List.cons_append, List.cons.injEq] at he
            obtain ⟨rfl, he⟩ := he
            rw [partialSum_cons, hq] at ht
            exact List.mem_cons_of_mem _ (i2 l1 r l2 he t ht)
        · intro w hw
          rcases List.mem_cons.1 hw with rfl | hw
          · simp
          · exact List.mem_cons_of_mem _ (i3 w hw)
  obtain ⟨ws, w1, w2, w3⟩ := htr pre init hpre
  obtain ⟨m', h1, h2, h3⟩ := run_stopped hd hv hs g
    (fun is sm => do
      let m ← store sm.2 (out.addr is) sm.1
      let v ← load m (inp.addr is)
      match f2 v with
      | .error e => pure (.error e, (sm.1, m))
      | .ok b =>
        match f1 sm.1 b with
        | .error e => pure (.error e, (sm.1, m))
        | .ok sum => pure (.ok (), (sum, m)))
    (by
      intro q hq s m1 hm hsm
      have hsome : (m1 (out.addr q)).isSome := by
        rw [hsm]
        obtain ⟨v, hv⟩ := hv q hq
        rw [get_ok_iff.1 hv]; rfl
      have hl : load (wr m1 (out.addr q) (some s)) (inp.addr q) = .ok (val q) := by
        apply load_ok
        rw [wr_other _ _ (hne q hq), hm _ fun r hr hlt => hc q r hq hr hlt]
        exact get_ok_iff.1 (hin q (by rw [hs]; exact hq))
      simp only [store_ok hsome, hl, bind, Except.bind]
      simp only [g, partialSum, List.foldlM_cons, List.foldlM_nil, bind, Except.bind]
      cases f2 (val q) with
      | error e => exact ⟨s, rfl, fun x hx => by cases hx⟩
      | ok b =>
        simp only []
        cases f1 s b with
        | error e => exact ⟨s, rfl, fun x hx => by cases hx⟩
        | ok t => exact ⟨t, rfl, fun x hx => by cases hx; rfl⟩)
    (by rw [hs]; exact hsplit) w1 (show g s p = (some s, .error e) by simp only [g, hp])
  refine ⟨m', h1, ?_, ?_, ?_⟩
  · intro l1 q l2 he t ht
    exact get_ok_iff.2 (h2 (q, t) (List.mem_append_left _ (w2 l1 q l2 he t ht)))
  · exact get_ok_iff.2 (h2 (p, s) (by simp))
  · intro a ha hpa
    refine h3 a fun w hw => ?_
    rcases List.mem_append.1 hw with hw | hw
    · exact ha _ (w3 w hw)
    · simp at hw; subst hw; exact hpa

example := C127_exclusive_scan exTwo exIn exOut 100 (fun a b => .ok (a + b)) notThree exInVal exOut_distinct exOut_valid exIn_elems rfl
  ex_noClobber (fun p hp => ex_disjoint p p hp hp) _ _ _ ex_split 130 "three" rfl rfl

/-- **C127** (inclusive scan) If a function throws at `p`, the elements before `p` hold the partial results and nothing else is changed. -/
theorem C127_inclusive_scan (m : Mem α) (inp out : Container) (init : α) (f1 : α → β → Except ε α) (f2 : α → Except ε β)
    (val : List Int → α) (hd : Distinct out) (hv : Valid out m) (hin : Elems inp m val) (hs : inp.shape = out.shape)
    (hc : NoClobber out inp)
    (pre post : List (List Int)) (p : List Int) (hsplit : positions out.shape = pre ++ p :: post) (s : α) (e : ε)
    (hpre : partialSum f1 f2 val init pre = .ok s) (hp : partialSum f1 f2 val s [p] = .error e) :
    ∃ m', transformInclusiveScanE m inp out init f1 f2 = .ok (.error e, m') ∧
      (∀ l1 q l2, pre = l1 ++ q :: l2 → ∀ t, partialSum f1 f2 val init (l1 ++ [q]) = .ok t → out.get m' q = .ok t) ∧
      ∀ a, (∀ q ∈ pre, out.addr q ≠ a) → m' a = m a := by
  let g : α → List Int → Option α × Except ε α := fun s q => ((partialSum f1 f2 val s [q]).toOption, partialSum f1 f2 val s [q])
  have htr : ∀ (pre : List (List Int)) (init : α), partialSum f1 f2 val init pre = .ok s →
      ∃ ws, untilThrow g init pre = (ws, .ok s) ∧
        (∀ l1 q l2, pre = l1 ++ q :: l2 → ∀ t, partialSum f1 f2 val init (l1 ++ [q]) = .ok t → (q, t) ∈ ws) ∧ ∀ w ∈ ws, w.1 ∈ pre := by
    intro pre
    induction pre with
    | nil =>
      intro init h
      cases h
      exact ⟨[], rfl, fun l1 q l2 h => by simp at h, by simp⟩
    | cons q pre ih =>
      intro init h
      rw [partialSum_cons] at h
      cases hq : partialSum f1 f2 val init [q] with
      | error e => rw [hq] at h; cases h
      | ok s2 =>
        rw [hq] at h
        obtain ⟨ws, i1, i2, i3⟩ := ih s2 h
        refine ⟨(q, s2) :: ws, ?_, ?_, ?_⟩
        · simp only [untilThrow, g, hq]
          rw [i1]; rfl
        · intro l1 r l2 he t ht
          cases l1 with
          | nil =>
            cases he
            rw [List.nil_append, hq] at ht
            cases ht
            simp
          | cons r' l1 =>
            simp only [List.cons_append, List.cons.injEq] at he
            obtain ⟨rfl, he⟩ := he
            rw [List.cons_append, partialSum_cons, hq] at ht
            exact List.mem_cons_of_mem _ (i2 l1 r l2 he t ht)
        · intro w hw
          rcases List.mem_cons.1 hw with rfl | hw
          · simp
          · exact List.mem_cons_of_mem _ (i3 w hw)
  obtain ⟨ws, w1, w2, w3⟩ := htr pre init hpre
  obtain ⟨m', h1, h2, h3⟩ := run_stopped hd hv hs g
    (fun is sm => do
      let v ← load sm.2 (inp.addr is)
      match f2 v with
      | .error e => pure (.error e, sm)
      | .ok b =>
        match f1 sm.1 b with
        | .error e => pure (.error e, sm)
        | .ok sum => do
          let m ← store sm.2 (out.addr is) sum
          pure (.ok (), (sum, m)))
    (by
      intro q hq s m1 hm hsm
      have hsome : (m1 (out.addr q)).isSome := by
        rw [hsm]
        obtain ⟨v, hv⟩ := hv q hq
        rw [get_ok_iff.1 hv]; rfl
      have hl : load m1 (inp.addr q) = .ok (val q) := by
        apply load_ok
        rw [hm _ fun r hr hlt => hc q r hq hr hlt]
        exact get_ok_iff.1 (hin q (by rw [hs]; exact hq))
      simp only [hl, bind, Except.bind]
      simp only [g, partialSum, List.foldlM_cons, List.foldlM_nil, bind, Except.bind]
      cases f2 (val q) with
      | error e => exact ⟨s, rfl, fun x hx => by cases hx⟩
      | ok b =>
        simp only []
        cases f1 s b with
        | error e => exact ⟨s, rfl, fun x hx => by cases hx⟩
        | ok t => exact ⟨t, by simp only [store_ok hsome]; rfl, fun x hx => by cases hx; rfl⟩)
    (by rw [hs]; exact hsplit) w1 (show g s p = (none, .error e) by simp only [g, hp]; rfl)
  refine ⟨m', h1, ?_, ?_⟩
  · intro l1 q l2 he t ht
    exact get_ok_iff.2 (h2 (q, t) (List.mem_append_left _ (w2 l1 q l2 he t ht)))
  · intro a ha
    refine h3 a fun w hw => ?_
    simp only [Option.toList_none, List.map_nil, List.append_nil] at hw
    exact ha _ (w3 w hw)

example := C127_inclusive_scan exTwo exIn exOut 100 (fun a b => .ok (a + b)) notThree exInVal exOut_distinct exOut_valid exIn_elems rfl
  ex_noClobber _ _ _ ex_split 130 "three" rfl rfl

/-! ## Algorithms that read -/

theorem foldlM_readE {m : Mem α} {c : Container} {val : List Int → α} (f : β → α → Except ε β) (l : List (List Int))
    (hl : ∀ p ∈ l, c.get m p = .ok (val p)) (init : β) :
    (l.foldlM (m := ExceptT ε Res) (fun a p => do let v ← readE m c p; callE (f a v)) init).run =
      .ok (l.foldlM (fun a p => f a (val p)) init) := by
  induction l generalizing init with
  | nil => rfl
  | cons p l ih =>
    rw [List.foldlM_cons, List.foldlM_cons]
    have hr : (do let v ← readE (ε := ε) m c p; callE (f init v)).run = .ok (f init (val p)) := by
      simp only [readE, hl p (by simp), callE]; rfl
    rw [ExceptT.run_bind, hr]
    simp only [bind, Except.bind]
    cases f init (val p) with
    | error e => rfl
    | ok b => exact ih (fun q hq => hl q (by simp [hq])) b

/-- **C127** (`reduce`) The result, or the exception of the first call that throws, is that of the calls in row-major order. -/
theorem C127_reduce (m : Mem α) (c : Container) (val : List Int → α) (hin : Elems c m val) (f : β → α → Except ε β) (init : β) :
    reduceE m c f init = .ok ((positions c.shape).foldlM (fun a p => f a (val p)) init) := by
  rw [reduceE, reduceM_eq]
  exact foldlM_readE f _ (fun p hp => hin p (mem_positions.1 hp)) init

example : reduceE exTwo exIn (fun a x => (notThree x).map (a + ·)) 0 = .ok (.error "three") :=
  C127_reduce exTwo exIn exInVal exIn_elems _ _

theorem foldlM_stop {γ : Type} (f : β → γ → Except ε β) (b : β) (l : List γ) (h : ∀ p ∈ l, f b p = .ok b) : l.foldlM f b = .ok b := by
  induction l with
  | nil => rfl
  | cons p l ih =>
    rw [List.foldlM_cons, h p (by simp)]
    exact ih fun q hq => h q (by simp [hq])

/-- **C127** (`all_of`, `any_of`) The predicate is not called after the answer is known, so it cannot throw there; before, an exception comes
out.  `stop` is `false` for `all_of`, `true` for `any_of`. -/
theorem C127_predicates (m : Mem α) (c : Container) (val : List Int → α) (hin : Elems c m val) (f : α → Except ε Bool)
    (pre post : List (List Int)) (p : List Int) (hsplit : positions c.shape = pre ++ p :: post) :
    ((∀ q ∈ pre, f (val q) = .ok true) →
      (∀ e, f (val p) = .error e → allOfE m c f = .ok (.error e)) ∧ (f (val p) = .ok false → allOfE m c f = .ok (.ok false))) ∧
    ((∀ q ∈ pre, f (val q) = .ok false) →
      (∀ e, f (val p) = .error e → anyOfE m c f = .ok (.error e)) ∧ (f (val p) = .ok true → anyOfE m c f = .ok (.ok true))) := by
  have hall : allOfE m c f = .ok ((positions c.shape).foldlM (fun a p => if a then f (val p) else .ok false) true) := by
    have : allOfE m c f = reduceE m c (fun a v => if a then f v else .ok false) true := by
      unfold allOfE allOfM reduceE
      congr 2
      funext a v
      cases a <;> rfl
    rw [this, C127_reduce m c val hin]
  have hany : anyOfE m c f = .ok ((positions c.shape).foldlM (fun a p => if a then .ok true else f (val p)) false) := by
    have : anyOfE m c f = reduceE m c (fun a v => if a then .ok true else f v) false := by
      unfold anyOfE anyOfM reduceE
      congr 2
      funext a v
      cases a <;> rfl
    rw [this, C127_reduce m c val hin]
  constructor
  · intro hpre
    have h1 := foldlM_stop (fun a q => if a then f (val q) else .ok false) true pre fun q hq => by simp [hpre q hq]
    constructor
    · intro e he
      rw [hall, hsplit, List.foldlM_append, h1]
      simp [List.foldlM_cons, he, bind, Except.bind]
    · intro he
      rw [hall, hsplit, List.foldlM_append, h1]
      simp only [List.foldlM_cons, he, bind, Except.bind, if_true]
      rw [foldlM_stop _ false post fun q _ => by simp]
  · intro hpre
    have h1 := foldlM_stop (fun a q => if a then .ok true else f (val q)) false pre fun q hq => by simp [hpre q hq]
    constructor
    · intro e he
      rw [hany, hsplit, List.foldlM_append, h1]
      simp [List.foldlM_cons, he, bind, Except.bind]
    · intro he
      rw [hany, hsplit, List.foldlM_append, h1]
      simp only [List.foldlM_cons, he, bind, Except.bind, Bool.false_eq_true, if_false]
      rw [foldlM_stop _ true post fun q _ => by simp]

example : allOfE exTwo exIn (fun x => (notThree x).map (· < 25)) = .ok (.error "three") :=
  ((C127_predicates exTwo exIn exInVal exIn_elems _ _ _ _ ex_split).1 (by decide)).1 _ rfl

/-- **C127** (`count_if`) Every element is tested: any exception comes out. -/
theorem C127_count_if (m : Mem α) (c : Container) (val : List Int → α) (hin : Elems c m val) (f : α → Except ε Bool)
    (pre post : List (List Int)) (p : List Int) (hsplit : positions c.shape = pre ++ p :: post) (b : List Int → Bool) (e : ε)
    (hpre : ∀ q ∈ pre, f (val q) = .ok (b q)) (hp : f (val p) = .error e) : countIfE m c f = .ok (.error e) := by
  have hc : countIfE m c f = reduceE m c (fun a v => do let x ← f v; .ok (a + if x then 1 else 0)) 0 := by
    unfold countIfE countIfM reduceE
    congr 2
    funext a v
    dsimp only
    cases f v <;> rfl
  rw [hc, C127_reduce m c val hin, hsplit, List.foldlM_append]
  have : ∀ k : Nat, ∃ n, pre.foldlM (fun (a : Nat) q => (do let x ← f (val q); .ok (a + if x then 1 else 0) : Except ε Nat)) k = .ok n := by
    clear hsplit
    induction pre with
    | nil => exact fun k => ⟨k, rfl⟩
    | cons q pre ih =>
      intro k
      rw [List.foldlM_cons, hpre q (by simp)]
      exact ih (fun r hr => hpre r (by simp [hr])) _
  obtain ⟨n, hn⟩ := this 0
  rw [hn]
  simp [List.foldlM_cons, hp, bind, Except.bind]

example : countIfE exTwo exIn (fun x => (notThree x).map (· = 20)) = .ok (.error "three") :=
  C127_count_if exTwo exIn exInVal exIn_elems _ _ _ _ ex_split (fun p => 10 * exInVal p = 20) _ (by decide) rfl

theorem firstHit_readE {m : Mem α} {c : Container} {v : α} (f : α → Except ε Bool) (p : List Int) (l : List (List Int))
    (hp : c.get m p = .ok v) :
    (firstHit (m := ExceptT ε Res) (readE m c) (fun v => callE (f v)) (p :: l)).run =
      match f v with
      | .error e => .ok (.error e)
      | .ok true => .ok (.ok (some p))
      | .ok false => (firstHit (m := ExceptT ε Res) (readE m c) (fun v => callE (f v)) l).run := by
  have h : (firstHit (m := ExceptT ε Res) (readE m c) (fun v => callE (f v)) (p :: l)).run =
      (do
        let b ← callE (f v)
        if b then pure (some p) else firstHit (m := ExceptT ε Res) (readE m c) (fun v => callE (f v)) l).run := by
    simp only [firstHit, readE, hp]; rfl
  rw [h]
  cases f v with
  | error e => rfl
  | ok b => cases b <;> rfl

/-- **C127** (`find_if`) If no element before `p` satisfies the predicate and it throws at `p`, the exception comes out; if it is satisfied
at `p`, the later elements are not tested. -/
theorem C127_find_if (m : Mem α) (c : Container) (val : List Int → α) (hin : Elems c m val) (f : α → Except ε Bool)
    (pre post : List (List Int)) (p : List Int) (hsplit : positions c.shape = pre ++ p :: post) (hpre : ∀ q ∈ pre, f (val q) = .ok false) :
    (∀ e, f (val p) = .error e → findIfE m c f = .ok (.error e)) ∧ (f (val p) = .ok true → findIfE m c f = .ok (.ok (some p))) := by
  have hmem : ∀ q ∈ pre ++ p :: post, c.get m q = .ok (val q) := fun q hq => hin q (mem_positions.1 (by rw [hsplit]; exact hq))
  have key : ∀ (pre : List (List Int)), (∀ q ∈ pre ++ p :: post, c.get m q = .ok (val q)) → (∀ q ∈ pre, f (val q) = .ok false) →
      (firstHit (m := ExceptT ε Res) (readE m c) (fun v => callE (f v)) (pre ++ p :: post)).run =
      (firstHit (m := ExceptT ε Res) (readE m c) (fun v => callE (f v)) (p :: post)).run := by
    intro pre
    induction pre with
    | nil => intros; rfl
    | cons q pre ih =>
      intro h1 h2
      rw [← ih (fun r hr => h1 r (by simp at hr ⊢; tauto)) fun r hr => h2 r (by simp [hr])]
      rw [List.cons_append, firstHit_readE f q _ (h1 q (by simp)), h2 q (by simp)]
  have hp' := hmem p (by simp)
  unfold findIfE
  rw [findIfM_eq, hsplit, key pre hmem hpre]
  constructor
  · intro e he
    rw [firstHit_readE f p _ hp', he]
  · intro he
    rw [firstHit_readE f p _ hp', he]

example : findIfE exTwo exIn (fun x => (notThree x).map (· = 40)) = .ok (.error "three") :=
  (C127_find_if exTwo exIn exInVal exIn_elems _ _ _ _ ex_split (by decide)).1 _ rfl

/-! ## Without exceptions -/

/-- **C127** Functions that throw nothing: the algorithms are those of the other properties. -/
theorem C127_no_throw (m : Mem α) :
    (∀ (f : List α → α) out ins, transformE (ε := ε) m (fun vs => .ok (f vs)) out ins = (transform m f out ins).map fun m' => (.ok (), m')) ∧
    (∀ (f : List Int → α) out, generateE (ε := ε) m (fun is => .ok (f is)) out = (generate m f out).map fun m' => (.ok (), m')) ∧
    (∀ (f : α → Bool) out inp, copyIfE (ε := ε) m (fun v => .ok (f v)) out inp = (copyIf m f out inp).map fun m' => (.ok (), m')) ∧
    (∀ (f : α → Bool) c new, replaceIfE (ε := ε) m c (fun v => .ok (f v)) new = (replaceIf m c f new).map fun m' => (.ok (), m')) ∧
    (∀ inp out init (f1 : α → β → α) (f2 : α → β), transformExclusiveScanE (ε := ε) m inp out init (fun a b => .ok (f1 a b)) (fun v => .ok (f2 v)) =
      (transformExclusiveScan m inp out init f1 f2).map fun m' => (.ok (), m')) ∧
    (∀ inp out init (f1 : α → β → α) (f2 : α → β), transformInclusiveScanE (ε := ε) m inp out init (fun a b => .ok (f1 a b)) (fun v => .ok (f2 v)) =
      (transformInclusiveScan m inp out init f1 f2).map fun m' => (.ok (), m')) := by
  have hm : ∀ {σ : Type} (x : Res (σ × Mem α)), (x.map fun sm => ((.ok () : Except ε Unit), sm.2)) =
      (do let r ← x; pure r.2 : Res (Mem α)).map fun m' => (.ok (), m') := by
    intro σ x; cases x <;> rfl
  refine ⟨?_, ?_, ?_, ?_, ?_, ?_⟩
  · intro f out ins
    unfold transformE transform mapE mapCtx
    rw [← hm]
    refine forEach_lift _ _ ?_ _ _ _
    intro is sm
    dsimp only
    cases (ins.map fun c => c.addr is).mapM (fun i => load sm.2 i) with
    | error e => rfl
    | ok vs =>
      simp only [bind, Except.bind, pure, Except.pure]
      cases store sm.2 (out.addr is) (f vs) <;> rfl
  · intro f out
    unfold generateE generate mapIndexE mapIndexCtx
    rw [← hm]
    refine forEach_lift _ _ ?_ _ _ _
    intro is sm
    simp only [bind, Except.bind, pure, Except.pure]
    cases store sm.2 (out.addr is) (f is) <;> rfl
  · intro f out inp
    unfold copyIfE copyIf mapE mapCtx
    rw [← hm]
    refine forEach_lift _ _ ?_ _ _ _
    intro is sm
    simp only [bind, Except.bind, pure, Except.pure]
    cases load sm.2 _ with
    | error e => rfl
    | ok v =>
      cases hf : f v with
      | false => simp [hf, Except.map]
      | true =>
        simp only [hf, if_true]
        cases store sm.2 (out.addr is) v <;> rfl
  · intro f c new
    unfold replaceIfE replaceIf mapE mapCtx
    rw [← hm]
    refine forEach_lift _ _ ?_ _ _ _
    intro is sm
    simp only [bind, Except.bind, pure, Except.pure]
    cases load sm.2 _ with
    | error e => rfl
    | ok v =>
      cases hf : f v with
      | false => simp [hf, Except.map]
      | true =>
        simp only [hf, if_true]
        cases store sm.2 (c.addr is) new <;> rfl
  · intro inp out init f1 f2
    unfold transformExclusiveScanE transformExclusiveScan mapE mapCtx
    rw [← hm]
    refine forEach_lift _ _ ?_ _ _ _
    intro is sm
    simp only [bind, Except.bind, pure, Except.pure]
    cases store sm.2 _ sm.1 with
    | error e => rfl
    | ok m1 =>
      simp only []
      cases load m1 (inp.addr is) <;> rfl
  · intro inp out init f1 f2
    unfold transformInclusiveScanE transformInclusiveScan mapE mapCtx
    rw [← hm]
    refine forEach_lift _ _ ?_ _ _ _
    intro is sm
    simp only [bind, Except.bind, pure, Except.pure]
    cases load sm.2 (inp.addr is) with
    | error e => rfl
    | ok v =>
      simp only []
      cases store sm.2 _ (f1 sm.1 (f2 v)) <;> rfl

/-! ## Examples -/

/-- The exception and the elements of the output. -/
def seen (r : Res (Except String Unit × Mem Int)) : Res (Option String × List (Res Int)) := do
  let r ← r
  return (match r.1 with | .ok () => none | .error e => some e, (positions [2, 2]).map fun p => exOut.get r.2 p)

example : seen (transformE exTwo (fun vs => notThree (vs.headD 0)) exOut [exIn]) =
    .ok (some "three", [.ok 10, .ok 20, .ok 0, .ok 0]) := by decide
example : seen (generateE exTwo (fun is => notThree (2 * is.headD 0 + is.tail.headD 0 + 1)) exOut) =
    .ok (some "three", [.ok 10, .ok 20, .ok 0, .ok 0]) := by decide
example : seen (copyIfE exTwo (fun x => (notThree x).map (· > 10)) exOut exIn) = .ok (some "three", [.ok 0, .ok 2, .ok 0, .ok 0]) := by decide
example : seen (replaceIfE (oneBlock 0 [0, 0, 0, 0, 1, 2, 3, 4]) exOut (fun x => (notThree x).map (· > 10)) 9) =
    .ok (some "three", [.ok 1, .ok 9, .ok 3, .ok 4]) := by decide
example : seen (transformExclusiveScanE exTwo exIn exOut 100 (fun a b => .ok (a + b)) notThree) =
    .ok (some "three", [.ok 100, .ok 110, .ok 130, .ok 0]) := by decide
example : seen (transformInclusiveScanE exTwo exIn exOut 100 (fun a b => .ok (a + b)) notThree) =
    .ok (some "three", [.ok 110, .ok 130, .ok 0, .ok 0]) := by decide
example : positions exOut.shape = [[0, 0], [0, 1]] ++ [1, 0] :: [[1, 1]] := by decide
example : partialSum (fun a b => .ok (a + b)) notThree (fun p => 2 * p.headD 0 + p.tail.headD 0 + 1) 100 [[0, 0], [0, 1]] =
    (.ok 130 : Except String Int) := by rfl
example : reduceE exTwo exIn (fun a x => (notThree x).map (a + ·)) 0 = .ok (.error "three") := by rfl
example : allOfE exTwo exIn (fun x => (notThree x).map (· < 15)) = .ok (.ok false) := by rfl
example : allOfE exTwo exIn (fun x => (notThree x).map (· < 25)) = .ok (.error "three") := by rfl
example : findIfE exTwo exIn (fun x => (notThree x).map (· = 20)) = .ok (.ok (some [0, 1])) := by rfl
example : countIfE exTwo exIn (fun x => (notThree x).map (· = 20)) = .ok (.error "three") := by rfl

end Kwk
