import Verif.Spec.Parallel
import Verif.Lemmas.AuxWriting
import Verif.Lemmas.Writing
import Verif.Lemmas.Container

/-!
# Lemmas: concurrent calls
-/

namespace Kwk
open Spec

variable {α β σ γ : Type}

/-- The call only reads `R` and `W`, only writes `W`, and does not write the captured variable. -/
def CallStep.Within (R W : Ptr → Prop) : CallStep σ α → Prop
  | .done => True
  | .load a k => (R a ∨ W a) ∧ ∀ v, (k v).Within R W
  | .store a _ k => W a ∧ k.Within R W
  | .getVar k => ∀ s, (k s).Within R W
  | .setVar _ _ => False

/-- The rest of a call on its own, without writes of the captured variable. -/
def CallStep.run (s : σ) : CallStep σ α → Mem α → Res (Mem α)
  | .done, m => .ok m
  | .load a k, m => do
    let v ← Kwk.load m a
    (k v).run s m
  | .store a v k, m => do
    let m ← Kwk.store m a v
    k.run s m
  | .getVar k, m => (k s).run s m
  | .setVar _ k, m => k.run s m

/-- Every way through the rest of the call writes the captured variable. -/
def CallStep.Sets : CallStep σ α → Prop
  | .done => False
  | .load _ k => ∀ v, (k v).Sets
  | .store _ _ k => k.Sets
  | .getVar k => ∀ s, (k s).Sets
  | .setVar _ _ => True

theorem load_eq {m : Mem α} {a : Ptr} {v : α} : Kwk.load m a = .ok v ↔ m a = some v := by
  unfold Kwk.load; cases m a <;> simp

theorem store_eq_wr {m m' : Mem α} {a : Ptr} {v : α} : Kwk.store m a v = .ok m' ↔ (m a).isSome ∧ m' = wr m a (some v) := by
  constructor
  · intro h
    by_cases hs : (m a).isSome
    · rw [store_ok hs] at h; exact ⟨hs, (Except.ok.inj h).symm⟩
    · unfold Kwk.store at h
      cases hm : m a with
      | none => rw [hm] at h; simp at h
      | some w => simp [hm] at hs
  · rintro ⟨hs, rfl⟩; exact store_ok hs

/-- The run of a call only depends on the cells it uses. -/
theorem run_congr {R W : Ptr → Prop} {s : σ} {act : CallStep σ α} (hw : act.Within R W) {m m' m1 : Mem α}
    (he : ∀ a, R a ∨ W a → m' a = m a) (hr : act.run s m = .ok m1) :
    ∃ m1', act.run s m' = .ok m1' ∧ ∀ a, R a ∨ W a → m1' a = m1 a := by
  induction act generalizing m m' with
  | done => cases hr; exact ⟨m', rfl, he⟩
  | load a k ih =>
    simp only [CallStep.run] at hr ⊢
    cases hl : Kwk.load m a with
    | error e => rw [hl] at hr; cases hr
    | ok v =>
      rw [hl] at hr
      have : Kwk.load m' a = .ok v := by rw [load_eq, he a hw.1]; exact load_eq.1 hl
      rw [this]
      exact ih v (hw.2 v) he hr
  | store a v k ih =>
    simp only [CallStep.run] at hr ⊢
    cases hl : Kwk.store m a v with
    | error e => rw [hl] at hr; cases hr
    | ok m2 =>
      rw [hl] at hr
      obtain ⟨h1, rfl⟩ := store_eq_wr.1 hl
      have : Kwk.store m' a v = .ok (wr m' a (some v)) := store_ok (by rw [he a (.inr hw.1)]; exact h1)
      rw [this]
      refine ih hw.2 (fun b hb => ?_) hr
      by_cases e : a = b
      · subst e; rw [wr_self, wr_self]
      · rw [wr_other _ _ e, wr_other _ _ e, he b hb]
  | getVar k ih => exact ih s (hw s) he hr
  | setVar s k ih => exact absurd hw id

/-- Calls that stay in places of their own. -/
theorem schedule_own {s : Shape} {R W : List Int → Ptr → Prop} {task : List Int → CallStep σ α} {v : σ} {m0 : Mem α}
    {fin : List Int → Mem α}
    (hw : ∀ p, InBox s p → (task p).Within (R p) (W p))
    (hc : ∀ p q, InBox s p → InBox s q → p ≠ q → ∀ a, W p a → ¬ R q a ∧ ¬ W q a)
    (hr : ∀ p, InBox s p → (task p).run v m0 = .ok (fin p))
    {l : List (List Int)} (hl : Schedules s l) :
    ∃ st, (PState.start task v m0).schedule l = .ok st ∧ ¬ Race st ∧
      (Finished s st → (∀ p, InBox s p → ∀ a, W p a → st.mem a = fin p a) ∧
        ∀ a, (∀ p, InBox s p → ¬ W p a) → st.mem a = m0 a) := by
  suffices H : ∀ (l : List (List Int)) (st : PState σ α), Schedules s l → st.var = v →
      (∀ p, InBox s p → (st.todo p).Within (R p) (W p)) →
      (∀ p, InBox s p → ∃ m1, (st.todo p).run v st.mem = .ok m1 ∧ ∀ a, W p a → m1 a = fin p a) →
      (∀ a, (∀ p, InBox s p → ¬ W p a) → st.mem a = m0 a) →
      (∀ x ∈ st.trace, InBox s x.task ∧ ∃ w, x.write = w ∧
        match x.place with
        | none => w = false
        | some a => W x.task a ∨ (w = false ∧ R x.task a)) →
      ∃ st', st.schedule l = .ok st' ∧
      (∀ p, InBox s p → ∃ m1, (st'.todo p).run v st'.mem = .ok m1 ∧ ∀ a, W p a → m1 a = fin p a) ∧
      (∀ a, (∀ p, InBox s p → ¬ W p a) → st'.mem a = m0 a) ∧
      (∀ x ∈ st'.trace, InBox s x.task ∧ ∃ w, x.write = w ∧
        match x.place with
        | none => w = false
        | some a => W x.task a ∨ (w = false ∧ R x.task a)) by
    obtain ⟨st, h1, h2, h3, h4⟩ := H l (PState.start task v m0) hl rfl hw (fun p hp => ⟨_, hr p hp, fun _ _ => rfl⟩)
      (fun _ _ => rfl) (by intro x hx; cases hx)
    refine ⟨st, h1, ?_, fun hf => ⟨fun p hp a ha => ?_, h3⟩⟩
    · rintro ⟨x, hx, y, hy, hne, hpl, hwr⟩
      obtain ⟨bx, wx, ex, gx⟩ := h4 x hx
      obtain ⟨byy, wy, ey, gy⟩ := h4 y hy
      rw [← hpl] at gy
      cases hp : x.place with
      | none => simp only [hp] at gx gy; simp_all
      | some a =>
        simp only [hp] at gx gy
        have c1 := hc _ _ bx byy hne a
        have c2 := hc _ _ byy bx hne.symm a
        rcases gx with gx | ⟨gx, gx'⟩ <;> rcases gy with gy | ⟨gy, gy'⟩
        · exact (c1 gx).2 gy
        · exact (c1 gx).1 gy'
        · exact (c2 gy).1 gx'
        · simp_all
    · obtain ⟨m1, g1, g2⟩ := h2 p hp
      rw [hf p hp] at g1; cases g1
      exact g2 a ha
  intro l
  induction l with
  | nil => intro st _ _ _ h2 h3 h4; exact ⟨st, rfl, h2, h3, h4⟩
  | cons p l ih =>
    intro st hl hv hW h2 h3 h4
    have hp : InBox s p := hl p (by simp)
    have hl' : Schedules s l := fun q hq => hl q (by simp [hq])
    -- one access that leaves the memory alone
    have same : ∀ (k : CallStep σ α) (x : MemAccess), x.task = p → x.write = false →
        (∀ a, x.place = some a → W p a ∨ R p a) → k.Within (R p) (W p) →
        (∃ m1, k.run v st.mem = .ok m1 ∧ ∀ a, W p a → m1 a = fin p a) →
        st.step p = .ok (st.set p k st.var st.mem x) → ∃ st', st.schedule (p :: l) = .ok st' ∧
          (∀ p, InBox s p → ∃ m1, (st'.todo p).run v st'.mem = .ok m1 ∧ ∀ a, W p a → m1 a = fin p a) ∧
          (∀ a, (∀ p, InBox s p → ¬ W p a) → st'.mem a = m0 a) ∧
          (∀ x ∈ st'.trace, InBox s x.task ∧ ∃ w, x.write = w ∧
            match x.place with
            | none => w = false
            | some a => W x.task a ∨ (w = false ∧ R x.task a)) := by
      intro k x e1 e2 e3 hk hrun hst
      have := ih (st.set p k st.var st.mem x) hl' hv (by
          intro q hq
          by_cases e : q = p
          · subst e; simpa [PState.set] using hk
          · simpa [PState.set, e] using hW q hq) (by
          intro q hq
          by_cases e : q = p
          · subst e; simpa [PState.set] using hrun
          · simpa [PState.set, e] using h2 q hq) h3 (by
          intro y hy
          rcases List.mem_cons.1 hy with rfl | hy
          · refine ⟨by rw [e1]; exact hp, false, e2, ?_⟩
            cases hpl : y.place with
            | none => rfl
            | some a => rw [e1]; exact (e3 a hpl).imp id fun h => ⟨rfl, h⟩
          · exact h4 y hy)
      obtain ⟨st', g, rest⟩ := this
      refine ⟨st', ?_, rest⟩
      unfold PState.schedule
      rw [List.foldlM_cons, hst]; exact g
    obtain ⟨m1, g1, g2⟩ := h2 p hp
    have hWp := hW p hp
    cases ht : st.todo p with
    | done =>
      obtain ⟨st', g, rest⟩ := ih st hl' hv hW h2 h3 h4
      refine ⟨st', ?_, rest⟩
      unfold PState.schedule
      rw [List.foldlM_cons, PState.step, ht]; exact g
    | load a k =>
      rw [ht] at g1 hWp
      simp only [CallStep.run] at g1
      cases hld : Kwk.load st.mem a with
      | error e => rw [hld] at g1; cases g1
      | ok w =>
        rw [hld] at g1
        refine same (k w) ⟨p, some a, false⟩ rfl rfl (fun b hb => ?_) (hWp.2 w) ⟨m1, g1, g2⟩ ?_
        · cases hb; exact hWp.1.symm
        · unfold PState.step; rw [ht]; simp only [hld]; rfl
    | getVar k =>
      rw [ht] at g1 hWp
      refine same (k v) ⟨p, none, false⟩ rfl rfl (fun b hb => by cases hb) (hWp v) ⟨m1, g1, g2⟩ ?_
      unfold PState.step; rw [ht]; simp only [hv]; rfl
    | setVar s' k => rw [ht] at hWp; exact absurd hWp id
    | store a w k =>
      rw [ht] at g1 hWp
      simp only [CallStep.run] at g1
      cases hst : Kwk.store st.mem a w with
      | error e => rw [hst] at g1; cases g1
      | ok m2 =>
        rw [hst] at g1
        obtain ⟨hsome, rfl⟩ := store_eq_wr.1 hst
        have := ih (st.set p k st.var (wr st.mem a (some w)) ⟨p, some a, true⟩) hl' hv (by
            intro q hq
            by_cases e : q = p
            · subst e; simpa [PState.set] using hWp.2
            · simpa [PState.set, e] using hW q hq) (by
            intro q hq
            by_cases e : q = p
            · subst e
              have g1' : k.run v (wr st.mem a (some w)) = .ok m1 := g1
              exact ⟨m1, by simpa [PState.set] using g1', g2⟩
            · obtain ⟨n1, f1, f2⟩ := h2 q hq
              obtain ⟨n2, f3, f4⟩ := run_congr (m' := wr st.mem a (some w)) (hW q hq) (by
                intro b hb
                apply wr_other
                rintro rfl
                have := hc p q hp hq (Ne.symm e) a hWp.1
                exact hb.elim this.1 this.2) f1
              exact ⟨n2, by simpa [PState.set, e] using f3, fun b hb => (f4 b (.inr hb)).trans (f2 b hb)⟩) (by
            intro b hb
            show wr st.mem a (some w) b = m0 b
            rw [wr_other _ _ (by rintro rfl; exact hb p hp hWp.1)]
            exact h3 b hb) (by
            intro y hy
            rcases List.mem_cons.1 hy with rfl | hy
            · exact ⟨hp, true, rfl, .inl hWp.1⟩
            · exact h4 y hy)
        obtain ⟨st', g, rest⟩ := this
        refine ⟨st', ?_, rest⟩
        unfold PState.schedule
        rw [List.foldlM_cons, PState.step, ht]; simp only [hst]; exact g

/-- Calls that all write the captured variable: once they have ended, each has written it. -/
theorem schedule_sets {s : Shape} {task : List Int → CallStep σ α} {v : σ} {m0 : Mem α} (hs : ∀ p, InBox s p → (task p).Sets)
    {l : List (List Int)} {st : PState σ α} (h : (PState.start task v m0).schedule l = .ok st) (hf : Finished s st) :
    ∀ p, InBox s p → ⟨p, none, true⟩ ∈ st.trace := by
  suffices H : ∀ (l : List (List Int)) (st0 : PState σ α), st0.schedule l = .ok st →
      (∀ p, InBox s p → ⟨p, none, true⟩ ∈ st0.trace ∨ (st0.todo p).Sets) →
      ∀ p, InBox s p → ⟨p, none, true⟩ ∈ st.trace ∨ (st.todo p).Sets by
    intro p hp
    rcases H l _ h (fun p hp => .inr (hs p hp)) p hp with h | h
    · exact h
    · rw [hf p hp] at h; exact absurd h id
  intro l
  induction l with
  | nil => intro st0 h hI; cases h; exact hI
  | cons q l ih =>
    intro st0 h hI
    unfold PState.schedule at h
    rw [List.foldlM_cons] at h
    cases hq : st0.step q with
    | error e => rw [hq] at h; cases h
    | ok st1 =>
      rw [hq] at h
      refine ih st1 h fun p hp => ?_
      have key : ∀ k var mem x, st1 = st0.set q k var mem x → (InBox s q → (st0.todo q).Sets → x = ⟨q, none, true⟩ ∨ k.Sets) →
          ⟨p, none, true⟩ ∈ st1.trace ∨ (st1.todo p).Sets := by
        rintro k var mem x rfl hk
        rcases hI p hp with hm | hm
        · exact .inl (List.mem_cons_of_mem _ hm)
        · by_cases e : p = q
          · subst e
            rcases hk hp hm with rfl | hk
            · exact .inl List.mem_cons_self
            · exact .inr (by simpa [PState.set] using hk)
          · exact .inr (by simpa [PState.set, e] using hm)
      unfold PState.step at hq
      cases ht : st0.todo q with
      | done => rw [ht] at hq; cases hq; exact hI p hp
      | load a k =>
        rw [ht] at hq
        simp only [bind, Except.bind] at hq
        cases hl : Kwk.load st0.mem a with
        | error e => rw [hl] at hq; cases hq
        | ok w => rw [hl] at hq; cases hq; exact key _ _ _ _ rfl fun _ hk => .inr (by rw [ht] at hk; exact hk w)
      | store a w k =>
        rw [ht] at hq
        simp only [bind, Except.bind] at hq
        cases hl : Kwk.store st0.mem a w with
        | error e => rw [hl] at hq; cases hq
        | ok w => rw [hl] at hq; cases hq; exact key _ _ _ _ rfl fun _ hk => .inr (by rw [ht] at hk; exact hk)
      | getVar k => rw [ht] at hq; cases hq; exact key _ _ _ _ rfl fun _ hk => .inr (by rw [ht] at hk; exact hk _)
      | setVar w k => rw [ht] at hq; cases hq; exact key _ _ _ _ rfl fun _ _ => .inl rfl

/-- Accesses are made by scheduled calls. -/
theorem schedule_tasks {st0 st : PState σ α} {l : List (List Int)} (h : st0.schedule l = .ok st) :
    ∀ x ∈ st.trace, x ∈ st0.trace ∨ x.task ∈ l := by
  induction l generalizing st0 with
  | nil => cases h; exact fun x hx => .inl hx
  | cons q l ih =>
    unfold PState.schedule at h
    rw [List.foldlM_cons] at h
    cases hq : st0.step q with
    | error e => rw [hq] at h; cases h
    | ok st1 =>
      rw [hq] at h
      intro x hx
      rcases ih h x hx with h1 | h1
      · have key : ∀ k var mem y, st1 = st0.set q k var mem y → y.task = q → x ∈ st0.trace ∨ x.task ∈ q :: l := by
          rintro k var mem y rfl hy
          rcases List.mem_cons.1 h1 with rfl | h1
          · exact .inr (by simp [hy])
          · exact .inl h1
        unfold PState.step at hq
        cases ht : st0.todo q with
        | done => rw [ht] at hq; cases hq; exact .inl h1
        | load a k =>
          rw [ht] at hq
          simp only [bind, Except.bind] at hq
          cases hl : Kwk.load st0.mem a with
          | error e => rw [hl] at hq; cases hq
          | ok w => rw [hl] at hq; cases hq; exact key _ _ _ _ rfl rfl
        | store a w k =>
          rw [ht] at hq
          simp only [bind, Except.bind] at hq
          cases hl : Kwk.store st0.mem a w with
          | error e => rw [hl] at hq; cases hq
          | ok w => rw [hl] at hq; cases hq; exact key _ _ _ _ rfl rfl
        | getVar k => rw [ht] at hq; cases hq; exact key _ _ _ _ rfl rfl
        | setVar w k => rw [ht] at hq; cases hq; exact key _ _ _ _ rfl rfl
      · exact .inr (by simp [h1])

theorem within_loadAll {R W : Ptr → Prop} {as : List Ptr} {k : List α → CallStep σ α} (ha : ∀ a ∈ as, R a ∨ W a)
    (hk : ∀ vs, (k vs).Within R W) : (CallStep.loadAll as k).Within R W := by
  induction as generalizing k with
  | nil => exact hk []
  | cons a as ih => exact ⟨ha a (by simp), fun v => ih (fun b hb => ha b (by simp [hb])) fun vs => hk (v :: vs)⟩

theorem run_loadAll {s : σ} {as : List Ptr} {k : List α → CallStep σ α} {m : Mem α} {vs : List α}
    (h : as.mapM (fun i => Kwk.load m i) = .ok vs) : (CallStep.loadAll as k).run s m = (k vs).run s m := by
  induction as generalizing k vs with
  | nil => cases h; rfl
  | cons a as ih =>
    rw [List.mapM_cons] at h
    cases hl : Kwk.load m a with
    | error e => rw [hl] at h; cases h
    | ok v =>
      rw [hl] at h
      simp only [bind, Except.bind] at h
      cases hr : List.mapM (fun i => Kwk.load m i) as with
      | error e => rw [hr] at h; cases h
      | ok ws =>
        rw [hr] at h; cases h
        simp only [CallStep.loadAll, CallStep.run, hl, bind, Except.bind]
        exact ih hr

/-- When every call writes the captured variable, ended calls have raced exactly if there were two of them. -/
theorem race_iff {s : Shape} {task : List Int → CallStep σ α} {v : σ} {m0 : Mem α} (hs : ∀ p, InBox s p → (task p).Sets)
    {l : List (List Int)} (hl : Schedules s l) {st : PState σ α} (h : (PState.start task v m0).schedule l = .ok st)
    (hf : Finished s st) : Race st ↔ ∃ p q, InBox s p ∧ InBox s q ∧ p ≠ q := by
  constructor
  · rintro ⟨x, hx, y, hy, hne, -⟩
    have hb : ∀ x ∈ st.trace, InBox s x.task := by
      intro x hx
      rcases schedule_tasks h x hx with h1 | h1
      · cases h1
      · exact hl _ h1
    exact ⟨x.task, y.task, hb x hx, hb y hy, hne⟩
  · rintro ⟨p, q, hp, hq, hne⟩
    exact ⟨_, schedule_sets hs h hf p hp, _, schedule_sets hs h hf q hq, hne, rfl, .inl rfl⟩

theorem bind_ok {ε τ : Type} {x : Except Fault ε} {k : ε → Except Fault τ} {r : τ} (h : (x >>= k) = .ok r) :
    ∃ y, x = .ok y ∧ k y = .ok r := by
  cases x with
  | error e => cases h
  | ok y => exact ⟨y, rfl, h⟩

/-- A call from its start to its end. -/
def CallStep.exec : CallStep σ α → σ × Mem α → Res (σ × Mem α)
  | .done, sm => .ok sm
  | .load a k, sm => do
    let v ← Kwk.load sm.2 a
    (k v).exec sm
  | .store a v k, sm => do
    let m ← Kwk.store sm.2 a v
    k.exec (sm.1, m)
  | .getVar k, sm => (k sm.1).exec sm
  | .setVar s k, sm => k.exec (s, sm.2)

theorem exec_loadAll {as : List Ptr} {k : List α → CallStep σ α} {s : σ} {m : Mem α} :
    (CallStep.loadAll as k).exec (s, m) = (do let vs ← as.mapM (fun i => Kwk.load m i); (k vs).exec (s, m)) := by
  induction as generalizing k with
  | nil => rfl
  | cons a as ih =>
    rw [List.mapM_cons]
    simp only [CallStep.loadAll, CallStep.exec, ih]
    cases Kwk.load m a with
    | error e => rfl
    | ok v =>
      simp only [bind, Except.bind]
      cases List.mapM (fun i => Kwk.load m i) as <;> rfl

theorem schedule_append {st st1 : PState σ α} {l1 l2 : List (List Int)} (h : st.schedule l1 = .ok st1) :
    st.schedule (l1 ++ l2) = st1.schedule l2 := by
  unfold PState.schedule at h ⊢
  rw [List.foldlM_append, h]; rfl

theorem exec_schedule {act : CallStep σ α} {st : PState σ α} {p : List Int} (ht : st.todo p = act) {sm : σ × Mem α}
    (h : act.exec (st.var, st.mem) = .ok sm) :
    ∃ l st', (∀ q ∈ l, q = p) ∧ st.schedule l = .ok st' ∧ st'.todo p = .done ∧ (∀ q, q ≠ p → st'.todo q = st.todo q) ∧
      st'.var = sm.1 ∧ st'.mem = sm.2 := by
  induction act generalizing st with
  | done => cases h; exact ⟨[], st, by simp, rfl, ht, fun _ _ => rfl, rfl, rfl⟩
  | load a k ih =>
    simp only [CallStep.exec, bind, Except.bind] at h
    cases hl : Kwk.load st.mem a with
    | error e => rw [hl] at h; cases h
    | ok v =>
      rw [hl] at h
      obtain ⟨l, st', h1, h2, h3, h4, h5⟩ := ih v (st := st.set p (k v) st.var st.mem ⟨p, some a, false⟩) (by simp [PState.set]) h
      refine ⟨p :: l, st', by simpa using h1, ?_, h3, fun q hq => by rw [h4 q hq]; simp [PState.set, hq], h5⟩
      unfold PState.schedule
      rw [List.foldlM_cons, PState.step, ht]; simp only [hl]; exact h2
  | store a v k ih =>
    simp only [CallStep.exec, bind, Except.bind] at h
    cases hl : Kwk.store st.mem a v with
    | error e => rw [hl] at h; cases h
    | ok m =>
      rw [hl] at h
      obtain ⟨l, st', h1, h2, h3, h4, h5⟩ := ih (st := st.set p k st.var m ⟨p, some a, true⟩) (by simp [PState.set]) h
      refine ⟨p :: l, st', by simpa using h1, ?_, h3, fun q hq => by rw [h4 q hq]; simp [PState.set, hq], h5⟩
      unfold PState.schedule
      rw [List.foldlM_cons, PState.step, ht]; simp only [hl]; exact h2
  | getVar k ih =>
    obtain ⟨l, st', h1, h2, h3, h4, h5⟩ := ih st.var (st := st.set p (k st.var) st.var st.mem ⟨p, none, false⟩)
      (by simp [PState.set]) h
    refine ⟨p :: l, st', by simpa using h1, ?_, h3, fun q hq => by rw [h4 q hq]; simp [PState.set, hq], h5⟩
    unfold PState.schedule
    rw [List.foldlM_cons, PState.step, ht]; exact h2
  | setVar s k ih =>
    obtain ⟨l, st', h1, h2, h3, h4, h5⟩ := ih (st := st.set p k s st.mem ⟨p, none, true⟩) (by simp [PState.set]) h
    refine ⟨p :: l, st', by simpa using h1, ?_, h3, fun q hq => by rw [h4 q hq]; simp [PState.set, hq], h5⟩
    unfold PState.schedule
    rw [List.foldlM_cons, PState.step, ht]; exact h2

/-- Ending each call before the next is one of the schedules. -/
theorem schedule_sequential {s : Shape} {L : List (List Int)} (hn : L.Nodup) (hL : ∀ p, p ∈ L ↔ InBox s p)
    {task : List Int → CallStep σ α} {v : σ} {m0 : Mem α} (step : σ × Mem α → List Int → Res (σ × Mem α))
    (hstep : ∀ sm p, step sm p = (task p).exec sm) {sm : σ × Mem α} (h : L.foldlM step (v, m0) = .ok sm) :
    ∃ l st, Schedules s l ∧ (PState.start task v m0).schedule l = .ok st ∧ Finished s st ∧ st.var = sm.1 ∧ st.mem = sm.2 := by
  suffices H : ∀ (L : List (List Int)) (st0 : PState σ α), L.Nodup → (∀ p ∈ L, st0.todo p = task p) →
      L.foldlM step (st0.var, st0.mem) = .ok sm →
      ∃ l st, (∀ q ∈ l, q ∈ L) ∧ st0.schedule l = .ok st ∧ (∀ p ∈ L, st.todo p = .done) ∧
        (∀ p, p ∉ L → st.todo p = st0.todo p) ∧ st.var = sm.1 ∧ st.mem = sm.2 by
    obtain ⟨l, st, h1, h2, h3, _, h5⟩ := H L (PState.start task v m0) hn (fun _ _ => rfl) h
    exact ⟨l, st, fun p hp => (hL p).1 (h1 p hp), h2, fun p hp => h3 p ((hL p).2 hp), h5⟩
  intro L
  induction L with
  | nil => intro st0 _ _ h; cases h; exact ⟨[], st0, by simp, rfl, by simp, fun _ _ => rfl, rfl, rfl⟩
  | cons p L ih =>
    intro st0 hn ht h
    rw [List.nodup_cons] at hn
    rw [List.foldlM_cons] at h
    cases hs : step (st0.var, st0.mem) p with
    | error e => rw [hs] at h; cases h
    | ok sm1 =>
      rw [hs] at h
      rw [hstep] at hs
      obtain ⟨l1, st1, a1, a2, a3, a4, a5, a6⟩ := exec_schedule (ht p (by simp)) hs
      obtain ⟨l2, st2, b1, b2, b3, b4, b5⟩ := ih st1 hn.2
        (fun q hq => by
          rw [a4 q (by rintro rfl; exact hn.1 hq)]
          exact ht q (by simp [hq]))
        (by rw [a5, a6]; exact h)
      refine ⟨l1 ++ l2, st2, ?_, by rw [schedule_append a2]; exact b2, ?_, ?_, b5⟩
      · intro q hq
        rcases List.mem_append.1 hq with hq | hq
        · simp [a1 q hq]
        · simp [b1 q hq]
      · intro q hq
        rcases List.mem_cons.1 hq with rfl | hq
        · rw [b4 q hn.1, a3]
        · exact b3 q hq
      · intro q hq
        rw [List.mem_cons, not_or] at hq
        rw [b4 q hq.2, a4 q hq.1]

end Kwk
