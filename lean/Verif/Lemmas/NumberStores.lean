import Verif.Lemmas.Numbers
import Verif.Lemmas.AuxWriting
import Verif.Lemmas.Interp
import Verif.Lemmas.FloatSums
import Mathlib.Logic.Function.Iterate

/-! # Helper lemmas about storing numbers -/

namespace Kwk
open Spec

theorem fits_congr {t : IntType} {a b : Int} (ha : t.Fits a) (hb' : t.Fits b) (h : a ≡ b [ZMOD 2 ^ t.bits]) : a = b := by
  rw [← IntType.wrap_fits ha, ← IntType.wrap_fits hb']
  exact IntType.wrap_congr h

theorem convertN_ok {p : ℕ} {t : NumType} (ht : IsType p t) {v w : Num} : convertN t v = .ok w ↔ Stored t v w := by
  cases t with
  | int t =>
    cases v with
    | int c =>
      constructor
      · intro h
        cases h
        exact ⟨_, rfl, t.wrap_mem ht _, IntType.wrap_mod _ _⟩
      · rintro ⟨n, rfl, h1, h2⟩
        have : t.wrap c.value = n := fits_congr (t.wrap_mem ht _) h1 ((IntType.wrap_mod t c.value).trans h2.symm)
        simp only [convertN, this]; rfl
    | flt r x =>
      cases x with
      | num q =>
        simp only [convertN, Stored]
        constructor
        · intro h
          split at h
          · rename_i hf
            cases h
            refine ⟨_, rfl, hf, fun h0 => ?_, fun h0 => ?_⟩
            · rw [truncQ, if_pos h0]; exact ⟨Int.floor_le q, Int.lt_floor_add_one q⟩
            · rw [truncQ, if_neg (not_le.2 h0)]
              refine ⟨?_, Int.le_ceil q⟩
              have := Int.ceil_lt_add_one q
              linarith
          · cases h
        · rintro ⟨n, rfl, h1, h2, h3⟩
          have : truncQ q = n := by
            by_cases h0 : 0 ≤ q
            · rw [truncQ, if_pos h0, Int.floor_eq_iff]; exact h2 h0
            · rw [truncQ, if_neg h0, Int.ceil_eq_iff]; exact h3 (not_le.1 h0)
          rw [this, if_pos h1]; rfl
      | _ => simp [convertN, Stored]
  | flt r =>
    cases v with
    | int c => simp [convertN, Stored, pure, Except.pure, eq_comm]
    | flt r' x => cases x <;> simp [convertN, Stored, pure, Except.pure, eq_comm]

theorem convertN_error (t : NumType) (v : Num) : (∃ w, convertN t v = .ok w) ∨ convertN t v = .error .overflow := by
  cases t with
  | int t =>
    cases v with
    | int c => exact .inl ⟨_, rfl⟩
    | flt r x =>
      cases x with
      | num q =>
        simp only [convertN]
        split
        · exact .inl ⟨_, rfl⟩
        · exact .inr rfl
      | _ => exact .inr rfl
  | flt r =>
    cases v with
    | int c => exact .inl ⟨_, rfl⟩
    | flt r' x => cases x <;> exact .inl ⟨_, rfl⟩

theorem convertN_undefined {p : ℕ} {t : NumType} (ht : IsType p t) {v : Num} (h : ∀ w, ¬ Stored t v w) :
    convertN t v = .error .overflow := by
  rcases convertN_error t v with ⟨w, hw⟩ | h'
  · exact absurd ((convertN_ok ht).1 hw) (h w)
  · exact h'

/-- A loop whose steps store a value, leave the element alone, or fail. -/
theorem run_fallible {α : Type} {c : Container} {m : Mem α} (hd : Distinct c) (hv : Valid c m)
    (step : List Int → Unit × Mem α → Res (Unit × Mem α)) (g : List Int → Res (Option α))
    (hstep : ∀ q, InBox c.shape q → ∀ m1,
      (∀ a, (∀ w, InBox c.shape w → w < q → c.addr w ≠ a) → m1 a = m a) →
      (∀ a, (m1 a).isSome = (m a).isSome) →
      step q ((), m1) = (g q).map fun w => ((), wr m1 (c.addr q) w)) :
    (∀ w : List Int → Option α, (∀ q, InBox c.shape q → g q = .ok (w q)) →
      ∃ m', loopState step c.shape ((), m) = .ok ((), m') ∧ SameOutside c m m' ∧
        ∀ q, InBox c.shape q → m' (c.addr q) = match w q with | some v => some v | none => m (c.addr q)) ∧
    (∀ e, (∃ q, InBox c.shape q ∧ g q = .error e) → (∀ q, InBox c.shape q → ∀ e', g q = .error e' → e' = e) →
      loopState step c.shape ((), m) = .error e) := by
  constructor
  · intro w hw
    obtain ⟨s', m', h1, h2, h3⟩ := run_write (s0 := ()) hd hv step (fun q _ => ((), w q)) (by
      intro q hq s m1 ha hs
      rw [hstep q hq m1 ha hs, hw q hq]; rfl)
    exact ⟨m', h1, h2, fun q hq => h3 _ q (getElem?_rank hq)⟩
  · rintro e ⟨q, hq, hqe⟩ hall
    rw [loopState_eq]
    suffices H : ∀ (l done : List (List Int)) (m1 : Mem α), positions c.shape = done ++ l →
        (∀ a, (∀ w ∈ done, c.addr w ≠ a) → m1 a = m a) → (∀ a, (m1 a).isSome = (m a).isSome) →
        (∃ q ∈ l, g q = .error e) → l.foldlM (fun sm q => step q sm) ((), m1) = .error e from
      H _ [] m rfl (fun _ _ => rfl) (fun _ => rfl) ⟨q, mem_positions.2 hq, hqe⟩
    intro l
    induction l with
    | nil => rintro done m1 - - - ⟨q, h, -⟩; cases h
    | cons q l ih =>
      rintro done m1 hL hm hs ⟨q', hq', he⟩
      have hqb : InBox c.shape q := mem_positions.1 (by rw [hL]; simp)
      have hsort := positions_sorted c.shape
      rw [hL, List.pairwise_append] at hsort
      have hst := hstep q hqb m1 (fun a ha => by
        refine hm a fun w hw => ha w (mem_positions.1 (by rw [hL]; simp [hw])) (hsort.2.2 w hw q (by simp))) hs
      rw [List.foldlM_cons, hst]
      cases hg : g q with
      | error e' => rw [hall q hqb e' hg]; rfl
      | ok w =>
        have hsome : (m1 (c.addr q)).isSome := by
          rw [hs]
          obtain ⟨x, hx⟩ := hv q hqb
          exact isSome_of_get hx
        refine ih (done ++ [q]) (wr m1 (c.addr q) w) (by rw [hL]; simp)
          (fun a ha => by rw [wr_other _ _ (ha q (by simp))]; exact hm a fun x hx => ha x (by simp [hx]))
          (fun a => by rw [wr_isSome _ _ hsome, hs]) ?_
        rcases List.mem_cons.1 hq' with rfl | hq'
        · rw [hg] at he; cases he
        · exact ⟨q', hq', he⟩

theorem assigns_loop {p : ℕ} {t : NumType} (ht : IsType p t) {c : Container} {m : Mem Num} (hd : Distinct c) (hv : Valid c m)
    (step : List Int → Unit × Mem Num → Res (Unit × Mem Num)) (sel : List Int → Bool) (v : List Int → Num)
    (hstep : ∀ q, InBox c.shape q → ∀ m1,
      (∀ a, (∀ w, InBox c.shape w → w < q → c.addr w ≠ a) → m1 a = m a) →
      (∀ a, (m1 a).isSome = (m a).isSome) →
      step q ((), m1) = if sel q then (do
        let w ← convertN t (v q)
        let m ← store m1 (c.addr q) w
        pure ((), m)) else pure ((), m1)) :
    Assigns t c m (do let r ← loopState step c.shape ((), m); pure r.2) (fun q => sel q = true) v := by
  obtain ⟨H1, H2⟩ := run_fallible hd hv step (fun q => if sel q then (convertN t (v q)).map some else .ok none) (by
    intro q hq m1 ha hs
    rw [hstep q hq m1 ha hs]
    cases sel q
    · rfl
    · simp only [if_true]
      cases convertN t (v q) with
      | error e => rfl
      | ok w =>
        show (store m1 (c.addr q) w >>= fun m => pure ((), m)) = _
        rw [store_ok (valid_isSome hv hq hs)]; rfl)
  constructor
  · intro w hw
    obtain ⟨m', h1, h2, h3⟩ := H1 (fun q => if sel q then some (w q) else none) (by
      intro q hq
      cases hs : sel q
      · rfl
      · simp only [if_true]
        rw [(convertN_ok ht).2 (hw q hq hs)]; rfl)
    refine ⟨m', by rw [h1]; rfl, h2, fun q hq => ⟨fun hs => ?_, fun hs => ?_⟩⟩
    · have hs : sel q = true := hs
      have := h3 q hq
      rw [hs] at this
      rw [get_ok_iff, this]; rfl
    · have hs : sel q = false := by simpa using hs
      have := h3 q hq
      rw [hs] at this
      obtain ⟨x, hx⟩ := hv q hq
      rw [hx, get_ok_iff, this]
      exact get_ok_iff.1 hx
  · rintro ⟨q, hq, hs, hu⟩
    have hs : sel q = true := hs
    rw [H2 .overflow ⟨q, hq, by simp only [hs, if_true]; rw [convertN_undefined ht hu]; rfl⟩ (by
      intro q' _ e' h
      cases hs' : sel q'
      · simp [hs'] at h
      · simp only [hs', if_true] at h
        rcases convertN_error t (v q') with ⟨w, hw⟩ | hw
        · rw [hw] at h; cases h
        · rw [hw] at h; cases h; rfl)]
    rfl

theorem assigns_congr {t : NumType} {c : Container} {m : Mem Num} {run : Res (Mem Num)} {sel sel' : List Int → Prop}
    {v v' : List Int → Num} (h : ∀ q, InBox c.shape q → (sel q ↔ sel' q)) (hv : ∀ q, InBox c.shape q → v q = v' q)
    (H : Assigns t c m run sel v) : Assigns t c m run sel' v' := by
  refine ⟨fun w hw => ?_, ?_⟩
  · obtain ⟨m', h1, h2, h3⟩ := H.1 w fun q hq hs => hv q hq ▸ hw q hq ((h q hq).1 hs)
    exact ⟨m', h1, h2, fun q hq => ⟨fun hs => (h3 q hq).1 ((h q hq).2 hs), fun hs => (h3 q hq).2 fun hs' => hs ((h q hq).1 hs')⟩⟩
  · rintro ⟨q, hq, hs, hu⟩
    exact H.2 ⟨q, hq, (h q hq).2 hs, (hv q hq).symm ▸ hu⟩

theorem stored_same {p : ℕ} {t : NumType} (ht : IsType p t) {v w : Num} (hw : OfType p t w) (h : SameNumber w v) : Stored t v w := by
  cases t with
  | int t =>
    cases w with
    | flt r x => cases hw
    | int d =>
      obtain ⟨dt, dv⟩ := d
      obtain ⟨rfl, hf⟩ := hw
      cases v with
      | int c => exact ⟨dv, rfl, hf, by rw [show dv = c.value from sameNumber_int.1 h]⟩
      | flt r x =>
        cases x with
        | num q =>
          have hq : (dv : ℚ) = q := sameNumber_int_num.1 h
          refine ⟨dv, rfl, hf, fun _ => ⟨hq.le, by rw [hq]; linarith⟩, fun _ => ⟨by rw [hq]; linarith, hq.ge⟩⟩
        | _ => obtain ⟨x, h1, h2⟩ := h; simp [number] at h1 h2 <;> (subst h1; cases h2)
  | flt r =>
    cases w with
    | int d => cases hw
    | flt r' x =>
      cases x with
      | num q =>
        obtain ⟨rfl, hr⟩ := hw
        cases v with
        | int c =>
          have : q = c.value := sameNumber_num_int.1 h
          show _ = _
          rw [← this, ht.fix q hr]
        | flt r2 y =>
          cases y with
          | num y =>
            have : q = y := sameNumber_num.1 h
            show _ = _
            rw [← this, ht.fix q hr]
          | _ => obtain ⟨x, h1, h2⟩ := h; simp [number] at h1 h2 <;> (subst h1; cases h2)
      | _ =>
        have hr : r' = r := hw
        subst hr
        cases v with
        | int c => obtain ⟨x, h1, h2⟩ := h; simp [number] at h1 h2 <;> (subst h1; cases h2)
        | flt r2 y =>
          cases y <;> first | rfl | (obtain ⟨x, h1, h2⟩ := h; simp [number] at h1 h2 <;> (subst h1; cases h2))

theorem stored_unique {p : ℕ} {t : NumType} (ht : IsType p t) {v w w' : Num} (h : Stored t v w) (h' : Stored t v w') : w = w' :=
  Except.ok.inj (((convertN_ok ht).2 h).symm.trans ((convertN_ok ht).2 h'))

/-- A loop which carries a state that does not depend on the memory: the state is known from the rank of the position. -/
theorem loop_counted {σ α : Type} (shp : Shape) (stepS : List Int → σ × Mem α → Res (σ × Mem α))
    (stepU : List Int → Unit × Mem α → Res (Unit × Mem α)) (nxt : σ → σ) (s0 : σ)
    (h : ∀ k q m, (positions shp)[k]? = some q →
      stepS q (nxt^[k] s0, m) = (stepU q ((), m)).map fun um => (nxt^[k + 1] s0, um.2)) (m : Mem α) :
    loopState stepS shp (s0, m) = (loopState stepU shp ((), m)).map fun um => (nxt^[(positions shp).length] s0, um.2) := by
  rw [loopState_eq, loopState_eq]
  suffices H : ∀ (l done : List (List Int)) (m : Mem α), positions shp = done ++ l →
      l.foldlM (fun s q => stepS q s) (nxt^[done.length] s0, m) =
        (l.foldlM (fun s q => stepU q s) ((), m)).map fun um => (nxt^[(positions shp).length] s0, um.2) from
    H _ [] m rfl
  intro l
  induction l with
  | nil => intro done m hL; rw [hL]; simp [pure, Except.pure, Except.map]
  | cons q l ih =>
    intro done m hL
    rw [List.foldlM_cons, List.foldlM_cons, h done.length q m (by rw [hL]; simp)]
    cases stepU q ((), m) with
    | error e => rfl
    | ok um =>
      have := ih (done ++ [q]) um.2 (by rw [hL]; simp)
      rw [List.length_append] at this
      exact this

theorem assigns_counted {p : ℕ} {t : NumType} (ht : IsType p t) {c : Container} {m : Mem Num} (hd : Distinct c) (hv : Valid c m)
    (md : Mode) (r nxt : ℚ → ℚ) (v : ℚ) (idx : List Int → ℕ) (hidx : ∀ q, InBox c.shape q → linearIndex md c.shape q = .ok (idx q)) :
    Assigns t c m (do
      let r ← mapCtx (fun o _ (value, m) => do
        let v ← convertN t (.flt r (.num value))
        let m ← store m o v
        pure (nxt value, m)) c [] v m
      pure r.2) (fun _ => True) (fun q => .flt r (.num (nxt^[idx q] v))) := by
  have hrank : ∀ k q, (positions c.shape)[k]? = some q → idx q = k := by
    intro k q hk
    have hq : InBox c.shape q := mem_positions.1 (List.mem_of_getElem? hk)
    have h1 := hidx q hq
    rw [linearIndex_ok md hq] at h1
    have h1 : linearize (sfx c.shape) q = idx q := Except.ok.inj h1
    have h2 := getElem?_rank hq
    rw [h1, Int.toNat_natCast] at h2
    obtain ⟨a1, a2⟩ := List.getElem?_eq_some_iff.1 hk
    obtain ⟨b1, b2⟩ := List.getElem?_eq_some_iff.1 h2
    exact ((positions_nodup c.shape).getElem_inj_iff (hi := b1) (hj := a1)).1 (b2.trans a2.symm)
  have H := assigns_congr (sel' := fun _ => True) (fun _ _ => by simp) (fun _ _ => rfl)
    (assigns_loop ht hd hv (fun q um => do
      let w ← convertN t (.flt r (.num (nxt^[idx q] v)))
      let m ← store um.2 (c.addr q) w
      pure ((), m)) (fun _ => true) (fun q => .flt r (.num (nxt^[idx q] v))) (fun _ _ _ _ _ => rfl))
  rw [mapCtx, loop_counted c.shape _ (fun q um => do
      let w ← convertN t (.flt r (.num (nxt^[idx q] v)))
      let m ← store um.2 (c.addr q) w
      pure ((), m)) nxt v (by
    intro k q m hk
    rw [hrank k q hk]
    simp only [bind, Except.bind]
    cases convertN t (.flt r (.num (nxt^[k] v))) with
    | error e => rfl
    | ok w =>
      simp only
      cases store m (c.addr q) w with
      | error e => rfl
      | ok m' => simp [pure, Except.pure, Except.map, Function.iterate_succ_apply'])]
  convert H using 1
  cases loopState _ c.shape ((), m) <;> rfl

theorem iterate_exact {r : ℚ → ℚ} {v s : ℚ} (f : ℚ → ℚ) (hf : f = fun x => r (x + s)) (n : ℕ)
    (h : ∀ k : ℕ, 0 < k → k ≤ n → r (v + k * s) = v + k * s) : ∀ k ≤ n, f^[k] v = v + k * s := by
  intro k
  induction k with
  | zero => intro _; simp
  | succ k ih =>
    intro hk
    rw [Function.iterate_succ_apply', ih (by omega), hf]
    have := h (k + 1) (by omega) hk
    push_cast at this ⊢
    rw [show v + k * s + s = v + (k + 1) * s by ring, this]

theorem idx_lt {md : Mode} {s q : List Int} (hq : InBox s q) {k : ℕ} (h : linearIndex md s q = .ok (k : Int)) :
    k < (positions s).length := by
  rw [linearIndex_ok md hq] at h
  have h1 : linearize (sfx s) q = k := Except.ok.inj h
  have h2 := getElem?_rank hq
  rw [h1, Int.toNat_natCast] at h2
  exact (List.getElem?_eq_some_iff.1 h2).1

end Kwk
