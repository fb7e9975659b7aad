import Mathlib.Tactic.NormNum
import Verif.Lemmas.Interp

/-!
# Properties C58, C68: interpolation

Exact arithmetic on rational numbers.
-/

namespace Kwk
open Spec

namespace Spec

/-- A point of the grid of shape `s`, borders included. -/
def InGrid (s : Shape) (ps : List ℚ) : Prop := List.Forall₂ (fun (d : Int) (v : ℚ) => 0 ≤ v ∧ v ≤ (d : ℚ) - 1) s ps

/-- A point of the grid that is not on the upper border of any axis. -/
def InsideGrid (s : Shape) (ps : List ℚ) : Prop := List.Forall₂ (fun (d : Int) (v : ℚ) => 0 ≤ v ∧ v < (d : ℚ) - 1) s ps

/-- Row-major number of the far corner of the cell that surrounds a point, each coordinate rounded down plus one. -/
def farCorner : Shape → List ℚ → Int
  | _ :: s, v :: ps => (⌊v⌋ + 1) * s.prod + farCorner s ps
  | _, _ => 0

/-- Multilinear interpolation, one axis after the other: between the values at the two neighbouring integers of the first
coordinate, in proportion to the fractional part. -/
def multilinear (val : List Int → ℚ) : List ℚ → ℚ
  | [] => val []
  | v :: ps => (1 - Int.fract v) * multilinear (fun q => val (⌊v⌋ :: q)) ps +
      Int.fract v * multilinear (fun q => val ((⌊v⌋ + 1) :: q)) ps

/-- A function of `n` coordinates that is affine in each of them. -/
def MultiAffine (n : Nat) (f : List ℚ → ℚ) : Prop :=
  ∀ (l r : List ℚ) (x y k : ℚ), l.length + 1 + r.length = n →
    f (l ++ ((1 - k) * x + k * y) :: r) = (1 - k) * f (l ++ x :: r) + k * f (l ++ y :: r)

end Spec

/-- Full statement of **C58** on memory safety: at any point of the grid, borders included, linear
interpolation reads only elements of the container. -/
def C58_statement : Prop :=
  ∀ (c : Container) (m : Mem ℚ) (val : List Int → ℚ) (ps : List ℚ), c.WF → Elems c m val →
    InGrid c.shape ps → ∃ r, interpLinear (c.get m) ps = .ok r

/-- **C58** There are `2^N` coordinates and weights; the weights are non-negative and sum to 1. -/
theorem C58_weights (ps : List ℚ) (hp : ∀ v ∈ ps, 0 ≤ v) :
    (interpSetup ps).1.length = 2 ^ ps.length ∧ (interpSetup ps).2.length = 2 ^ ps.length ∧
    (∀ e ∈ (interpSetup ps).2, 0 ≤ e) ∧ (interpSetup ps).2.sum = 1 := by
  have h1 : (interpSetup ps).1.length = 2 ^ ps.length := by
    unfold interpSetup; rw [interp_count]; simp
  refine ⟨h1, by rw [← interpSetup_length, h1], ?_, ?_⟩
  · exact weights_nonneg ps hp _ (by simp)
  · unfold interpSetup; rw [weights_sum]; simp

example := C58_weights [1 / 2, 5 / 4] (by decide +kernel)

/-- **C58** The coordinates are exactly the corners of the surrounding cell. -/
theorem C58_surrounding (ps : List ℚ) (hp : ∀ v ∈ ps, 0 ≤ v) (c : List Int) :
    c ∈ (interpSetup ps).1 ↔ List.Forall₂ (fun v i => i = ⌊v⌋ ∨ i = ⌊v⌋ + 1) ps c := by
  rw [mem_interpSetup]
  constructor
  · intro h
    induction h with
    | nil => exact .nil
    | cons h _ ih =>
      rw [truncQ_nonneg (hp _ (by simp))] at h
      exact .cons h (ih fun v hv => hp v (by simp [hv]))
  · intro h
    induction h with
    | nil => exact .nil
    | cons h _ ih =>
      rw [← truncQ_nonneg (hp _ (by simp))] at h
      exact .cons h (ih fun v hv => hp v (by simp [hv]))

example := C58_surrounding [1 / 2, 5 / 4] (by decide +kernel) [1, 1]

private theorem multilinear_linear (f g : List Int → ℚ) (k l : ℚ) (ps : List ℚ) :
    multilinear (fun q => f q * k + g q * l) ps = multilinear f ps * k + multilinear g ps * l := by
  induction ps generalizing f g with
  | nil => rfl
  | cons v ps ih =>
    simp only [multilinear]
    rw [ih (fun q => f (⌊v⌋ :: q)) (fun q => g (⌊v⌋ :: q)), ih (fun q => f ((⌊v⌋ + 1) :: q)) (fun q => g ((⌊v⌋ + 1) :: q))]
    ring

private theorem wsum_multilinear (val : List Int → ℚ) (ps : List ℚ) (hp : ∀ v ∈ ps, 0 ≤ v) (a : List (List Int) × List ℚ)
    (h : a.1.length = a.2.length) :
    wsum val (ps.foldl interpStep a) = wsum (fun q => multilinear (fun r => val (q ++ r)) ps) a := by
  induction ps generalizing a with
  | nil => simp [multilinear]
  | cons v ps ih =>
    rw [List.foldl_cons, ih (fun u hu => hp u (by simp [hu])) _ (interpStep_length h v), wsum_step _ h]
    refine wsum_congr fun q _ => ?_
    rw [truncQ_nonneg (hp v (by simp))]
    simp only [multilinear, List.append_assoc, List.singleton_append, Int.fract]
    ring

theorem wsum_interpSetup (val : List Int → ℚ) (ps : List ℚ) (hp : ∀ v ∈ ps, 0 ≤ v) :
    wsum val (interpSetup ps) = multilinear val ps := by
  unfold interpSetup
  rw [wsum_multilinear val ps hp _ rfl]
  simp [wsum]

theorem inGrid_nonneg {s : Shape} {ps : List ℚ} (hg : InGrid s ps) : ∀ v ∈ ps, 0 ≤ v := by
  unfold InGrid at hg
  induction hg with
  | nil => simp
  | cons h _ ih =>
    intro v hv
    rcases List.mem_cons.1 hv with rfl | hv
    · exact h.1
    · exact ih v hv

theorem insideGrid_inGrid {s : Shape} {ps : List ℚ} (hg : InsideGrid s ps) : InGrid s ps :=
  List.Forall₂.imp (fun _ _ h => ⟨h.1, h.2.le⟩) hg

theorem corners_inBox {s : Shape} {ps : List ℚ} (h : InsideGrid s ps) {c : List Int}
    (hc : c ∈ (interpSetup ps).1) : InBox s c := by
  rw [mem_interpSetup] at hc
  unfold InsideGrid at h
  induction h generalizing c with
  | nil => cases hc; exact .nil
  | cons h _ ih =>
    rename_i d v s ps _
    cases hc with
    | cons hi hc =>
      rename_i i c
      rw [truncQ_nonneg h.1] at hi
      have h1 : 0 ≤ ⌊v⌋ := Int.floor_nonneg.2 h.1
      have h2 : ⌊v⌋ < d - 1 := by
        rw [Int.floor_lt]; push_cast; exact h.2
      exact .cons (by omega) (ih hc)

/-- **C58**, partial: at points that are not on the upper border the result is the multilinear
interpolation of the surrounding elements, all of them elements of the container.  Missing: the upper border, where a
position past the end is read (`C58_border_false`). -/
theorem C58_linear_partial (c : Container) (m : Mem ℚ) (val : List Int → ℚ) (ps : List ℚ)
    (he : Elems c m val) (hg : InsideGrid c.shape ps) :
    (∀ q ∈ (interpSetup ps).1, InBox c.shape q) ∧
    interpLinear (c.get m) ps = .ok (multilinear val ps) :=
  ⟨fun _ hq => corners_inBox hg hq, by
    rw [interpLinear_eq _ ps val fun q hq => he q (corners_inBox hg hq),
      wsum_interpSetup val ps (inGrid_nonneg (insideGrid_inGrid hg))]⟩

example := C58_linear_partial (.ofShape ⟨0, 0⟩ [2, 2]) (oneBlock 0 [1, 2, 3, 4]) (fun p => 2 * p.headD 0 + p.tail.headD 0 + 1) [1 / 2, 1 / 4]
  (fun p hp => (by decide +kernel : ∀ p ∈ positions [2, 2], (Container.ofShape ⟨0, 0⟩ [2, 2]).get (oneBlock 0 [1, 2, 3, 4]) p =
    .ok ((2 * p.headD 0 + p.tail.headD 0 + 1 : Int) : ℚ)) p (mem_positions.2 hp) |>.trans (by push_cast; rfl))
  (.cons (by norm_num) (.cons (by norm_num) .nil))

/-- **C58**, partial: the result lies between the bounds of the elements. -/
theorem C58_bounds_partial (c : Container) (m : Mem ℚ) (val : List Int → ℚ) (ps : List ℚ) (lo hi : ℚ)
    (he : Elems c m val) (hg : InsideGrid c.shape ps)
    (hb : ∀ p, InBox c.shape p → lo ≤ val p ∧ val p ≤ hi) :
    ∃ r, interpLinear (c.get m) ps = .ok r ∧ lo ≤ r ∧ r ≤ hi := by
  have h1 : ∀ q ∈ (interpSetup ps).1, InBox c.shape q := fun _ hq => corners_inBox hg hq
  refine ⟨_, interpLinear_eq _ ps val fun q hq => he q (h1 q hq), ?_⟩
  have hp : ∀ v ∈ ps, 0 ≤ v := by
    clear * - hg
    unfold InsideGrid at hg
    generalize c.shape = s at hg
    induction hg with
    | nil => simp
    | cons h _ ih =>
      intro v hv
      rcases List.mem_cons.1 hv with rfl | hv
      · exact h.1
      · exact ih v hv
  obtain ⟨-, -, hw, hs⟩ := C58_weights ps hp
  have hl := interpSetup_length ps
  have key : ∀ (cs : List (List Int)) (es : List ℚ), cs.length = es.length →
      (∀ q ∈ cs, lo ≤ val q ∧ val q ≤ hi) → (∀ e ∈ es, 0 ≤ e) →
      lo * es.sum ≤ (List.zipWith (fun q e => val q * e) cs es).sum ∧
      (List.zipWith (fun q e => val q * e) cs es).sum ≤ hi * es.sum := by
    intro cs
    induction cs with
    | nil => intro es he _ _; cases es <;> simp_all
    | cons q cs ih =>
      intro es he hq hE
      match es, he with
      | e :: es, he =>
        obtain ⟨i1, i2⟩ := ih es (by simpa using he) (fun q hq' => hq q (by simp [hq']))
          (fun e he' => hE e (by simp [he']))
        have q1 := hq q (by simp)
        have e0 := hE e (by simp)
        simp only [List.zipWith_cons_cons, List.sum_cons]
        constructor
        · have := mul_le_mul_of_nonneg_right q1.1 e0; linarith
        · have := mul_le_mul_of_nonneg_right q1.2 e0; linarith
  have := key _ _ hl (fun q hq => hb q (h1 q hq)) hw
  rw [hs, mul_one, mul_one] at this
  exact this

example := C58_bounds_partial (.ofShape ⟨0, 0⟩ [2]) (fun _ => some 5) (fun _ => 5) [1 / 2] 5 5 (fun _ _ => rfl)
  (.cons (by norm_num) .nil) fun _ _ => ⟨le_refl _, le_refl _⟩

/-- **C58** Linear interpolation reproduces every multi-affine function. -/
theorem C58_multi_affine (data : List Int → Res ℚ) (f : List ℚ → ℚ) (ps : List ℚ)
    (hf : MultiAffine ps.length f)
    (hd : ∀ q ∈ (interpSetup ps).1, data q = .ok (f (q.map fun (i : Int) => (i : ℚ)))) :
    interpLinear data ps = .ok (f ps) := by
  rw [interpLinear_eq data ps (fun (q : List Int) => f (q.map fun (i : Int) => (i : ℚ))) hd]
  congr 1
  -- invariant of the fold: the coordinates still to come are exact
  have key : ∀ (rest : List ℚ) (done : List ℚ) (a : List (List Int) × List ℚ),
      a.1.length = a.2.length → (∀ q ∈ a.1, q.length = done.length) →
      done.length + rest.length = ps.length →
      wsum (fun (q : List Int) => f (q.map (fun (i : Int) => (i : ℚ)) ++ rest)) a = f (done ++ rest) →
      wsum (fun (q : List Int) => f (q.map fun (i : Int) => (i : ℚ))) (rest.foldl interpStep a) = f (done ++ rest) := by
    intro rest
    induction rest with
    | nil => intro done a _ _ _ h; simpa using h
    | cons v rest ih =>
      intro done a hl hq hn h
      rw [List.foldl_cons]
      have hn' : (done ++ [v]).length + rest.length = ps.length := by
        simp only [List.length_append, List.length_cons, List.length_nil] at hn ⊢; omega
      have := ih (done ++ [v]) (interpStep a v) (interpStep_length hl v) (by
        intro q hq'
        simp only [interpStep, List.mem_append, List.mem_map] at hq'
        rcases hq' with ⟨q0, h0, rfl⟩ | ⟨q0, h0, rfl⟩ <;> simp [hq q0 h0]) hn' (by
        rw [wsum_step _ hl, List.append_assoc, List.singleton_append, ← h]
        refine wsum_congr fun q hq' => ?_
        have := hf (q.map fun (i : Int) => (i : ℚ)) rest (truncQ v) (truncQ v + 1) (v - truncQ v) (by
          rw [List.length_map, hq q hq']
          simp only [List.length_append, List.length_cons, List.length_nil] at hn'; omega)
        rw [show (1 - (v - (truncQ v : ℚ))) * truncQ v + (v - truncQ v) * (truncQ v + 1) = v by ring]
          at this
        rw [this]
        simp only [List.map_append, List.map_cons, List.map_nil, List.append_assoc,
          List.singleton_append, Int.cast_add, Int.cast_one]
        ring)
      simpa using this
  exact key ps [] ([[]], [1]) rfl (by simp) (by simp) (by simp [wsum])

example : interpLinear (fun q => .ok (q.map fun (i : Int) => (i : ℚ)).sum) [1 / 2, 5 / 4] = .ok [1 / 2, 5 / 4].sum :=
  C58_multi_affine _ List.sum _ (fun l r x y k _ => by simp only [List.sum_append, List.sum_cons]; ring) fun _ _ => rfl

/-- **C58** At a grid point the element itself is returned (if the neighbours can be read at all). -/
theorem C58_grid_point (data : List Int → Res ℚ) (val : List Int → ℚ) (p : List Int)
    (hd : ∀ q ∈ (interpSetup (p.map fun (i : Int) => (i : ℚ))).1, data q = .ok (val q)) :
    interpLinear data (p.map fun (i : Int) => (i : ℚ)) = .ok (val p) := by
  rw [interpLinear_eq _ _ val hd]
  congr 1
  have key : ∀ (rest : List Int) (done : List Int) (a : List (List Int) × List ℚ),
      a.1.length = a.2.length → wsum (fun q => val (q ++ rest)) a = val (done ++ rest) →
      wsum val ((rest.map fun (i : Int) => (i : ℚ)).foldl interpStep a) = val (done ++ rest) := by
    intro rest
    induction rest with
    | nil => intro done a _ h; simpa using h
    | cons i rest ih =>
      intro done a hl h
      rw [List.map_cons, List.foldl_cons]
      have := ih (done ++ [i]) (interpStep a i) (interpStep_length hl _) (by
        rw [wsum_step _ hl, List.append_assoc, List.singleton_append, ← h]
        refine wsum_congr fun q _ => ?_
        simp [truncQ_int])
      simpa using this
  exact key p [] ([[]], [1]) rfl (by simp [wsum])

example : interpLinear (fun q => .ok (2 * q.headD 0 + 7)) [3] = .ok 13 :=
  (C58_grid_point (fun q => .ok (2 * q.headD 0 + 7)) (fun q => 2 * q.headD 0 + 7) [3] fun _ _ => rfl).trans (by norm_num)

private theorem weight_zero {s : Shape} {ps : List ℚ} (h : InGrid s ps) :
    ∀ (s0 : Shape) (a : List (List Int) × List ℚ), (∀ x ∈ a.1.zip a.2, x.2 = 0 ∨ InBox s0 x.1) → a.1.length = a.2.length →
      ∀ x ∈ (ps.foldl interpStep a).1.zip (ps.foldl interpStep a).2, x.2 = 0 ∨ InBox (s0 ++ s) x.1 := by
  unfold InGrid at h
  induction h with
  | nil => intro s0 a ha _; simpa using ha
  | @cons d v s ps hv _ ih =>
    intro s0 a ha hl
    rw [List.foldl_cons]
    have := ih (s0 ++ [d]) (interpStep a v) (by
      intro x hx
      simp only [interpStep] at hx
      rw [List.zip_append (by simp [hl])] at hx
      have h0 : 0 ≤ ⌊v⌋ := Int.floor_nonneg.2 hv.1
      have h1 : ⌊v⌋ < d := by rw [Int.floor_lt]; linarith [hv.2]
      have snoc : ∀ {q : List Int} {i : Int}, InBox s0 q → 0 ≤ i ∧ i < d → InBox (s0 ++ [d]) (q ++ [i]) := by
        intro q i hq hi
        unfold InBox at hq ⊢
        exact List.rel_append hq (.cons hi .nil)
      rcases List.mem_append.1 hx with hx | hx
      · rw [List.zip_map, List.mem_map] at hx
        obtain ⟨y, hy, rfl⟩ := hx
        rcases ha y hy with e | hb
        · left; simp [e]
        · right; exact snoc hb (by rw [truncQ_nonneg hv.1]; exact ⟨h0, h1⟩)
      · rw [List.zip_map, List.mem_map] at hx
        obtain ⟨y, hy, rfl⟩ := hx
        rcases ha y hy with e | hb
        · left; simp [e]
        · by_cases hd : ⌊v⌋ + 1 < d
          · right; exact snoc hb (by rw [truncQ_nonneg hv.1]; omega)
          · left
            have hv' : v = ⌊v⌋ := by
              have h2 : (⌊v⌋ : ℚ) ≤ v := Int.floor_le v
              have h3 : (d : ℚ) - 1 ≤ (⌊v⌋ : ℚ) := by
                have : d - 1 ≤ ⌊v⌋ := by omega
                have := (Int.cast_le (R := ℚ)).2 this
                push_cast at this
                exact this
              linarith [hv.2]
            show y.2 * (v - (truncQ v : ℚ)) = 0
            rw [truncQ_nonneg hv.1, ← hv']
            simp) (interpStep_length hl v)
    simpa using this

private theorem sum_zip_congr {f g : List Int → ℚ} (cs : List (List Int)) (es : List ℚ)
    (h : ∀ x ∈ cs.zip es, x.2 = 0 ∨ f x.1 = g x.1) :
    (List.zipWith (fun c e => f c * e) cs es).sum = (List.zipWith (fun c e => g c * e) cs es).sum := by
  induction cs generalizing es with
  | nil => rfl
  | cons c cs ih =>
    cases es with
    | nil => rfl
    | cons e es =>
      simp only [List.zipWith_cons_cons, List.sum_cons]
      rw [ih es fun x hx => h x (by simp [hx])]
      rcases h (c, e) (by simp) with h0 | h0
      · simp only at h0; rw [h0]; ring
      · simp only at h0; rw [h0]

private theorem mapM_some {β γ : Type} (l : List β) (g : β → Res γ) {r : List γ} (h : l.mapM g = .ok r) :
    ∀ x ∈ l, ∃ y, g x = .ok y := by
  induction l generalizing r with
  | nil => simp
  | cons x l ih =>
    rw [List.mapM_cons] at h
    cases hx : g x with
    | error e => rw [hx] at h; cases h
    | ok y =>
      rw [hx] at h
      cases hl : l.mapM g with
      | error e => rw [hl] at h; cases h
      | ok ys =>
        intro z hz
        rcases List.mem_cons.1 hz with rfl | hz
        · exact ⟨y, hx⟩
        · exact ih hl z hz

private theorem corner_index {s : Shape} {ps : List ℚ} (h : InGrid s ps) {q : List Int}
    (hq : List.Forall₂ (fun v i => i = truncQ v ∨ i = truncQ v + 1) ps q) :
    0 ≤ linearize (sfx s) q ∧ linearize (sfx s) q ≤ farCorner s ps := by
  unfold InGrid at h
  induction h generalizing q with
  | nil => cases hq; simp [linearize, farCorner, sfx]
  | @cons d v s ps hv hs ih =>
    cases hq with
    | @cons _ i _ q hi hq =>
      obtain ⟨i1, i2⟩ := ih hq
      rw [truncQ_nonneg hv.1] at hi
      have h0 : 0 ≤ ⌊v⌋ := Int.floor_nonneg.2 hv.1
      have hp : 0 ≤ s.prod := by
        apply prod_nonneg'
        intro e he
        obtain ⟨k, hk, rfl⟩ := List.mem_iff_getElem.1 he
        have := (List.forall₂_iff_get.1 hs)
        have h2 := this.2 k hk (this.1 ▸ hk)
        have h3 : (0 : ℚ) ≤ (s[k] : ℚ) := by
          have := h2.1; have := h2.2
          simp only [List.get_eq_getElem] at *
          linarith
        exact_mod_cast h3
      rw [linearize_sfx_cons]
      show _ ∧ _ ≤ (⌊v⌋ + 1) * s.prod + farCorner s ps
      have hb : 0 ≤ i ∧ i ≤ ⌊v⌋ + 1 := by omega
      constructor
      · have := mul_nonneg hb.1 hp
        nlinarith
      · have := mul_le_mul_of_nonneg_right hb.2 hp
        nlinarith

private theorem far_index {s : Shape} {ps : List ℚ} (h : InGrid s ps) :
    ∃ q, List.Forall₂ (fun v i => i = truncQ v ∨ i = truncQ v + 1) ps q ∧ linearize (sfx s) q = farCorner s ps := by
  unfold InGrid at h
  induction h with
  | nil => exact ⟨[], .nil, by simp [linearize, farCorner]⟩
  | @cons d v s ps hv _ ih =>
    obtain ⟨q, h1, h2⟩ := ih
    refine ⟨(⌊v⌋ + 1) :: q, .cons (.inr (by rw [truncQ_nonneg hv.1])) h1, ?_⟩
    rw [linearize_sfx_cons, h2]
    show _ = (⌊v⌋ + 1) * s.prod + farCorner s ps
    ring

/-- **C58**, exact condition, borders included: for a container in row-major order that has its block for itself, linear
interpolation at a point of the grid reads elements of the block only exactly if the far corner of the surrounding cell is stored
in the block; and then the result is right, since positions that are not positions of the container have weight zero. -/
theorem C58_border_exact_partial (c : Container) (h : c.Default) (m : Mem ℚ) (val : List Int → ℚ) (he : Elems c m val)
    (hm : ∀ k : Int, (m (c.base.add k)).isSome ↔ 0 ≤ k ∧ k < c.shape.prod) (ps : List ℚ) (hg : InGrid c.shape ps) :
    ((∃ r, interpLinear (c.get m) ps = .ok r) ↔ farCorner c.shape ps < c.shape.prod) ∧
    ∀ r, interpLinear (c.get m) ps = .ok r →
      r = multilinear val ps := by
  have hlen : ∀ q ∈ (interpSetup ps).1, q.length = c.shape.length := by
    intro q hq
    rw [← ((mem_interpSetup ps q).1 hq).length_eq]
    exact (List.Forall₂.length_eq hg).symm
  have hadr : ∀ q ∈ (interpSetup ps).1, c.addr q = c.base.add (linearize (sfx c.shape) q) := by
    intro q hq
    rw [Container.addr, index_eq h.toWF (hlen q hq), h.dflt h.nospec, asStride_eq_sfx]
  have hread : (∃ r, interpLinear (c.get m) ps = .ok r) ↔ ∀ q ∈ (interpSetup ps).1, ∃ y, c.get m q = .ok y := by
    constructor
    · rintro ⟨r, hr⟩
      unfold interpLinear at hr
      simp only at hr
      cases hmap : (interpSetup ps).1.mapM (c.get m) with
      | error e => rw [hmap] at hr; cases hr
      | ok ys => exact mapM_some _ _ hmap
    · intro hall
      choose! f hf using hall
      exact ⟨_, interpLinear_eq _ ps f hf⟩
  refine ⟨?_, ?_⟩
  · rw [hread]
    constructor
    · intro hall
      obtain ⟨q, hq, e⟩ := far_index hg
      have hq' := (mem_interpSetup ps q).2 hq
      obtain ⟨y, hy⟩ := hall q hq'
      have : (m (c.addr q)).isSome := by rw [get_ok_iff.1 hy]; rfl
      rw [hadr q hq', hm, e] at this
      exact this.2
    · intro hlt q hq
      obtain ⟨b1, b2⟩ := corner_index hg ((mem_interpSetup ps q).1 hq)
      have : (m (c.addr q)).isSome := by rw [hadr q hq, hm]; omega
      obtain ⟨y, hy⟩ := Option.isSome_iff_exists.1 this
      exact ⟨y, get_ok_iff.2 hy⟩
  · intro r hr
    have hall := hread.1 ⟨r, hr⟩
    choose! f hf using hall
    rw [interpLinear_eq _ ps f hf] at hr
    cases hr
    rw [← wsum_interpSetup val ps (inGrid_nonneg hg)]
    refine sum_zip_congr _ _ fun x hx => ?_
    have hz := weight_zero hg [] ([[]], [1]) (by simp [InBox]) rfl x hx
    rcases hz with hz | hz
    · exact .inl hz
    · right
      have h1 := hf x.1 (List.of_mem_zip hx).1
      rw [he x.1 (by simpa using hz)] at h1
      injection h1 with h1
      exact h1.symm

/-- The 2x2 grid of the examples, with values 1 2 / 3 4. -/
def exGridQ : Mem ℚ := oneBlock 0 [1, 2, 3, 4]

example : interpLinear ((Container.ofShape ⟨0, 0⟩ [2, 2]).get exGridQ) [1 / 2, 1 / 4] = .ok (9 / 4) := by
  decide +kernel

/-- At the end of the first row the far corner is position (1, 2), number 4: past the end of two rows, but inside three. -/
example : interpLinear ((Container.ofShape ⟨0, 0⟩ [2, 2]).get exGridQ) [0, 1] = .error .outOfBounds ∧
    farCorner [2, 2] [0, 1] = 4 ∧ farCorner [3, 2] [0, 1] = 4 ∧
    interpLinear ((Container.ofShape ⟨0, 0⟩ [3, 2]).get (oneBlock 0 [1, 2, 3, 4, 5, 6])) [0, 1] = .ok 2 := by
  decide +kernel

example : InsideGrid [2, 2] [1 / 2, 1 / 4] := by
  refine .cons ?_ (.cons ?_ .nil) <;> norm_num

/-- **C58** is false on the upper border: at the last grid point of an axis the next position is
read, with weight zero. -/
theorem C58_border_false : ¬ C58_statement := by
  intro h
  obtain ⟨r, hr⟩ := h (Container.ofShape ⟨0, 0⟩ [2]) (oneBlock 0 [5, 6]) (fun p => p.headD 0 + 5) [1]
    (ofShape_default (by simp)).toWF (by
      intro p hp
      have : p ∈ positions [2] := mem_positions.2 hp
      have hall : ∀ p ∈ positions [2], (Container.ofShape ⟨0, 0⟩ [2]).get (oneBlock 0 [(5 : ℚ), 6]) p
        = .ok ((p.headD 0 : ℚ) + 5) := by decide +kernel
      exact hall p this) (.cons (by norm_num) .nil)
  have h2 : interpLinear ((Container.ofShape ⟨0, 0⟩ [2]).get (oneBlock 0 [(5 : ℚ), 6])) [1]
      = .error .outOfBounds := by decide +kernel
  rw [h2] at hr; cases hr

/-! ## C68: round to floor -/

/-- **C68** At every point of the grid, borders included, `kwk::floor` reads the element at the
rounded-down coordinates, which is an element of the container. -/
theorem C68_floor (c : Container) (m : Mem ℚ) (val : List Int → ℚ) (ps : List ℚ) (he : Elems c m val)
    (hg : InGrid c.shape ps) :
    InBox c.shape (ps.map Int.floor) ∧ interpFloor (c.get m) ps = .ok (val (ps.map Int.floor)) := by
  have h1 : InBox c.shape (ps.map Int.floor) := by
    clear he
    unfold InGrid at hg
    generalize c.shape = s at hg ⊢
    induction hg with
    | nil => exact .nil
    | cons h _ ih =>
      rename_i d v _ _ _
      refine .cons ⟨Int.floor_nonneg.2 h.1, ?_⟩ ih
      rw [Int.floor_lt]
      have := h.2
      linarith
  have h2 : ps.map truncQ = ps.map Int.floor := by
    unfold InGrid at hg
    clear h1 he
    generalize c.shape = s at hg
    induction hg with
    | nil => rfl
    | cons h _ ih => simp only [List.map_cons, ih, truncQ_nonneg h.1]
  refine ⟨h1, ?_⟩
  rw [interpFloor, h2]
  exact he _ h1

example := C68_floor (.ofShape ⟨0, 0⟩ [2]) (fun _ => some 5) (fun _ => 5) [1 / 2] (fun _ _ => rfl) (.cons (by norm_num) .nil)

/-- **C68** Below zero it rounds toward zero instead: the point -1/2 reads element 0. -/
theorem C68_negative (data : List Int → Res ℚ) : interpFloor data [-1 / 2] = data [0] := by
  have : truncQ (-1 / 2) = 0 := by decide +kernel
  simp [interpFloor, this]

example : interpFloor ((Container.ofShape ⟨0, 0⟩ [2, 2]).get exGridQ) [1, 3 / 4] = .ok 3 := by
  decide +kernel

end Kwk
