import Verif.Spec.Options
import Verif.Lemmas.AuxFixed
import Verif.Lemmas.AuxMemory
import Verif.Lemmas.Ownership

/-! # Lemmas: options -/

namespace Kwk
open Spec

variable {τ α : Type}

theorem sameSetting_iff (o o' : Opt τ) : sameSetting o o' = true ↔ o.key = o'.key := by
  cases o <;> cases o' <;> simp [sameSetting, Opt.key]

theorem noRepeat_iff (opts : List (Opt τ)) : NoRepeat opts ↔ (opts.map Opt.key).Nodup := by
  unfold NoRepeat List.Nodup
  rw [List.pairwise_map]
  have : ∀ o o' : Opt τ, sameSetting o o' = false ↔ o.key ≠ o'.key := fun o o' => by
    rw [← Bool.not_eq_true, sameSetting_iff]
  simp only [this]

theorem fetch_none {k : Key} {opts : List (Opt τ)} : fetch k opts = none ↔ ∀ o ∈ opts, o.key ≠ k := by
  simp [fetch]

theorem fetch_some {k : Key} {opts : List (Opt τ)} (hn : (opts.map Opt.key).Nodup) {o : Opt τ} :
    fetch k opts = some o ↔ o ∈ opts ∧ o.key = k := by
  constructor
  · intro h
    exact ⟨List.mem_of_find?_eq_some h, by simpa using List.find?_some h⟩
  · rintro ⟨hm, hk⟩
    cases h : fetch k opts with
    | none => exact absurd hk (fetch_none.1 h o hm)
    | some o' =>
      have hm' : o' ∈ opts := List.mem_of_find?_eq_some h
      have hk' : o'.key = k := by simpa using List.find?_some h
      rw [List.inj_on_of_nodup_map hn hm' hm (hk'.trans hk.symm)]

theorem fetch_perm {opts opts' : List (Opt τ)} (h : opts.Perm opts') (hn : (opts.map Opt.key).Nodup) (k : Key) :
    fetch k opts = fetch k opts' := by
  have hn' : (opts'.map Opt.key).Nodup := (h.map _).nodup_iff.1 hn
  apply Option.ext
  intro o
  rw [fetch_some hn, fetch_some hn', h.mem_iff]

theorem construct_perm {opts opts' : List (Opt τ)} (h : opts.Perm opts') : construct opts = construct opts' := by
  have hp := (h.map Opt.key).nodup_iff
  by_cases hn : (opts.map Opt.key).Nodup
  · have hf := fetch_perm h hn
    have hn' := hp.1 hn
    have e1 : optCategory opts = optCategory opts' := by unfold optCategory; rw [hf]
    have e2 : optSource opts = optSource opts' := by unfold optSource; rw [hf]
    have e3 : optType opts = optType opts' := by unfold optType; rw [hf]
    have e4 : pickSize opts = pickSize opts' := by unfold pickSize; rw [hf, e2]
    have e5 : pickStrides opts = pickStrides opts' := by unfold pickStrides; rw [hf, e4]
    have e6 : pickAllocator opts = pickAllocator opts' := by unfold pickAllocator; rw [hf]
    have e7 : pickLabel opts = pickLabel opts' := by unfold pickLabel; rw [hf]
    have e8 : pickReach opts = pickReach opts' := by unfold pickReach; rw [hf]
    have e9 : ∀ c, pickType c opts = pickType c opts' := by intro c; unfold pickType; rw [e2, e3]
    have e10 : ∀ c, pickBlock c opts = pickBlock c opts' := by intro c; unfold pickBlock; rw [e2, e4, e6]
    simp only [construct, if_pos hn, if_pos hn', e1, e2, e4, e5, e7, e8, e9, e10, hf]
  · have hn' : ¬ (opts'.map Opt.key).Nodup := fun e => hn (hp.2 e)
    simp only [construct, if_neg hn, if_neg hn']

section
variable {opts : List (Opt τ)}

theorem optCategory_some (hn : (opts.map Opt.key).Nodup) {c : Category} :
    optCategory opts = some c ↔ .category c ∈ opts := by
  unfold optCategory
  constructor
  · intro h
    split at h
    · next c' e => cases h; exact ((fetch_some hn).1 e).1
    · cases h
  · intro h
    rw [(fetch_some (k := .category) hn).2 ⟨h, rfl⟩]

theorem optSource_some (hn : (opts.map Opt.key).Nodup) {s : Source τ} :
    optSource opts = some s ↔ .source s ∈ opts := by
  unfold optSource
  constructor
  · intro h
    split at h
    · next c' e => cases h; exact ((fetch_some hn).1 e).1
    · cases h
  · intro h
    rw [(fetch_some (k := .source) hn).2 ⟨h, rfl⟩]

theorem optType_some (hn : (opts.map Opt.key).Nodup) {t : τ} : optType opts = some t ↔ .type t ∈ opts := by
  unfold optType
  constructor
  · intro h
    split at h
    · next c' e => cases h; exact ((fetch_some hn).1 e).1
    · cases h
  · intro h
    rw [(fetch_some (k := .type) hn).2 ⟨h, rfl⟩]

theorem pickLabel_some (hn : (opts.map Opt.key).Nodup) {l : String} :
    pickLabel opts = some l ↔ .label l ∈ opts := by
  unfold pickLabel
  constructor
  · intro h
    split at h
    · next c' e => cases h; exact ((fetch_some hn).1 e).1
    · cases h
  · intro h
    rw [(fetch_some (k := .label) hn).2 ⟨h, rfl⟩]

theorem optSource_none (hn : (opts.map Opt.key).Nodup) : optSource opts = none ↔ ¬ HasSource opts := by
  rw [Option.eq_none_iff_forall_ne_some]
  simp only [ne_eq, optSource_some hn, HasSource, not_exists]

theorem optType_none (hn : (opts.map Opt.key).Nodup) : optType opts = none ↔ ¬ HasType opts := by
  rw [Option.eq_none_iff_forall_ne_some]
  simp only [ne_eq, optType_some hn, HasType, not_exists]

theorem pickSize_given (hn : (opts.map Opt.key).Nodup) {s : Extents} (h : .size s ∈ opts) : pickSize opts = s := by
  unfold pickSize
  rw [(fetch_some (k := .size) hn).2 ⟨h, rfl⟩]

theorem pickSize_default (h : ∀ s, Opt.size s ∉ opts) : pickSize opts =
    match optSource opts with
    | some s => s.kind.defaultShape
    | none => SourceKind.ptr.defaultShape := by
  have : fetch .size opts = none := fetch_none.2 fun o ho hk => by
    cases o <;> simp [Opt.key] at hk
    exact h _ ho
  unfold pickSize
  generalize fetch .size opts = r at this
  subst this
  rfl

theorem pickStrides_given (hn : (opts.map Opt.key).Nodup) {s : Extents} (h : .strides s ∈ opts) :
    pickStrides opts = s := by
  unfold pickStrides
  rw [(fetch_some (k := .strides) hn).2 ⟨h, rfl⟩]

theorem fetch_strides_none (h : ∀ s, Opt.strides s ∉ opts) : fetch .strides opts = none :=
  fetch_none.2 fun o ho hk => by
    cases o <;> simp [Opt.key] at hk
    exact h _ ho

theorem sfx_getElem (s : List Int) (i : Nat) (h : i < s.length) : (sfx s)[i]? = some (s.drop (i + 1)).prod := by
  induction s generalizing i with
  | nil => simp at h
  | cons d s ih =>
    cases i with
    | zero => simp [sfx]
    | succ i => simpa [sfx] using ih i (by simpa using h)

/-- What `construct` returns. -/
theorem construct_some {b : Built τ} (h : construct opts = some b) :
    (opts.map Opt.key).Nodup ∧ ∃ c, optCategory opts = some c ∧ pickType c opts = some b.elem ∧
      b.shape = (pickSize opts).dims ∧ b.strides = (pickStrides opts).dims ∧
      b.specific = (fetch .strides opts).isSome ∧ b.block = pickBlock c opts ∧ b.label = pickLabel opts ∧
      b.reach = pickReach opts ∧
      b.copyFrom = (match c with | .view => none | .table => (optSource opts).map Source.data) := by
  unfold construct at h
  split at h
  · next hn =>
    split at h
    · cases h
    · next c hc =>
      split at h
      · cases h
      · next t ht =>
        cases h
        exact ⟨hn, c, hc, ht, rfl, rfl, rfl, rfl, rfl, rfl, rfl⟩
  · cases h

theorem follows_of_construct {b : Built τ} (h : construct opts = some b) : Follows opts b := by
  obtain ⟨hn, c, -, -, hsh, hst, hsp, -, hl, hr, -⟩ := construct_some h
  refine ⟨?_, ?_, ?_, ?_, ?_, ?_, ?_, ?_, ?_⟩
  · intro s hs; rw [hsh, pickSize_given hn hs]
  · intro h0 src n hs hk
    rw [hsh, pickSize_default h0, (optSource_some hn).2 hs]
    simp only [hk]; rfl
  · intro h0 src t hs hk hp
    rw [hsh, pickSize_default h0, (optSource_some hn).2 hs]
    simp only [hk]
    exact plain_sizes hp
  · intro h0 src hs hk
    rw [hsh, pickSize_default h0, (optSource_some hn).2 hs]
    simp only [hk]; rfl
  · intro h0 hs
    rw [hsh, pickSize_default h0, (optSource_none hn).2 hs]
    rfl
  · intro s hs
    rw [hst, pickStrides_given hn hs, hsp, (fetch_some (k := .strides) hn).2 ⟨hs, rfl⟩]
    exact ⟨rfl, rfl⟩
  · intro h0
    have e := fetch_strides_none h0
    have e2 : b.strides = sfx b.shape := by
      rw [hst, hsh, ← asStride_eq_sfx]
      unfold pickStrides
      rw [e]
    refine ⟨by rw [hsp, e]; rfl, by rw [e2, sfx_length], fun i hi => by rw [e2, sfx_getElem _ _ hi]⟩
  · intro l; rw [hl, pickLabel_some hn]
  · rw [hr, pickReach, Option.isNone_iff_eq_none, fetch_none]
    constructor
    · intro h hu; exact h _ hu rfl
    · intro h o ho hk
      cases o <;> simp [Opt.key] at hk
      exact h ho

theorem follows_cons {c : Category} {b : Built τ} (h : Follows (.category c :: opts) b) : Follows opts b := by
  obtain ⟨h1, h2, h3, h4, h5, h6, h7, h8, h9⟩ := h
  simp only [List.mem_cons, reduceCtorEq, false_or, HasSource] at *
  exact ⟨h1, h2, h3, h4, h5, h6, h7, h8, h9⟩

/-- Which category a list of options with a leading category has. -/
theorem construct_cons {c : Category} {b : Built τ} (h : construct (.category c :: opts) = some b) :
    ((Opt.category c :: opts).map Opt.key).Nodup ∧ NoRepeat opts ∧
      pickType c (.category c :: opts) = some b.elem ∧ b.block = pickBlock c (.category c :: opts) ∧
      b.copyFrom = (match c with
        | .view => none | .table => (optSource (.category c :: opts)).map Source.data) := by
  obtain ⟨hn, c', hc, ht, -, -, -, hb, -, -, hcp⟩ := construct_some h
  have : c' = c := by
    have := (optCategory_some hn).2 (List.mem_cons_self (a := Opt.category c) (l := opts))
    rw [hc] at this
    exact Option.some.inj this
  subst this
  refine ⟨hn, ?_, ht, hb, by rw [hcp]; cases c' <;> rfl⟩
  rw [noRepeat_iff]
  exact (List.nodup_cons.1 hn).2

theorem hasSource_cons {c : Category} : HasSource (.category c :: opts) ↔ HasSource opts := by simp [HasSource]

theorem hasType_cons {c : Category} : HasType (.category c :: opts) ↔ HasType opts := by simp [HasType]

theorem nodup_category (hn : NoRepeat opts) (hc : ∀ c, Opt.category c ∉ opts) (c : Category) :
    ((Opt.category c :: opts).map Opt.key).Nodup := by
  rw [List.map_cons, List.nodup_cons]
  refine ⟨fun hm => ?_, (noRepeat_iff opts).1 hn⟩
  obtain ⟨o, ho, hk⟩ := List.mem_map.1 hm
  cases o <;> simp [Opt.key] at hk
  exact hc _ ho

theorem construct_isSome (c : Category) : (construct (.category c :: opts)).isSome ↔
    NoRepeat opts ∧ (∀ c, Opt.category c ∉ opts) ∧ (pickType c (.category c :: opts)).isSome := by
  constructor
  · intro h
    obtain ⟨b, hb⟩ := Option.isSome_iff_exists.1 h
    obtain ⟨hn, hr, ht, -⟩ := construct_cons hb
    refine ⟨hr, fun c' hc' => ?_, by rw [ht]; rfl⟩
    rw [List.map_cons, List.nodup_cons] at hn
    exact hn.1 (List.mem_map.2 ⟨_, hc', rfl⟩)
  · rintro ⟨hn, hc, ht⟩
    have hk := nodup_category hn hc c
    obtain ⟨t, ht⟩ := Option.isSome_iff_exists.1 ht
    have hcat := (optCategory_some hk).2 (List.mem_cons_self (a := Opt.category c) (l := opts))
    simp only [construct, if_pos hk, hcat, ht, Option.isSome_some]

/-- When the shape is a compile-time one. -/
theorem pickSize_static {c : Category} (hn : ((Opt.category c :: opts).map Opt.key).Nodup) :
    (pickSize (.category c :: opts)).allStatic = true ↔
      (∃ s, Opt.size s ∈ opts ∧ s.allStatic = true) ∨
        ((∀ s, Opt.size s ∉ opts) ∧ ∃ s t, Opt.source s ∈ opts ∧ s.kind = .array t) := by
  by_cases h : ∃ s, Opt.size s ∈ opts
  · obtain ⟨s, hs⟩ := h
    rw [pickSize_given hn (List.mem_cons_of_mem _ hs)]
    constructor
    · intro e; exact .inl ⟨s, hs, e⟩
    · rintro (⟨s', hs', e⟩ | ⟨h0, -⟩)
      · rwa [← pickSize_given hn (List.mem_cons_of_mem _ hs'), pickSize_given hn (List.mem_cons_of_mem _ hs)] at e
      · exact absurd hs (h0 s)
  · have h0 : ∀ s, Opt.size s ∉ opts := fun s hs => h ⟨s, hs⟩
    rw [pickSize_default (by simpa using h0)]
    cases e : optSource (Opt.category c :: opts) with
    | none =>
      have := (optSource_none hn).1 e
      rw [hasSource_cons] at this
      simp only [SourceKind.defaultShape]
      constructor
      · intro h; cases h
      · rintro (⟨s, hs, -⟩ | ⟨-, s, t, hs, -⟩)
        · exact absurd hs (h0 s)
        · exact absurd ⟨s, hs⟩ this
    | some s =>
      have hs := (optSource_some hn).1 e
      have hs' : Opt.source s ∈ opts := by simpa using hs
      constructor
      · intro h
        refine .inr ⟨h0, s, ?_⟩
        cases hk : s.kind with
        | ptr => simp [hk, SourceKind.defaultShape] at h
        | array t => exact ⟨t, hs', rfl⟩
        | range n => simp [hk, SourceKind.defaultShape] at h
      · rintro (⟨s', hs1, -⟩ | ⟨-, s', t, hs1, hk⟩)
        · exact absurd hs1 (h0 s')
        · have := (optSource_some hn).2 (List.mem_cons_of_mem _ hs1)
          rw [e] at this
          cases this
          simp only [hk]; rfl

end

/-- The index of the position number `k`. -/
theorem positions_index {s : List Int} (hs : NonNeg s) {k : Nat} {q : List Int} (h : (positions s)[k]? = some q) :
    linearize (sfx s) q = k := by
  have h1 : ((positions s).map (linearize (sfx s)))[k]? = some (linearize (sfx s) q) := by simp [h]
  have hk : k < (positions s).length := by
    by_contra hlt
    rw [List.getElem?_eq_none (by omega)] at h
    cases h
  have hl := positions_length hs
  rw [positions_map_lin hs, upTo_getElem?, if_pos (by omega)] at h1
  exact (Option.some.inj h1).symm

/-- A copy that succeeds reads every cell of the source. -/
theorem copyCells_src {m m' : Mem α} {src dst : Ptr} {n : Nat} (h : copyCells m src dst n = .ok m') (k : Nat)
    (hk : k < n) : (m (src.add k)).isSome := by
  induction n generalizing m' with
  | zero => omega
  | succ n ih =>
    simp only [copyCells, bind, Except.bind] at h
    split at h
    · cases h
    · next m1 e1 =>
      by_cases e : k = n
      · subst e
        split at h
        · cases h
        · next v ev =>
          rw [← copyCells_isSome e1]
          unfold load at ev
          split at ev
          · next hv => rw [hv]; rfl
          · cases ev
      · exact ih e1 (by omega)

theorem copyIn_src {m : Mem α} {src : Ptr} {n : Nat} {l : List α} (h : copyIn m src n = .ok l) (k : Nat)
    (hk : k < n) : (m (src.add k)).isSome := by
  induction n generalizing l with
  | zero => omega
  | succ n ih =>
    simp only [copyIn, bind, Except.bind] at h
    split at h
    · cases h
    · next m1 e1 =>
      by_cases e : k = n
      · subst e
        split at h
        · cases h
        · next v ev =>
          unfold load at ev
          split at ev
          · next hv => rw [hv]; rfl
          · cases ev
      · exact ih e1 (by omega)

/-- Building a table from a source that succeeds reads every cell. -/
theorem build_src {w w1 : World α} {a : AllocId} {s : Shape} {p : Ptr} {t : Table} (hp : p.blk ≠ w.next)
    (h : w.build a s (some (some p)) = .ok (t, w1)) (k : Nat) (hk : (k : Int) < numel s) :
    (w.mem (p.add k)).isSome := by
  have hn : (numel s).toNat ≠ 0 := by omega
  unfold World.build World.allocate at h
  simp only [if_neg hn, bind, Except.bind] at h
  split at h
  · cases h
  · next m1 e1 =>
    have := copyCells_src e1 k (by omega)
    have hpb : (p.add k).blk ≠ w.next := hp
    simpa [hpb] using this

/-- Indices of positions with strides that are not negative. -/
theorem lin_le_last {s st p : List Int} (hl : st.length = s.length) (hst : ∀ g ∈ st, 0 ≤ g) (hp : InBox s p) :
    0 ≤ linearize st p ∧ linearize st p ≤ lastIndex s st := by
  induction hp generalizing st with
  | nil =>
    cases st with
    | nil => simp [linearize, lastIndex]
    | cons _ _ => simp at hl
  | @cons d i ds is hi ht ih =>
    cases st with
    | nil => simp at hl
    | cons g st =>
      obtain ⟨h1, h2⟩ := ih (by simpa using hl) fun x hx => hst x (by simp [hx])
      have hg := hst g (by simp)
      rw [linearize_cons, lastIndex]
      have a1 : 0 ≤ g * i := mul_nonneg hg hi.1
      have a2 : g * i ≤ (d - 1) * g := by
        rw [mul_comm]
        exact mul_le_mul_of_nonneg_right (by omega) hg
      omega

/-- The last position. -/
theorem last_inBox {s : List Int} (h : ∀ d ∈ s, 0 < d) : InBox s (s.map (· - 1)) := by
  induction s with
  | nil => exact .nil
  | cons d s ih =>
    have := h d (by simp)
    exact .cons ⟨by simp only; omega, by simp only; omega⟩ (ih fun x hx => h x (by simp [hx]))

theorem lin_last (s st : List Int) (hl : st.length = s.length) : linearize st (s.map (· - 1)) = lastIndex s st := by
  induction s generalizing st with
  | nil => cases st <;> simp [linearize, lastIndex]
  | cons d s ih =>
    cases st with
    | nil => simp at hl
    | cons g st =>
      rw [List.map_cons, linearize_cons, lastIndex, ih st (by simpa using hl)]
      rw [mul_comm]

theorem lastIndex_sfx (s : List Int) : lastIndex s (sfx s) = s.prod - 1 ∨ s = [] := by
  induction s with
  | nil => right; rfl
  | cons d s ih =>
    left
    rw [sfx, lastIndex, List.prod_cons]
    rcases ih with h | rfl
    · rw [h]; ring
    · simp [lastIndex]

end Kwk
