import Verif.Lemmas.Options
import Verif.Lemmas.AuxMemory
import Verif.Props.Ownership

/-!
# Properties C92-C94: options
-/

namespace Kwk
open Spec

variable {τ α : Type}

/-- A list of options used by the examples. -/
def exOpts : List (Opt Nat) :=
  [.source ⟨7, some ⟨0, 0⟩, .ptr⟩, .size ⟨[2, 3], false⟩, .label "m"]

/-! ## C92: order -/

/-- **C92** The order of the options does not matter: the same options give the same container, or are rejected
together. -/
theorem C92_any_order (opts opts' : List (Opt τ)) (h : opts.Perm opts') :
    makeView opts = makeView opts' ∧ makeTable opts = makeTable opts' ∧
      viewOfOpts opts = viewOfOpts opts' ∧ tableOfOpts opts = tableOfOpts opts' := by
  refine ⟨construct_perm (h.cons _), construct_perm (h.cons _), construct_perm ?_, construct_perm ?_⟩ <;>
    exact (h.filter _).append_left _

example : makeView exOpts = makeView exOpts.reverse := (C92_any_order _ _ (List.reverse_perm _).symm).1

/-- **C92** (settings) Options gathered in a `settings` give the same container as the options themselves; for a
written out type, a category
among them is overruled by that of the constructor. -/
theorem C92_settings (opts : List (Opt τ)) (hc : ∀ c, Opt.category c ∉ opts) (c : Category) :
    viewOfOpts opts = makeView opts ∧ tableOfOpts opts = makeTable opts ∧
      viewOfOpts (.category c :: opts) = makeView opts ∧ tableOfOpts (.category c :: opts) = makeTable opts := by
  have hf : ∀ c' : Category, (opts.filter fun o => o.key ∉ [Opt.category c'].map (Opt.key (τ := τ))) = opts := by
    intro c'
    rw [List.filter_eq_self]
    intro o ho
    cases o <;> simp [Opt.key]
    exact hc _ ho
  have hf' : ∀ c' : Category,
      (Opt.category c :: opts).filter (fun o => o.key ∉ [Opt.category c'].map (Opt.key (τ := τ))) = opts := by
    intro c'
    rw [List.filter_cons_of_neg (by simp [Opt.key]), hf c']
  refine ⟨?_, ?_, ?_, ?_⟩ <;>
    simp only [viewOfOpts, tableOfOpts, makeView, makeTable, mergeOpts, hf, hf', List.singleton_append]

example : makeView exOpts = makeView exOpts.reverse ∧ (makeView exOpts).isSome := by decide
example : viewOfOpts (.category .table :: exOpts) = makeView exOpts := by decide

/-! ## C93: meaning -/

/-- **C93** A view is accepted exactly if nothing is set twice, the category is not set, and there is either a source
or an element type, not both. -/
theorem C93_view_accepted (opts : List (Opt τ)) :
    (makeView opts).isSome ↔ NoRepeat opts ∧ (∀ c, Opt.category c ∉ opts) ∧ (HasSource opts ↔ ¬ HasType opts) := by
  rw [makeView, construct_isSome]
  refine and_congr_right fun hn => and_congr_right fun hc => ?_
  have hk := nodup_category hn hc .view
  have h1 := optSource_none hk
  have h2 := optType_none hk
  rw [hasSource_cons] at h1
  rw [hasType_cons] at h2
  simp only [pickType]
  cases e1 : optSource (Opt.category .view :: opts) <;> cases e2 : optType (Opt.category .view :: opts) <;>
    simp_all

/-- **C93** A table is accepted exactly if nothing is set twice, the category is not set, and there is a source or an
element type. -/
theorem C93_table_accepted (opts : List (Opt τ)) :
    (makeTable opts).isSome ↔ NoRepeat opts ∧ (∀ c, Opt.category c ∉ opts) ∧ (HasSource opts ∨ HasType opts) := by
  rw [makeTable, construct_isSome]
  refine and_congr_right fun hn => and_congr_right fun hc => ?_
  have hk := nodup_category hn hc .table
  have h1 := optSource_none hk
  have h2 := optType_none hk
  rw [hasSource_cons] at h1
  rw [hasType_cons] at h2
  simp only [pickType]
  cases e1 : optSource (Opt.category .table :: opts) <;> cases e2 : optType (Opt.category .table :: opts) <;>
    simp_all

/-- **C93** What a view is made of. -/
theorem C93_view (opts : List (Opt τ)) (b : Built τ) (h : makeView opts = some b) :
    Follows opts b ∧ b.copyFrom = none ∧
      (∀ s, Opt.source s ∈ opts → b.elem = s.elem ∧ b.block = .shallow s.data) ∧
      (∀ t, Opt.type t ∈ opts → b.elem = t ∧ b.block = .shallow none) := by
  obtain ⟨hn, -, ht, hb, hc⟩ := construct_cons h
  refine ⟨follows_cons (follows_of_construct h), hc, ?_, ?_⟩
  · intro s hs
    have e := (optSource_some hn).2 (List.mem_cons_of_mem _ hs)
    rw [hb]
    simp only [pickType, pickBlock, e] at ht ⊢
    refine ⟨?_, rfl⟩
    split at ht <;> simp_all
  · intro t ht'
    have e := (optType_some hn).2 (List.mem_cons_of_mem _ ht')
    rw [hb]
    simp only [pickType, pickBlock, e] at ht ⊢
    split at ht <;> simp_all

example := C93_view exOpts _ rfl

/-- **C93** (types) A container keeps its shape and its strides in its type exactly if the extents and the strides are all
compile-time ones: those of the given shape, or of the array that is its source, and the given strides, if any. -/
theorem C93_in_type (opts : List (Opt τ)) (b : Built τ) (h : makeView opts = some b ∨ makeTable opts = some b) :
    b.static = true ↔
      ((∃ s, Opt.size s ∈ opts ∧ s.allStatic = true) ∨
        ((∀ s, Opt.size s ∉ opts) ∧ ∃ s t, Opt.source s ∈ opts ∧ s.kind = .array t)) ∧
      ∀ s, Opt.strides s ∈ opts → s.allStatic = true := by
  have key : ∀ c, construct (.category c :: opts) = some b → (b.static = true ↔
      ((∃ s, Opt.size s ∈ opts ∧ s.allStatic = true) ∨
        ((∀ s, Opt.size s ∉ opts) ∧ ∃ s t, Opt.source s ∈ opts ∧ s.kind = .array t)) ∧
      ∀ s, Opt.strides s ∈ opts → s.allStatic = true) := by
    intro c h
    obtain ⟨hn, -⟩ := construct_cons h
    have e : b.static = ((pickSize (.category c :: opts)).allStatic && (pickStrides (.category c :: opts)).allStatic) := by
      unfold construct at h
      rw [if_pos hn] at h
      split at h
      · cases h
      · split at h
        · cases h
        · cases h; rfl
    rw [e, Bool.and_eq_true, pickSize_static hn]
    refine and_congr_right fun hs => ?_
    by_cases h0 : ∃ s, Opt.strides s ∈ opts
    · obtain ⟨s, hs⟩ := h0
      rw [pickStrides_given hn (List.mem_cons_of_mem _ hs)]
      refine ⟨fun h s' hs' => ?_, fun h => h s hs⟩
      rw [← pickStrides_given hn (List.mem_cons_of_mem _ hs'), pickStrides_given hn (List.mem_cons_of_mem _ hs)]
      exact h
    · have h1 : ∀ s, Opt.strides s ∉ Opt.category c :: opts := by
        intro s hs
        rcases List.mem_cons.1 hs with e | e
        · cases e
        · exact h0 ⟨s, e⟩
      refine ⟨fun _ s hs => absurd ⟨s, hs⟩ h0, fun _ => ?_⟩
      unfold pickStrides
      rw [fetch_strides_none h1]
      exact (pickSize_static hn).2 hs
  rcases h with h | h
  · exact key _ h
  · exact key _ h

/-- Compile-time extents with run-time strides, and with strides known at compile time. -/
example : ((makeTable [.type 7, .size ⟨[2, 3], true⟩, .strides ⟨[3, 1], false⟩] : Option (Built Nat)).map (·.static) = some false) ∧
    (makeTable [.type 7, .size ⟨[2, 3], true⟩, .strides ⟨[3, 1], true⟩] : Option (Built Nat)).map (·.static) = some true ∧
    (makeView [.source ⟨7, none, .ptr⟩, .size ⟨[2, 3], false⟩, .strides ⟨[3, 1], true⟩] : Option (Built Nat)).map (·.static) =
      some false := by decide

/-- **C93** What a table is made of.  Its memory is on the stack exactly if the extents of its shape are compile-time
ones; otherwise it is obtained from the given allocator, or from the default one. -/
theorem C93_table (opts : List (Opt τ)) (b : Built τ) (h : makeTable opts = some b) :
    Follows opts b ∧
      (∀ t, Opt.type t ∈ opts → b.elem = t) ∧
      (∀ s, Opt.source s ∈ opts → ¬ HasType opts → b.elem = s.elem) ∧
      (∀ s, Opt.source s ∈ opts → b.copyFrom = some s.data) ∧ (¬ HasSource opts → b.copyFrom = none) ∧
      ((∃ s, Opt.size s ∈ opts ∧ s.allStatic = true) ∨
        ((∀ s, Opt.size s ∉ opts) ∧ ∃ s t, Opt.source s ∈ opts ∧ s.kind = .array t) →
        b.block = .stack (numel b.shape)) ∧
      (¬ ((∃ s, Opt.size s ∈ opts ∧ s.allStatic = true) ∨
        ((∀ s, Opt.size s ∉ opts) ∧ ∃ s t, Opt.source s ∈ opts ∧ s.kind = .array t)) →
        ∃ a, b.block = .heap a ∧ (∀ a', Opt.allocator a' ∈ opts → a = a') ∧
          ((∀ a', Opt.allocator a' ∉ opts) → a = heapAlloc)) := by
  obtain ⟨hn, -, ht, hb, hc⟩ := construct_cons h
  have hsh : b.shape = (pickSize (.category .table :: opts)).dims := by
    obtain ⟨-, _, -, -, e, -⟩ := construct_some h
    exact e
  have hst := pickSize_static hn
  refine ⟨follows_cons (follows_of_construct h), ?_, ?_, ?_, ?_, ?_, ?_⟩
  · intro t ht'
    have e := (optType_some hn).2 (List.mem_cons_of_mem _ ht')
    simp only [pickType, e, Option.some.injEq] at ht
    exact ht.symm
  · intro s hs hnt
    have e := (optSource_some hn).2 (List.mem_cons_of_mem _ hs)
    have e2 := (optType_none hn).2 (by rwa [hasType_cons])
    simp only [pickType, e, e2, Option.map_some, Option.some.injEq] at ht
    exact ht.symm
  · intro s hs
    rw [hc, (optSource_some hn).2 (List.mem_cons_of_mem _ hs)]; rfl
  · intro hs
    have e := (optSource_none hn).2 (by rwa [hasSource_cons])
    rw [hc]; simp only [e]; rfl
  · intro hd
    rw [hb, hsh, pickBlock, if_pos (hst.2 hd)]
  · intro hd
    refine ⟨_, by rw [hb, pickBlock, if_neg (fun e => hd (hst.1 e))], ?_, ?_⟩
    · intro a' ha
      unfold pickAllocator
      rw [(fetch_some (k := .allocator) hn).2 ⟨List.mem_cons_of_mem _ ha, rfl⟩]
    · intro ha
      have : fetch .allocator (.category .table :: opts) = none := fetch_none.2 fun o ho hk => by
        cases o <;> simp [Opt.key] at hk
        simp at ho
        exact ha _ ho
      unfold pickAllocator
      rw [this]

example : makeTable exOpts = some ⟨7, [2, 3], [3, 1], false, false, .heap heapAlloc, some "m", true, some (some ⟨0, 0⟩)⟩ := by
  decide
example : makeView ([.source ⟨7, some ⟨0, 0⟩, .array (.cArray 2 (.cArray 3 .elem))⟩, .unreachable] : List (Opt Nat)) =
    some ⟨7, [2, 3], [3, 1], false, true, .shallow (some ⟨0, 0⟩), none, false, none⟩ := by decide
example : makeView ([.source ⟨7, none, .ptr⟩, .type 3] : List (Opt Nat)) = none := by decide
example : makeTable ([.size ⟨[2], true⟩, .type 3, .size ⟨[2], true⟩] : List (Opt Nat)) = none := by decide

/-- The source of the examples: the last 4 of 6 elements. -/
theorem exShort_cells : CellsFrom exWorld.mem ⟨0, 2⟩ 4 (fun k => (k : Int) + 3) := by
  constructor
  · intro k hk
    have : ∀ k ∈ List.range 4, exWorld.mem ((⟨0, 2⟩ : Ptr).add k) = some ((k : Int) + 3) := by decide
    exact this k (List.mem_range.2 hk)
  · intro k hk
    simp only [exWorld, oneBlock, Ptr.add]
    rw [List.getElem?_eq_none (by simp; omega)]
    simp

/-! ## C94: sources that are long enough -/

/-- Full statement of **C94**: a table built from `n` elements can be built, whatever its shape. -/
def C94_statement : Prop :=
  ∀ (opts : List (Opt Nat)) (b : Built Nat) (s : Source Nat) (p : Ptr) (w : World Int) (x n : Nat) (val : Nat → Int)
    (op : Op Int), makeTable opts = some b → Opt.source s ∈ opts → s.data = some p → Reachable w →
    w.tables x = none → CellsFrom w.mem p n val → 0 < n → NonNeg b.shape → b.construction x = some op →
    ∃ w', w.step op = .ok w'

/-- **C94** (partial) A run-time shaped table can be built from `n` elements exactly if its shape has at most `n`
positions; it then holds the first elements, in row-major order.  Missing: nothing is checked if there are fewer. -/
theorem C94_table_partial (opts : List (Opt τ)) (b : Built τ) (s : Source τ) (p : Ptr) (w : World α) (x n : Nat)
    (val : Nat → α) (op : Op α) (hm : makeTable opts = some b) (hs : Opt.source s ∈ opts) (hd : s.data = some p)
    (hr : Reachable w) (hx : w.tables x = none) (hv : CellsFrom w.mem p n val) (h0 : 0 < n) (hne : b.shape ≠ [])
    (hn : NonNeg b.shape) (ho : b.construction x = some op) :
    ((∃ w', w.step op = .ok w') ↔ b.shape.prod ≤ n) ∧
    ∀ w', w.step op = .ok w' → ∃ t, w'.tables x = some t ∧ t.shape = b.shape ∧
      ∀ (k : Nat) (q : List Int), (positions b.shape)[k]? = some q → w'.read t q = .ok (val k) := by
  have hi := reachable_inv hr
  have hcp : b.copyFrom = some (some p) := by rw [(C93_table opts b hm).2.2.2.1 s hs, hd]
  have hnum := numel_eq_prod hne
  have hpb : p.blk ≠ w.next := by
    intro e
    have h1 := hv.1 0 h0
    rw [hi.old (p.add (0 : Nat)) (by show w.next ≤ p.blk; omega)] at h1
    cases h1
  obtain ⟨a, rfl⟩ : ∃ a, op = .make x a b.shape (some (some p)) := by
    unfold Built.construction at ho
    split at ho
    · next a _ => cases ho; exact ⟨a, by rw [hcp]⟩
    · cases ho
  have key : b.shape.prod ≤ n → ∃ w', w.step (.make x a b.shape (some (some p))) = .ok w' ∧
      ∃ t, w'.tables x = some t ∧ t.shape = b.shape ∧
      ∀ (k : Nat) (q : List Int), (positions b.shape)[k]? = some q → w'.read t q = .ok (val k) := by
    intro hle
    obtain ⟨t, w1, e, ht, -, -, h3⟩ := build_holds hi a hne hn (some p)
      (fun q => val (linearize (sfx b.shape) q).toNat) (by
        intro q hq
        have hb := lin_bounds hq
        refine ⟨p, rfl, ?_⟩
        have := hv.1 (linearize (sfx b.shape) q).toNat (by omega)
        rwa [Int.toNat_of_nonneg hb.1] at this)
    refine ⟨{ w1 with tables := upd w1.tables x (some t) }, ?_, t, upd_self _ _ _, ht, ?_⟩
    · simp only [World.step, hx, e, bind, Except.bind]; rfl
    · intro k q hk
      have hq : InBox b.shape q := mem_positions.1 (List.mem_of_getElem? hk)
      have hk' := positions_index hn hk
      have := h3 { w1 with tables := upd w1.tables x (some t) } (fun _ => rfl) q hq
      rw [this, hk']; rfl
  refine ⟨⟨?_, fun h => ?_⟩, ?_⟩
  · rintro ⟨w', e⟩
    by_contra hlt
    simp only [World.step, hx, bind, Except.bind] at e
    split at e
    · cases e
    · next r er =>
      have h1 := build_src hpb er n (by rw [hnum]; omega)
      rw [hv.2 n le_rfl] at h1
      cases h1
  · obtain ⟨w', e, -⟩ := key h; exact ⟨w', e⟩
  · intro w' e
    have hle : b.shape.prod ≤ n := by
      by_contra hlt
      simp only [World.step, hx, bind, Except.bind] at e
      split at e
      · cases e
      · next r er =>
        have h1 := build_src hpb er n (by rw [hnum]; omega)
        rw [hv.2 n le_rfl] at h1
        cases h1
    obtain ⟨w'', e', h⟩ := key hle
    rw [e] at e'
    cases e'
    exact h

example := C94_table_partial ([.source ⟨7, some ⟨0, 2⟩, .ptr⟩, .size ⟨[2, 2], false⟩] : List (Opt Nat)) _ _ ⟨0, 2⟩ exWorld 0 4
  (fun k => k + 3) _ rfl (.head _) rfl exWorld_reachable rfl exShort_cells (by decide) (by decide) (by decide) rfl

/-- **C94** (partial) The same for a table with compile-time shape. -/
theorem C94_stack_partial (opts : List (Opt τ)) (b : Built τ) (s : Source τ) (p : Ptr) (m : Mem α) (n : Nat)
    (val : Nat → α) (r : Res (StackTable α)) (hm : makeTable opts = some b) (hs : Opt.source s ∈ opts)
    (hd : s.data = some p) (hv : CellsFrom m p n val) (hne : b.shape ≠ []) (hn : NonNeg b.shape)
    (ho : b.stackTable m = some r) :
    ((∃ t, r = .ok t) ↔ b.shape.prod ≤ n) ∧
    ∀ t, r = .ok t → t.shape = b.shape ∧
      ∀ (k : Nat) (q : List Int), (positions b.shape)[k]? = some q → t.read q = .ok (val k) := by
  have hcp : b.copyFrom = some (some p) := by rw [(C93_table opts b hm).2.2.2.1 s hs, hd]
  have hnum := numel_eq_prod hne
  have hnn := prod_nonneg' hn
  obtain rfl : r = StackTable.ofSettings m ⟨p, b.shape, none⟩ := by
    unfold Built.stackTable at ho
    split at ho
    · next e1 e2 => rw [hcp] at e2; cases e2; cases ho; rfl
    · cases ho
  have key : b.shape.prod ≤ n → StackTable.ofSettings m ⟨p, b.shape, none⟩ =
      .ok ⟨(positions b.shape).map fun q => val (linearize (sfx b.shape) q).toNat, b.shape⟩ := by
    intro hle
    unfold StackTable.ofSettings
    simp only [hnum]
    rw [copyIn_ok m p _ val fun k hk => hv.1 k (by omega)]
    simp only [bind, Except.bind, pure, Except.pure, Except.ok.injEq, StackTable.mk.injEq, and_true]
    refine List.ext_getElem? fun k => ?_
    have hl := positions_length hn
    by_cases hk : k < b.shape.prod.toNat
    · have hk2 : k < (positions b.shape).length := by omega
      have := positions_index hn (List.getElem?_eq_getElem hk2)
      simp [hk, hk2, this]
    · have hk2 : ¬ k < (positions b.shape).length := by omega
      simp at hk hk2
      simp [hk, hk2]
  have bad : ∀ t, StackTable.ofSettings m ⟨p, b.shape, none⟩ = .ok t → b.shape.prod ≤ n := by
    intro t e
    by_contra hlt
    unfold StackTable.ofSettings at e
    simp only [bind, Except.bind] at e
    split at e
    · cases e
    · next l el =>
      have h1 := copyIn_src el n (by simp only [hnum]; omega)
      rw [hv.2 n le_rfl] at h1
      cases h1
  refine ⟨⟨fun ⟨t, e⟩ => bad t e, fun h => ⟨_, key h⟩⟩, fun t e => ?_⟩
  have hk := key (bad t e)
  rw [hk] at e
  cases e
  refine ⟨rfl, fun k q hq => ?_⟩
  have hq' : InBox b.shape q := mem_positions.1 (List.mem_of_getElem? hq)
  rw [stack_read (t := ⟨_, b.shape⟩) rfl hq', positions_index hn hq]
  rfl

example := C94_stack_partial ([.source ⟨7, some ⟨0, 2⟩, .ptr⟩, .size ⟨[2, 2], true⟩] : List (Opt Nat)) _ _ ⟨0, 2⟩ exWorld.mem 4
  (fun k => k + 3) _ rfl (.head _) rfl exShort_cells (by decide) (by decide) rfl

/-- **C94** (partial) The positions of a view of `n` elements are all within the source exactly if there are at most
`n` of them; they are then the first elements, in row-major order. -/
theorem C94_view_partial (opts : List (Opt τ)) (b : Built τ) (s : Source τ) (p : Ptr) (m : Mem α) (n : Nat)
    (val : Nat → α) (hm : makeView opts = some b) (hs : Opt.source s ∈ opts) (hd : s.data = some p)
    (hst : ∀ e, Opt.strides e ∉ opts) (hv : CellsFrom m p n val) (hne : b.shape ≠ []) (hn : NonNeg b.shape) :
    ∃ c, b.view = some c ∧ c.shape = b.shape ∧ (Valid c m ↔ b.shape.prod ≤ n) ∧
      (Valid c m → ∀ (k : Nat) (q : List Int), (positions b.shape)[k]? = some q → c.get m q = .ok (val k)) := by
  obtain ⟨hf, -, hb, -⟩ := C93_view opts b hm
  have hbl := (hb s hs).2
  have hst' : b.strides = asStride b.shape := by
    rw [asStride_eq_sfx]
    obtain ⟨-, h2, h3⟩ := hf.rowMajor hst
    refine List.ext_getElem? fun i => ?_
    by_cases hi : i < b.shape.length
    · rw [h3 i hi, sfx_getElem _ _ hi]
    · rw [List.getElem?_eq_none (by omega), List.getElem?_eq_none (by rw [sfx_length]; omega)]
  let c : Container := ⟨p, b.shape, b.strides, b.specific, b.static, b.reach, b.label⟩
  have hc : c.Default :=
    { ne := hne
      len := (hf.rowMajor hst).2.1
      dflt := fun _ => hst'
      nospec := (hf.rowMajor hst).1 }
  have hget : ∀ q, InBox b.shape q → ∀ v, c.get m q = .ok v ↔ m (p.add (linearize (sfx b.shape) q)) = some v := by
    intro q hq v
    rw [get_ok_iff, addr_default hc hq]
  refine ⟨c, by rw [Built.view, hbl, hd], rfl, ⟨?_, ?_⟩, ?_⟩
  · intro h
    by_contra hlt
    obtain ⟨q, hq, e⟩ := lin_surj hn (k := n) (by omega) (by omega)
    obtain ⟨v, hv'⟩ := h q hq
    rw [hget q hq, e, hv.2 n le_rfl] at hv'
    cases hv'
  · intro h q hq
    have hb := lin_bounds (s := b.shape) hq
    refine ⟨val (linearize (sfx b.shape) q).toNat, ?_⟩
    rw [hget q hq]
    have := hv.1 (linearize (sfx b.shape) q).toNat (by omega)
    rwa [Int.toNat_of_nonneg hb.1] at this
  · intro h k q hk
    have hq : InBox b.shape q := mem_positions.1 (List.mem_of_getElem? hk)
    obtain ⟨v, hv'⟩ := h q hq
    have hk' := positions_index hn hk
    rw [hget q hq] at hv' ⊢
    rw [hk'] at hv' ⊢
    by_cases hkn : k < n
    · exact hv.1 k hkn
    · rw [hv.2 k (by omega)] at hv'
      cases hv'

example := C94_view_partial ([.source ⟨7, some ⟨0, 2⟩, .ptr⟩, .size ⟨[2, 2], false⟩] : List (Opt Nat)) _ _ ⟨0, 2⟩ exWorld.mem 4
  (fun k => k + 3) rfl (.head _) rfl (by simp) exShort_cells (by decide) (by decide)

/-- **C94** (partial) The same for a view with explicit strides that are not negative: the view is empty, or the
largest index is less than the number of elements. -/
theorem C94_strided_view_partial (opts : List (Opt τ)) (b : Built τ) (s : Source τ) (p : Ptr) (e : Extents) (m : Mem α)
    (n : Nat) (val : Nat → α) (hm : makeView opts = some b) (hs : Opt.source s ∈ opts) (hd : s.data = some p)
    (hst : Opt.strides e ∈ opts) (hl : e.dims.length = b.shape.length) (hg : ∀ g ∈ e.dims, 0 ≤ g)
    (hv : CellsFrom m p n val) (hne : b.shape ≠ []) (hn : NonNeg b.shape) :
    ∃ c, b.view = some c ∧ c.shape = b.shape ∧ (Valid c m ↔ 0 ∈ b.shape ∨ lastIndex b.shape e.dims < n) := by
  obtain ⟨hf, -, hb, -⟩ := C93_view opts b hm
  have hbl := (hb s hs).2
  obtain ⟨h1, h2⟩ := hf.strides e hst
  let c : Container := ⟨p, b.shape, b.strides, b.specific, b.static, b.reach, b.label⟩
  have hc : c.WF :=
    { ne := hne
      len := by show b.strides.length = _; rw [h1, hl]
      dflt := fun h => by
        have : b.specific = false := h
        rw [h2] at this; cases this }
  have hget : ∀ q, InBox b.shape q → ∀ v, c.get m q = .ok v ↔ m (p.add (linearize e.dims q)) = some v := by
    intro q hq v
    rw [get_ok_iff, addr_eq hc hq]
    show m (p.add (linearize b.strides q)) = _ ↔ _
    rw [h1]
  refine ⟨c, by rw [Built.view, hbl, hd], rfl, ⟨?_, ?_⟩⟩
  · intro h
    by_cases hz : 0 ∈ b.shape
    · exact .inl hz
    · refine .inr ?_
      have hpos : ∀ d ∈ b.shape, 0 < d := fun d hd => by
        have := hn d hd
        have : d ≠ 0 := fun e => hz (e ▸ hd)
        omega
      have hq := last_inBox hpos
      have hle := (lin_le_last hl hg hq).1
      obtain ⟨v, hv'⟩ := h _ hq
      rw [hget _ hq, lin_last _ _ hl] at hv'
      rw [lin_last _ _ hl] at hle
      by_contra hlt
      have := hv.2 (lastIndex b.shape e.dims).toNat (by omega)
      rw [Int.toNat_of_nonneg hle, hv'] at this
      cases this
  · rintro (hz | hlt) q hq
    · exact absurd (hq.pos 0 hz) (by omega)
    · have hb := lin_le_last hl hg hq
      refine ⟨val (linearize e.dims q).toNat, ?_⟩
      rw [hget q hq]
      have := hv.1 (linearize e.dims q).toNat (by omega)
      rwa [Int.toNat_of_nonneg hb.1] at this

example : (makeTable ([.source ⟨7, some ⟨0, 2⟩, .ptr⟩, .size ⟨[2, 2], false⟩] : List (Opt Nat))).bind
    (fun b => b.construction 0) = some (Op.make (α := Int) 0 heapAlloc [2, 2] (some (some ⟨0, 2⟩))) := rfl
example : readAll exWorld [.make 0 heapAlloc [2, 2] (some (some ⟨0, 2⟩))] 0 (positions [2, 2])
    = .ok [.ok 3, .ok 4, .ok 5, .ok 6] := by decide
example : ((makeTable ([.source ⟨7, some ⟨0, 2⟩, .ptr⟩, .size ⟨[2, 2], true⟩] : List (Opt Nat))).bind
    (fun b => b.stackTable exWorld.mem)) = some (.ok ⟨[3, 4, 5, 6], [2, 2]⟩) := by decide
example : ((makeView ([.source ⟨7, some ⟨0, 2⟩, .ptr⟩, .size ⟨[2, 2], false⟩, .strides ⟨[2, 1], false⟩] :
    List (Opt Nat))).bind Built.view).map (fun c => (positions c.shape).map (c.get exWorld.mem))
    = some [.ok 3, .ok 4, .ok 5, .ok 6] := by decide
example : lastIndex [2, 2] [2, 1] = 3 ∧ lastIndex [2, 2] [4, 1] = 5 := by decide

/-- **C94** is false: a 2x3 table from a source of 4 elements. -/
theorem C94_short_source_false : ¬ C94_statement := by
  intro h
  let opts : List (Opt Nat) := [.source ⟨7, some ⟨0, 2⟩, .ptr⟩, .size ⟨[2, 3], false⟩]
  have hm : makeTable opts = some
      ⟨7, [2, 3], [3, 1], false, false, .heap heapAlloc, none, true, some (some ⟨0, 2⟩)⟩ := by decide
  have hv := exShort_cells
  have hs : Opt.source ⟨7, some ⟨0, 2⟩, .ptr⟩ ∈ opts := by decide
  have h1 := h opts _ _ ⟨0, 2⟩ exWorld 0 4 (fun k => k + 3) _ hm hs rfl exWorld_reachable rfl hv (by omega) (by decide) rfl
  have h2 := (C94_table_partial opts _ _ ⟨0, 2⟩ exWorld 0 4 (fun k => k + 3) _ hm hs rfl exWorld_reachable rfl hv
    (by omega) (by decide) (by decide) rfl).1.1 h1
  revert h2; decide

end Kwk
