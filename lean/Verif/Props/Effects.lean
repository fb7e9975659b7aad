import Verif.Lemmas.Effects
import Verif.Lemmas.Witnesses

/-!
# Properties C73-C75: function objects with state, predicates with side effects, generators
-/

namespace Kwk
open Spec

variable {α β φ : Type}

/-! ## C73

Full property: all overloads of `for_each` and `for_each_index` call the function object on every position in row-major
order, threading its state, and return the object as it is after the last call.
It is false for `for_each(f, shape)` (`C73_for_each_shape_loses_state`). -/

/-- **C73** (shape, with context) The returned object has seen all positions in order. -/
theorem C73_for_each_shape_ctx (call : φ → List Int → Res φ) (f : φ) (shp : Shape) (g : φ)
    (h : (positions shp).foldlM call f = .ok g) :
    forEachShapeCtx call f shp = .ok ⟨some g, f⟩ := by
  rw [forEachShapeCtx, forEachObj, loopState_eq, h]; rfl

example : forEachShapeCtx (fun (n : Int) p => .ok (10 * n + p.sum)) 0 [2, 2] = .ok ⟨some 112, 0⟩ :=
  C73_for_each_shape_ctx _ 0 [2, 2] 112 rfl

/-- **C73** (containers) The function object is called on the elements of all containers, position by position; the
returned object and the caller's object are the ones after the last call, and memory is what the calls left. -/
theorem C73_for_each_elements (call : φ → List Ptr → Mem α → Res (φ × Mem α)) (f : φ) (c0 : Container)
    (cs : List Container) (m : Mem α) (g : φ) (m' : Mem α)
    (h : (positions c0.shape).foldlM
      (fun (fm : φ × Mem α) p => call fm.1 ((c0 :: cs).map fun c => c.addr p) fm.2) (f, m) = .ok (g, m')) :
    forEachElems call f c0 cs m = .ok (⟨some g, g⟩, m') := by
  simp only [List.map_cons] at h
  rw [forEachElems, loopState_eq, h]; rfl

example := C73_for_each_elements (fun (n : Nat) _ (m : Mem Int) => .ok (n + 1, m)) 0 exOut [exIn] exTwo 4 exTwo rfl

/-- **C73** (element and position) Likewise for `for_each_index`; the overload without context works on a copy. -/
theorem C73_for_each_index (call : φ → Ptr → List Int → Mem α → Res (φ × Mem α)) (f : φ) (c : Container)
    (m : Mem α) (g : φ) (m' : Mem α)
    (h : (positions c.shape).foldlM (fun (fm : φ × Mem α) p => call fm.1 (c.addr p) p fm.2) (f, m) = .ok (g, m')) :
    forEachIndexCtx call f c m = .ok (⟨some g, g⟩, m') ∧ forEachIndex call f c m = .ok (⟨some g, f⟩, m') := by
  have : forEachIndexCtx call f c m = .ok (⟨some g, g⟩, m') := by
    rw [forEachIndexCtx, loopState_eq, h]; rfl
  exact ⟨this, by rw [forEachIndex, this]; rfl⟩

example := C73_for_each_index (fun (n : Int) _ is (m : Mem Int) => .ok (10 * n + is.sum, m)) 0 exIn exTwo 112 exTwo rfl

/-- **C73** (partial) `for_each(f, shape)` makes the calls, in order.  Missing: it returns nothing. -/
theorem C73_for_each_shape_partial (call : φ → List Int → Res φ) (f : φ) (shp : Shape) :
    (∃ e, (positions shp).foldlM call f = .error e ∧ forEachShape call f shp = .error e) ∨
    (∃ g, (positions shp).foldlM call f = .ok g ∧ forEachShape call f shp = .ok ⟨none, f⟩) := by
  cases h : (positions shp).foldlM call f with
  | error e =>
    left
    exact ⟨e, rfl, by rw [forEachShape, forEachShapeCtx, forEachObj, loopState_eq, h]; rfl⟩
  | ok g =>
    right
    exact ⟨g, rfl, by rw [forEachShape, C73_for_each_shape_ctx call f shp g h]; rfl⟩

example : forEachShape (fun (n : Int) p => .ok (10 * n + p.sum)) 0 [2, 2] = .ok ⟨none, 0⟩ := by rfl

/-- **C73** (negation) A function object that counts its calls: the overload with a context returns the count, the one
without returns nothing, and the caller's object still says zero. -/
theorem C73_for_each_shape_loses_state :
    forEachShapeCtx (fun (n : Nat) _ => .ok (n + 1)) 0 [2, 3] = .ok ⟨some 6, 0⟩ ∧
    forEachShape (fun (n : Nat) _ => .ok (n + 1)) 0 [2, 3] = .ok ⟨none, 0⟩ := by decide

/-- **C73** The full property (a state of type `int`, elements of type `int`). -/
def C73_statement : Prop :=
  (∀ (call : Int → List Int → Res Int) (f g : Int) (shp : Shape), (positions shp).foldlM call f = .ok g →
    (∃ o, forEachShape call f shp = .ok ⟨some g, o⟩) ∧ (∃ o, forEachShapeCtx call f shp = .ok ⟨some g, o⟩)) ∧
  (∀ (call : Int → List Ptr → Mem Int → Res (Int × Mem Int)) (f g : Int) (c0 : Container) (cs : List Container)
      (m m' : Mem Int), (positions c0.shape).foldlM
        (fun (fm : Int × Mem Int) p => call fm.1 ((c0 :: cs).map fun c => c.addr p) fm.2) (f, m) = .ok (g, m') →
    ∃ o, forEachElems call f c0 cs m = .ok (⟨some g, o⟩, m')) ∧
  (∀ (call : Int → Ptr → List Int → Mem Int → Res (Int × Mem Int)) (f g : Int) (c : Container) (m m' : Mem Int),
    (positions c.shape).foldlM (fun (fm : Int × Mem Int) p => call fm.1 (c.addr p) p fm.2) (f, m) = .ok (g, m') →
    (∃ o, forEachIndexCtx call f c m = .ok (⟨some g, o⟩, m')) ∧ (∃ o, forEachIndex call f c m = .ok (⟨some g, o⟩, m')))

theorem C73_statement_false : ¬ C73_statement := by
  rintro ⟨h, -⟩
  obtain ⟨⟨o, ho⟩, -⟩ := h (fun n _ => .ok (n + 1)) 0 6 [2, 3] (by decide)
  have : forEachShape (fun (n : Int) _ => .ok (n + 1)) 0 [2, 3] = .ok ⟨none, 0⟩ := by decide
  rw [this] at ho
  cases ho

/-- A function object that remembers the last coordinates and sums what it sees. -/
example : (forEachIndex (fun (s : Int × List Int) a is m => do let v ← load m a; pure ((s.1 + v, is), m))
    (0, []) (Container.ofShape ⟨0, 0⟩ [2, 2]) (oneBlock 0 [1, 2, 3, 4])).map (·.1) =
    .ok ⟨some (10, [1, 1]), (0, [])⟩ := by decide

/-! ## C74 -/

/-- **C74** (all, any, none) For predicates with any effect: elements are read and tested in row-major order until the
answer is known; the predicate is never called after that, although the remaining elements are still read. -/
theorem C74_predicate_calls {m : Type → Type} [Monad m] [LawfulMonad m] (rd : List Int → m α) (f : α → m Bool)
    (shp : Shape) :
    allOfM rd f shp = testUntil false rd f (positions shp) ∧
    anyOfM rd f shp = testUntil true rd f (positions shp) ∧
    noneOfM rd f shp = (do let b ← testUntil true rd f (positions shp); pure !b) := by
  have hall : allOfM rd f shp = testUntil false rd f (positions shp) := by
    rw [allOfM, reduceM_eq]
    generalize positions shp = l
    induction l with
    | nil => rfl
    | cons p l ih =>
      rw [List.foldlM_cons, testUntil]
      simp only [if_true, bind_assoc]
      congr 1; funext v
      congr 1; funext b
      cases b
      · rw [foldlM_stopped rd _ false (fun v => rfl)]; rfl
      · exact ih
  have hany : anyOfM rd f shp = testUntil true rd f (positions shp) := by
    rw [anyOfM, reduceM_eq]
    generalize positions shp = l
    induction l with
    | nil => rfl
    | cons p l ih =>
      rw [List.foldlM_cons, testUntil]
      simp only [Bool.false_eq_true, if_false, bind_assoc]
      congr 1; funext v
      congr 1; funext b
      cases b
      · exact ih
      · rw [foldlM_stopped rd _ true (fun v => rfl)]; rfl
  exact ⟨hall, hany, by rw [noneOfM, hany]⟩

example := (C74_predicate_calls (m := Except String) (fun p => .ok (exInVal p)) (fun x => if x = 3 then .error "three" else .ok (x > 1))
  [2, 2]).2.1

/-- **C74** (count) `count_if` reads and tests every element exactly once, in row-major order. -/
theorem C74_count_if_calls {m : Type → Type} [Monad m] [LawfulMonad m] (rd : List Int → m α) (f : α → m Bool)
    (shp : Shape) : countIfM rd f shp = countTests rd f (positions shp) := by
  rw [countIfM, reduceM_eq]
  have key (l : List (List Int)) (n : Nat) :
      l.foldlM (fun a p => do let v ← rd p; let b ← f v; pure (a + if b then 1 else 0)) n =
        (do let k ← countTests rd f l; pure (n + k)) := by
    induction l generalizing n with
    | nil => simp [countTests]
    | cons p l ih =>
      rw [List.foldlM_cons, countTests]
      simp only [bind_assoc, pure_bind]
      congr 1; funext v
      congr 1; funext b
      rw [ih]
      congr 1; funext k
      congr 1
      omega
  rw [key]
  simp

/-- A predicate that records its arguments: `all_of` stops calling it at the first odd element, `count_if` does not. -/
example :
    let rd : List Int → StateT (List Int) Id Int := fun p => pure ([4, 6, 5, 8].getD (p.headD 0).toNat 0)
    let f : Int → StateT (List Int) Id Bool := fun v => fun s => pure (v % 2 == 0, s ++ [v])
    (allOfM rd f [4]) [] = (false, [4, 6, 5]) ∧ (anyOfM rd f [4]) [] = (true, [4]) ∧
    (countIfM rd f [4]) [] = (3, [4, 6, 5, 8]) := ⟨rfl, rfl, rfl⟩

/-! ## C75 -/

/-- **C75** (generate) A generator with state is called once per position, in row-major order; the element at the `k`-th
position is the `k`-th value drawn, nothing else changes, and the generator ends in the state after the last
draw.  A generator that fails makes `generate` fail. -/
theorem C75_generate_order (m : Mem α) (f : φ → List Int → Res (α × φ)) (s : φ) (c : Container)
    (hd : Distinct c) (hv : Valid c m) :
    match drawAll f s (positions c.shape) with
    | .error e => generateS m f s c = .error e
    | .ok (vs, s') => ∃ m', generateS m f s c = .ok (s', m') ∧ vs.length = (positions c.shape).length ∧
        (∀ (k : Nat) p, (positions c.shape)[k]? = some p → m' (c.addr p) = vs[k]?) ∧ SameOutside c m m' := by
  have hdom : ∀ p ∈ positions c.shape, (m (c.addr p)).isSome := fun p hp => by
    obtain ⟨v, h⟩ := hv p (mem_positions.1 hp)
    rw [get_ok_iff.1 h]; rfl
  have := foldlM_draw c.addr f
    (fun (sm : φ × Mem α) is => do let r ← f sm.1 is; let m ← store sm.2 (c.addr is) r.1; pure (r.2, m))
    (positions c.shape) m (fun p _ s m1 _ _ => rfl) hdom (positions c.shape) (fun _ h => h)
    (positions_addr_pairwise hd) s m (fun _ _ => rfl) (fun _ => rfl)
  rw [generateS, mapIndexCtx, loopState_eq]
  cases hr : drawAll f s (positions c.shape) with
  | error e => rw [hr] at this; exact this
  | ok t =>
    rw [hr] at this
    obtain ⟨m', h1, h2, h3, h4⟩ := this
    exact ⟨m', h1, h2, h3, fun a ha => h4 a fun p hp => ha p (mem_positions.1 hp)⟩

example := C75_generate_order exTwo (fun (n : Int) is => .ok (10 * n + is.sum, n + 1)) 1 exOut exOut_distinct exOut_valid

/-- **C75** (transform) A function with state is called once per position, in row-major order, on the elements of the
inputs; the output receives its results in that order.  The inputs contain `vals`, cover the shape of the
output, and share no cell with it. -/
theorem C75_transform_order (m : Mem α) (f : φ → List α → Res (α × φ)) (s : φ) (out : Container)
    (ins : List Container) (vals : Container → List Int → α)
    (hd : Distinct out) (hv : Valid out m)
    (hin : ∀ c ∈ ins, ∀ p, InBox out.shape p → c.get m p = .ok (vals c p))
    (hdis : ∀ c ∈ ins, ∀ p q, InBox out.shape p → InBox out.shape q → c.addr p ≠ out.addr q) :
    match drawAll (fun s p => f s (ins.map fun c => vals c p)) s (positions out.shape) with
    | .error e => transformS m f s out ins = .error e
    | .ok (vs, s') => ∃ m', transformS m f s out ins = .ok (s', m') ∧ vs.length = (positions out.shape).length ∧
        (∀ (k : Nat) p, (positions out.shape)[k]? = some p → m' (out.addr p) = vs[k]?) ∧ SameOutside out m m' := by
  have hdom : ∀ p ∈ positions out.shape, (m (out.addr p)).isSome := fun p hp => by
    obtain ⟨v, h⟩ := hv p (mem_positions.1 hp)
    rw [get_ok_iff.1 h]; rfl
  have := foldlM_draw out.addr (fun s p => f s (ins.map fun c => vals c p))
    (fun (sm : φ × Mem α) is => do
      let vs ← (ins.map fun c => c.addr is).mapM (fun i => load sm.2 i)
      let r ← f sm.1 vs
      let m ← store sm.2 (out.addr is) r.1
      pure (r.2, m))
    (positions out.shape) m (fun p hp s m1 h _ => by
      simp only
      rw [mapM_load (m := m) (vals := vals) ins (fun c hc => h _ fun q hq =>
        (hdis c hc p q (mem_positions.1 hp) (mem_positions.1 hq)).symm) (fun c hc => hin c hc p (mem_positions.1 hp))]
      rfl) hdom (positions out.shape) (fun _ h => h)
    (positions_addr_pairwise hd) s m (fun _ _ => rfl) (fun _ => rfl)
  rw [transformS, mapCtx, loopState_eq]
  cases hr : drawAll (fun s p => f s (ins.map fun c => vals c p)) s (positions out.shape) with
  | error e => rw [hr] at this; exact this
  | ok t =>
    rw [hr] at this
    obtain ⟨m', h1, h2, h3, h4⟩ := this
    exact ⟨m', h1, h2, h3, fun a ha => h4 a fun p hp => ha p (mem_positions.1 hp)⟩

/-- A linear congruential generator filling a 2x2 table. -/
example : (generateS (oneBlock 0 [0, 0, 0, 0]) (fun (s : Int) _ => .ok (s, (5 * s + 3) % 16)) 7
    (Container.ofShape ⟨0, 0⟩ [2, 2])).map (fun r => (r.1, [0, 1, 2, 3].map fun i => r.2 ⟨0, i⟩)) =
    .ok (11, [some 7, some 6, some 1, some 8]) := by decide

end Kwk
