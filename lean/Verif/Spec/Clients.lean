import Verif.Spec.Programs
import Verif.Spec.Mirror
import Verif.Spec.Rank
import Verif.Spec.Order
import Verif.Model.Clients
import Mathlib.Data.Set.Card

/-!
# Specification: programs that look at tables through views, on plain values

Continues `Spec/Programs.lean`.  A view is a way to read the positions of the value of a table: an index space and the position
that each of its indexes stands for.
-/

namespace Kwk.Spec

variable {α ρ : Type}

/-- The index space of a value of shape `s`, or of this value reshaped: the elements keep their row-major numbers. -/
inductive Sized (s : Shape) : Option Shape → Shape → (List Int → List Int) → Prop where
  /-- not reshaped -/
  | own : Sized s none s fun p => p
  /-- reshaped to as many elements -/
  | reshaped {sz sel} : sz ≠ [] → NonNeg sz → sz.prod = s.prod →
      (∀ (k : Nat) i p, (positions sz)[k]? = some i → (positions s)[k]? = some p → sel i = p) → Sized s (some sz) sz sel

/-- `s` with its leading extents replaced by their product, so that `n` extents remain. -/
def mergedTo (n : Nat) (s : Shape) : Shape := (s.take (s.length + 1 - n)).prod :: s.drop (s.length + 1 - n)

/-- The index space of a view of a value of shape `s`. -/
inductive Focused (md : Mode) (s : Shape) : How → Shape → (List Int → List Int) → Prop where
  /-- everything -/
  | whole : Focused md s .whole s fun p => p
  /-- what the slicers select -/
  | slice {sl ls} : PicksAll s sl ls → (md = .checked → ∀ l ∈ ls, l ≠ []) →
      Focused md s (.slice sl) (pickShape ls) (pickAt ls)
  /-- what fewer slicers than extents select: the leading extents count as one, the elements keep their row-major numbers -/
  | merged {sl ls sel0} : 0 < sl.length → sl.length ≤ s.length → PicksAll (mergedTo sl.length s) sl ls →
      (md = .checked → ∀ l ∈ ls, l ≠ []) → Sized s (some (mergedTo sl.length s)) (mergedTo sl.length s) sel0 →
      Focused md s (.slice sl) (pickShape ls) fun i => sel0 (pickAt ls i)
  /-- everything, from the last to the first -/
  | reversed : Focused md s .reversed s (mirror s)

/-- `Sees md s l sz sel`: on a table of shape `s`, the argument `l` has the extents `sz`, and its position `i` is the position
`sel i` of the table. -/
def Sees (md : Mode) (s : Shape) (l : Look) (sz : Shape) (sel : List Int → List Int) : Prop :=
  ∃ s0 sel0 sel1, Sized s l.size s0 sel0 ∧ Focused md s0 l.how sz sel1 ∧ ∀ i, sel i = sel0 (sel1 i)

/-- On the shape `s`, `f'` is `f`, except that the position that `i` stands for has `h i`. -/
def Puts (s sz : Shape) (sel : List Int → List Int) (h f f' : List Int → α) : Prop :=
  (∀ i, InBox sz i → f' (sel i) = h i) ∧ ∀ p, InBox s p → (∀ i, InBox sz i → sel i ≠ p) → f' p = f p

/-- `i`, used as an input, shows `g` on the extents `sz`. -/
def Shown (md : Mode) (a : Values α) (i : Look) (sz : Shape) (g : List Int → α) : Prop :=
  ∃ s f sel, a i.table = .value s f ∧ Sees md s i sz sel ∧ ∀ j, g j = f (sel j)

/-- The input `i` shows `g`, and if it looks at the table that is written through `sel`, then none of its elements is
overwritten before its turn. -/
def Input (md : Mode) (a : Values α) (x : Nat) (sz : Shape) (sel : List Int → List Int) (i : Look) (g : List Int → α) : Prop :=
  ∃ s f sel', a i.table = .value s f ∧ Sees md s i sz sel' ∧ (∀ j, g j = f (sel' j)) ∧
    (i.table = x → ∀ j k, InBox sz j → InBox sz k → j < k → sel j ≠ sel' k)

/-- `MeansEdit md a e a'`: the call is meaningful on the objects `a` and makes them `a'`. -/
inductive MeansEdit (md : Mode) : Values α → Edit α → Values α → Prop where
  /-- the elements of the view become `v` -/
  | fill {a l s f sz sel f' v} : a l.table = .value s f → Sees md s l sz sel → Puts s sz sel (fun _ => v) f f' →
      MeansEdit md a (.fill l v) (a.set l.table (.value s f'))
  /-- the element at place `i` of the view becomes `g i` -/
  | generate {a l s f sz sel f' g} : a l.table = .value s f → Sees md s l sz sel → Puts s sz sel g f f' →
      MeansEdit md a (.generate l g) (a.set l.table (.value s f'))
  /-- the elements of the view become `v`, `incr v`, … in its row-major order -/
  | iota {a l s f sz sel f' incr v h} : a l.table = .value s f → Sees md s l sz sel →
      (∀ k i, (positions sz)[k]? = some i → h i = incr^[k] v) → Puts s sz sel h f f' →
      MeansEdit md a (.iota l incr v) (a.set l.table (.value s f'))
  /-- the matching elements of the view become `v` -/
  | replaceIf {a l s f sz sel f' c v} : a l.table = .value s f → Sees md s l sz sel →
      Puts s sz sel (fun i => if c (f (sel i)) then v else f (sel i)) f f' →
      MeansEdit md a (.replaceIf l c v) (a.set l.table (.value s f'))
  /-- place by place -/
  | transform {a l s f sz sel f' g ins gs} : a l.table = .value s f → Sees md s l sz sel →
      List.Forall₂ (Input md a l.table sz sel) ins gs →
      Puts s sz sel (fun i => g (gs.map fun h => h i)) f f' →
      MeansEdit md a (.transform l g ins) (a.set l.table (.value s f'))
  /-- place by place -/
  | copy {a l s f sz sel f' i g} : a l.table = .value s f → Sees md s l sz sel → Input md a l.table sz sel i g →
      Puts s sz sel g f f' → MeansEdit md a (.copy l i) (a.set l.table (.value s f'))
  /-- place by place, where the input matches -/
  | copyIf {a l s f sz sel f' c i g} : a l.table = .value s f → Sees md s l sz sel → Input md a l.table sz sel i g →
      Puts s sz sel (fun j => if c (g j) then g j else f (sel j)) f f' →
      MeansEdit md a (.copyIf l c i) (a.set l.table (.value s f'))
  /-- the folds up to each place -/
  | inclusiveScan {a l s f sz sel f' i g h init op} : a l.table = .value s f → Sees md s l sz sel →
      Input md a l.table sz sel i g →
      (∀ k j, (positions sz)[k]? = some j → h j = (((positions sz).take (k + 1)).map g).foldl op init) → Puts s sz sel h f f' →
      MeansEdit md a (.inclusiveScan i l init op) (a.set l.table (.value s f'))
  /-- the folds before each place; the two arguments are different tables -/
  | exclusiveScan {a l s f sz sel f' i g h init op} : a l.table = .value s f → Sees md s l sz sel →
      i.table ≠ l.table → Input md a l.table sz sel i g →
      (∀ k j, (positions sz)[k]? = some j → h j = (((positions sz).take k).map g).foldl op init) → Puts s sz sel h f f' →
      MeansEdit md a (.exclusiveScan i l init op) (a.set l.table (.value s f'))

/-- `Answers md a q r`: on the objects `a`, the answer to `q` is `r`. -/
inductive Answers (md : Mode) (a : Values α) : Query α → Answer α → Prop where
  /-- the element at a position -/
  | read {l sz g p} : Shown md a l sz g → InBox sz p → Answers md a (.read l p) (.elem (g p))
  /-- the extents -/
  | size {l s sz sel} : Shaped (a l.table) s → Sees md s l sz sel → Answers md a (.size l) (.extents sz)
  /-- the number of positions -/
  | numel {l s sz sel} : Shaped (a l.table) s → Sees md s l sz sel →
      Answers md a (.numel l) (.number (Set.ncard {p | InBox sz p}))
  /-- the left fold, in row-major order -/
  | reduce {l sz g op init} : Shown md a l sz g →
      Answers md a (.reduce l op init) (.elem (((positions sz).map g).foldl op init))
  /-- the first match -/
  | findIf {l sz g c r} : Shown md a l sz g → IsFirst sz (fun p => c (g p) = true) r →
      Answers md a (.findIf l c) (.place r)
  /-- the last match -/
  | findLastIf {x n sz g c r} : Shown md a ⟨x, n, .whole⟩ sz g → IsLast sz (fun p => c (g p) = true) r →
      Answers md a (.findLastIf x n c) (.place r)
  /-- the number of matches -/
  | countIf {l sz g c} : Shown md a l sz g →
      Answers md a (.countIf l c) (.number (Set.ncard {p | InBox sz p ∧ c (g p) = true}))
  /-- for all -/
  | allOf {l sz g c b} : Shown md a l sz g → (b = true ↔ ∀ p, InBox sz p → c (g p) = true) →
      Answers md a (.allOf l c) (.truth b)
  /-- there is -/
  | anyOf {l sz g c b} : Shown md a l sz g → (b = true ↔ ∃ p, InBox sz p ∧ c (g p) = true) →
      Answers md a (.anyOf l c) (.truth b)
  /-- there is none -/
  | noneOf {l sz g c b} : Shown md a l sz g → (b = true ↔ ∀ p, InBox sz p → c (g p) = false) →
      Answers md a (.noneOf l c) (.truth b)
  /-- the first element that is not before `v`, if those that are come first -/
  | lowerBound {l sz g v lt r} : Shown md a l sz g →
      (∀ p q, InBox sz p → InBox sz q → p < q → lt (g q) v = true → lt (g p) v = true) →
      IsFirst sz (fun p => lt (g p) v = false) r → Answers md a (.lowerBound l v lt) (.place r)
  /-- the first element that is after `v`, if those that are come last -/
  | upperBound {l sz g v lt r} : Shown md a l sz g →
      (∀ p q, InBox sz p → InBox sz q → p < q → lt v (g p) = true → lt v (g q) = true) →
      IsFirst sz (fun p => lt v (g p) = true) r → Answers md a (.upperBound l v lt) (.place r)
  /-- whether a sorted argument has an element equivalent to `v` -/
  | binarySearch {l sz g v lt b} : Shown md a l sz g → StrictWeak lt →
      (∀ p q, InBox sz p → InBox sz q → p < q → lt (g q) (g p) = false) →
      (b = true ↔ ∃ p, InBox sz p ∧ lt (g p) v = false ∧ lt v (g p) = false) →
      Answers md a (.binarySearch l v lt) (.truth b)
  /-- the fold of the products, for arguments of the same extents -/
  | innerProduct {l i sz g h init R T} : Shown md a l sz g → Shown md a i sz h →
      Answers md a (.innerProduct l i init R T) (.elem (((positions sz).map fun p => T (g p) (h p)).foldl R init))

/-- A whole program: `MeansClient md ext a c r a'` when `c`, started on the objects `a`, returns `r` and leaves `a'`. -/
inductive MeansClient (md : Mode) (ext : Mem α) : Values α → Client α ρ → ρ → Values α → Prop where
  /-- the end -/
  | done {a r} : MeansClient md ext a (.done r) r a
  /-- an action -/
  | act {a b c r act k} : MeansAct md ext a act b → MeansClient md ext b k r c → MeansClient md ext a (.act act k) r c
  /-- a call through views -/
  | edit {a b c r e k} : MeansEdit md a e b → MeansClient md ext b k r c → MeansClient md ext a (.edit e k) r c
  /-- a question -/
  | ask {a c r q k x} : Answers md a q x → MeansClient md ext a (k x) r c → MeansClient md ext a (.ask q k) r c

end Kwk.Spec
