import Verif.Spec.Arrays
import Verif.Spec.Slice
import Verif.Spec.Sequence

/-!
# Specification: slices of arrays

A selection of positions is a list of numbers of entries of the array.
-/

namespace Kwk.Spec

variable {α : Type}

/-- The numbers of the selected positions in row-major order of the extents `s`. -/
def numbersOf (s : List Int) (ls : List (List Int)) : List Nat := (selection ls).map fun p => (positions s).idxOf p

/-- The entries of these numbers. -/
def entriesOf (xs : List α) (ns : List Nat) : List α := ns.filterMap fun n => xs[n]?

/-- The array with the entries of these numbers changed. -/
def changeAt (ns : List Nat) (f : Nat → α → α) (xs : List α) : List α := xs.mapIdx fun k x => if k ∈ ns then f k x else x

/-- The array with the entries of these numbers replaced by the values `ws`, in this order. -/
def putAt (ns : List Nat) (ws xs : List α) : List α := changeAt ns (fun k x => ws.getD (ns.idxOf k) x) xs

/-- The `n` cells from `p` on and the `k` cells from `q` on have none in common. -/
def NoCommon (p : Ptr) (n : Int) (q : Ptr) (k : Int) : Prop := p.blk ≠ q.blk ∨ p.off + n ≤ q.off ∨ q.off + k ≤ p.off

/-- The slicers select the positions `ls` of `c`, and the algorithms on the slice read and write the entries of their numbers. -/
def ActsOnPicked (α : Type) [DecidableEq α] (md : Mode) (static : Bool) (c : DataT) (xs : List SlicerT) (ls : List (List Int)) : Prop :=
  ∃ xcs c', xs.mapM SlicerT.build = .ok xcs ∧ sliceD md static c xcs = .ok c' ∧ c'.shape.map (·.value) = pickShape ls ∧
    ∀ (m : Mem α) (vs : List α), HoldsD c m vs →
      let ns := numbersOf (c.shape.map (·.value)) ls
      (∀ (β : Type) (op : β → α → β) (init : β), reduceD m c' op init = .ok ((entriesOf vs ns).foldl op init)) ∧
      (∀ f, countIfD m c' f = .ok ((entriesOf vs ns).countP f)) ∧
      (∀ f, findIfD m c' (fun x => pure (f x)) = .ok ((((entriesOf vs ns).findIdx? f).bind (place (pickShape ls))).map asInts)) ∧
      (∀ v, ∃ m', fillD m c' v = .ok m' ∧ ArrayAt m' c.base (changeAt ns (fun _ _ => v) vs) ∧ SameBut c.base vs.length m m') ∧
      (∀ P v, ∃ m', replaceIfD m c' P v = .ok m' ∧ ArrayAt m' c.base (changeAt ns (fun _ x => if P x then v else x) vs) ∧
        SameBut c.base vs.length m m') ∧
      (∀ (f : α → α) d, ∃ m', transformD m (fun l => f (l.headD d)) c' [c'] = .ok m' ∧
        ArrayAt m' c.base (changeAt ns (fun _ x => f x) vs) ∧ SameBut c.base vs.length m m') ∧
      (∀ (β : Type) (incr : β → β) (conv : β → α) (v : β), ∃ m', iotaD m c' incr conv v = .ok m' ∧
        ArrayAt m' c.base (putAt ns ((List.range ns.length).map fun k => conv (incr^[k] v)) vs) ∧ SameBut c.base vs.length m m') ∧
      (∀ g : List Coord → α, ∃ m', generateD m g c' = .ok m' ∧
        ArrayAt m' c.base (putAt ns ((positions (pickShape ls)).map fun p => g (counters c'.shape p)) vs) ∧ SameBut c.base vs.length m m') ∧
      (∀ (β : Type) (f1 : α → β → α) (f2 : α → β) (init : α), ∃ m', transformInclusiveScanD m c' c' init f1 f2 = .ok m' ∧
        ArrayAt m' c.base (putAt ns (((entriesOf vs ns).map f2).scanl f1 init).tail vs) ∧ SameBut c.base vs.length m m') ∧
      (∀ out ws, HoldsD out m ws → out.shape.map (·.value) = pickShape ls → NoCommon c.base vs.length out.base ws.length →
        ∀ (β : Type) (f1 : α → β → α) (f2 : α → β) (init : α),
          (∃ m', transformInclusiveScanD m c' out init f1 f2 = .ok m' ∧
            ArrayAt m' out.base (((entriesOf vs ns).map f2).scanl f1 init).tail ∧ SameBut out.base ws.length m m') ∧
          ∃ m', transformExclusiveScanD m c' out init f1 f2 = .ok m' ∧
            ArrayAt m' out.base (((entriesOf vs ns).map f2).scanl f1 init).dropLast ∧ SameBut out.base ws.length m m') ∧
      ∀ inp ws d, HoldsD inp m ws → inp.shape.map (·.value) = pickShape ls → NoCommon c.base vs.length inp.base ws.length →
        ∃ m', copyD m c' inp d = .ok m' ∧ ArrayAt m' c.base (putAt ns ws vs) ∧ SameBut c.base vs.length m m'

/-- The slicers select the positions `ls` of `c`, and a copy of the slice to a container with the types `P` of extents, elsewhere,
leaves the entries of their numbers. -/
def CopiesPicked (α : Type) (P : IntType → Prop) (md : Mode) (static : Bool) (c : DataT) (xs : List SlicerT) (ls : List (List Int)) :
    Prop :=
  ∃ xcs c', xs.mapM SlicerT.build = .ok xcs ∧ sliceD md static c xcs = .ok c' ∧
    ∀ (m : Mem α) (vs : List α) out ws d, HoldsD c m vs → HoldsD out m ws → (∀ e ∈ out.shape, P e.type) →
      out.shape.map (·.value) = pickShape ls → NoCommon out.base ws.length c.base vs.length →
      ∃ m', copyD m out c' d = .ok m' ∧ ArrayAt m' out.base (entriesOf vs (numbersOf (c.shape.map (·.value)) ls)) ∧
        SameBut out.base ws.length m m'

/-- `reverse` shows the array in reverse; writing through it writes the array; `find_last_if` finds the last match. -/
def ReversesArray (α : Type) [DecidableEq α] (c : DataT) : Prop :=
  ∃ r, reverseD c = .ok r ∧ r.shape = c.shape ∧ ∀ (m : Mem α) (vs : List α), HoldsD c m vs →
    (∀ (β : Type) (op : β → α → β) (init : β), reduceD m r op init = .ok (vs.reverse.foldl op init)) ∧
    (∀ (β : Type) (incr : β → β) (conv : β → α) (v : β), ∃ m', iotaD m r incr conv v = .ok m' ∧
      ArrayAt m' c.base ((List.range vs.length).map fun k => conv (incr^[k] v)).reverse ∧ SameBut c.base vs.length m m') ∧
    ∀ f, findLastIfD m c (fun x => pure (f x)) =
      .ok ((vs.reverse.findIdx? f).bind fun k => place (c.shape.map (·.value)) (vs.length - 1 - k))

end Kwk.Spec
