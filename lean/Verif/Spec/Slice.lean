import Verif.Spec.Box
import Verif.Spec.EndExpr
import Verif.Model.Slicer

/-!
# Specification: what a slicer selects

`Picks d s l`: along an axis of extent `d`, the slicer `s` selects the indexes `l`, in this order.
It is a relation between arguments of the API and lists of indexes; it does not mention how the
library computes origins, extents and strides.  Slicers that leave the axis select nothing.
-/

namespace Kwk.Spec

/-- Value of a bound on an axis of extent `d`: an `end` expression denotes its exact value, rounded
toward zero. -/
inductive Denotes (d : Int) : Bound → Int → Prop where
  | int (i : Int) : Denotes d (.int i) i
  | ext (e : EndT) : e.frac.denum ≠ 0 →
      Denotes d (.ext e) (trunc (((d * e.frac.num + e.shift : Int) : ℚ) / (e.frac.denum : ℚ)))

/-- Value of an optional bound with its default. -/
inductive DenotesOr (d dflt : Int) : Option Bound → Int → Prop where
  | none : DenotesOr d dflt none dflt
  | some {b : Bound} {v : Int} : Denotes d b v → DenotesOr d dflt (some b) v

/-- The indexes `b, b+s, …` below `e` (`s > 0`), in increasing order. -/
def selectUp (d b e s : Int) : List Int :=
  (upTo d).filter fun i => decide (b ≤ i ∧ i < e ∧ (i - b) % s = 0)

/-- The indexes `b, b+s, …` down to `0` (`s < 0`), in decreasing order. -/
def selectDown (d b s : Int) : List Int :=
  ((upTo d).filter fun i => decide (i ≤ b ∧ (b - i) % s = 0)).reverse

/-- The indexes selected by a slicer along an axis of extent `d`. -/
inductive Picks (d : Int) : Slicer → List Int → Prop where
  /-- `_`: the whole axis -/
  | joker : 0 ≤ d → Picks d .joker (upTo d)
  /-- an integer: this index -/
  | index {i : Int} : 0 ≤ i → i < d → Picks d (.index i) [i]
  /-- an `end` expression: this index -/
  | ext {e : EndT} {i : Int} : Denotes d (.ext e) i → 0 ≤ i → i < d → Picks d (.ext e) [i]
  /-- `slice(from, to, by)` with a positive step -/
  | up {begin stop : Option Bound} {step : Option Int} {b e s : Int} :
      DenotesOr d 0 begin b → DenotesOr d d stop e → step.getD 1 = s → 0 < s →
      0 ≤ b → b ≤ e → e ≤ d → Picks d (.interval begin step stop none) (selectUp d b e s)
  /-- `slice(from, by)` with a negative step -/
  | down {begin : Option Bound} {s b : Int} :
      DenotesOr d (d - 1) begin b → s < 0 → -1 ≤ b → b < d →
      Picks d (.interval begin (some s) none none) (selectDown d b s)
  /-- `slice(from, length, by)` -/
  | length {begin : Option Bound} {len : Bound} {step : Option Int} {b n s : Int} :
      step.getD 1 = s → s ≠ 0 → DenotesOr d (if s < 0 then d - 1 else 0) begin b → Denotes d len n →
      0 ≤ n → (∀ k, 0 ≤ k → k < n → 0 ≤ b + k * s ∧ b + k * s < d) →
      Picks d (.interval begin step none (some len)) ((upTo n).map fun k => b + k * s)

/-- One slicer per axis. -/
inductive PicksAll : List Int → List Slicer → List (List Int) → Prop where
  | nil : PicksAll [] [] []
  | cons {d : Int} {ds : List Int} {s : Slicer} {sl : List Slicer} {l : List Int} {ls : List (List Int)} :
      Picks d s l → PicksAll ds sl ls → PicksAll (d :: ds) (s :: sl) (l :: ls)

/-- The position selected at place `i`: index `i_k` of the list of every axis `k`. -/
def pickAt (ls : List (List Int)) (i : List Int) : List Int :=
  ls.zipWith (fun l k => l.getD k.toNat 0) i

/-- The position `p` is selected: each of its indexes is one of those selected along the axis. -/
def Selected (ls : List (List Int)) (p : List Int) : Prop := List.Forall₂ (fun l i => i ∈ l) ls p

/-- All selected positions, the last axis varying fastest and each axis in the order of its list. -/
def selection : List (List Int) → List (List Int)
  | [] => [[]]
  | l :: ls => l.flatMap fun i => (selection ls).map fun p => i :: p

/-- Extents of a selection. -/
def pickShape (ls : List (List Int)) : List Int := ls.map fun l => (l.length : Int)

/-- Increasing consecutive indexes. -/
def Consecutive (l : List Int) : Prop := ∃ a, l = (upTo (l.length : Int)).map fun k => a + k

/-- The selection `ls` from axes `ds` is one run of row-major positions: single indexes on the leading axes, then one axis with
consecutive indexes, then whole axes. -/
def RunOfPositions : List Int → List (List Int) → Prop
  | [], [] => True
  | _ :: ds, l :: ls => (l.length = 1 ∧ RunOfPositions ds ls) ∨ (Consecutive l ∧ ls = ds.map upTo)
  | _, _ => False

end Kwk.Spec
