import Verif.Model.Algos
import Verif.Model.Search
import Verif.Model.Effects
import Verif.Model.Print

/-!
# Unit tests of the algorithms, run on the model

The tests of `test/unit/algorithm/algos`, with the model in place of the library; the tests of `test/unit/context/cpu` do the
same with an explicit context.  Floating-point data are replaced by integers.  The expected values are computed on plain lists,
as the C++ tests compute them with the standard library.  Some of the larger arrays are made smaller.
-/

namespace Kwk.Tests.Algorithms

/-- Memory with one block for each list. -/
private def mem (ls : List (List Int)) : Mem Int := fun p =>
  match ls[p.blk]? with
  | some l => if 0 ≤ p.off then l[p.off.toNat]? else none
  | none => none

/-- A view on the whole block `b`: `view{source = data, of_size(s...)}`; `include/kwk/container/view.hpp:28-60`. -/
private def view (b : Nat) (s : List Nat) : Container := Container.ofShape ⟨b, 0⟩ (s.map Int.ofNat)

/-- The first `n` elements of a block. -/
private def content (m : Mem Int) (b n : Nat) : List (Option Int) := (List.range n).map fun (k : Nat) => m ⟨b, k⟩

/-- The first `n` elements of block `b` after an algorithm. -/
private def after (r : Res (Mem Int)) (b n : Nat) : Option (List (Option Int)) :=
  match r with
  | .ok m => some (content m b n)
  | _ => none

/-- An array given by a function of the index. -/
private def arr (n : Nat) (f : Nat → Int) : List Int := (List.range n).map f

/-- A test without side effects, for the searches. -/
private def pureTest {α β : Type} (f : α → β → Bool) : α → β → StateT Unit Res Bool := fun a b => pure (f a b)

/-- The answer of a search. -/
private def answer {γ : Type} (r : StateT Unit Res γ) : Res γ := (·.1) <$> r ()

/-! `test/unit/algorithm/algos/find/1d.cpp:14-400` -/

example : find (mem [[]]) (view 0 [0]) 0 = .ok none := by decide +kernel -- line 21
example : find (mem [arr 20 fun i => i * 2 - 10]) (view 0 [20]) (11) = .ok none := by decide +kernel -- line 33
example : find (mem [arr 20 fun i => i * 2 - 10]) (view 0 [20]) (-10) = .ok (some [0]) := by decide +kernel -- line 39
example : find (mem [arr 20 fun i => i * 2 - 10]) (view 0 [20]) (12) = .ok (some [11]) := by decide +kernel -- line 46
example : find (mem [arr 20 fun i => i * 2 - 10]) (view 0 [20]) (28) = .ok (some [19]) := by decide +kernel -- line 53
example : findIf (mem [[]]) (view 0 [0]) (fun x => decide (x % 2 = 0)) = .ok none := by decide +kernel -- line 68
example : findIf (mem [(arr 20 fun i => i * 2)]) (view 0 [20]) (fun x => decide (x % 2 = 0)) = .ok (some [0]) := by decide +kernel -- line 84
example : findIf (mem [(arr 20 fun i => i * 2)]) (view 0 [20]) (fun x => decide (x % 2 = 1)) = .ok none := by decide +kernel -- line 90
example : findIf (mem [((arr 20 fun i => i * 2).set 12 7)]) (view 0 [20]) (fun x => decide (x % 2 = 1)) = .ok (some [12]) := by decide +kernel -- line 97
example : findIf (mem [((arr 20 fun i => i * 2).set 0 7)]) (view 0 [20]) (fun x => decide (x % 2 = 1)) = .ok (some [0]) := by decide +kernel -- line 106
example : findIf (mem [((arr 20 fun i => i * 2).set 19 7)]) (view 0 [20]) (fun x => decide (x % 2 = 1)) = .ok (some [19]) := by decide +kernel -- line 115
example : findIfNot (mem [[]]) (view 0 [0]) (fun x => decide (x % 2 = 0)) = .ok none := by decide +kernel
example : findIfNot (mem [(arr 20 fun i => i * 2)]) (view 0 [20]) (fun x => decide (x % 2 = 1)) = .ok (some [0]) := by decide +kernel
example : findIfNot (mem [(arr 20 fun i => i * 2)]) (view 0 [20]) (fun x => decide (x % 2 = 0)) = .ok none := by decide +kernel
example : findIfNot (mem [((arr 20 fun i => i * 2).set 12 7)]) (view 0 [20]) (fun x => decide (x % 2 = 0)) = .ok (some [12]) := by decide +kernel
example : findIfNot (mem [((arr 20 fun i => i * 2).set 0 3)]) (view 0 [20]) (fun x => decide (x % 2 = 0)) = .ok (some [0]) := by decide +kernel
example : findIfNot (mem [((arr 20 fun i => i * 2).set 19 3)]) (view 0 [20]) (fun x => decide (x % 2 = 0)) = .ok (some [19]) := by decide +kernel
example : findFirstOf (mem [[], [-10, -5, 0, 8, 11]]) (view 0 [0]) (view 1 [5]) = .ok none := by decide +kernel
example : findFirstOf (mem [(arr 40 fun i => i * 2), [-10, -5, 1, 7, 11]]) (view 0 [40]) (view 1 [5]) = .ok none := by decide +kernel
example : findFirstOf (mem [(arr 40 fun i => i * 2), [-10, -5, 0, 8, 11]]) (view 0 [40]) (view 1 [5]) = .ok (some [0]) := by decide +kernel
example : findFirstOf (mem [(arr 40 fun i => i * 2), [-10, -5, 1, 16, 8]]) (view 0 [40]) (view 1 [5]) = .ok (some [4]) := by decide +kernel
example : findFirstOf (mem [(arr 40 fun i => i * 2), [78, -5, 1, 7, 11]]) (view 0 [40]) (view 1 [5]) = .ok (some [39]) := by decide +kernel
example : findLast (mem [[]]) (view 0 [0]) 6 = .ok none := by decide +kernel
example : findLast (mem [(arr 40 fun _ => 6)]) (view 0 [40]) 8 = .ok none := by decide +kernel
example : findLast (mem [(arr 40 fun _ => 6)]) (view 0 [40]) 6 = .ok (some [39]) := by decide +kernel
example : findLast (mem [((arr 40 fun _ => 6).set 4 8)]) (view 0 [40]) 8 = .ok (some [4]) := by decide +kernel
example : findLast (mem [((arr 40 fun _ => 6).set 0 8)]) (view 0 [40]) 8 = .ok (some [0]) := by decide +kernel
example : findLastIf (mem [[]]) (view 0 [0]) (fun x => decide (x % 2 = 0)) = .ok none := by decide +kernel
example : findLastIf (mem [(arr 40 fun _ => 5)]) (view 0 [40]) (fun x => decide (x % 2 = 0)) = .ok none := by decide +kernel
example : findLastIf (mem [((arr 40 fun _ => 5).set 39 8)]) (view 0 [40]) (fun x => decide (x % 2 = 0)) = .ok (some [39]) := by decide +kernel
example : findLastIf (mem [((arr 40 fun _ => 5).set 4 16)]) (view 0 [40]) (fun x => decide (x % 2 = 0)) = .ok (some [4]) := by decide +kernel
example : findLastIf (mem [((arr 40 fun _ => 5).set 0 6)]) (view 0 [40]) (fun x => decide (x % 2 = 0)) = .ok (some [0]) := by decide +kernel
example : findLastIfNot (mem [[]]) (view 0 [0]) (fun x => decide (x % 2 ≠ 0)) = .ok none := by decide +kernel
example : findLastIfNot (mem [(arr 40 fun _ => 5)]) (view 0 [40]) (fun x => decide (x % 2 ≠ 0)) = .ok none := by decide +kernel
example : findLastIfNot (mem [((arr 40 fun _ => 5).set 39 8)]) (view 0 [40]) (fun x => decide (x % 2 ≠ 0)) = .ok (some [39]) := by decide +kernel
example : findLastIfNot (mem [((arr 40 fun _ => 5).set 4 16)]) (view 0 [40]) (fun x => decide (x % 2 ≠ 0)) = .ok (some [4]) := by decide +kernel
example : findLastIfNot (mem [((arr 40 fun _ => 5).set 0 6)]) (view 0 [40]) (fun x => decide (x % 2 ≠ 0)) = .ok (some [0]) := by decide +kernel

/-! `test/unit/algorithm/algos/binary_search/1d.cpp:19-637`, `test/unit/algorithm/algos/binary_search/2d.cpp:19-479`,
`test/unit/algorithm/algos/binary_search/4d.cpp:19-491` -/

example : answer (lowerBound .checked (mem [arr 20 fun i => i]) (view 0 [20]) (-2984612) (pureTest fun a b => decide (a < b))) = .ok (some [0]) := by decide +kernel
example : answer (lowerBound .checked (mem [arr 20 fun i => i]) (view 0 [20]) (0) (pureTest fun a b => decide (a < b))) = .ok (some [0]) := by decide +kernel
example : answer (lowerBound .checked (mem [arr 20 fun i => i]) (view 0 [20]) (-1) (pureTest fun a b => decide (a < b))) = .ok (some [0]) := by decide +kernel
example : answer (lowerBound .checked (mem [arr 20 fun i => i]) (view 0 [20]) (10) (pureTest fun a b => decide (a < b))) = .ok (some [10]) := by decide +kernel
example : answer (lowerBound .checked (mem [arr 20 fun i => i]) (view 0 [20]) (19) (pureTest fun a b => decide (a < b))) = .ok (some [19]) := by decide +kernel
example : answer (lowerBound .checked (mem [arr 20 fun i => i]) (view 0 [20]) (20) (pureTest fun a b => decide (a < b))) = .ok none := by decide +kernel
example : answer (lowerBound .checked (mem [arr 20 fun i => i]) (view 0 [20]) (784585) (pureTest fun a b => decide (a < b))) = .ok none := by decide +kernel
example : answer (lowerBound .checked (mem [arr 20 fun i => (i - 10) * 2]) (view 0 [20]) (-2984612) (pureTest fun a b => decide (a < (b - 10) * 2))) = .ok (some [0]) := by decide +kernel
example : answer (lowerBound .checked (mem [arr 20 fun i => (i - 10) * 2]) (view 0 [20]) (-1) (pureTest fun a b => decide (a < (b - 10) * 2))) = .ok (some [0]) := by decide +kernel
example : answer (lowerBound .checked (mem [arr 20 fun i => (i - 10) * 2]) (view 0 [20]) (0) (pureTest fun a b => decide (a < (b - 10) * 2))) = .ok (some [0]) := by decide +kernel
example : answer (lowerBound .checked (mem [arr 20 fun i => (i - 10) * 2]) (view 0 [20]) (9) (pureTest fun a b => decide (a < (b - 10) * 2))) = .ok (some [9]) := by decide +kernel
example : answer (lowerBound .checked (mem [arr 20 fun i => (i - 10) * 2]) (view 0 [20]) (19) (pureTest fun a b => decide (a < (b - 10) * 2))) = .ok (some [19]) := by decide +kernel
example : answer (lowerBound .checked (mem [arr 20 fun i => (i - 10) * 2]) (view 0 [20]) (20) (pureTest fun a b => decide (a < (b - 10) * 2))) = .ok none := by decide +kernel
example : answer (lowerBound .checked (mem [arr 20 fun i => (i - 10) * 2]) (view 0 [20]) (784585) (pureTest fun a b => decide (a < (b - 10) * 2))) = .ok none := by decide +kernel
example : answer (upperBound .checked (mem [arr 20 fun i => i]) (view 0 [20]) (-78495) (pureTest fun a b => decide (a < b))) = .ok (some [0]) := by decide +kernel
example : answer (upperBound .checked (mem [arr 20 fun i => i]) (view 0 [20]) (-1) (pureTest fun a b => decide (a < b))) = .ok (some [0]) := by decide +kernel
example : answer (upperBound .checked (mem [arr 20 fun i => i]) (view 0 [20]) (0) (pureTest fun a b => decide (a < b))) = .ok (some [1]) := by decide +kernel
example : answer (upperBound .checked (mem [arr 20 fun i => i]) (view 0 [20]) (18) (pureTest fun a b => decide (a < b))) = .ok (some [19]) := by decide +kernel
example : answer (upperBound .checked (mem [arr 20 fun i => i]) (view 0 [20]) (19) (pureTest fun a b => decide (a < b))) = .ok none := by decide +kernel
example : answer (upperBound .checked (mem [arr 20 fun i => i]) (view 0 [20]) (20) (pureTest fun a b => decide (a < b))) = .ok none := by decide +kernel
example : answer (upperBound .checked (mem [arr 20 fun i => i]) (view 0 [20]) (78456465) (pureTest fun a b => decide (a < b))) = .ok none := by decide +kernel
example : answer (upperBound .checked (mem [arr 20 fun i => i * 3 - 20]) (view 0 [20]) (-78495) (pureTest fun a b => decide (a * 3 - 20 < b))) = .ok (some [0]) := by decide +kernel
example : answer (upperBound .checked (mem [arr 20 fun i => i * 3 - 20]) (view 0 [20]) (-1) (pureTest fun a b => decide (a * 3 - 20 < b))) = .ok (some [0]) := by decide +kernel
example : answer (upperBound .checked (mem [arr 20 fun i => i * 3 - 20]) (view 0 [20]) (0) (pureTest fun a b => decide (a * 3 - 20 < b))) = .ok (some [1]) := by decide +kernel
example : answer (upperBound .checked (mem [arr 20 fun i => i * 3 - 20]) (view 0 [20]) (18) (pureTest fun a b => decide (a * 3 - 20 < b))) = .ok (some [19]) := by decide +kernel
example : answer (upperBound .checked (mem [arr 20 fun i => i * 3 - 20]) (view 0 [20]) (19) (pureTest fun a b => decide (a * 3 - 20 < b))) = .ok none := by decide +kernel
example : answer (upperBound .checked (mem [arr 20 fun i => i * 3 - 20]) (view 0 [20]) (20) (pureTest fun a b => decide (a * 3 - 20 < b))) = .ok none := by decide +kernel
example : answer (upperBound .checked (mem [arr 20 fun i => i * 3 - 20]) (view 0 [20]) (78456465) (pureTest fun a b => decide (a * 3 - 20 < b))) = .ok none := by decide +kernel
example : answer (binarySearch .checked (mem [arr 20 fun i => i * 3]) (view 0 [20]) (-895) (pureTest fun a b => decide (a < b))) = .ok false := by decide +kernel
example : answer (binarySearch .checked (mem [arr 20 fun i => i * 3]) (view 0 [20]) (-1) (pureTest fun a b => decide (a < b))) = .ok false := by decide +kernel
example : answer (binarySearch .checked (mem [arr 20 fun i => i * 3]) (view 0 [20]) (0) (pureTest fun a b => decide (a < b))) = .ok true := by decide +kernel
example : answer (binarySearch .checked (mem [arr 20 fun i => i * 3]) (view 0 [20]) (53) (pureTest fun a b => decide (a < b))) = .ok false := by decide +kernel
example : answer (binarySearch .checked (mem [arr 20 fun i => i * 3]) (view 0 [20]) (54) (pureTest fun a b => decide (a < b))) = .ok true := by decide +kernel
example : answer (binarySearch .checked (mem [arr 20 fun i => i * 3]) (view 0 [20]) (55) (pureTest fun a b => decide (a < b))) = .ok false := by decide +kernel
example : answer (binarySearch .checked (mem [arr 20 fun i => i * 3]) (view 0 [20]) (56) (pureTest fun a b => decide (a < b))) = .ok false := by decide +kernel
example : answer (binarySearch .checked (mem [arr 20 fun i => i * 3]) (view 0 [20]) (57) (pureTest fun a b => decide (a < b))) = .ok true := by decide +kernel
example : answer (binarySearch .checked (mem [arr 20 fun i => i * 3]) (view 0 [20]) (60) (pureTest fun a b => decide (a < b))) = .ok false := by decide +kernel
example : answer (binarySearch .checked (mem [arr 20 fun i => i * 3]) (view 0 [20]) (6000) (pureTest fun a b => decide (a < b))) = .ok false := by decide +kernel
example : answer (binarySearch .checked (mem [arr 20 fun i => i * 3]) (view 0 [20]) (6001) (pureTest fun a b => decide (a < b))) = .ok false := by decide +kernel
example : answer (lowerBound .checked (mem [arr 96 fun i => i]) (view 0 [8, 12]) (-2984612) (pureTest fun a b => decide (a < b))) = .ok (some [0, 0]) := by decide +kernel
example : answer (lowerBound .checked (mem [arr 96 fun i => i]) (view 0 [8, 12]) (0) (pureTest fun a b => decide (a < b))) = .ok (some [0, 0]) := by decide +kernel
example : answer (lowerBound .checked (mem [arr 96 fun i => i]) (view 0 [8, 12]) (-1) (pureTest fun a b => decide (a < b))) = .ok (some [0, 0]) := by decide +kernel
example : answer (lowerBound .checked (mem [arr 96 fun i => i]) (view 0 [8, 12]) (10) (pureTest fun a b => decide (a < b))) = .ok (some [0, 10]) := by decide +kernel
example : answer (lowerBound .checked (mem [arr 96 fun i => i]) (view 0 [8, 12]) (95) (pureTest fun a b => decide (a < b))) = .ok (some [7, 11]) := by decide +kernel
example : answer (lowerBound .checked (mem [arr 96 fun i => i]) (view 0 [8, 12]) (96) (pureTest fun a b => decide (a < b))) = .ok none := by decide +kernel
example : answer (lowerBound .checked (mem [arr 96 fun i => i]) (view 0 [8, 12]) (784661) (pureTest fun a b => decide (a < b))) = .ok none := by decide +kernel
example : answer (lowerBound .checked (mem [arr 96 fun i => (i - 10) * 2]) (view 0 [8, 12]) (-2984612) (pureTest fun a b => decide (a < (b - 10) * 2))) = .ok (some [0, 0]) := by decide +kernel
example : answer (lowerBound .checked (mem [arr 96 fun i => (i - 10) * 2]) (view 0 [8, 12]) (-1) (pureTest fun a b => decide (a < (b - 10) * 2))) = .ok (some [0, 0]) := by decide +kernel
example : answer (lowerBound .checked (mem [arr 96 fun i => (i - 10) * 2]) (view 0 [8, 12]) (0) (pureTest fun a b => decide (a < (b - 10) * 2))) = .ok (some [0, 0]) := by decide +kernel
example : answer (lowerBound .checked (mem [arr 96 fun i => (i - 10) * 2]) (view 0 [8, 12]) (9) (pureTest fun a b => decide (a < (b - 10) * 2))) = .ok (some [0, 9]) := by decide +kernel
example : answer (lowerBound .checked (mem [arr 96 fun i => (i - 10) * 2]) (view 0 [8, 12]) (95) (pureTest fun a b => decide (a < (b - 10) * 2))) = .ok (some [7, 11]) := by decide +kernel
example : answer (lowerBound .checked (mem [arr 96 fun i => (i - 10) * 2]) (view 0 [8, 12]) (96) (pureTest fun a b => decide (a < (b - 10) * 2))) = .ok none := by decide +kernel
example : answer (lowerBound .checked (mem [arr 96 fun i => (i - 10) * 2]) (view 0 [8, 12]) (784661) (pureTest fun a b => decide (a < (b - 10) * 2))) = .ok none := by decide +kernel
example : answer (upperBound .checked (mem [arr 96 fun i => i]) (view 0 [8, 12]) (-78495) (pureTest fun a b => decide (a < b))) = .ok (some [0, 0]) := by decide +kernel
example : answer (upperBound .checked (mem [arr 96 fun i => i]) (view 0 [8, 12]) (-1) (pureTest fun a b => decide (a < b))) = .ok (some [0, 0]) := by decide +kernel
example : answer (upperBound .checked (mem [arr 96 fun i => i]) (view 0 [8, 12]) (0) (pureTest fun a b => decide (a < b))) = .ok (some [0, 1]) := by decide +kernel
example : answer (upperBound .checked (mem [arr 96 fun i => i]) (view 0 [8, 12]) (94) (pureTest fun a b => decide (a < b))) = .ok (some [7, 11]) := by decide +kernel
example : answer (upperBound .checked (mem [arr 96 fun i => i]) (view 0 [8, 12]) (95) (pureTest fun a b => decide (a < b))) = .ok none := by decide +kernel
example : answer (upperBound .checked (mem [arr 96 fun i => i]) (view 0 [8, 12]) (96) (pureTest fun a b => decide (a < b))) = .ok none := by decide +kernel
example : answer (upperBound .checked (mem [arr 96 fun i => i]) (view 0 [8, 12]) (78456465) (pureTest fun a b => decide (a < b))) = .ok none := by decide +kernel
example : answer (upperBound .checked (mem [arr 96 fun i => i * 3 - 20]) (view 0 [8, 12]) (-78495) (pureTest fun a b => decide (a * 3 - 20 < b))) = .ok (some [0, 0]) := by decide +kernel
example : answer (upperBound .checked (mem [arr 96 fun i => i * 3 - 20]) (view 0 [8, 12]) (-1) (pureTest fun a b => decide (a * 3 - 20 < b))) = .ok (some [0, 0]) := by decide +kernel
example : answer (upperBound .checked (mem [arr 96 fun i => i * 3 - 20]) (view 0 [8, 12]) (0) (pureTest fun a b => decide (a * 3 - 20 < b))) = .ok (some [0, 1]) := by decide +kernel
example : answer (upperBound .checked (mem [arr 96 fun i => i * 3 - 20]) (view 0 [8, 12]) (94) (pureTest fun a b => decide (a * 3 - 20 < b))) = .ok (some [7, 11]) := by decide +kernel
example : answer (upperBound .checked (mem [arr 96 fun i => i * 3 - 20]) (view 0 [8, 12]) (95) (pureTest fun a b => decide (a * 3 - 20 < b))) = .ok none := by decide +kernel
example : answer (upperBound .checked (mem [arr 96 fun i => i * 3 - 20]) (view 0 [8, 12]) (96) (pureTest fun a b => decide (a * 3 - 20 < b))) = .ok none := by decide +kernel
example : answer (upperBound .checked (mem [arr 96 fun i => i * 3 - 20]) (view 0 [8, 12]) (78456465) (pureTest fun a b => decide (a * 3 - 20 < b))) = .ok none := by decide +kernel
example : answer (binarySearch .checked (mem [arr 96 fun i => i * 3]) (view 0 [8, 12]) (-895) (pureTest fun a b => decide (a < b))) = .ok false := by decide +kernel
example : answer (binarySearch .checked (mem [arr 96 fun i => i * 3]) (view 0 [8, 12]) (-1) (pureTest fun a b => decide (a < b))) = .ok false := by decide +kernel
example : answer (binarySearch .checked (mem [arr 96 fun i => i * 3]) (view 0 [8, 12]) (0) (pureTest fun a b => decide (a < b))) = .ok true := by decide +kernel
example : answer (binarySearch .checked (mem [arr 96 fun i => i * 3]) (view 0 [8, 12]) (281) (pureTest fun a b => decide (a < b))) = .ok false := by decide +kernel
example : answer (binarySearch .checked (mem [arr 96 fun i => i * 3]) (view 0 [8, 12]) (282) (pureTest fun a b => decide (a < b))) = .ok true := by decide +kernel
example : answer (binarySearch .checked (mem [arr 96 fun i => i * 3]) (view 0 [8, 12]) (283) (pureTest fun a b => decide (a < b))) = .ok false := by decide +kernel
example : answer (binarySearch .checked (mem [arr 96 fun i => i * 3]) (view 0 [8, 12]) (284) (pureTest fun a b => decide (a < b))) = .ok false := by decide +kernel
example : answer (binarySearch .checked (mem [arr 96 fun i => i * 3]) (view 0 [8, 12]) (285) (pureTest fun a b => decide (a < b))) = .ok true := by decide +kernel
example : answer (binarySearch .checked (mem [arr 96 fun i => i * 3]) (view 0 [8, 12]) (288) (pureTest fun a b => decide (a < b))) = .ok false := by decide +kernel
example : answer (binarySearch .checked (mem [arr 96 fun i => i * 3]) (view 0 [8, 12]) (6000) (pureTest fun a b => decide (a < b))) = .ok false := by decide +kernel
example : answer (binarySearch .checked (mem [arr 96 fun i => i * 3]) (view 0 [8, 12]) (6001) (pureTest fun a b => decide (a < b))) = .ok false := by decide +kernel
example : answer (lowerBound .checked (mem [arr 48 fun i => i]) (view 0 [2, 3, 4, 2]) (-2984612) (pureTest fun a b => decide (a < b))) = .ok (some [0, 0, 0, 0]) := by decide +kernel
example : answer (lowerBound .checked (mem [arr 48 fun i => i]) (view 0 [2, 3, 4, 2]) (0) (pureTest fun a b => decide (a < b))) = .ok (some [0, 0, 0, 0]) := by decide +kernel
example : answer (lowerBound .checked (mem [arr 48 fun i => i]) (view 0 [2, 3, 4, 2]) (-1) (pureTest fun a b => decide (a < b))) = .ok (some [0, 0, 0, 0]) := by decide +kernel
example : answer (lowerBound .checked (mem [arr 48 fun i => i]) (view 0 [2, 3, 4, 2]) (10) (pureTest fun a b => decide (a < b))) = .ok (some [0, 1, 1, 0]) := by decide +kernel
example : answer (lowerBound .checked (mem [arr 48 fun i => i]) (view 0 [2, 3, 4, 2]) (47) (pureTest fun a b => decide (a < b))) = .ok (some [1, 2, 3, 1]) := by decide +kernel
example : answer (lowerBound .checked (mem [arr 48 fun i => i]) (view 0 [2, 3, 4, 2]) (48) (pureTest fun a b => decide (a < b))) = .ok none := by decide +kernel
example : answer (lowerBound .checked (mem [arr 48 fun i => i]) (view 0 [2, 3, 4, 2]) (784613) (pureTest fun a b => decide (a < b))) = .ok none := by decide +kernel
example : answer (lowerBound .checked (mem [arr 48 fun i => (i - 10) * 2]) (view 0 [2, 3, 4, 2]) (-2984612) (pureTest fun a b => decide (a < (b - 10) * 2))) = .ok (some [0, 0, 0, 0]) := by decide +kernel
example : answer (lowerBound .checked (mem [arr 48 fun i => (i - 10) * 2]) (view 0 [2, 3, 4, 2]) (-1) (pureTest fun a b => decide (a < (b - 10) * 2))) = .ok (some [0, 0, 0, 0]) := by decide +kernel
example : answer (lowerBound .checked (mem [arr 48 fun i => (i - 10) * 2]) (view 0 [2, 3, 4, 2]) (0) (pureTest fun a b => decide (a < (b - 10) * 2))) = .ok (some [0, 0, 0, 0]) := by decide +kernel
example : answer (lowerBound .checked (mem [arr 48 fun i => (i - 10) * 2]) (view 0 [2, 3, 4, 2]) (9) (pureTest fun a b => decide (a < (b - 10) * 2))) = .ok (some [0, 1, 0, 1]) := by decide +kernel
example : answer (lowerBound .checked (mem [arr 48 fun i => (i - 10) * 2]) (view 0 [2, 3, 4, 2]) (47) (pureTest fun a b => decide (a < (b - 10) * 2))) = .ok (some [1, 2, 3, 1]) := by decide +kernel
example : answer (lowerBound .checked (mem [arr 48 fun i => (i - 10) * 2]) (view 0 [2, 3, 4, 2]) (48) (pureTest fun a b => decide (a < (b - 10) * 2))) = .ok none := by decide +kernel
example : answer (lowerBound .checked (mem [arr 48 fun i => (i - 10) * 2]) (view 0 [2, 3, 4, 2]) (784613) (pureTest fun a b => decide (a < (b - 10) * 2))) = .ok none := by decide +kernel
example : answer (upperBound .checked (mem [arr 48 fun i => i]) (view 0 [2, 3, 4, 2]) (-78495) (pureTest fun a b => decide (a < b))) = .ok (some [0, 0, 0, 0]) := by decide +kernel
example : answer (upperBound .checked (mem [arr 48 fun i => i]) (view 0 [2, 3, 4, 2]) (-1) (pureTest fun a b => decide (a < b))) = .ok (some [0, 0, 0, 0]) := by decide +kernel
example : answer (upperBound .checked (mem [arr 48 fun i => i]) (view 0 [2, 3, 4, 2]) (0) (pureTest fun a b => decide (a < b))) = .ok (some [0, 0, 0, 1]) := by decide +kernel
example : answer (upperBound .checked (mem [arr 48 fun i => i]) (view 0 [2, 3, 4, 2]) (46) (pureTest fun a b => decide (a < b))) = .ok (some [1, 2, 3, 1]) := by decide +kernel
example : answer (upperBound .checked (mem [arr 48 fun i => i]) (view 0 [2, 3, 4, 2]) (47) (pureTest fun a b => decide (a < b))) = .ok none := by decide +kernel
example : answer (upperBound .checked (mem [arr 48 fun i => i]) (view 0 [2, 3, 4, 2]) (48) (pureTest fun a b => decide (a < b))) = .ok none := by decide +kernel
example : answer (upperBound .checked (mem [arr 48 fun i => i]) (view 0 [2, 3, 4, 2]) (78456465) (pureTest fun a b => decide (a < b))) = .ok none := by decide +kernel
example : answer (upperBound .checked (mem [arr 48 fun i => i * 3 - 20]) (view 0 [2, 3, 4, 2]) (-78495) (pureTest fun a b => decide (a * 3 - 20 < b))) = .ok (some [0, 0, 0, 0]) := by decide +kernel
example : answer (upperBound .checked (mem [arr 48 fun i => i * 3 - 20]) (view 0 [2, 3, 4, 2]) (-1) (pureTest fun a b => decide (a * 3 - 20 < b))) = .ok (some [0, 0, 0, 0]) := by decide +kernel
example : answer (upperBound .checked (mem [arr 48 fun i => i * 3 - 20]) (view 0 [2, 3, 4, 2]) (0) (pureTest fun a b => decide (a * 3 - 20 < b))) = .ok (some [0, 0, 0, 1]) := by decide +kernel
example : answer (upperBound .checked (mem [arr 48 fun i => i * 3 - 20]) (view 0 [2, 3, 4, 2]) (46) (pureTest fun a b => decide (a * 3 - 20 < b))) = .ok (some [1, 2, 3, 1]) := by decide +kernel
example : answer (upperBound .checked (mem [arr 48 fun i => i * 3 - 20]) (view 0 [2, 3, 4, 2]) (47) (pureTest fun a b => decide (a * 3 - 20 < b))) = .ok none := by decide +kernel
example : answer (upperBound .checked (mem [arr 48 fun i => i * 3 - 20]) (view 0 [2, 3, 4, 2]) (48) (pureTest fun a b => decide (a * 3 - 20 < b))) = .ok none := by decide +kernel
example : answer (upperBound .checked (mem [arr 48 fun i => i * 3 - 20]) (view 0 [2, 3, 4, 2]) (78456465) (pureTest fun a b => decide (a * 3 - 20 < b))) = .ok none := by decide +kernel
example : answer (binarySearch .checked (mem [arr 48 fun i => i * 3]) (view 0 [2, 3, 4, 2]) (-895) (pureTest fun a b => decide (a < b))) = .ok false := by decide +kernel
example : answer (binarySearch .checked (mem [arr 48 fun i => i * 3]) (view 0 [2, 3, 4, 2]) (-1) (pureTest fun a b => decide (a < b))) = .ok false := by decide +kernel
example : answer (binarySearch .checked (mem [arr 48 fun i => i * 3]) (view 0 [2, 3, 4, 2]) (0) (pureTest fun a b => decide (a < b))) = .ok true := by decide +kernel
example : answer (binarySearch .checked (mem [arr 48 fun i => i * 3]) (view 0 [2, 3, 4, 2]) (137) (pureTest fun a b => decide (a < b))) = .ok false := by decide +kernel
example : answer (binarySearch .checked (mem [arr 48 fun i => i * 3]) (view 0 [2, 3, 4, 2]) (138) (pureTest fun a b => decide (a < b))) = .ok true := by decide +kernel
example : answer (binarySearch .checked (mem [arr 48 fun i => i * 3]) (view 0 [2, 3, 4, 2]) (139) (pureTest fun a b => decide (a < b))) = .ok false := by decide +kernel
example : answer (binarySearch .checked (mem [arr 48 fun i => i * 3]) (view 0 [2, 3, 4, 2]) (140) (pureTest fun a b => decide (a < b))) = .ok false := by decide +kernel
example : answer (binarySearch .checked (mem [arr 48 fun i => i * 3]) (view 0 [2, 3, 4, 2]) (141) (pureTest fun a b => decide (a < b))) = .ok true := by decide +kernel
example : answer (binarySearch .checked (mem [arr 48 fun i => i * 3]) (view 0 [2, 3, 4, 2]) (144) (pureTest fun a b => decide (a < b))) = .ok false := by decide +kernel
example : answer (binarySearch .checked (mem [arr 48 fun i => i * 3]) (view 0 [2, 3, 4, 2]) (6000) (pureTest fun a b => decide (a < b))) = .ok false := by decide +kernel
example : answer (binarySearch .checked (mem [arr 48 fun i => i * 3]) (view 0 [2, 3, 4, 2]) (6001) (pureTest fun a b => decide (a < b))) = .ok false := by decide +kernel
example : answer (lowerBound .checked (mem [[]]) (view 0 [0]) (-2984612) (pureTest fun a b => decide (a < b))) = .ok none := by decide +kernel
example : answer (upperBound .checked (mem [[]]) (view 0 [0]) (-2984612) (pureTest fun a b => decide (a < b))) = .ok none := by decide +kernel
example : answer (lowerBound .checked (mem [[]]) (view 0 [0]) (-1) (pureTest fun a b => decide (a < b))) = .ok none := by decide +kernel
example : answer (upperBound .checked (mem [[]]) (view 0 [0]) (-1) (pureTest fun a b => decide (a < b))) = .ok none := by decide +kernel
example : answer (lowerBound .checked (mem [[]]) (view 0 [0]) (0) (pureTest fun a b => decide (a < b))) = .ok none := by decide +kernel
example : answer (upperBound .checked (mem [[]]) (view 0 [0]) (0) (pureTest fun a b => decide (a < b))) = .ok none := by decide +kernel
example : answer (lowerBound .checked (mem [[]]) (view 0 [0]) (19) (pureTest fun a b => decide (a < b))) = .ok none := by decide +kernel
example : answer (upperBound .checked (mem [[]]) (view 0 [0]) (19) (pureTest fun a b => decide (a < b))) = .ok none := by decide +kernel
example : answer (lowerBound .checked (mem [[]]) (view 0 [0]) (20) (pureTest fun a b => decide (a < b))) = .ok none := by decide +kernel
example : answer (upperBound .checked (mem [[]]) (view 0 [0]) (20) (pureTest fun a b => decide (a < b))) = .ok none := by decide +kernel
example : answer (lowerBound .checked (mem [[]]) (view 0 [0]) (78456465) (pureTest fun a b => decide (a < b))) = .ok none := by decide +kernel
example : answer (upperBound .checked (mem [[]]) (view 0 [0]) (78456465) (pureTest fun a b => decide (a < b))) = .ok none := by decide +kernel

/-! `test/unit/algorithm/algos/predicates/1d.cpp:13-178`, `test/unit/algorithm/algos/predicates/2d.cpp:13-186`,
`test/unit/algorithm/algos/predicates/4d.cpp:13-202`: the answer, and the number of calls of the test. -/

/-- A test that counts its calls. -/
private def counting (f : Int → Bool) : Int → StateT Nat Res Bool := fun x k => .ok (f x, k + 1)

/-- Reading an element leaves the counter alone. -/
private def rd (m : Mem Int) (c : Container) : List Int → StateT Nat Res Int := fun is k => (·, k) <$> c.get m is

example : allOfM (rd (mem [(arr 61 fun i => i * 3)]) (view 0 [61])) (counting (fun x => decide (x % 3 = 0))) ([61] : Shape) 0 = .ok (true, 61) := by decide +kernel
example : allOfM (rd (mem [((arr 61 fun i => i * 3).set 30 8)]) (view 0 [61])) (counting (fun x => decide (x % 3 = 0))) ([61] : Shape) 0 = .ok (false, 31) := by decide +kernel
example : anyOfM (rd (mem [((arr 61 fun i => i * 2 + 1).set 30 222)]) (view 0 [61])) (counting (fun x => decide (x % 2 = 0))) ([61] : Shape) 0 = .ok (true, 31) := by decide +kernel
example : anyOfM (rd (mem [(arr 61 fun i => i * 2 + 1)]) (view 0 [61])) (counting (fun x => decide (x % 2 = 0))) ([61] : Shape) 0 = .ok (false, 61) := by decide +kernel
example : noneOfM (rd (mem [(arr 61 fun i => i * 2 + 1)]) (view 0 [61])) (counting (fun x => decide (x % 2 = 0))) ([61] : Shape) 0 = .ok (true, 61) := by decide +kernel
example : noneOfM (rd (mem [((arr 61 fun i => i * 2 + 1).set 30 222)]) (view 0 [61])) (counting (fun x => decide (x % 2 = 0))) ([61] : Shape) 0 = .ok (false, 31) := by decide +kernel
example : allOfM (rd (mem [(arr 35 fun i => i * 3)]) (view 0 [7, 5])) (counting (fun x => decide (x % 3 = 0))) ([7, 5] : Shape) 0 = .ok (true, 35) := by decide +kernel
example : allOfM (rd (mem [((arr 35 fun i => i * 3).set 17 8)]) (view 0 [7, 5])) (counting (fun x => decide (x % 3 = 0))) ([7, 5] : Shape) 0 = .ok (false, 18) := by decide +kernel
example : anyOfM (rd (mem [((arr 35 fun i => i * 2 + 1).set 17 222)]) (view 0 [7, 5])) (counting (fun x => decide (x % 2 = 0))) ([7, 5] : Shape) 0 = .ok (true, 18) := by decide +kernel
example : anyOfM (rd (mem [(arr 35 fun i => i * 2 + 1)]) (view 0 [7, 5])) (counting (fun x => decide (x % 2 = 0))) ([7, 5] : Shape) 0 = .ok (false, 35) := by decide +kernel
example : noneOfM (rd (mem [(arr 35 fun i => i * 2 + 1)]) (view 0 [7, 5])) (counting (fun x => decide (x % 2 = 0))) ([7, 5] : Shape) 0 = .ok (true, 35) := by decide +kernel
example : noneOfM (rd (mem [((arr 35 fun i => i * 2 + 1).set 17 222)]) (view 0 [7, 5])) (counting (fun x => decide (x % 2 = 0))) ([7, 5] : Shape) 0 = .ok (false, 18) := by decide +kernel
example : allOfM (rd (mem [(arr 24 fun i => i * 3)]) (view 0 [3, 2, 2, 2])) (counting (fun x => decide (x % 3 = 0))) ([3, 2, 2, 2] : Shape) 0 = .ok (true, 24) := by decide +kernel
example : allOfM (rd (mem [((arr 24 fun i => i * 3).set 12 8)]) (view 0 [3, 2, 2, 2])) (counting (fun x => decide (x % 3 = 0))) ([3, 2, 2, 2] : Shape) 0 = .ok (false, 13) := by decide +kernel
example : anyOfM (rd (mem [((arr 24 fun i => i * 2 + 1).set 12 222)]) (view 0 [3, 2, 2, 2])) (counting (fun x => decide (x % 2 = 0))) ([3, 2, 2, 2] : Shape) 0 = .ok (true, 13) := by decide +kernel
example : anyOfM (rd (mem [(arr 24 fun i => i * 2 + 1)]) (view 0 [3, 2, 2, 2])) (counting (fun x => decide (x % 2 = 0))) ([3, 2, 2, 2] : Shape) 0 = .ok (false, 24) := by decide +kernel
example : noneOfM (rd (mem [(arr 24 fun i => i * 2 + 1)]) (view 0 [3, 2, 2, 2])) (counting (fun x => decide (x % 2 = 0))) ([3, 2, 2, 2] : Shape) 0 = .ok (true, 24) := by decide +kernel
example : noneOfM (rd (mem [((arr 24 fun i => i * 2 + 1).set 12 222)]) (view 0 [3, 2, 2, 2])) (counting (fun x => decide (x % 2 = 0))) ([3, 2, 2, 2] : Shape) 0 = .ok (false, 13) := by decide +kernel
example : count (mem [((((arr 71 fun i => i * 2).set 10 8).set 34 8).set 61 8).set 62 8]) (view 0 [71]) 8 = .ok 5 := by decide +kernel
example : countIf (mem [(((arr 71 fun i => i * 2).set 54 8).set 61 8).set 62 8]) (view 0 [71]) (fun e => decide (e ≤ 100)) = .ok 54 := by decide +kernel

/-! `test/unit/algorithm/algos/reduce/1d.cpp`, `test/unit/algorithm/algos/reduce/2d.cpp`,
`test/unit/algorithm/algos/reduce/4d.cpp` -/

example : reduceSum (mem [arr 47 fun i => i * 3]) (view 0 [47]) = .ok 3243 := by decide +kernel
example : reduce (mem [arr 47 fun i => i * 3]) (view 0 [47]) (fun a b => a + b * 2) 17 = .ok 6503 := by decide +kernel
example : reduceSum (mem [arr 45 fun i => i * 3]) (view 0 [9, 5]) = .ok 2970 := by decide +kernel
example : reduce (mem [arr 45 fun i => i * 3]) (view 0 [9, 5]) (fun a b => a + b * 2) 17 = .ok 5957 := by decide +kernel
example : reduceSum (mem [arr 24 fun i => i * 3]) (view 0 [3, 2, 2, 2]) = .ok 828 := by decide +kernel
example : reduce (mem [arr 24 fun i => i * 3]) (view 0 [3, 2, 2, 2]) (fun a b => a + b * 2) 17 = .ok 1673 := by decide +kernel

/-! `test/unit/algorithm/algos/generator/1d.cpp:13-118`, `test/unit/algorithm/algos/generator/2d.cpp:13-144`,
`test/unit/algorithm/algos/generator/4d.cpp:13-158` -/

example : after (fill (mem [arr 14 fun _ => 0]) (view 0 [14]) 8) 0 14 = some [some 8, some 8, some 8, some 8, some 8, some 8, some 8, some 8, some 8, some 8, some 8, some 8, some 8, some 8] := by decide +kernel
example : after (generate (mem [arr 14 fun _ => 0]) (fun is => is.foldl (fun a i => a * 100 + i) 0) (view 0 [14])) 0 14 = some [some 0, some 1, some 2, some 3, some 4, some 5, some 6, some 7, some 8, some 9, some 10, some 11, some 12, some 13] := by decide +kernel
example : after (iota0 (mem [arr 14 fun _ => 0]) (view 0 [14])) 0 14 = some [some 0, some 1, some 2, some 3, some 4, some 5, some 6, some 7, some 8, some 9, some 10, some 11, some 12, some 13] := by decide +kernel
example : after (iota (mem [arr 14 fun _ => 0]) (view 0 [14]) (· + 1) id (87 : Int)) 0 14 = some [some 87, some 88, some 89, some 90, some 91, some 92, some 93, some 94, some 95, some 96, some 97, some 98, some 99, some 100] := by decide +kernel
example : after (iotaStep (mem [arr 14 fun _ => 0]) (view 0 [14]) id (87 : Int) 5) 0 14 = some [some 87, some 92, some 97, some 102, some 107, some 112, some 117, some 122, some 127, some 132, some 137, some 142, some 147, some 152] := by decide +kernel
example : after (fill (mem [arr 16 fun _ => 0]) (view 0 [4, 4]) 8) 0 16 = some [some 8, some 8, some 8, some 8, some 8, some 8, some 8, some 8, some 8, some 8, some 8, some 8, some 8, some 8, some 8, some 8] := by decide +kernel
example : after (generate (mem [arr 16 fun _ => 0]) (fun is => is.foldl (fun a i => a * 100 + i) 0) (view 0 [4, 4])) 0 16 = some [some 0, some 1, some 2, some 3, some 100, some 101, some 102, some 103, some 200, some 201, some 202, some 203, some 300, some 301, some 302, some 303] := by decide +kernel
example : after (iota0 (mem [arr 16 fun _ => 0]) (view 0 [4, 4])) 0 16 = some [some 0, some 1, some 2, some 3, some 4, some 5, some 6, some 7, some 8, some 9, some 10, some 11, some 12, some 13, some 14, some 15] := by decide +kernel
example : after (iota (mem [arr 16 fun _ => 0]) (view 0 [4, 4]) (· + 1) id (87 : Int)) 0 16 = some [some 87, some 88, some 89, some 90, some 91, some 92, some 93, some 94, some 95, some 96, some 97, some 98, some 99, some 100, some 101, some 102] := by decide +kernel
example : after (iotaStep (mem [arr 16 fun _ => 0]) (view 0 [4, 4]) id (87 : Int) 5) 0 16 = some [some 87, some 92, some 97, some 102, some 107, some 112, some 117, some 122, some 127, some 132, some 137, some 142, some 147, some 152, some 157, some 162] := by decide +kernel
example : after (fill (mem [arr 18 fun _ => 0]) (view 0 [2, 3, 1, 3]) 8) 0 18 = some [some 8, some 8, some 8, some 8, some 8, some 8, some 8, some 8, some 8, some 8, some 8, some 8, some 8, some 8, some 8, some 8, some 8, some 8] := by decide +kernel
example : after (generate (mem [arr 18 fun _ => 0]) (fun is => is.foldl (fun a i => a * 100 + i) 0) (view 0 [2, 3, 1, 3])) 0 18 = some [some 0, some 1, some 2, some 10000, some 10001, some 10002, some 20000, some 20001, some 20002, some 1000000, some 1000001, some 1000002, some 1010000, some 1010001, some 1010002, some 1020000, some 1020001, some 1020002] := by decide +kernel
example : after (iota0 (mem [arr 18 fun _ => 0]) (view 0 [2, 3, 1, 3])) 0 18 = some [some 0, some 1, some 2, some 3, some 4, some 5, some 6, some 7, some 8, some 9, some 10, some 11, some 12, some 13, some 14, some 15, some 16, some 17] := by decide +kernel
example : after (iota (mem [arr 18 fun _ => 0]) (view 0 [2, 3, 1, 3]) (· + 1) id (87 : Int)) 0 18 = some [some 87, some 88, some 89, some 90, some 91, some 92, some 93, some 94, some 95, some 96, some 97, some 98, some 99, some 100, some 101, some 102, some 103, some 104] := by decide +kernel
example : after (iotaStep (mem [arr 18 fun _ => 0]) (view 0 [2, 3, 1, 3]) id (87 : Int) 5) 0 18 = some [some 87, some 92, some 97, some 102, some 107, some 112, some 117, some 122, some 127, some 132, some 137, some 142, some 147, some 152, some 157, some 162, some 167, some 172] := by decide +kernel

/-! `test/unit/algorithm/algos/copy/1d.cpp:15-137`, `test/unit/algorithm/algos/copy/2d.cpp`, `test/unit/algorithm/algos/copy/4d.cpp` -/

example : after (copy (mem [arr 14 fun i => i, arr 14 fun _ => 0]) (view 1 [14]) (view 0 [14]) 0) 1 14 = some [some 0, some 1, some 2, some 3, some 4, some 5, some 6, some 7, some 8, some 9, some 10, some 11, some 12, some 13] := by decide +kernel
example : after (copyIf (mem [arr 14 fun i => i, arr 14 fun _ => 0]) (fun e => decide (e < 11)) (view 1 [14]) (view 0 [14])) 1 14 = some [some 0, some 1, some 2, some 3, some 4, some 5, some 6, some 7, some 8, some 9, some 10, some 0, some 0, some 0] := by decide +kernel
example : after (copy (mem [arr 1 fun i => i, arr 1 fun _ => 0]) (view 1 [1]) (view 0 [1]) 0) 1 1 = some [some 0] := by decide +kernel
example : after (copyIf (mem [arr 1 fun i => i, arr 1 fun _ => 0]) (fun e => decide (e < 11)) (view 1 [1]) (view 0 [1])) 1 1 = some [some 0] := by decide +kernel
example : after (copy (mem [arr 0 fun i => i, arr 0 fun _ => 0]) (view 1 [0]) (view 0 [0]) 0) 1 0 = some [] := by decide +kernel
example : after (copyIf (mem [arr 0 fun i => i, arr 0 fun _ => 0]) (fun e => decide (e < 11)) (view 1 [0]) (view 0 [0])) 1 0 = some [] := by decide +kernel
example : after (copy (mem [arr 16 fun i => i, arr 16 fun _ => 0]) (view 1 [4, 4]) (view 0 [4, 4]) 0) 1 16 = some [some 0, some 1, some 2, some 3, some 4, some 5, some 6, some 7, some 8, some 9, some 10, some 11, some 12, some 13, some 14, some 15] := by decide +kernel
example : after (copyIf (mem [arr 16 fun i => i, arr 16 fun _ => 0]) (fun e => decide (e < 11)) (view 1 [4, 4]) (view 0 [4, 4])) 1 16 = some [some 0, some 1, some 2, some 3, some 4, some 5, some 6, some 7, some 8, some 9, some 10, some 0, some 0, some 0, some 0, some 0] := by decide +kernel
example : after (copy (mem [arr 18 fun i => i, arr 18 fun _ => 0]) (view 1 [2, 3, 1, 3]) (view 0 [2, 3, 1, 3]) 0) 1 18 = some [some 0, some 1, some 2, some 3, some 4, some 5, some 6, some 7, some 8, some 9, some 10, some 11, some 12, some 13, some 14, some 15, some 16, some 17] := by decide +kernel
example : after (copyIf (mem [arr 18 fun i => i, arr 18 fun _ => 0]) (fun e => decide (e < 11)) (view 1 [2, 3, 1, 3]) (view 0 [2, 3, 1, 3])) 1 18 = some [some 0, some 1, some 2, some 3, some 4, some 5, some 6, some 7, some 8, some 9, some 10, some 0, some 0, some 0, some 0, some 0, some 0, some 0] := by decide +kernel

/-! `test/unit/algorithm/algos/replace/1d.cpp`, `test/unit/algorithm/algos/replace/2d.cpp:14-54`, `test/unit/algorithm/algos/replace/4d.cpp` -/

example : after (do let m ← replace (mem [arr 14 fun i => i]) (view 0 [14]) 5 3; let m ← replace m (view 0 [14]) 8 4; replace m (view 0 [14]) 10 7825) 0 14 = some [some 0, some 1, some 2, some 3, some 4, some 3, some 6, some 7, some 4, some 9, some 7825, some 11, some 12, some 13] := by decide +kernel
example : after (replaceIf (mem [arr 14 fun i => i]) (view 0 [14]) (fun e => decide (e < 5) || decide (e = 9)) 3) 0 14 = some [some 3, some 3, some 3, some 3, some 3, some 5, some 6, some 7, some 8, some 3, some 10, some 11, some 12, some 13] := by decide +kernel
example : after (do let m ← replace (mem [arr 16 fun i => i]) (view 0 [4, 4]) 5 3; let m ← replace m (view 0 [4, 4]) 8 4; replace m (view 0 [4, 4]) 10 7825) 0 16 = some [some 0, some 1, some 2, some 3, some 4, some 3, some 6, some 7, some 4, some 9, some 7825, some 11, some 12, some 13, some 14, some 15] := by decide +kernel
example : after (replaceIf (mem [arr 16 fun i => i]) (view 0 [4, 4]) (fun e => decide (e < 5) || decide (e = 9)) 3) 0 16 = some [some 3, some 3, some 3, some 3, some 3, some 5, some 6, some 7, some 8, some 3, some 10, some 11, some 12, some 13, some 14, some 15] := by decide +kernel
example : after (do let m ← replace (mem [arr 18 fun i => i]) (view 0 [2, 3, 1, 3]) 5 3; let m ← replace m (view 0 [2, 3, 1, 3]) 8 4; replace m (view 0 [2, 3, 1, 3]) 10 7825) 0 18 = some [some 0, some 1, some 2, some 3, some 4, some 3, some 6, some 7, some 4, some 9, some 7825, some 11, some 12, some 13, some 14, some 15, some 16, some 17] := by decide +kernel
example : after (replaceIf (mem [arr 18 fun i => i]) (view 0 [2, 3, 1, 3]) (fun e => decide (e < 5) || decide (e = 9)) 3) 0 18 = some [some 3, some 3, some 3, some 3, some 3, some 5, some 6, some 7, some 8, some 3, some 10, some 11, some 12, some 13, some 14, some 15, some 16, some 17] := by decide +kernel

/-! `test/unit/algorithm/algos/transform.cpp:14-179` -/

example : after (transform (mem [arr 14 fun i => i * 3, arr 14 fun i => i * 2, arr 14 fun _ => 0]) (fun l => l.sum) (view 2 [14])
    [view 0 [14], view 1 [14]]) 2 14 = some [some 0, some 5, some 10, some 15, some 20, some 25, some 30, some 35, some 40, some 45, some 50, some 55, some 60, some 65] := by decide +kernel
example : after (transform (mem [arr 16 fun i => i * 3, arr 16 fun i => i * 2, arr 16 fun _ => 0]) (fun l => l.sum) (view 2 [4, 4])
    [view 0 [4, 4], view 1 [4, 4]]) 2 16 = some [some 0, some 5, some 10, some 15, some 20, some 25, some 30, some 35, some 40, some 45, some 50, some 55, some 60, some 65, some 70, some 75] := by decide +kernel
example : after (transform (mem [arr 18 fun i => i * 3, arr 18 fun i => i * 2, arr 18 fun _ => 0]) (fun l => l.sum) (view 2 [2, 3, 1, 3])
    [view 0 [2, 3, 1, 3], view 1 [2, 3, 1, 3]]) 2 18 = some [some 0, some 5, some 10, some 15, some 20, some 25, some 30, some 35, some 40, some 45, some 50, some 55, some 60, some 65, some 70, some 75, some 80, some 85] := by decide +kernel

/-! `test/unit/algorithm/algos/for_each.cpp:14-392` -/

/-! The functions of these tests count in variables outside of them: the state of the model after the last call. -/

example : forEachObj (fun k _ => .ok (k + 1)) 0 [4, 6, 3] = .ok (72 : Nat) := by decide +kernel -- lines 14-22

/-- Count and sum of the elements. -/
private def tally (m : Mem Int) (c : Container) : Option (Option (Nat × Int)) :=
  match forEachElems (fun (k, t) ps m => do
      let x ← load m (ps.headD ⟨9, 9⟩)
      pure ((k + 1, t + x), m)) ((0, 0) : Nat × Int) c [] m with
  | .ok r => some r.1.returned
  | _ => none

/-- Count and sum of the elements, which are replaced by a number made of the position. -/
private def renumber (m : Mem Int) (c : Container) (n : Nat) (f : List Int → Int) :
    Option (Option (Nat × Int) × List (Option Int)) :=
  match forEachIndex (fun (k, t) p is m => do
      let x ← load m p
      let m ← store m p (f is)
      pure ((k + 1, t + x), m)) ((0, 0) : Nat × Int) c m with
  | .ok r => some (r.1.returned, content r.2 0 n)
  | _ => none

example : tally (mem [arr 20 fun i => i * 2]) (view 0 [20]) = some (some (20, 380)) := by decide +kernel
example : tally (mem [arr 0 fun i => i * 2]) (view 0 [0]) = some (some (0, 0)) := by decide +kernel
example : tally (mem [arr 24 fun i => i * 2]) (view 0 [6, 4]) = some (some (24, 552)) := by decide +kernel
example : tally (mem [arr 24 fun i => i * 2]) (view 0 [3, 4, 2]) = some (some (24, 552)) := by decide +kernel
example : tally (mem [arr 24 fun i => i * 2]) (view 0 [2, 2, 3, 2]) = some (some (24, 552)) := by decide +kernel
example : renumber (mem [arr 14 fun i => i * 2]) (view 0 [14]) 14 (fun is => is.headD 0 + 1)
    = some (some (14, 182), [some 1, some 2, some 3, some 4, some 5, some 6, some 7, some 8, some 9, some 10, some 11, some 12, some 13, some 14]) := by decide +kernel
example : renumber (mem [arr 0 fun i => i * 2]) (view 0 [0]) 0 (fun is => is.headD 0 + 1)
    = some (some (0, 0), []) := by decide +kernel
example : renumber (mem [arr 16 fun i => i * 2]) (view 0 [4, 4]) 16 (fun is => is.foldl (fun a i => a * 100 + i) 0)
    = some (some (16, 240), [some 0, some 1, some 2, some 3, some 100, some 101, some 102, some 103, some 200, some 201, some 202, some 203, some 300, some 301, some 302, some 303]) := by decide +kernel
example : renumber (mem [arr 18 fun i => i * 2]) (view 0 [2, 3, 3]) 18 (fun is => is.foldl (fun a i => a * 100 + i) 0)
    = some (some (18, 306), [some 0, some 1, some 2, some 100, some 101, some 102, some 200, some 201, some 202, some 10000, some 10001, some 10002, some 10100, some 10101, some 10102, some 10200, some 10201, some 10202]) := by decide +kernel
example : renumber (mem [arr 18 fun i => i * 2]) (view 0 [2, 3, 1, 3]) 18 (fun is => is.foldl (fun a i => a * 100 + i) 0)
    = some (some (18, 306), [some 0, some 1, some 2, some 10000, some 10001, some 10002, some 20000, some 20001, some 20002, some 1000000, some 1000001, some 1000002, some 1010000, some 1010001, some 1010002, some 1020000, some 1020001, some 1020002]) := by decide +kernel

/-! `test/unit/algorithm/algos/numeric/1d.cpp:15-365`, `test/unit/algorithm/algos/numeric/2d.cpp:15-380`,
`test/unit/algorithm/algos/numeric/4d.cpp:15-404`, with whole numbers. -/

example : transformReduce (mem [arr 14 fun i => i, arr 14 fun i => i * 3 + 10]) (view 0 [14]) (view 1 [14]) 11 (· + ·) (· * ·) = .ok 3378 := by decide +kernel
example : innerProduct .checked (mem [arr 14 fun i => i, arr 14 fun i => i * 3 + 10]) (view 0 [14]) (view 1 [14]) 87 (· + ·) (· * ·) = .ok 3454 := by decide +kernel
example : after (transformExclusiveScan (mem [arr 14 fun i => i * 3 + 10, arr 14 fun _ => 0]) (view 0 [14]) (view 1 [14]) 87 (fun r d => r * 2 - d) (· * 2)) 1 14 = some [some 87, some 154, some 282, some 532, some 1026, some 2008, some 3966, some 7876, some 15690, some 31312, some 62550, some 125020, some 249954, some 499816] := by decide +kernel
example : after (transformInclusiveScan (mem [arr 14 fun i => i * 3 + 10, arr 14 fun _ => 0]) (view 0 [14]) (view 1 [14]) 5 (fun r d => r * 2 - d) (· * 2)) 1 14 = some [some (-10), some (-46), some (-124), some (-286), some (-616), some (-1282), some (-2620), some (-5302), some (-10672), some (-21418), some (-42916), some (-85918), some (-171928), some (-343954)] := by decide +kernel
example : after (exclusiveScan (mem [arr 14 fun i => i * 3 + 10, arr 14 fun _ => 0]) (view 0 [14]) (view 1 [14]) 7 (fun r d => r * 2 - d)) 1 14 = some [some 7, some 4, some (-5), some (-26), some (-71), some (-164), some (-353), some (-734), some (-1499), some (-3032), some (-6101), some (-12242), some (-24527), some (-49100)] := by decide +kernel
example : after (exclusiveScan (mem [arr 14 fun i => i * 3 + 10, arr 14 fun _ => 0]) (view 0 [14]) (view 1 [14]) 0 (· + ·)) 1 14 = some [some 0, some 10, some 23, some 39, some 58, some 80, some 105, some 133, some 164, some 198, some 235, some 275, some 318, some 364] := by decide +kernel
example : after (inclusiveScan (mem [arr 14 fun i => i * 3 + 10, arr 14 fun _ => 0]) (view 0 [14]) (view 1 [14]) 0 (fun r d => r + d * 2452)) 1 14 = some [some 24520, some 56396, some 95628, some 142216, some 196160, some 257460, some 326116, some 402128, some 485496, some 576220, some 674300, some 779736, some 892528, some 1012676] := by decide +kernel
example : after (inclusiveScan (mem [arr 14 fun i => i * 3 + 10, arr 14 fun _ => 0]) (view 0 [14]) (view 1 [14]) 0 (· + ·)) 1 14 = some [some 10, some 23, some 39, some 58, some 80, some 105, some 133, some 164, some 198, some 235, some 275, some 318, some 364, some 413] := by decide +kernel
example : transformReduce (mem [arr 16 fun i => i, arr 16 fun i => i * 3 + 10]) (view 0 [4, 4]) (view 1 [4, 4]) 11 (· + ·) (· * ·) = .ok 4931 := by decide +kernel
example : innerProduct .checked (mem [arr 16 fun i => i, arr 16 fun i => i * 3 + 10]) (view 0 [4, 4]) (view 1 [4, 4]) 87 (· + ·) (· * ·) = .ok 5007 := by decide +kernel
example : after (transformExclusiveScan (mem [arr 16 fun i => i * 3 + 10, arr 16 fun _ => 0]) (view 0 [4, 4]) (view 1 [4, 4]) 87 (fun r d => r * 2 - d) (· * 2)) 1 16 = some [some 87, some 154, some 282, some 532, some 1026, some 2008, some 3966, some 7876, some 15690, some 31312, some 62550, some 125020, some 249954, some 499816, some 999534, some 1998964] := by decide +kernel
example : after (transformInclusiveScan (mem [arr 16 fun i => i * 3 + 10, arr 16 fun _ => 0]) (view 0 [4, 4]) (view 1 [4, 4]) 5 (fun r d => r * 2 - d) (· * 2)) 1 16 = some [some (-10), some (-46), some (-124), some (-286), some (-616), some (-1282), some (-2620), some (-5302), some (-10672), some (-21418), some (-42916), some (-85918), some (-171928), some (-343954), some (-688012), some (-1376134)] := by decide +kernel
example : after (exclusiveScan (mem [arr 16 fun i => i * 3 + 10, arr 16 fun _ => 0]) (view 0 [4, 4]) (view 1 [4, 4]) 7 (fun r d => r * 2 - d)) 1 16 = some [some 7, some 4, some (-5), some (-26), some (-71), some (-164), some (-353), some (-734), some (-1499), some (-3032), some (-6101), some (-12242), some (-24527), some (-49100), some (-98249), some (-196550)] := by decide +kernel
example : after (exclusiveScan (mem [arr 16 fun i => i * 3 + 10, arr 16 fun _ => 0]) (view 0 [4, 4]) (view 1 [4, 4]) 0 (· + ·)) 1 16 = some [some 0, some 10, some 23, some 39, some 58, some 80, some 105, some 133, some 164, some 198, some 235, some 275, some 318, some 364, some 413, some 465] := by decide +kernel
example : after (inclusiveScan (mem [arr 16 fun i => i * 3 + 10, arr 16 fun _ => 0]) (view 0 [4, 4]) (view 1 [4, 4]) 0 (fun r d => r + d * 2452)) 1 16 = some [some 24520, some 56396, some 95628, some 142216, some 196160, some 257460, some 326116, some 402128, some 485496, some 576220, some 674300, some 779736, some 892528, some 1012676, some 1140180, some 1275040] := by decide +kernel
example : after (inclusiveScan (mem [arr 16 fun i => i * 3 + 10, arr 16 fun _ => 0]) (view 0 [4, 4]) (view 1 [4, 4]) 0 (· + ·)) 1 16 = some [some 10, some 23, some 39, some 58, some 80, some 105, some 133, some 164, some 198, some 235, some 275, some 318, some 364, some 413, some 465, some 520] := by decide +kernel
example : transformReduce (mem [arr 18 fun i => i, arr 18 fun i => i * 3 + 10]) (view 0 [2, 3, 1, 3]) (view 1 [2, 3, 1, 3]) 11 (· + ·) (· * ·) = .ok 6896 := by decide +kernel
example : innerProduct .checked (mem [arr 18 fun i => i, arr 18 fun i => i * 3 + 10]) (view 0 [2, 3, 1, 3]) (view 1 [2, 3, 1, 3]) 87 (· + ·) (· * ·) = .ok 6972 := by decide +kernel
example : after (transformExclusiveScan (mem [arr 18 fun i => i * 3 + 10, arr 18 fun _ => 0]) (view 0 [2, 3, 1, 3]) (view 1 [2, 3, 1, 3]) 87 (fun r d => r * 2 - d) (· * 2)) 1 18 = some [some 87, some 154, some 282, some 532, some 1026, some 2008, some 3966, some 7876, some 15690, some 31312, some 62550, some 125020, some 249954, some 499816, some 999534, some 1998964, some 3997818, some 7995520] := by decide +kernel
example : after (transformInclusiveScan (mem [arr 18 fun i => i * 3 + 10, arr 18 fun _ => 0]) (view 0 [2, 3, 1, 3]) (view 1 [2, 3, 1, 3]) 5 (fun r d => r * 2 - d) (· * 2)) 1 18 = some [some (-10), some (-46), some (-124), some (-286), some (-616), some (-1282), some (-2620), some (-5302), some (-10672), some (-21418), some (-42916), some (-85918), some (-171928), some (-343954), some (-688012), some (-1376134), some (-2752384), some (-5504890)] := by decide +kernel
example : after (exclusiveScan (mem [arr 18 fun i => i * 3 + 10, arr 18 fun _ => 0]) (view 0 [2, 3, 1, 3]) (view 1 [2, 3, 1, 3]) 7 (fun r d => r * 2 - d)) 1 18 = some [some 7, some 4, some (-5), some (-26), some (-71), some (-164), some (-353), some (-734), some (-1499), some (-3032), some (-6101), some (-12242), some (-24527), some (-49100), some (-98249), some (-196550), some (-393155), some (-786368)] := by decide +kernel
example : after (exclusiveScan (mem [arr 18 fun i => i * 3 + 10, arr 18 fun _ => 0]) (view 0 [2, 3, 1, 3]) (view 1 [2, 3, 1, 3]) 0 (· + ·)) 1 18 = some [some 0, some 10, some 23, some 39, some 58, some 80, some 105, some 133, some 164, some 198, some 235, some 275, some 318, some 364, some 413, some 465, some 520, some 578] := by decide +kernel
example : after (inclusiveScan (mem [arr 18 fun i => i * 3 + 10, arr 18 fun _ => 0]) (view 0 [2, 3, 1, 3]) (view 1 [2, 3, 1, 3]) 0 (fun r d => r + d * 2452)) 1 18 = some [some 24520, some 56396, some 95628, some 142216, some 196160, some 257460, some 326116, some 402128, some 485496, some 576220, some 674300, some 779736, some 892528, some 1012676, some 1140180, some 1275040, some 1417256, some 1566828] := by decide +kernel
example : after (inclusiveScan (mem [arr 18 fun i => i * 3 + 10, arr 18 fun _ => 0]) (view 0 [2, 3, 1, 3]) (view 1 [2, 3, 1, 3]) 0 (· + ·)) 1 18 = some [some 10, some 23, some 39, some 58, some 80, some 105, some 133, some 164, some 198, some 235, some 275, some 318, some 364, some 413, some 465, some 520, some 578, some 639] := by decide +kernel

end Kwk.Tests.Algorithms
