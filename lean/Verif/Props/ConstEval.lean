import Verif.Model.ConstEval
import Verif.Lemmas.Loops
import Verif.Lemmas.Index

/-!
# Property C156: algorithms in constant expressions
-/

namespace Kwk
open Spec

/-- A loop makes the calls of its function once per position. -/
theorem loop_calls (body : List Fn) (s : Shape) :
    loopCalls body s = .loop :: (List.replicate (positions s).length body).flatten := by
  have key : ∀ (ps : List (List Int)) (l : List Fn),
      (runAll (m := StateM (List Fn)) (fun _ => modify (· ++ body)) ps l).2 = l ++ (List.replicate ps.length body).flatten := by
    intro ps
    induction ps with
    | nil => intro l; simp [runAll, pure, StateT.pure]
    | cons p ps ih =>
      intro l
      have : (runAll (m := StateM (List Fn)) (fun _ => modify (· ++ body)) (p :: ps) l).2 =
          (runAll (m := StateM (List Fn)) (fun _ => modify (· ++ body)) ps (l ++ body)).2 := rfl
      rw [this, ih, List.length_cons, List.replicate_succ, List.flatten_cons, List.append_assoc]
  rw [loopCalls, forEach_eq, key, List.nil_append]

namespace Spec

/-- The number of containers that a call names. -/
def containersOf : AlgoCall → Nat
  | .forEachShape _ => 0
  | .forEach _ more => more + 1
  | .forEachIndex _ | .reduce _ | .byReduce _ | .noneOf _ | .fill _ | .generate _ | .replaceIf _ | .replace _ => 1
  | .transformReduce _ | .innerProduct _ _ | .copy _ | .copyIf _ | .transformScan _ | .scan _ => 2
  | .transform _ more => more + 2

/-- The positions over which a call walks. -/
def walked : AlgoCall → List Int
  | .forEachShape s | .forEach s _ | .forEachIndex s | .reduce s | .byReduce s | .noneOf s | .transformReduce s
  | .innerProduct s _ | .fill s | .generate s | .transform s _ | .copy s | .copyIf s | .replaceIf s | .replace s
  | .transformScan s | .scan s => s

/-- What the call asks for is met: the containers of an inner product have the same shape. -/
def Proper : AlgoCall → Prop
  | .innerProduct s1 s2 => s1 = s2
  | _ => True

end Spec

private theorem count_loop (n : Nat) (k : Nat) :
    ((List.replicate n (List.replicate k Fn.access ++ [.callback])).flatten).count .access = n * k := by
  induction n with
  | zero => simp
  | succ n ih =>
    rw [List.replicate_succ, List.flatten_cons, List.count_append, ih]
    simp [List.count_append]
    ring

private theorem count_callbacks (n : Nat) (k : Nat) :
    ((List.replicate n (List.replicate k Fn.access ++ [.callback])).flatten).count .callback = n := by
  induction n with
  | zero => simp
  | succ n ih =>
    rw [List.replicate_succ, List.flatten_cons, List.count_append, ih]
    simp [List.count_append, List.count_replicate]
    omega

/-- **C156** (elements) An algorithm takes one element of each of its containers, and calls the function of the user once, at each
position. -/
theorem C156_elements (md : Mode) (a : AlgoCall) :
    (a.calls md).count .access = containersOf a * (positions (walked a)).length ∧
    (a.calls md).count .callback = (positions (walked a)).length := by
  have h1 := fun n => count_loop n 1
  have h2 := fun n => count_loop n 2
  have g1 := fun n => count_callbacks n 1
  have g2 := fun n => count_callbacks n 2
  simp only [List.replicate_zero, List.nil_append, List.replicate_succ, List.cons_append] at h1 h2 g1 g2
  cases a with
  | forEachShape s =>
    simp [AlgoCall.calls, mapShapeCalls, loop_calls, containersOf, walked, List.count_replicate]
  | forEach s more =>
    simp [AlgoCall.calls, mapShapeCalls, loop_calls, containersOf, walked, count_loop, count_callbacks, Nat.mul_comm]
  | transform s more =>
    simp [AlgoCall.calls, mapCalls, mapShapeCalls, loop_calls, containersOf, walked, count_loop, count_callbacks, Nat.mul_comm,
      List.count_replicate]
  | innerProduct s1 s2 =>
    cases md <;> by_cases h : shapeEq s1 s2 = true <;>
      simp [AlgoCall.calls, mapCalls, mapShapeCalls, loop_calls, containersOf, walked, h2, g2, h, Nat.mul_comm,
        List.replicate_succ]
  | _ =>
    simp [AlgoCall.calls, mapCalls, mapIndexCalls, mapShapeCalls, loop_calls, containersOf, walked, h1, h2, g1, g2,
      List.replicate_succ, Nat.mul_comm]

/-- An inner product of two containers with six positions takes twelve elements. -/
example : (AlgoCall.calls .checked (.innerProduct [2, 3] [2, 3])).count .access = 12 ∧
    (AlgoCall.calls .checked (.transform [2, 2] 1)).count .access = 12 := by decide

/-- **C156** The full property: an algorithm, which is declared `constexpr`, can be used in a constant expression on constant
containers and shapes. -/
def C156_statement : Prop := ∀ (md : Mode) (a : AlgoCall), Proper a → a.isConstant md = true

/-- **C156** (exact, partial) A call of an algorithm can be evaluated in a constant expression if and only if it is `for_each` over a
shape, or `for_each` or `for_each_index` over containers without elements.  Missing: all other algorithms (false), which pass their
containers through `ctx.in`, `ctx.out` or `ctx.inout`, and all elements, because the call operator of containers is not
`constexpr` either. -/
theorem C156_exact_partial (md : Mode) (a : AlgoCall) :
    a.isConstant md = true ↔
      (∃ s, a = .forEachShape s) ∨
      (∃ s, (a = .forEachIndex s ∨ ∃ more, a = .forEach s more) ∧ ∀ p, ¬ InBox s p) := by
  have hpos : ∀ s : List Int, (∀ p, ¬ InBox s p) ↔ (positions s).length = 0 := by
    intro s
    rw [List.length_eq_zero_iff, List.eq_nil_iff_forall_not_mem]
    exact forall_congr' fun p => not_congr mem_positions.symm
  have hall : ∀ (n : Nat) (l : List Fn), (List.replicate n l).flatten.all Fn.isConstexpr = (decide (n = 0) || l.all Fn.isConstexpr) := by
    intro n l
    induction n with
    | zero => rfl
    | succ n ih =>
      rw [List.replicate_succ, List.flatten_cons, List.all_append, ih]
      cases l.all Fn.isConstexpr <;> simp
  cases a with
  | forEachShape s => simp [AlgoCall.isConstant, AlgoCall.calls, mapShapeCalls, loop_calls, Fn.isConstexpr]
  | forEach s more =>
    simp [AlgoCall.isConstant, AlgoCall.calls, mapShapeCalls, loop_calls, hall, Fn.isConstexpr, hpos, List.replicate_succ]
  | forEachIndex s =>
    simp [AlgoCall.isConstant, AlgoCall.calls, mapShapeCalls, loop_calls, hall, Fn.isConstexpr, hpos]
  | innerProduct s1 s2 =>
    cases md <;> simp [AlgoCall.isConstant, AlgoCall.calls, Fn.isConstexpr]
  | _ => simp [AlgoCall.isConstant, AlgoCall.calls, Fn.isConstexpr]

/-- A walk over the positions of a shape is a constant expression, a walk over the elements of a container is not. -/
example : (AlgoCall.forEachShape [2, 3]).isConstant .checked = true ∧ (AlgoCall.forEach [2, 0] 1).isConstant .checked = true ∧
    (AlgoCall.forEach [2, 3] 0).isConstant .unchecked = false ∧ (AlgoCall.reduce [0]).isConstant .unchecked = false := by decide

/-- **C156** (negation) The sum of a container of one element, and even of an empty one, is not a constant expression. -/
theorem C156_false : ¬ C156_statement ∧ ∀ md s, (AlgoCall.reduce s).isConstant md = false := by
  have h : ∀ md s, (AlgoCall.reduce s).isConstant md = false := fun md s => by
    simp [AlgoCall.isConstant, AlgoCall.calls, Fn.isConstexpr]
  refine ⟨fun g => ?_, h⟩
  have := g .checked (.reduce [1]) trivial
  rw [h] at this
  exact absurd this (by decide)

end Kwk
