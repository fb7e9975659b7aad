import Verif.Lemmas.Positions
import Verif.Model.Loops
import Verif.Spec.Seq

/-! # Helper lemmas: nested loops are sequencing over `positions` -/

namespace Kwk
open Spec

/-- The integers `a, a+1, …, d-1`. -/
def fromTo (a d : Int) : List Int := (List.range (d - a).toNat).map fun k => a + Int.ofNat k

theorem fromTo_zero (d : Int) : fromTo 0 d = upTo d := by
  simp [fromTo, upTo]

theorem fromTo_cons {a d : Int} (h : a < d) : fromTo a d = a :: fromTo (a + 1) d := by
  unfold fromTo
  obtain ⟨n, hn⟩ : ∃ n : Nat, (d - a).toNat = n + 1 := ⟨(d - a).toNat - 1, by omega⟩
  rw [hn, show (d - (a + 1)).toNat = n by omega, List.range_succ_eq_map]
  simp only [List.map_cons, List.map_map]
  congr 1
  · simp
  · apply List.map_congr_left; intro k _; simp; omega

theorem fromTo_nil {a d : Int} (h : ¬ a < d) : fromTo a d = [] := by
  unfold fromTo; rw [show (d - a).toNat = 0 by omega]; rfl

section
variable {m : Type → Type} [Monad m]

theorem forLoopAux_eq (ext : Int) (body : Int → m Unit) (fuel : Nat) (i : Int)
    (h : (ext - i).toNat ≤ fuel) : forLoopAux ext body fuel i = runAll body (fromTo i ext) := by
  induction fuel generalizing i with
  | zero => rw [fromTo_nil (by omega)]; rfl
  | succ fuel ih =>
    unfold forLoopAux
    split
    · next hi => rw [fromTo_cons hi, runAll, ih (i + 1) (by omega)]
    · next hi => rw [fromTo_nil hi]; rfl

theorem forLoop_eq (ext : Int) (body : Int → m Unit) : forLoop ext body = runAll body (upTo ext) := by
  rw [forLoop, forLoopAux_eq _ _ _ _ (by omega), fromTo_zero]

theorem runAll_map {α β : Type} (l : List α) (g : α → β) (f : β → m Unit) :
    runAll f (l.map g) = runAll (fun a => f (g a)) l := by
  induction l with
  | nil => rfl
  | cons a l ih => simp [runAll, ih]

theorem runUntil_map {α β : Type} (l : List α) (g : α → β) (f : β → m Bool) :
    runUntil f (l.map g) = runUntil (fun a => f (g a)) l := by
  induction l with
  | nil => rfl
  | cons a l ih => simp [runUntil, ih]

theorem untilLoopAux_true (ext : Int) (body : Int → Bool → m Bool) (fuel : Nat) (i : Int) :
    untilLoopAux ext body fuel i true = pure true := by
  cases fuel <;> simp [untilLoopAux]

theorem untilLoopAux_eq (ext : Int) (body : Int → Bool → m Bool) (fuel : Nat) (i : Int)
    (h : (ext - i).toNat ≤ fuel) :
    untilLoopAux ext body fuel i false = runUntil (fun i => body i false) (fromTo i ext) := by
  induction fuel generalizing i with
  | zero => rw [fromTo_nil (by omega)]; rfl
  | succ fuel ih =>
    unfold untilLoopAux
    by_cases hi : i < ext
    · rw [fromTo_cons hi, runUntil]
      simp only [hi, decide_true, Bool.not_false, Bool.and_self, if_true]
      congr 1
      funext b
      cases b
      · exact ih (i + 1) (by omega)
      · exact untilLoopAux_true ..
    · rw [fromTo_nil hi]; simp [hi, runUntil]

variable [LawfulMonad m]

theorem runAll_append {α : Type} (l₁ l₂ : List α) (f : α → m Unit) :
    runAll f (l₁ ++ l₂) = (do runAll f l₁; runAll f l₂) := by
  induction l₁ with
  | nil => simp [runAll]
  | cons a l ih => simp [runAll, ih]

theorem runAll_flatMap {α β : Type} (l : List α) (g : α → List β) (f : β → m Unit) :
    runAll f (l.flatMap g) = runAll (fun a => runAll f (g a)) l := by
  induction l with
  | nil => rfl
  | cons a l ih => rw [List.flatMap_cons, runAll_append, runAll, ih]

theorem forEach_layers (f : List Int → m Unit) (ds is : List Int) :
    kumiFoldLeft
      (fun (acc : List Int → m Unit) (ext : Int) => fun is => forLoop ext fun i => acc (is ++ [i]))
      ds f is = runAll (fun p => f (is ++ p)) (positions ds) := by
  induction ds generalizing is with
  | nil => simp [kumiFoldLeft, positions, runAll]
  | cons d ds ih =>
    simp only [kumiFoldLeft, List.foldr_cons] at ih ⊢
    rw [forLoop_eq]
    simp only [ih, positions, runAll_flatMap, runAll_map, List.append_assoc, List.singleton_append]

theorem forEach_eq (f : List Int → m Unit) (ds : List Int) :
    forEach f ds = runAll f (positions ds) := by
  rw [forEach, forEach_layers]; simp

theorem runUntil_append {α : Type} (l₁ l₂ : List α) (f : α → m Bool) :
    runUntil f (l₁ ++ l₂) = (do let b ← runUntil f l₁; if b then pure true else runUntil f l₂) := by
  induction l₁ with
  | nil => simp [runUntil]
  | cons a l ih =>
    simp only [List.cons_append, runUntil, ih, bind_assoc]
    congr 1
    funext b
    cases b <;> simp

theorem runUntil_flatMap {α β : Type} (l : List α) (g : α → List β) (f : β → m Bool) :
    runUntil f (l.flatMap g) = runUntil (fun a => runUntil f (g a)) l := by
  induction l with
  | nil => rfl
  | cons a l ih => rw [List.flatMap_cons, runUntil_append, runUntil, ih]

theorem forUntil_layers (f : List Int → m Bool) (ds is : List Int) :
    kumiFoldLeft
      (fun (acc : List Int → Bool → m Bool) (ext : Int) =>
        fun is found => untilLoop ext (fun i found => acc (is ++ [i]) found) found)
      ds (fun is _ => f is) is false = runUntil (fun p => f (is ++ p)) (positions ds) := by
  induction ds generalizing is with
  | nil =>
    simp only [kumiFoldLeft, List.foldr_nil, positions, runUntil, List.append_nil]
    conv_lhs => rw [← bind_pure (f is)]
    congr 1; funext b; cases b <;> rfl
  | cons d ds ih =>
    simp only [kumiFoldLeft, List.foldr_cons] at ih ⊢
    rw [untilLoop, untilLoopAux_eq _ _ _ _ (by omega), fromTo_zero]
    simp only [ih, positions, runUntil_flatMap, runUntil_map, List.append_assoc, List.singleton_append]

theorem forUntil_eq (f : List Int → m Bool) (ds : List Int) :
    forUntil f ds = runUntil f (positions ds) := by
  rw [forUntil, forUntil_layers]; simp

end

theorem foldlM_eq_runAll {σ α : Type} (f : α → σ → Res σ) (l : List α) (s : σ) :
    (do let r ← runAll (m := StateT σ Res) (fun a => fun s => do let s' ← f a s; pure ((), s')) l s
        pure r.2) = l.foldlM (fun s a => f a s) s := by
  induction l generalizing s with
  | nil => rfl
  | cons a l ih =>
    simp only [runAll, List.foldlM_cons]
    simp only [bind, StateT.bind, Except.bind] at ih ⊢
    cases f a s with
    | error e => rfl
    | ok s' => exact ih s'

theorem loopState_eq {σ : Type} (f : List Int → σ → Res σ) (ds : List Int) (s : σ) :
    loopState f ds s = (positions ds).foldlM (fun s p => f p s) s := by
  rw [loopState, forEach_eq, foldlM_eq_runAll]

end Kwk
