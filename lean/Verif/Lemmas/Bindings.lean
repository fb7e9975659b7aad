import Verif.Lemmas.Prefilled
import Verif.Spec.Bindings

/-!
# Lemmas about structured bindings
-/

namespace Kwk
open Spec

theorem getCall_eq {d : Desc} {i : Nat} (h : i < d.length) (c l : Bool) : getCall d c l i = some (getMember d c i) := by
  rw [getCall, if_pos h]
  cases c <;> cases l <;> rfl

theorem getMember_dyn {d : Desc} {i : Nat} (h : hasStorage d i = true) (c : Bool) : getMember d c i = ⟨.cell (slot d i), c⟩ := by
  rw [getMember, index_getD, if_pos h]

theorem getMember_static {d : Desc} {i : Nat} (h : hasStorage d i = false) (c : Bool) : (getMember d c i).isConst = true := by
  rw [getMember, index_getD, if_neg (by simp [h])]
  dsimp only
  split <;> rfl

theorem entityOf_isSome (d : BindDecl) (x : InitExpr) : (entityOf d x).isSome = true ↔ Declarable d x := by
  rcases d with ⟨c, r⟩; rcases x with ⟨l, k⟩
  cases c <;> cases r <;> cases l <;> cases k <;> simp [entityOf, Declarable]

theorem entityOf_const {d : BindDecl} {x : InitExpr} {e : Entity} (h : entityOf d x = some e) :
    (e.isConst = true ↔ ReadOnly d x) ∧ (e.copy = true ↔ d.ref = .none) := by
  rcases d with ⟨c, r⟩; rcases x with ⟨l, k⟩
  cases c <;> cases r <;> cases l <;> cases k <;> simp [entityOf] at h <;> subst h <;> simp [ReadOnly]

/-- The name of one axis. -/
def nameOf (d : Desc) (c : Bool) (i : Nat) : Option BoundName := bindRef c (getMember d c i)

theorem nameOf_isSome (d : Desc) (c : Bool) (i : Nat) : (nameOf d c i).isSome = true ↔ c = true ∨ hasStorage d i = true := by
  rw [nameOf, bindRef]
  cases h : hasStorage d i
  · rw [getMember_static h]; cases c <;> simp
  · rw [getMember_dyn h]; cases c <;> simp

theorem nameOf_eq {d : Desc} {c : Bool} {i : Nat} {b : BoundName} (h : nameOf d c i = some b) : b = ⟨(getMember d c i).target, !c⟩ := by
  rw [nameOf, bindRef] at h
  split at h
  · cases h
  · exact (Option.some.inj h).symm

theorem mapM_some_iff {α β : Type} (f : α → Option β) (l : List α) : (l.mapM f).isSome = true ↔ ∀ a ∈ l, (f a).isSome = true := by
  induction l with
  | nil => simp
  | cons a l ih =>
    rw [List.mapM_cons]
    cases h : f a with
    | none => simp [h]
    | some b =>
      cases h' : l.mapM f with
      | none => simp [h'] at ih ⊢; simpa [h] using ih
      | some r => simp [h'] at ih ⊢; simpa [h] using ih

theorem mapM_some_get {α β : Type} {f : α → Option β} {l : List α} {r : List β} (h : l.mapM f = some r) :
    r.length = l.length ∧ ∀ (i : Nat) (a : α), l[i]? = some a → ∃ b, r[i]? = some b ∧ f a = some b := by
  induction l generalizing r with
  | nil => simp at h; subst h; simp
  | cons a l ih =>
    rw [List.mapM_cons] at h
    cases hf : f a with
    | none => simp [hf] at h
    | some b =>
      cases h' : l.mapM f with
      | none => simp [hf, h'] at h
      | some r' =>
        simp [hf, h'] at h
        subst h
        obtain ⟨h1, h2⟩ := ih h'
        refine ⟨by simp [h1], fun i a' ha => ?_⟩
        cases i with
        | zero => simp at ha; subst ha; exact ⟨b, by simp, hf⟩
        | succ i => simpa using h2 i a' (by simpa using ha)

theorem decompose_eq (decl : BindDecl) (x : InitExpr) (n : Nat) (d : Desc) :
    decompose decl x n d = (entityOf decl x).bind fun e => if n = d.length then (List.range n).mapM (nameOf d e.isConst) else none := by
  rw [decompose]
  cases entityOf decl x with
  | none => rfl
  | some e =>
    simp only [Option.bind_eq_bind, Option.bind_some, elementConst]
    by_cases h : n = d.length
    · rw [if_pos (show n = tupleSize d from h), if_pos h]
      subst h
      have : ∀ l : List Nat, (∀ i ∈ l, i < d.length) →
          (l.mapM fun i => (getCall d e.isConst e.lvalueRef i).bind fun r => bindRef e.isConst r) = l.mapM (nameOf d e.isConst) := by
        intro l
        induction l with
        | nil => intro _; rfl
        | cons a l ih =>
          intro hl
          rw [List.mapM_cons, List.mapM_cons, ih fun i hi => hl i (List.mem_cons_of_mem _ hi), getCall_eq (hl a List.mem_cons_self)]
          rfl
      exact this _ fun i hi => List.mem_range.1 hi
    · rw [if_neg (show ¬ n = tupleSize d from h), if_neg h]

theorem foldLeft_split (f : List Content → Content → Content) (l init : List Content) :
    ∃ p : List Content, kumiFoldLeft (fun a m => f a m :: a) l init = p ++ init ∧ p.length = l.length := by
  rw [kumiFoldLeft]
  induction l with
  | nil => exact ⟨[], rfl, rfl⟩
  | cons c l ih =>
    obtain ⟨p, h1, h2⟩ := ih
    rw [List.foldr_cons, h1]
    exact ⟨_ :: p, rfl, by simp [h2]⟩

/-- Default strides: one for each axis, the last one is a compile-time value. -/
theorem strideDesc_last {d : Desc} (h0 : d ≠ []) : (strideDesc d).length = d.length ∧ ∃ a ∈ strideDesc d, a.content = .static 1 := by
  obtain ⟨b, d, rfl⟩ := List.exists_cons_of_ne_nil h0
  rw [strideDesc]
  split
  · refine ⟨by simp, ⟨b.id, .static 1⟩, ?_, rfl⟩
    simp
  · simp only [List.tail_cons]
    obtain ⟨p, h1, h2⟩ := foldLeft_split (fun a m => Content.mul m (a.headD (.static 1))) (d.map (·.content)) [.static 1]
    rw [h1]
    rw [List.length_map] at h2
    refine ⟨by simp [h2], ?_⟩
    have hl : d.length < (List.zipWith (fun (a : Axis) c => (⟨a.id, c⟩ : Axis)) (b :: d) (p ++ [Content.static 1])).length := by
      simp [h2]
    refine ⟨_, List.getElem_mem hl, ?_⟩
    rw [List.getElem_zipWith, List.getElem_append_right (by omega)]
    simp [h2]

end Kwk
