import Verif.Props.Ownership
import Verif.Model.AnyAllocator
import Verif.Model.StackTable

/-!
# Lemmas for `Props/Memory.lean`
-/

namespace Kwk
open Spec

variable {α : Type}

theorem copyIn_ok (m : Mem α) (src : Ptr) (n : Nat) (val : Nat → α)
    (h : ∀ k : Nat, k < n → m (src.add k) = some (val k)) :
    copyIn m src n = .ok ((List.range n).map val) := by
  induction n with
  | zero => rfl
  | succ n ih =>
    rw [copyIn, ih fun k hk => h k (by omega)]
    simp only [bind, Except.bind, load_ok (h n (by omega))]
    rw [List.range_succ, List.map_append]; rfl

/-- A static table whose cells list the elements in row-major order. -/
theorem stack_read {t : StackTable α} {val : List Int → α}
    (hc : t.cells = (positions t.shape).map val) {p : List Int} (hp : InBox t.shape p) :
    t.read p = .ok (val p) := by
  unfold StackTable.read
  have hb := lin_bounds hp
  simp only [asStride_eq_sfx]
  rw [if_neg (by omega), hc, List.getElem?_map, positions_getElem? hp]
  rfl

theorem stack_ofSettings {m : Mem α} {c : Container} {val : List Int → α} (h : c.WF)
    (hrm : RowMajorStrides c.shape c.strides) (hn : NonNeg c.shape) (he : Elems c m val) :
    StackTable.ofSettings m c.settings = .ok ⟨(positions c.shape).map val, c.shape⟩ := by
  unfold StackTable.ofSettings
  have hlen : (numel c.shape).toNat = (positions c.shape).length := by
    have := positions_length hn
    rw [numel_eq_prod h.ne]; omega
  have hne : ∀ k : Nat, k < (numel c.shape).toNat → ∃ p, (positions c.shape)[k]? = some p := by
    intro k hk
    exact ⟨_, List.getElem?_eq_getElem (by omega)⟩
  by_cases h0 : (positions c.shape) = []
  · have : (numel c.shape).toNat = 0 := by rw [hlen, h0]; rfl
    simp only [Container.settings, this, copyIn, h0]; rfl
  have hd : Nonempty α := by
    obtain ⟨p, hp⟩ := List.exists_mem_of_ne_nil _ h0
    exact ⟨val p⟩
  have key := copyIn_ok m c.base (numel c.shape).toNat
    (fun k => val (((positions c.shape)[k]?).getD [])) (by
      intro k hk
      obtain ⟨p, hp⟩ := hne k hk
      have hin : InBox c.shape p := mem_positions.1 (List.mem_of_getElem? hp)
      have hlin : linearize (sfx c.shape) p = k := by
        have e := congrArg (fun l => l[k]?) (positions_map_lin hn)
        simp only [List.getElem?_map, hp, Option.map_some, upTo_getElem?] at e
        split at e
        · simpa using e
        · cases e
      simp only [hp, Option.getD_some]
      rw [← hlin]
      exact elems_cell h hrm he hin)
  simp only [Container.settings, bind, Except.bind, key]
  congr 2
  apply List.ext_getElem?
  intro k
  simp only [List.getElem?_map]
  by_cases hk : k < (numel c.shape).toNat
  · obtain ⟨p, hp⟩ := hne k hk
    simp [hk, hp]
  · have : (positions c.shape)[k]? = none := by rw [List.getElem?_eq_none]; omega
    simp [hk, this]

theorem swapCells_spec (a b : List α) (n k : Nat) (ha : a.length = n) (hb : b.length = n) (hk : k ≤ n) :
    swapCells a b k = (b.take k ++ a.drop k, a.take k ++ b.drop k) := by
  induction k with
  | zero => rfl
  | succ k ih =>
    rw [swapCells, ih (by omega)]
    have e1 : (b.take k ++ a.drop k)[k]? = some (a[k]'(by omega)) := by
      rw [List.getElem?_append_right (by simp)]
      simp [show k ≤ b.length by omega]
    have e2 : (a.take k ++ b.drop k)[k]? = some (b[k]'(by omega)) := by
      rw [List.getElem?_append_right (by simp)]
      simp [show k ≤ a.length by omega]
    have s1 : ∀ (u v : List α) (x : α) (hu : u.length = n) (hv : v.length = n),
        (u.take k ++ v.drop k).set k x = u.take k ++ x :: v.drop (k + 1) := by
      intro u v x hu hv
      rw [List.set_append_right _ _ (by simp)]
      simp only [List.length_take, show min k u.length = k by omega, Nat.sub_self]
      rw [List.drop_eq_getElem_cons (by omega)]
      rfl
    simp only [e1, e2]
    rw [s1 b a _ hb ha, s1 a b _ ha hb]
    have t1 : ∀ (u : List α) (hu : u.length = n), u.take (k + 1) = u.take k ++ [u[k]'(by omega)] := by
      intro u hu
      rw [List.take_succ_eq_append_getElem (by omega)]
    simp only [t1 a ha, t1 b hb, List.append_assoc, List.singleton_append]

theorem clone_full (a : AnyAlloc) (i : AllocId) (h : a.target = .ok i) : a.clone = .ok a := by
  induction a with
  | empty => cases h
  | holds a => rfl
  | nested a ih => simp only [AnyAlloc.clone, ih h]; rfl

end Kwk
