import Verif.Lemmas.Contiguous

/-!
# Lemmas for `Props/Views.lean`
-/

namespace Kwk
open Spec

variable {α : Type}

theorem rowMajor_default {c : Container} (h : c.Default) (hn : NonNeg c.shape) (m : Mem α) :
    rowMajor c m = (upTo c.shape.prod).map fun k => load m (c.base.add k) := by
  rw [← positions_map_lin hn, List.map_map, rowMajor]
  refine List.map_congr_left fun p hp => ?_
  rw [Container.get, addr_default h (mem_positions.1 hp)]; rfl

theorem viewOfSettings_default {o : Settings} (h : o.size ≠ []) : (viewOfSettings o).Default where
  ne := h
  len := (ofShape_default (b := o.source) h).len
  dflt := fun _ => rfl
  nospec := rfl

/-- Two containers of default layout with the same data pointer and shape have the same elements. -/
theorem default_get_eq {c d : Container} (hc : c.Default) (hd : d.Default) (hb : c.base = d.base)
    (hs : c.shape = d.shape) (m : Mem α) (p : List Int) (hp : InBox c.shape p) :
    c.get m p = d.get m p := by
  rw [Container.get, Container.get, addr_default hc hp, addr_default hd (hs ▸ hp), hb, hs]

end Kwk
