import Verif.Model.Ownership
import Verif.Model.Algos
import Verif.Model.Slicer

/-!
# Model: programs that use tables and algorithms

The operations of `Model/Ownership.lean` and calls of algorithms whose arguments are tables or slices of tables.
-/

namespace Kwk

variable {α : Type}

/-- A table seen as a container, as the algorithms see it (`get_data()`, default layout);
`include/kwk/container/table.hpp:40-66`, `include/kwk/container/container.hpp:128-138`.  The null pointer is a pointer to a
block that does not exist: any access is a fault. -/
def World.container (w : World α) (t : Table) : Container := Container.ofShape (t.ptr.getD ⟨w.next, 0⟩) t.shape

/-- What a program can do with tables and algorithms. The algorithms of `include/kwk/algorithm/algos/generator.hpp:19-87`,
`include/kwk/algorithm/algos/transform.hpp:16-24`, `include/kwk/algorithm/algos/copy.hpp:21-39`,
`include/kwk/algorithm/algos/replace.hpp:17-37`, `include/kwk/algorithm/algos/numeric.hpp:142-217`. -/
inductive Act (α : Type) where
  /-- an operation on table objects -/
  | op (o : Op α)
  /-- `fill(x, v)` -/
  | fill (x : Nat) (v : α)
  /-- `generate(g, x)` -/
  | generate (x : Nat) (g : List Int → α)
  /-- `iota(x, v)`; `incr` is the increment -/
  | iota (x : Nat) (incr : α → α) (v : α)
  /-- `replace_if(x, f, v)` -/
  | replaceIf (x : Nat) (f : α → Bool) (v : α)
  /-- `transform(g, x, ys...)` -/
  | transform (x : Nat) (g : List α → α) (ys : List Nat)
  /-- `copy(x, y)` -/
  | copy (x y : Nat)
  /-- `copy_if(f, x, y)` -/
  | copyIf (x : Nat) (f : α → Bool) (y : Nat)
  /-- `inclusive_scan(y, x, init, g)` -/
  | inclusiveScan (y x : Nat) (init : α) (g : α → α → α)
  /-- `exclusive_scan(y, x, init, g)` -/
  | exclusiveScan (y x : Nat) (init : α) (g : α → α → α)
  /-- `auto s = x(sl...); fill(s, v)` -/
  | fillAt (x : Nat) (sl : List Slicer) (v : α)
  /-- `auto s = x(sl...); copy(s, y(sl'...))` -/
  | copyAt (x : Nat) (sl : List Slicer) (y : Nat) (sl' : List Slicer)

/-- The tables named `xs`, if they all exist (helper);
the arguments of `include/kwk/algorithm/algos/transform.hpp:16-24`. -/
def World.lookAll (w : World α) (xs : List Nat) : Option (List Table) := xs.mapM w.tables

/-- One action.  As in `World.step`, actions that name an object that does not exist are not programs and do nothing.
`include/kwk/algorithm/algos/generator.hpp:19-87`, `include/kwk/algorithm/algos/transform.hpp:16-24`,
`include/kwk/algorithm/algos/copy.hpp:21-39`, `include/kwk/algorithm/algos/replace.hpp:17-37`,
`include/kwk/algorithm/algos/numeric.hpp:142-217`, `include/kwk/container/container.hpp:140-152`. -/
def World.act (md : Mode) (w : World α) : Act α → Res (World α)
  | .op o => w.step o
  | .fill x v => match w.tables x with
    | none => .ok w
    | some t => do let m ← Kwk.fill w.mem (w.container t) v; .ok { w with mem := m }
  | .generate x g => match w.tables x with
    | none => .ok w
    | some t => do let m ← Kwk.generate w.mem g (w.container t); .ok { w with mem := m }
  | .iota x incr v => match w.tables x with
    | none => .ok w
    | some t => do let m ← Kwk.iota w.mem (w.container t) incr (fun v => v) v; .ok { w with mem := m }
  | .replaceIf x f v => match w.tables x with
    | none => .ok w
    | some t => do let m ← Kwk.replaceIf w.mem (w.container t) f v; .ok { w with mem := m }
  | .transform x g ys => match w.tables x, w.lookAll ys with
    | some t, some us => do
      let m ← Kwk.transform w.mem g (w.container t) (us.map w.container); .ok { w with mem := m }
    | _, _ => .ok w
  | .copy x y => match w.tables x, w.tables y with
    | some t, some u => do
      let m ← Kwk.copy w.mem (w.container t) (w.container u) (w.junk ⟨0, 0⟩); .ok { w with mem := m }
    | _, _ => .ok w
  | .copyIf x f y => match w.tables x, w.tables y with
    | some t, some u => do let m ← Kwk.copyIf w.mem f (w.container t) (w.container u); .ok { w with mem := m }
    | _, _ => .ok w
  | .inclusiveScan y x init g => match w.tables x, w.tables y with
    | some t, some u => do
      let m ← Kwk.inclusiveScan w.mem (w.container u) (w.container t) init g; .ok { w with mem := m }
    | _, _ => .ok w
  | .exclusiveScan y x init g => match w.tables x, w.tables y with
    | some t, some u => do
      let m ← Kwk.exclusiveScan w.mem (w.container u) (w.container t) init g; .ok { w with mem := m }
    | _, _ => .ok w
  | .fillAt x sl v => match w.tables x with
    | none => .ok w
    | some t => do
      let c ← (w.container t).slice md sl
      let m ← Kwk.fill w.mem c v; .ok { w with mem := m }
  | .copyAt x sl y sl' => match w.tables x, w.tables y with
    | some t, some u => do
      let c ← (w.container t).slice md sl
      let d ← (w.container u).slice md sl'
      let m ← Kwk.copy w.mem c d (w.junk ⟨0, 0⟩); .ok { w with mem := m }
    | _, _ => .ok w

/-- A sequence of actions; the body of a function that uses the tables of `include/kwk/container/table.hpp:40-100`. -/
def World.runActs (md : Mode) (w : World α) (as : List (Act α)) : Res (World α) := as.foldlM (World.act md) w

end Kwk
