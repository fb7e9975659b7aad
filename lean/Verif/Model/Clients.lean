import Verif.Model.Programs
import Verif.Model.Search

/-!
# Model: programs that look at tables through views and decide on what they see

Continues `Model/Programs.lean`: the arguments of the algorithms are whole tables, reshaped or reversed ones, or slices of them, and
what a program does next can depend on what the algorithms answered.
-/

namespace Kwk

variable {α ρ : Type}

/-- Which elements of a container an algorithm is given: `c`, `c(sl...)` or `reverse(c)`;
`include/kwk/container/container.hpp:140-152`, `include/kwk/algorithm/views/reverse.hpp:13-21`. -/
inductive How where
  /-- all of them -/
  | whole
  /-- a slice -/
  | slice (sl : List Slicer)
  /-- in reverse order -/
  | reversed

/-- An argument of an algorithm: a table, perhaps reshaped, and which of its elements;
`include/kwk/algorithm/views/reshape.hpp:18-22` and see `How`. -/
structure Look where
  /-- name of the table -/
  table : Nat
  /-- `reshape(t, size)` if given -/
  size : Option Shape := none
  /-- which elements -/
  how : How := .whole

/-- The table named `x`; naming a table that does not exist is an error of the program (simplification: not told from other
faults). Objects of `include/kwk/container/table.hpp:40-66`. -/
def World.table (w : World α) (x : Nat) : Res Table :=
  match w.tables x with
  | some t => .ok t
  | none => .error .nullDeref

/-- `c` or `reshape(c, sz)`; `include/kwk/algorithm/views/reshape.hpp:18-22`. -/
def Container.sized (c : Container) : Option Shape → Container
  | none => c
  | some sz => reshape c sz

/-- `c`, `c(sl...)` or `reverse(c)`;
`include/kwk/container/container.hpp:140-152`, `include/kwk/algorithm/views/reverse.hpp:13-21`. -/
def Container.focus (md : Mode) (c : Container) : How → Res Container
  | .whole => .ok c
  | .slice sl => c.slice md sl
  | .reversed => .ok (reverse c)

/-- The container an argument stands for; `include/kwk/container/container.hpp:140-152`,
`include/kwk/algorithm/views/reshape.hpp:18-22`, `include/kwk/algorithm/views/reverse.hpp:13-21`. -/
def World.look (md : Mode) (w : World α) (l : Look) : Res Container := do
  let t ← w.table l.table
  ((w.container t).sized l.size).focus md l.how

/-- Calls of algorithms that write. The algorithms of `include/kwk/algorithm/algos/generator.hpp:19-87`,
`include/kwk/algorithm/algos/transform.hpp:16-24`, `include/kwk/algorithm/algos/copy.hpp:21-39`,
`include/kwk/algorithm/algos/replace.hpp:17-37`, `include/kwk/algorithm/algos/numeric.hpp:142-217`. -/
inductive Edit (α : Type) where
  /-- `fill(l, v)` -/
  | fill (l : Look) (v : α)
  /-- `generate(g, l)` -/
  | generate (l : Look) (g : List Int → α)
  /-- `iota(l, v)`; `incr` is the increment -/
  | iota (l : Look) (incr : α → α) (v : α)
  /-- `replace_if(l, f, v)` -/
  | replaceIf (l : Look) (f : α → Bool) (v : α)
  /-- `transform(g, l, ins...)` -/
  | transform (l : Look) (g : List α → α) (ins : List Look)
  /-- `copy(l, i)` -/
  | copy (l i : Look)
  /-- `copy_if(f, l, i)` -/
  | copyIf (l : Look) (f : α → Bool) (i : Look)
  /-- `inclusive_scan(i, l, init, g)` -/
  | inclusiveScan (i l : Look) (init : α) (g : α → α → α)
  /-- `exclusive_scan(i, l, init, g)` -/
  | exclusiveScan (i l : Look) (init : α) (g : α → α → α)

/-- The call on memory: the views are made first, then the algorithm runs.
`include/kwk/algorithm/algos/generator.hpp:19-87`, `include/kwk/algorithm/algos/transform.hpp:16-24`,
`include/kwk/algorithm/algos/copy.hpp:21-39`, `include/kwk/algorithm/algos/replace.hpp:17-37`,
`include/kwk/algorithm/algos/numeric.hpp:142-217`. -/
def World.editMem (md : Mode) (w : World α) : Edit α → Res (Mem α)
  | .fill l v => do let c ← w.look md l; Kwk.fill w.mem c v
  | .generate l g => do let c ← w.look md l; Kwk.generate w.mem g c
  | .iota l incr v => do let c ← w.look md l; Kwk.iota w.mem c incr (fun v => v) v
  | .replaceIf l f v => do let c ← w.look md l; Kwk.replaceIf w.mem c f v
  | .transform l g ins => do
    let c ← w.look md l
    let cs ← ins.mapM fun i => w.look md i
    Kwk.transform w.mem g c cs
  | .copy l i => do
    let c ← w.look md l
    let d ← w.look md i
    Kwk.copy w.mem c d (w.junk ⟨0, 0⟩)
  | .copyIf l f i => do
    let c ← w.look md l
    let d ← w.look md i
    Kwk.copyIf w.mem f c d
  | .inclusiveScan i l init g => do
    let c ← w.look md l
    let d ← w.look md i
    Kwk.inclusiveScan w.mem d c init g
  | .exclusiveScan i l init g => do
    let c ← w.look md l
    let d ← w.look md i
    Kwk.exclusiveScan w.mem d c init g

/-- The call; see `World.editMem`. `include/kwk/algorithm/algos/generator.hpp:19-87`. -/
def World.edit (md : Mode) (w : World α) (e : Edit α) : Res (World α) := do
  let m ← w.editMem md e
  .ok { w with mem := m }

/-- What a program can ask. `include/kwk/container/container.hpp:128-138` (access), `50-52` (sizes),
`include/kwk/algorithm/algos/reduce.hpp:29-36`, `include/kwk/algorithm/algos/find.hpp:35-192`,
`include/kwk/algorithm/algos/predicates.hpp:27-79`, `include/kwk/algorithm/algos/binary_search.hpp:29-139`,
`include/kwk/algorithm/algos/numeric.hpp:91-101`. -/
inductive Query (α : Type) where
  /-- `l(p...)` -/
  | read (l : Look) (p : List Int)
  /-- `l.shape()` -/
  | size (l : Look)
  /-- `l.numel()` -/
  | numel (l : Look)
  /-- `reduce(l, g, init)` -/
  | reduce (l : Look) (g : α → α → α) (init : α)
  /-- `find_if(l, f)` -/
  | findIf (l : Look) (f : α → Bool)
  /-- `find_last_if(t, f)` for a table, perhaps reshaped -/
  | findLastIf (x : Nat) (sz : Option Shape) (f : α → Bool)
  /-- `count_if(l, f)` -/
  | countIf (l : Look) (f : α → Bool)
  /-- `all_of(l, f)` -/
  | allOf (l : Look) (f : α → Bool)
  /-- `any_of(l, f)` -/
  | anyOf (l : Look) (f : α → Bool)
  /-- `none_of(l, f)` -/
  | noneOf (l : Look) (f : α → Bool)
  /-- `lower_bound(l, v, lt)` -/
  | lowerBound (l : Look) (v : α) (lt : α → α → Bool)
  /-- `upper_bound(l, v, lt)` -/
  | upperBound (l : Look) (v : α) (lt : α → α → Bool)
  /-- `binary_search(l, v, lt)` -/
  | binarySearch (l : Look) (v : α) (lt : α → α → Bool)
  /-- `inner_product(l, i, init, R, T)` -/
  | innerProduct (l i : Look) (init : α) (R T : α → α → α)

/-- Results of `Query`; return types of `include/kwk/algorithm/algos/find.hpp:35-192`,
`include/kwk/algorithm/algos/predicates.hpp:27-79`. -/
inductive Answer (α : Type) where
  /-- an element -/
  | elem (v : α)
  /-- extents -/
  | extents (s : List Int)
  /-- a number of elements -/
  | number (n : Int)
  /-- a position, or none -/
  | place (p : Option (List Int))
  /-- a truth value -/
  | truth (b : Bool)

/-- The answer computed by the library; see `Query` for the sources.
`include/kwk/algorithm/algos/reduce.hpp:29-36`, `include/kwk/algorithm/algos/find.hpp:35-192`,
`include/kwk/algorithm/algos/predicates.hpp:27-79`, `include/kwk/algorithm/algos/binary_search.hpp:29-139`. -/
def World.ask (md : Mode) (w : World α) : Query α → Res (Answer α)
  | .read l p => do let c ← w.look md l; let v ← c.get w.mem p; .ok (.elem v)
  | .size l => do let c ← w.look md l; .ok (.extents c.shape)
  | .numel l => do let c ← w.look md l; .ok (.number c.numel)
  | .reduce l g init => do let c ← w.look md l; let v ← Kwk.reduce w.mem c g init; .ok (.elem v)
  | .findIf l f => do let c ← w.look md l; let r ← Kwk.findIf w.mem c f; .ok (.place r)
  | .findLastIf x sz f => do let c ← w.look md ⟨x, sz, .whole⟩; let r ← Kwk.findLastIf w.mem c f; .ok (.place r)
  | .countIf l f => do let c ← w.look md l; let n ← Kwk.countIf w.mem c f; .ok (.number n)
  | .allOf l f => do let c ← w.look md l; let b ← Kwk.allOf w.mem c f; .ok (.truth b)
  | .anyOf l f => do let c ← w.look md l; let b ← Kwk.anyOf w.mem c f; .ok (.truth b)
  | .noneOf l f => do let c ← w.look md l; let b ← Kwk.noneOf w.mem c f; .ok (.truth b)
  | .lowerBound l v lt => do
    let c ← w.look md l
    let r ← Kwk.lowerBound md w.mem c v (fun e v => pure (lt e v)) ()
    .ok (.place r.1)
  | .upperBound l v lt => do
    let c ← w.look md l
    let r ← Kwk.upperBound md w.mem c v (fun v e => pure (lt v e)) ()
    .ok (.place r.1)
  | .binarySearch l v lt => do
    let c ← w.look md l
    let r ← Kwk.binarySearch md w.mem c v (fun a b => pure (lt a b)) ()
    .ok (.truth r.1)
  | .innerProduct l i init R T => do
    let c ← w.look md l
    let d ← w.look md i
    let v ← Kwk.innerProduct md w.mem c d init R T
    .ok (.elem v)

/-- A program that returns a `ρ`.  What it does after a question depends on the answer; loops are unrolled as far as they run.
The body of a function that uses the tables of `include/kwk/container/table.hpp:40-100`. -/
inductive Client (α ρ : Type) where
  /-- return -/
  | done (r : ρ)
  /-- create, copy, move, assign, swap, destroy tables, write elements, algorithms on whole tables -/
  | act (a : Act α) (next : Client α ρ)
  /-- an algorithm that writes through views -/
  | edit (e : Edit α) (next : Client α ρ)
  /-- a question -/
  | ask (q : Query α) (next : Answer α → Client α ρ)

/-- Runs a program: its result and the state it leaves. `include/kwk/container/table.hpp:40-100`. -/
def World.runClient (md : Mode) (w : World α) : Client α ρ → Res (ρ × World α)
  | .done r => .ok (r, w)
  | .act a k => do let w ← w.act md a; w.runClient md k
  | .edit e k => do let w ← w.edit md e; w.runClient md k
  | .ask q k => do let r ← w.ask md q; w.runClient md (k r)

end Kwk
