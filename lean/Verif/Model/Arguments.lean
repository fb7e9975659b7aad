import Verif.Model.Effects
import Verif.Model.Search

/-!
# Model: parameters and captured variables as objects

The other files give the values of arguments to an algorithm.  Here an argument is an object of the caller (a variable, or an
element of a container), and parameters, captured variables and local variables are objects of their own, so that it matters
whether a function takes an argument by value or by reference, what a lambda captures and how, and when an object is read.

Paths are relative to `include/kwk/algorithm/algos`.  All values have the type of the elements (with another type an argument
cannot be an element).
-/

namespace Kwk

variable {α ρ : Type}

/-- Memory during the calls: the objects that exist, and the number of the next block; blocks from `next` on do not exist.
The objects are the parameters and local variables of the functions of `include/kwk/algorithm/algos`, and what was there before the call. -/
structure Objs (α : Type) where
  /-- the objects -/
  mem : Mem α
  /-- first block that was not used -/
  next : Nat

/-- Computations on objects: what the bodies of the functions of `include/kwk/algorithm/algos` are made of. -/
abbrev Calls (α : Type) := StateT (Objs α) Res

/-- The objects in the blocks below `n`: what is left when the objects made later are destroyed, as at the end of a function,
e.g. `include/kwk/algorithm/algos/generator.hpp:20-23`. -/
def upToBlock (n : Nat) (m : Mem α) : Mem α := fun q => if q.blk < n then m q else none

/-- Value of an object, e.g. `value` in `include/kwk/algorithm/algos/generator.hpp:22`. -/
def readObj (p : Ptr) : Calls α α := fun s => do
  let v ← load s.mem p
  pure (v, s)

/-- Assignment to an object, e.g. `o = value` in `include/kwk/algorithm/algos/generator.hpp:22`. -/
def writeObj (p : Ptr) (v : α) : Calls α Unit := fun s => do
  let m ← store s.mem p v
  pure ((), { s with mem := m })

/-- A new object made as a copy of another one: a parameter `auto value`, a variable captured by copy, or `auto sum = init`, e.g.
`include/kwk/algorithm/algos/generator.hpp:20`, `include/kwk/algorithm/algos/replace.hpp:31`,
`include/kwk/algorithm/algos/numeric.hpp:145`. -/
def param (p : Ptr) : Calls α Ptr := fun s => do
  let v ← load s.mem p
  pure (⟨s.next, 0⟩, ⟨fun q => if q = ⟨s.next, 0⟩ then some v else s.mem q, s.next + 1⟩)

/-- Copies of several objects, in turn: the members of a function object that is passed by value or captured by copy, e.g.
`include/kwk/algorithm/algos/replace.hpp:17-19`. -/
def params : List Ptr → Calls α (List Ptr)
  | [] => pure []
  | p :: ps => do
    let q ← param p
    let qs ← params ps
    pure (q :: qs)

/-- The body of a function: the objects made in it are destroyed when it returns, e.g.
`include/kwk/algorithm/algos/generator.hpp:20-23`. -/
def inScope (act : Calls α ρ) : Calls α ρ := fun s => do
  let r ← act s
  pure (r.1, ⟨upToBlock s.next r.2.mem, s.next⟩)

/-- `cpu.map(f, c0, cs...)` for a function object with the members `captured`: `f` is taken by value, then called through
references; `include/kwk/context/cpu/context.hpp:24-29`, `include/kwk/detail/algorithm/for_each.hpp:24-40`. -/
def mapObj (captured : List Ptr) (f : List Ptr → Ptr → List Ptr → Calls α Unit) (c0 : Container) (cs : List Container) :
    Calls α Unit := inScope do
  let captured ← params captured
  forEach (fun is => f captured (c0.addr is) (cs.map fun c => c.addr is)) c0.shape

/-! ## Writing algorithms -/

/-- `fill(ctx, out, value)`; `include/kwk/algorithm/algos/generator.hpp:19-23`. -/
def fillObjCtx (out : Container) (value : Ptr) : Calls α Unit := inScope do
  let value ← param value
  mapObj [] (fun _ o _ => do
    let v ← readObj value
    writeObj o v) out []

/-- `fill(out, value)`; `include/kwk/algorithm/algos/generator.hpp:24-29`. -/
def fillObj (out : Container) (value : Ptr) : Calls α Unit := inScope do
  let value ← param value
  fillObjCtx out value

/-- `iota(ctx, out, value)`: `o = value++` changes `value` before it assigns; `include/kwk/algorithm/algos/generator.hpp:46-52`. -/
def iotaObjCtx (incr : α → α) (out : Container) (value : Ptr) : Calls α Unit := inScope do
  let value ← param value
  mapObj [] (fun _ o _ => do
    let v ← readObj value
    writeObj value (incr v)
    writeObj o v) out []

/-- `iota(out, value)`; `include/kwk/algorithm/algos/generator.hpp:53-58`. -/
def iotaObj (incr : α → α) (out : Container) (value : Ptr) : Calls α Unit := inScope do
  let value ← param value
  iotaObjCtx incr out value

/-- `iota(ctx, out, value, step)`; `include/kwk/algorithm/algos/generator.hpp:76-81`. -/
def iotaStepObjCtx [Add α] (out : Container) (value step : Ptr) : Calls α Unit := inScope do
  let value ← param value
  let step ← param step
  mapObj [] (fun _ o _ => do
    let v ← readObj value
    writeObj o v
    let v ← readObj value
    let d ← readObj step
    writeObj value (v + d)) out []

/-- `iota(out, value, step)`; `include/kwk/algorithm/algos/generator.hpp:82-87`. -/
def iotaStepObj [Add α] (out : Container) (value step : Ptr) : Calls α Unit := inScope do
  let value ← param value
  let step ← param step
  iotaStepObjCtx out value step

/-- `replace_if(ctx, out, f, new_value)` for a function object `f` with the members `fs`; the lambda captures `f` and `new_value` by
copy; `include/kwk/algorithm/algos/replace.hpp:16-20`. -/
def replaceIfObjCtx (out : Container) (fs : List Ptr) (call : List Ptr → α → Calls α Bool) (newValue : Ptr) : Calls α Unit := inScope do
  let fs ← params fs
  let newValue ← param newValue
  -- `[=]`
  let fs ← params fs
  let newValue ← param newValue
  mapObj (newValue :: fs) (fun captured o _ => do
    let x ← readObj o
    let b ← call captured.tail x
    if b then do
      let v ← readObj (captured.headD newValue)
      writeObj o v
    else pure ()) out []

/-- `replace_if(out, f, new_value)`; `include/kwk/algorithm/algos/replace.hpp:22-26`. -/
def replaceIfObj (out : Container) (fs : List Ptr) (call : List Ptr → α → Calls α Bool) (newValue : Ptr) : Calls α Unit := inScope do
  let fs ← params fs
  let newValue ← param newValue
  replaceIfObjCtx out fs call newValue

/-- `replace(ctx, out, old_value, new_value)`; `include/kwk/algorithm/algos/replace.hpp:28-32`. -/
def replaceObjCtx [DecidableEq α] (out : Container) (oldValue newValue : Ptr) : Calls α Unit := inScope do
  let oldValue ← param oldValue
  let newValue ← param newValue
  -- `[old_value]`
  let captured ← param oldValue
  replaceIfObjCtx out [captured] (fun fs x => do
    let v ← readObj (fs.headD captured)
    pure (decide (x = v))) newValue

/-- `replace(out, old_value, new_value)`; `include/kwk/algorithm/algos/replace.hpp:34-38`. -/
def replaceObj [DecidableEq α] (out : Container) (oldValue newValue : Ptr) : Calls α Unit := inScope do
  let oldValue ← param oldValue
  let newValue ← param newValue
  replaceObjCtx out oldValue newValue

/-- `transform_exclusive_scan(ctx, in, out, init, f1, f2)`; `include/kwk/algorithm/algos/numeric.hpp:142-147`. -/
def exclusiveScanObjCtx (f1 : α → α → α) (f2 : α → α) (inp out : Container) (init : Ptr) : Calls α Unit := inScope do
  let init ← param init
  let sum ← param init
  mapObj [] (fun _ i os => do
    let v ← readObj sum
    writeObj (os.headD i) v
    let v ← readObj sum
    let x ← readObj i
    writeObj sum (f1 v (f2 x))) inp [out]

/-- `transform_exclusive_scan(in, out, init, f1, f2)`; `include/kwk/algorithm/algos/numeric.hpp:149-153`. -/
def exclusiveScanObj (f1 : α → α → α) (f2 : α → α) (inp out : Container) (init : Ptr) : Calls α Unit := inScope do
  let init ← param init
  exclusiveScanObjCtx f1 f2 inp out init

/-- `transform_inclusive_scan(ctx, in, out, init, f1, f2)`; `include/kwk/algorithm/algos/numeric.hpp:180-186`. -/
def inclusiveScanObjCtx (f1 : α → α → α) (f2 : α → α) (inp out : Container) (init : Ptr) : Calls α Unit := inScope do
  let init ← param init
  let sum ← param init
  mapObj [] (fun _ i os => do
    let v ← readObj sum
    let x ← readObj i
    writeObj sum (f1 v (f2 x))
    let v ← readObj sum
    writeObj (os.headD i) v) inp [out]

/-- `transform_inclusive_scan(in, out, init, f1, f2)`; `include/kwk/algorithm/algos/numeric.hpp:188-192`. -/
def inclusiveScanObj (f1 : α → α → α) (f2 : α → α) (inp out : Container) (init : Ptr) : Calls α Unit := inScope do
  let init ← param init
  inclusiveScanObjCtx f1 f2 inp out init

/-! ## Reading algorithms -/

/-- `reduce(ctx, in, f, init)`; `include/kwk/algorithm/algos/reduce.hpp:29-36`. -/
def reduceObjCtx (f : α → α → α) (c : Container) (init : Ptr) : Calls α α := inScope do
  let init ← param init
  mapObj [] (fun _ i _ => do
    let a ← readObj init
    let x ← readObj i
    writeObj init (f a x)) c []
  readObj init

/-- `reduce(in, f, init)`; `include/kwk/algorithm/algos/reduce.hpp:38-42`. -/
def reduceObj (f : α → α → α) (c : Container) (init : Ptr) : Calls α α := inScope do
  let init ← param init
  reduceObjCtx f c init

/-- `transform_reduce(ctx, in1, in2, init, R, T)`; `include/kwk/algorithm/algos/numeric.hpp:28-34`. -/
def transformReduceObjCtx (R T : α → α → α) (c1 c2 : Container) (init : Ptr) : Calls α α := inScope do
  let init ← param init
  mapObj [] (fun _ i1 is => do
    let a ← readObj init
    let x ← readObj i1
    let y ← readObj (is.headD i1)
    writeObj init (R a (T x y))) c1 [c2]
  readObj init

/-- `transform_reduce(in1, in2, init, R, T)`; `include/kwk/algorithm/algos/numeric.hpp:36-40`. -/
def transformReduceObj (R T : α → α → α) (c1 c2 : Container) (init : Ptr) : Calls α α := inScope do
  let init ← param init
  transformReduceObjCtx R T c1 c2 init

/-- `inner_product(ctx, in1, in2, init, f1, f2)`; `include/kwk/algorithm/algos/numeric.hpp:91-101`. -/
def innerProductObjCtx (md : Mode) (f1 f2 : α → α → α) (c1 c2 : Container) (init : Ptr) : Calls α α := inScope do
  let init ← param init
  let _ ← (kwkAssert md (shapeEq c1.shape c2.shape) : Res Unit)
  mapObj [] (fun _ i1 is => do
    let a ← readObj init
    let x ← readObj i1
    let y ← readObj (is.headD i1)
    writeObj init (f1 a (f2 x y))) c1 [c2]
  readObj init

/-- `inner_product(in1, in2, init, f1, f2)`; `include/kwk/algorithm/algos/numeric.hpp:103-107`. -/
def innerProductObj (md : Mode) (f1 f2 : α → α → α) (c1 c2 : Container) (init : Ptr) : Calls α α := inScope do
  let init ← param init
  innerProductObjCtx md f1 f2 c1 c2 init

/-- `count(ctx, in, value)`: the lambda captures `value` by copy and is passed to `reduce` by value; the number counted so far is an
object of another type; `include/kwk/algorithm/algos/predicates.hpp:63-67`, `include/kwk/algorithm/algos/reduce.hpp:29-36`. -/
def countObjCtx [DecidableEq α] (c : Container) (value : Ptr) : Calls α Nat := inScope do
  let value ← param value
  -- `[value]`
  let captured ← param value
  inScope do
    let captured ← param captured
    reduceM (fun is => readObj (c.addr is)) (fun a e => do
      let v ← readObj captured
      pure (a + if e = v then 1 else 0)) 0 c.shape

/-- `count(in, value)`; `include/kwk/algorithm/algos/predicates.hpp:69-73`. -/
def countObj [DecidableEq α] (c : Container) (value : Ptr) : Calls α Nat := inScope do
  let value ← param value
  countObjCtx c value

/-- `find(ctx, out, value)`: the lambda refers to the parameter; `include/kwk/algorithm/algos/find.hpp:72-77`. -/
def findObjCtx [DecidableEq α] (c : Container) (value : Ptr) : Calls α (Option (List Int)) := inScope do
  let value ← param value
  findIfM (fun is => readObj (c.addr is)) (fun e => do
    let v ← readObj value
    pure (decide (e = v))) c.shape

/-- `find(out, value)`; `include/kwk/algorithm/algos/find.hpp:79-84`. -/
def findObj [DecidableEq α] (c : Container) (value : Ptr) : Calls α (Option (List Int)) := inScope do
  let value ← param value
  findObjCtx c value

/-- `find_last(ctx, out, value)`; `include/kwk/algorithm/algos/find.hpp:121-164, 173-178`. -/
def findLastObjCtx [DecidableEq α] (c : Container) (value : Ptr) : Calls α (Option (List Int)) := inScope do
  let value ← param value
  let r ← findIfM (fun is => readObj ((reverse c).addr is)) (fun e => do
    let v ← readObj value
    pure (decide (e = v))) (reverse c).shape
  pure (r.map fun pos => c.shape.zipWith (fun d i => d - 1 - i) pos)

/-- `find_last(out, value)`; `include/kwk/algorithm/algos/find.hpp:180-185`. -/
def findLastObj [DecidableEq α] (c : Container) (value : Ptr) : Calls α (Option (List Int)) := inScope do
  let value ← param value
  findLastObjCtx c value

/-- `lower_bound(ctx, out, value, func)`; `include/kwk/algorithm/algos/binary_search.hpp:29-58`. -/
def lowerBoundObjCtx (md : Mode) (lt : α → α → Bool) (c : Container) (value : Ptr) : Calls α (Option (List Int)) := inScope do
  let value ← param value
  let s ← get
  lowerBound md s.mem c value fun e value => do
    let v ← readObj value
    pure (lt e v)

/-- `lower_bound(out, value, func)`; `include/kwk/algorithm/algos/binary_search.hpp:59-63`. -/
def lowerBoundObj (md : Mode) (lt : α → α → Bool) (c : Container) (value : Ptr) : Calls α (Option (List Int)) := inScope do
  let value ← param value
  lowerBoundObjCtx md lt c value

/-- `upper_bound(ctx, out, value, func)`; `include/kwk/algorithm/algos/binary_search.hpp:77-103`. -/
def upperBoundObjCtx (md : Mode) (lt : α → α → Bool) (c : Container) (value : Ptr) : Calls α (Option (List Int)) := inScope do
  let value ← param value
  let s ← get
  upperBound md s.mem c value fun value e => do
    let v ← readObj value
    pure (lt v e)

/-- `upper_bound(out, value, func)`; `include/kwk/algorithm/algos/binary_search.hpp:104-108`. -/
def upperBoundObj (md : Mode) (lt : α → α → Bool) (c : Container) (value : Ptr) : Calls α (Option (List Int)) := inScope do
  let value ← param value
  upperBoundObjCtx md lt c value

/-- `binary_search(ctx, out, value, func)`; `include/kwk/algorithm/algos/binary_search.hpp:123-139`. -/
def binarySearchObjCtx (md : Mode) (lt : α → α → Bool) (c : Container) (value : Ptr) : Calls α Bool := inScope do
  let value ← param value
  let r ← lowerBoundObjCtx md lt c value
  match r with
  | none => pure false
  | some p => do
    let v ← readObj value
    let e ← readObj (c.addr p)
    pure (!lt v e)

/-- `binary_search(out, value, func)`; `include/kwk/algorithm/algos/binary_search.hpp:140-144`. -/
def binarySearchObj (md : Mode) (lt : α → α → Bool) (c : Container) (value : Ptr) : Calls α Bool := inScope do
  let value ← param value
  binarySearchObjCtx md lt c value

end Kwk
