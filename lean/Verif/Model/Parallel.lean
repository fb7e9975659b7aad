import Verif.Model.Algos

/-!
# Model: algorithms in a context that runs the calls concurrently

The `map` of a user's context may run the calls of the callback concurrently; a context for SYCL is mentioned at
`include/kwk/algorithm/algos/numeric.hpp:183`.  A call is described by its accesses to elements and to the variable that the
callback captures by reference.  A schedule says which call performs its next access; the accesses of different calls may be mixed
in any way.  Nothing in the callbacks synchronises the calls, so two accesses of different calls to the same place, one of them a
write, are a data race (undefined behaviour).

Simplifications: a function of the user reads each of its arguments once, before anything is written; each callback captures at most one
variable by reference that it reads or writes.
-/

namespace Kwk

variable {α β σ γ : Type}

/-- What a call of a callback does, access by access, as the bodies of the lambdas passed to `map`, e.g.
`include/kwk/algorithm/algos/reduce.hpp:32`. -/
inductive CallStep (σ α : Type) where
  | done
  /-- Read an element. -/
  | load (a : Ptr) (k : α → CallStep σ α)
  /-- Write an element. -/
  | store (a : Ptr) (v : α) (k : CallStep σ α)
  /-- Read the captured variable. -/
  | getVar (k : σ → CallStep σ α)
  /-- Write the captured variable. -/
  | setVar (s : σ) (k : CallStep σ α)

/-- One access: the call, the place (`none`: the captured variable), and whether it is a write; as in
`include/kwk/algorithm/algos/reduce.hpp:32`. -/
structure MemAccess where
  task : List Int
  place : Option Ptr
  write : Bool
  deriving DecidableEq

/-- The calls of a `map` at some time: what each has left to do, the captured variable, the memory, and the accesses so far;
`include/kwk/context/cpu/context.hpp:24-29` is the sequential case. -/
structure PState (σ α : Type) where
  todo : List Int → CallStep σ α
  var : σ
  mem : Mem α
  trace : List MemAccess

/-- The call at position `p` has `k` left; `include/kwk/context/cpu/context.hpp:27`. -/
def PState.set (st : PState σ α) (p : List Int) (k : CallStep σ α) (var : σ) (mem : Mem α) (a : MemAccess) : PState σ α :=
  ⟨fun q => if q = p then k else st.todo q, var, mem, a :: st.trace⟩

/-- The call at position `p` performs its next access; `include/kwk/context/cpu/context.hpp:27`. -/
def PState.step (st : PState σ α) (p : List Int) : Res (PState σ α) :=
  match st.todo p with
  | .done => pure st
  | .load a k => do
    let v ← Kwk.load st.mem a
    pure (st.set p (k v) st.var st.mem ⟨p, some a, false⟩)
  | .store a v k => do
    let m ← Kwk.store st.mem a v
    pure (st.set p k st.var m ⟨p, some a, true⟩)
  | .getVar k => pure (st.set p (k st.var) st.var st.mem ⟨p, none, false⟩)
  | .setVar s k => pure (st.set p k s st.mem ⟨p, none, true⟩)

/-- The accesses of a schedule; `include/kwk/context/cpu/context.hpp:24-29` is the schedule that ends each call before the next. -/
def PState.schedule (st : PState σ α) (l : List (List Int)) : Res (PState σ α) := l.foldlM PState.step st

/-- The calls before any access; `include/kwk/context/cpu/context.hpp:24-29`. -/
def PState.start (task : List Int → CallStep σ α) (var : σ) (m : Mem α) : PState σ α := ⟨task, var, m, []⟩

/-- Read the arguments of a function; `include/kwk/algorithm/algos/transform.hpp:21`. -/
def CallStep.loadAll : List Ptr → (List α → CallStep σ α) → CallStep σ α
  | [], k => k []
  | a :: as, k => .load a fun v => CallStep.loadAll as fun vs => k (v :: vs)

/-- `o = value`, with `value` captured by reference; `include/kwk/algorithm/algos/generator.hpp:22`. -/
def fillTask (c : Container) (p : List Int) : CallStep α α := .getVar fun v => .store (c.addr p) v .done

/-- `o = f(is...)`; `include/kwk/algorithm/algos/generator.hpp:36`. -/
def generateTask (f : List Int → α) (c : Container) (p : List Int) : CallStep Unit α := .store (c.addr p) (f p) .done

/-- `o = f(i0, in...)`; `include/kwk/algorithm/algos/transform.hpp:21`. -/
def transformTask (f : List α → α) (out : Container) (ins : List Container) (p : List Int) : CallStep Unit α :=
  CallStep.loadAll (ins.map fun c => c.addr p) fun vs => .store (out.addr p) (f vs) .done

/-- `if(f(i)) o = i`; `include/kwk/algorithm/algos/copy.hpp:38`. -/
def copyIfTask (f : α → Bool) (out inp : Container) (p : List Int) : CallStep Unit α :=
  .load (inp.addr p) fun v => if f v then .load (inp.addr p) fun w => .store (out.addr p) w .done else .done

/-- `if(f(o)) o = new_value`; `include/kwk/algorithm/algos/replace.hpp:19`. -/
def replaceIfTask (f : α → Bool) (newValue : α) (c : Container) (p : List Int) : CallStep Unit α :=
  .load (c.addr p) fun v => if f v then .store (c.addr p) newValue .done else .done

/-- `init = f(init, i)`, with `init` captured by reference; `include/kwk/algorithm/algos/reduce.hpp:32`. -/
def reduceTask (f : β → α → β) (c : Container) (p : List Int) : CallStep β α :=
  .getVar fun s => .load (c.addr p) fun v => .setVar (f s v) .done

/-- `init = R(init, T(i1, i2))`; `include/kwk/algorithm/algos/numeric.hpp:32, 99`. -/
def transformReduceTask (R : β → γ → β) (T : α → α → γ) (c1 c2 : Container) (p : List Int) : CallStep β α :=
  .getVar fun s => .load (c1.addr p) fun v => .load (c2.addr p) fun w => .setVar (R s (T v w)) .done

/-- `o = value++`; `include/kwk/algorithm/algos/generator.hpp:51`. -/
def iotaTask (incr : β → β) (conv : β → α) (c : Container) (p : List Int) : CallStep β α :=
  .getVar fun v => .setVar (incr v) (.store (c.addr p) (conv v) .done)

/-- `o = value; value += step`; `include/kwk/algorithm/algos/generator.hpp:80`. -/
def iotaStepTask [Add β] (conv : β → α) (step : β) (c : Container) (p : List Int) : CallStep β α :=
  .getVar fun v => .store (c.addr p) (conv v) (.getVar fun w => .setVar (w + step) .done)

/-- `o = sum; sum = f1(sum, f2(i))`; `include/kwk/algorithm/algos/numeric.hpp:146`. -/
def exclusiveScanTask (f1 : α → β → α) (f2 : α → β) (inp out : Container) (p : List Int) : CallStep α α :=
  .getVar fun s => .store (out.addr p) s (.getVar fun t => .load (inp.addr p) fun v => .setVar (f1 t (f2 v)) .done)

/-- `sum = f1(sum, f2(i)); o = sum`; `include/kwk/algorithm/algos/numeric.hpp:185`. -/
def inclusiveScanTask (f1 : α → β → α) (f2 : α → β) (inp out : Container) (p : List Int) : CallStep α α :=
  .getVar fun s => .load (inp.addr p) fun v => .setVar (f1 s (f2 v)) (.getVar fun t => .store (out.addr p) t .done)

end Kwk
