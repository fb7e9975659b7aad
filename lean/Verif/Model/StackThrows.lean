import Verif.Model.Lifetimes

/-!
# Model: tables with fully static shape whose elements throw

The elements of a fully static table are inside the object; constructors and assignment operators of the element type may throw.  The
operations are those of `Model/Lifetimes.lean`, with the values of the elements, and with what the language does when an element
throws: arrays that are being constructed lose the elements constructed so far, in reverse order, the storage is given back, the exception
goes to the caller; it ends the program at a function that is declared `noexcept`.

Simplifications: destructors do not throw; an operation of an element that throws leaves its operands as they were.  Labels are left out
(C125).
-/

namespace Kwk

/-- Why an evaluation stops; for `include/kwk/container/container.hpp:37-63`. -/
inductive Stop where
  /-- an exception goes to the caller -/
  | exception
  /-- `std::terminate` -/
  | terminate
  deriving DecidableEq, Repr

/-- What the element type does; the `value_type` of `include/kwk/detail/memory/stack_block.hpp:20`. -/
structure ElemKind (α : Type) where
  /-- the value of a default constructed element -/
  dflt : α
  /-- what is left of an element that was moved from -/
  moved : α → α

/-- The values of the elements, the number of constructors and assignments called so far, and the events so far; for
`include/kwk/detail/memory/stack_block.hpp:26-50`. -/
structure Elems (α : Type) where
  /-- values -/
  val : Ptr → α
  /-- calls of constructors and assignment operators of the element type -/
  calls : Nat
  /-- events, oldest first -/
  log : List Event

/-- An evaluation that may stop; for the functions of `include/kwk/detail/memory/stack_block.hpp:28-49`. -/
def EM (α β : Type) : Type := Elems α → Except Stop β × Elems α

namespace EM

variable {α β : Type}

/-- A value; the empty statement in `include/kwk/detail/memory/stack_block.hpp:28`. -/
def ret (b : β) : EM α β := fun s => (.ok b, s)

/-- One evaluation, then another; the statements of `include/kwk/container/table.hpp:85-90`. -/
def andThen {γ : Type} (m : EM α β) (n : β → EM α γ) : EM α γ := fun s => match m s with
  | (.ok b, s') => n b s'
  | (.error e, s') => (.error e, s')

instance : Monad (EM α) where
  pure := ret
  bind := andThen

/-- Events that can not fail (destructors, storage); for `include/kwk/detail/memory/stack_block.hpp:26`. -/
def emit (es : List Event) : EM α Unit := fun s => (.ok (), { s with log := s.log ++ es })

/-- A constructor or assignment operator of the element type is called; `throws n`: the call number `n` of the program throws.
For `include/kwk/detail/memory/stack_block.hpp:28-49`. -/
def call (throws : Nat → Bool) : EM α Unit := fun s =>
  (if throws s.calls then .error .exception else .ok (), { s with calls := s.calls + 1 })

/-- The value of an element; for `include/kwk/detail/memory/stack_block.hpp:42, 48`. -/
def get (p : Ptr) : EM α α := fun s => (.ok (s.val p), s)

/-- The new value of an element; for `include/kwk/detail/memory/stack_block.hpp:42, 48`. -/
def put (p : Ptr) (v : α) : EM α Unit := fun s => (.ok (), { s with val := fun q => if q = p then v else s.val q })

/-- Events during the unwinding; for the constructors of `include/kwk/detail/memory/stack_block.hpp:28-35`. -/
def unwind (m : EM α β) (es : List Event) : EM α β := fun s => match m s with
  | (.error .exception, s') => (.error .exception, { s' with log := s'.log ++ es })
  | r => r

/-- The body of a function that is declared `noexcept`; `include/kwk/container/container.hpp:37-39, 56-63`,
`include/kwk/detail/memory/stack_block.hpp:45-49`. -/
def isNoexcept (m : EM α β) : EM α β := fun s => match m s with
  | (.error _, s') => (.error .terminate, s')
  | r => r

/-- `f(0), ..., f(n-1)`; loops of `include/kwk/detail/memory/stack_block.hpp:42, 47-48`. -/
def each (f : Nat → EM α Unit) : Nat → EM α Unit
  | 0 => pure ()
  | n + 1 => do each f n; f n

/-- Construction of the elements of an array: if one fails the ones before it are destroyed, in reverse order;
`include/kwk/detail/memory/stack_block.hpp:26`. -/
def constructArray (b : Nat) (f : Nat → EM α Unit) : Nat → EM α Unit
  | 0 => pure ()
  | n + 1 => do
    constructArray b f n
    unwind (f n) (destroyEvents b n)

end EM

open EM

variable {α : Type}

/-- Default constructor; `include/kwk/detail/memory/stack_block.hpp:26`. -/
def defaultConstruct (K : ElemKind α) (throws : Nat → Bool) (p : Ptr) : EM α Unit := do
  call throws
  emit [.construct p]
  put p K.dflt

/-- Move constructor, `p` from `q`; `include/kwk/container/table.hpp:69`, `include/kwk/detail/memory/stack_block.hpp:48`. -/
def moveConstruct (K : ElemKind α) (throws : Nat → Bool) (p q : Ptr) : EM α Unit := do
  emit [.read q]
  call throws
  emit [.construct p]
  let v ← get q
  put p v
  put q (K.moved v)

/-- Copy assignment, `*p = *q`; `include/kwk/detail/memory/stack_block.hpp:42`. -/
def copyAssignE (throws : Nat → Bool) (p q : Ptr) : EM α Unit := do
  emit [.read q, .assign p]
  call throws
  let v ← get q
  put p v

/-- Move assignment, `*p = std::move(*q)`; `include/kwk/container/table.hpp:72`, `include/kwk/detail/memory/stack_block.hpp:48`. -/
def moveAssignE (K : ElemKind α) (throws : Nat → Bool) (p q : Ptr) : EM α Unit := do
  emit [.read q, .assign p]
  call throws
  let v ← get q
  put p v
  put q (K.moved v)

/-- `stack_block(settings)`: the array, then the assignments if there is a source; `include/kwk/detail/memory/stack_block.hpp:28-43`. -/
def buildStackE (K : ElemKind α) (throws : Nat → Bool) (b n : Nat) (src : Option Ptr) : EM α Unit := do
  emit [.allocate b n]
  unwind (do
    constructArray b (fun k => defaultConstruct K throws ⟨b, k⟩) n
    match src with
    | none => pure ()
    | some p => unwind (each (fun k => copyAssignE throws ((⟨b, 0⟩ : Ptr).add k) (p.add k)) n) (destroyEvents b n)) [.release b]

/-- The default move constructor; `include/kwk/container/table.hpp:69`, `include/kwk/detail/memory/stack_block.hpp:26`. -/
def moveStackE (K : ElemKind α) (throws : Nat → Bool) (b n other : Nat) : EM α Unit := do
  emit [.allocate b n]
  unwind (constructArray b (fun k => moveConstruct K throws ⟨b, k⟩ ⟨other, k⟩) n) [.release b]

/-- `std::swap(x, y)` of two elements; `include/kwk/detail/memory/stack_block.hpp:48`. -/
def swapElementE (K : ElemKind α) (throws : Nat → Bool) (tmp : Nat) (p q : Ptr) : EM α Unit := do
  emit [.allocate tmp 1]
  moveConstruct K throws ⟨tmp, 0⟩ p
  moveAssignE K throws p q
  moveAssignE K throws q ⟨tmp, 0⟩
  emit [.destroy ⟨tmp, 0⟩, .release tmp]

/-- `swap(other) noexcept`; `include/kwk/detail/memory/stack_block.hpp:45-49`, `include/kwk/container/container.hpp:56-63`. -/
def swapStackE (K : ElemKind α) (throws : Nat → Bool) (tmp a b n : Nat) : EM α Unit :=
  isNoexcept (each (fun k => swapElementE K throws tmp ⟨a, k⟩ ⟨b, k⟩) n)

/-- `table local(other); parent::swap(local);` and the end of life of `local`; `include/kwk/container/table.hpp:85-98`. -/
def assignStackE (K : ElemKind α) (throws : Nat → Bool) (f : Frame) (o : StackObj) (src : Ptr) : EM α Unit := do
  buildStackE K throws f.next o.count (some src)
  swapStackE K throws (f.next + 1) o.blk f.next o.count
  emit (stackEndEvents f.next o.count)

/-- What a program can do with tables of fully static types; `include/kwk/container/table.hpp:54-98`. -/
inductive ThrowOp (α : Type) where
  /-- `table_type x;` -/
  | dflt (x n : Nat)
  /-- `table x(size, ...)`, with a source or without; also `table x(c)` for another container `c` -/
  | make (x n : Nat) (src : Option Ptr)
  /-- `table x(y)` -/
  | copy (x y : Nat)
  /-- `table x(std::move(y))` -/
  | move (x y : Nat)
  /-- `x = y` -/
  | copyAssign (x y : Nat)
  /-- `x = c` for another container with the given data pointer -/
  | assignFrom (x : Nat) (src : Ptr)
  /-- `x = std::move(y)` -/
  | moveAssign (x y : Nat)
  /-- `swap(x, y)` -/
  | swap (x y : Nat)
  /-- end of life of `x` -/
  | destroy (x : Nat)
  /-- `x(is...) = v`, the element of index `k` of the array -/
  | write (x k : Nat) (v : α)

/-- One operation.  As in `Frame.step`, operations that name an object that does not exist, create an object that exists, use an element
outside the array, or involve two different types are not programs; they do nothing.  `include/kwk/container/table.hpp:54-98`,
`include/kwk/container/container.hpp:37-63, 134-138`. -/
def stepE (K : ElemKind α) (throws : Nat → Bool) (f : Frame) : ThrowOp α → EM α Frame
  | .dflt x n => match f.objs x with
    | some _ => pure f
    | none => do isNoexcept (buildStackE K throws f.next n none); pure (f.add x n)
  | .make x n src => match f.objs x with
    | some _ => pure f
    | none => do buildStackE K throws f.next n src; pure (f.add x n)
  | .copy x y => match f.objs x, f.objs y with
    | none, some o => do buildStackE K throws f.next o.count (some ⟨o.blk, 0⟩); pure (f.add x o.count)
    | _, _ => pure f
  | .move x y => match f.objs x, f.objs y with
    | none, some o => do moveStackE K throws f.next o.count o.blk; pure (f.add x o.count)
    | _, _ => pure f
  | .copyAssign x y => match f.objs x, f.objs y with
    | some o, some o' =>
      if o.count = o'.count then do assignStackE K throws f o ⟨o'.blk, 0⟩; pure { f with next := f.next + 2 } else pure f
    | _, _ => pure f
  | .assignFrom x src => match f.objs x with
    | some o => do assignStackE K throws f o src; pure { f with next := f.next + 2 }
    | none => pure f
  | .moveAssign x y => match f.objs x, f.objs y with
    | some o, some o' =>
      if o.count = o'.count then do
        each (fun k => moveAssignE K throws ((⟨o.blk, 0⟩ : Ptr).add k) ((⟨o'.blk, 0⟩ : Ptr).add k)) o.count
        pure f
      else pure f
    | _, _ => pure f
  | .swap x y => match f.objs x, f.objs y with
    | some o, some o' =>
      if o.count = o'.count then do swapStackE K throws f.next o.blk o'.blk o.count; pure { f with next := f.next + 1 } else pure f
    | _, _ => pure f
  | .destroy x => match f.objs x with
    | some o => do emit (stackEndEvents o.blk o.count); pure { f with objs := upd f.objs x none }
    | none => pure f
  | .write x k v => match f.objs x with
    | some o => if k < o.count then do emit [.assign ⟨o.blk, k⟩]; call throws; put ⟨o.blk, k⟩ v; pure f else pure f
    | none => pure f

/-- A program that catches all exceptions; `none` if it was terminated.  Operations of `include/kwk/container/table.hpp:54-98`. -/
def runE (K : ElemKind α) (throws : Nat → Bool) : Frame → List (ThrowOp α) → Elems α → Option Frame × Elems α
  | f, [], s => (some f, s)
  | f, op :: ops, s => match stepE K throws f op s with
    | (.ok f', s') => runE K throws f' ops s'
    | (.error .exception, s') => runE K throws f ops s'
    | (.error .terminate, s') => (none, s')

end Kwk
