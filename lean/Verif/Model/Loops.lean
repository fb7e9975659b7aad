import Verif.Model.Shape

/-!
# Model: n-dimensional loops

The loops are modelled in an arbitrary monad, so that callbacks can have any effect.
-/

namespace Kwk

/-- `for(i = start; i < ext; ++i) body(i)`, the loop of
`include/kwk/detail/algorithm/for_each.hpp:31-32`.
`fuel` bounds the number of tests of the condition; `forLoop` provides one more than the number of
iterations, and `Props/Loops.lean` shows that the loop ends because the condition fails. -/
def forLoopAux {m : Type → Type} [Monad m] (ext : Int) (body : Int → m Unit) : Nat → Int → m Unit
  | 0, _ => pure ()
  | fuel + 1, i =>
    if i < ext then do
      body i
      forLoopAux ext body fuel (i + 1)
    else pure ()

/-- One loop layer; `include/kwk/detail/algorithm/for_each.hpp:31-32`. -/
def forLoop {m : Type → Type} [Monad m] (ext : Int) (body : Int → m Unit) : m Unit :=
  forLoopAux ext body (ext.toNat + 1) 0

/-- `__::for_each(f, ds)`: piles up one loop per dimension with `kumi::fold_left`, starting from the
call of `f`; `include/kwk/detail/algorithm/for_each.hpp:24-40`. The returned copy of `f` is not
modelled (the state of `f` is the state of the monad). -/
def forEach {m : Type → Type} [Monad m] (f : List Int → m Unit) (ds : Shape) : m Unit :=
  kumiFoldLeft
    (fun (acc : List Int → m Unit) (ext : Int) => fun is => forLoop ext fun i => acc (is ++ [i]))
    ds f []

/-- `for(i = 0; !found && i < ext; ++i) body(i)`, with `found` threaded explicitly;
`include/kwk/detail/algorithm/for_until.hpp:27-28`. -/
def untilLoopAux {m : Type → Type} [Monad m] (ext : Int) (body : Int → Bool → m Bool) :
    Nat → Int → Bool → m Bool
  | 0, _, found => pure found
  | fuel + 1, i, found =>
    if !found && decide (i < ext) then do
      let found' ← body i found
      untilLoopAux ext body fuel (i + 1) found'
    else pure found

/-- One interruptible loop layer; `include/kwk/detail/algorithm/for_until.hpp:27-28`. -/
def untilLoop {m : Type → Type} [Monad m] (ext : Int) (body : Int → Bool → m Bool) (found : Bool) :
    m Bool :=
  untilLoopAux ext body (ext.toNat + 1) 0 found

/-- `__::for_until(f, ds)`; `include/kwk/detail/algorithm/for_until.hpp:18-36`.  The captured
variable `found` is threaded through the layers; the innermost layer assigns it. -/
def forUntil {m : Type → Type} [Monad m] (f : List Int → m Bool) (ds : Shape) : m Bool :=
  kumiFoldLeft
    (fun (acc : List Int → Bool → m Bool) (ext : Int) =>
      fun is found => untilLoop ext (fun i found => acc (is ++ [i]) found) found)
    ds (fun is _ => f is) [] false

/-- `for_each` with a callback that updates a captured state `σ` and may fault: an instance of
`forEach`, used by the algorithms. `include/kwk/detail/algorithm/for_each.hpp:24-40`. -/
def loopState {σ : Type} (f : List Int → σ → Res σ) (ds : Shape) (s : σ) : Res σ := do
  let r ← forEach (m := StateT σ Res) (fun is => fun s => do let s' ← f is s; pure ((), s')) ds s
  pure r.2

end Kwk
