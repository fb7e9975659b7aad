/-!
# Model: outcomes

Undefined behaviour and failed assertions are explicit outcomes of the model.
-/

namespace Kwk

/-- Ways in which a modelled operation can go wrong.  None of them is silently totalised.
The assertion is `KIWAKU_ASSERT`, `include/kwk/detail/assert.hpp:97-107`; the others are undefined behaviour of C++. -/
inductive Fault where
  /-- `KIWAKU_ASSERT` failed (`include/kwk/detail/assert.hpp`), only in checked builds. -/
  | assertion
  /-- Access to memory outside of an allocated block. -/
  | outOfBounds
  /-- Integer division or modulo by zero (undefined behaviour). -/
  | divByZero
  /-- Signed integer overflow (undefined behaviour). -/
  | overflow
  /-- Dereference of a null pointer. -/
  | nullDeref
  /-- Release of a block that is not live. -/
  | badFree
  /-- Unbounded recursion. -/
  | diverges
  deriving DecidableEq, Repr

/-- Result of an operation of the library.
Used for every function that can fail, e.g. `include/kwk/utility/coordinates.hpp:31-55`. -/
abbrev Res := Except Fault

/-- Equality of results is decidable, so concrete cases can be evaluated. -/
instance {α : Type} [DecidableEq α] : DecidableEq (Res α)
  | .ok a, .ok b => if h : a = b then isTrue (by rw [h]) else isFalse (by intro e; cases e; exact h rfl)
  | .error a, .error b =>
    if h : a = b then isTrue (by rw [h]) else isFalse (by intro e; cases e; exact h rfl)
  | .ok _, .error _ => isFalse (by intro e; cases e)
  | .error _, .ok _ => isFalse (by intro e; cases e)

/-- Build mode: `KIWAKU_ASSERT` is active (`checked`) or compiled out by `NDEBUG` (`unchecked`);
`include/kwk/detail/assert.hpp`. -/
inductive Mode where
  | checked
  | unchecked
  deriving DecidableEq, Repr

/-- `KIWAKU_ASSERT(cond, msg)`; `include/kwk/detail/assert.hpp`. The message is modelled in `Model/Messages.lean`. -/
def kwkAssert (md : Mode) (cond : Bool) : Res Unit :=
  match md with
  | .checked => if cond then pure () else throw .assertion
  | .unchecked => pure ()

/-- C++ integer division: truncates toward zero, undefined for a zero divisor.
Used at `include/kwk/utility/coordinates.hpp:51-52`. -/
def cdiv (a b : Int) : Res Int := if b = 0 then throw .divByZero else pure (a.tdiv b)

/-- C++ integer remainder: sign of the dividend, undefined for a zero divisor.
Used at `include/kwk/utility/coordinates.hpp:52`. -/
def cmod (a b : Int) : Res Int := if b = 0 then throw .divByZero else pure (a.tmod b)

end Kwk
