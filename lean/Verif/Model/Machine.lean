import Verif.Model.IntType
import Verif.Model.Loops

/-!
# Model: index arithmetic on machine integers

The same functions as in `Model/Shape.lean` and `Model/Loops.lean`, on integers of a given type.
Simplification: all run-time extents of a shape have the same type `t`, of rank at least `int` unless
stated otherwise; constants of another type (`fixed<1>`) are converted to it.
-/

namespace Kwk

/-- Result `v` of an arithmetic operation in a type of rank at least `int`: signed overflow is
undefined, unsigned arithmetic wraps. Used at `include/kwk/utility/container/shape.hpp:287`. -/
def IntType.op (t : IntType) (v : Int) : Res Int :=
  if t.signed then (if t.Fits v then pure v else throw .overflow) else pure (t.wrap v)

/-- `++i`: types narrower than `int` are promoted and converted back, so they wrap.
Used at `include/kwk/detail/algorithm/for_each.hpp:31`. -/
def IntType.incr (t : IntType) (i : Int) : Res Int :=
  if t.bits < 32 then pure (t.wrap (i + 1)) else t.op (i + 1)

/-- `shape::numel`, which returns `std::int32_t`; `include/kwk/utility/container/shape.hpp:284-288`. -/
def numelM (t : IntType) (s : Shape) : Res Int :=
  match s with
  | [] => pure 0
  | _ => do
    let v ← kumiFoldLeft (fun (a : Res Int) b => do t.op ((← a) * b)) s (pure 1)
    pure (IntType.i32.wrap v)

/-- `as_stride(shape)`; `include/kwk/utility/container/stride.hpp:173-189`. -/
def asStrideM (t : IntType) (s : Shape) : Res Strides :=
  match s with
  | [] => pure []
  | [_] => pure [1]
  | _ :: ds =>
    kumiFoldLeft (fun (a : Res Strides) m => do
      let a ← a
      let g ← t.op (m * a.headD 0)
      pure (g :: a)) ds (pure [1])

/-- `stride::linearize`; `include/kwk/utility/container/stride.hpp:129-137`. -/
def linearizeM (t : IntType) (st : Strides) (is : List Int) : Res Int :=
  (st.zip is).foldlM (fun acc gi => do t.op (acc + (← t.op (gi.1 * gi.2)))) 0

/-- A coordinate with its type. `include/kwk/utility/container/shape.hpp:240-245`. -/
structure Coord where
  type : IntType
  value : Int
  deriving DecidableEq, Repr

/-- `shape::contains`: each extent is converted to the type of the coordinate;
`include/kwk/utility/container/shape.hpp:240-245`. -/
def containsM (s : Shape) (p : List Coord) : Bool :=
  (s.zipWith (fun m c => decide (c.value < c.type.wrap m)) p).foldr (fun a b => a && b) true

/-- `linear_index(shape, idx...)`; `include/kwk/utility/linear_index.hpp:29-37`.
Simplification: coordinates are converted to the type of the extents by the multiplication. -/
def linearIndexM (md : Mode) (t : IntType) (s : Shape) (p : List Coord) : Res Int := do
  kwkAssert md (containsM s p)
  linearizeM t (← asStrideM t s) (p.map (·.value))

/-- `for(T i = start; i < ext; ++i) body(i)` with a counter of type `t`, the type of the extent
(`to_int_t`); `include/kwk/detail/algorithm/for_each.hpp:31-32`, `include/kwk/utility/fixed.hpp:30-45`.
Running out of fuel is the outcome `diverges`. -/
def forLoopM {σ : Type} (t : IntType) (ext : Int) (body : Int → StateT σ Res Unit) :
    Nat → Int → StateT σ Res Unit
  | 0, _ => fun _ => throw .diverges
  | fuel + 1, i =>
    if i < ext then do
      body i
      let j ← (fun s => do pure (← t.incr i, s) : StateT σ Res Int)
      forLoopM t ext body fuel j
    else pure ()

/-- `__::for_each(f, ds)` for extents with types; `include/kwk/detail/algorithm/for_each.hpp:24-40`. -/
def forEachM {σ : Type} (fuel : Nat) (f : List Int → StateT σ Res Unit) (ds : List Coord) :
    StateT σ Res Unit :=
  kumiFoldLeft
    (fun (acc : List Int → StateT σ Res Unit) (ext : Coord) =>
      fun is => forLoopM ext.type ext.value (fun i => acc (is ++ [i])) fuel 0)
    ds f []

/-- `for(T i = 0; !found && i < ext; ++i)`; `include/kwk/detail/algorithm/for_until.hpp:27-28`. -/
def untilLoopM {σ : Type} (t : IntType) (ext : Int) (body : Int → Bool → StateT σ Res Bool) :
    Nat → Int → Bool → StateT σ Res Bool
  | 0, _, _ => fun _ => throw .diverges
  | fuel + 1, i, found =>
    if !found && decide (i < ext) then do
      let found' ← body i found
      let j ← (fun s => do pure (← t.incr i, s) : StateT σ Res Int)
      untilLoopM t ext body fuel j found'
    else pure found

/-- `__::for_until(f, ds)`; `include/kwk/detail/algorithm/for_until.hpp:18-36`. -/
def forUntilM {σ : Type} (fuel : Nat) (f : List Int → StateT σ Res Bool) (ds : List Coord) :
    StateT σ Res Bool :=
  kumiFoldLeft
    (fun (acc : List Int → Bool → StateT σ Res Bool) (ext : Coord) =>
      fun is found => untilLoopM ext.type ext.value (fun i found => acc (is ++ [i]) found) fuel 0 found)
    ds (fun is _ => f is) [] false

end Kwk
