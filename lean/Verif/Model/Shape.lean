import Verif.Model.Base

/-!
# Model: shapes and strides as lists of extents

Values of `kwk::shape` and `kwk::stride` seen through `get<i>`: a list, outermost axis first.
Whether an extent is known at compile time does not matter here (see `Model/Prefilled.lean`).
Integers are unbounded here (see `Model/Machine.lean` for 32-bit arithmetic).
-/

namespace Kwk

/-- Extents of a `kwk::shape`, outermost first; `include/kwk/utility/container/shape.hpp:78-330`. -/
abbrev Shape := List Int

/-- Values of a `kwk::stride`, outermost first; `include/kwk/utility/container/stride.hpp:66-149`. -/
abbrev Strides := List Int

/-- `kumi::fold_left(f, t, init)`: visits the last element first and calls `f(acc, v)`.
Assumption on the external library kumi, see DESIGN.md.
Used at `include/kwk/utility/container/shape.hpp:287`. -/
def kumiFoldLeft {α β : Type} (f : β → α → β) (t : List α) (init : β) : β :=
  t.foldr (fun v acc => f acc v) init

/-- `kumi::fold_right(f, t, init)`: visits the first element first and calls `f(acc, v)`.
Assumption on the external library kumi, see DESIGN.md.
Used at `include/kwk/utility/container/shape.hpp:382-394`. -/
def kumiFoldRight {α β : Type} (f : β → α → β) (t : List α) (init : β) : β :=
  t.foldl f init

/-- `shape::numel`; `include/kwk/utility/container/shape.hpp:284-288`. -/
def numel (s : Shape) : Int :=
  match s with
  | [] => 0
  | _ => kumiFoldLeft (fun a b => a * b) s 1

/-- `kumi::locate(t, pred)`: index of the first match, or the size.  Assumption on kumi.
Used at `include/kwk/utility/container/shape.hpp:268-276`. -/
def kumiLocate {α : Type} (t : List α) (pred : α → Bool) : Nat := t.findIdx pred

/-- `shape::nbdims`; `include/kwk/utility/container/shape.hpp:268-276`. -/
def nbdims (s : Shape) : Int :=
  match s with
  | [] => 0
  | _ => (s.length : Int) - (kumiLocate s (fun m => m != 1) : Nat)

/-- `compress<N>(shape)`; `include/kwk/utility/container/shape.hpp:382-394`.
The C++ requires `0 < N <= order`. -/
def compress (n : Nat) (s : Shape) : Shape :=
  if n = s.length then s
  else
    let head := s.take (s.length - n + 1)
    let tail := s.drop (s.length - n + 1)
    match head with
    | [] => tail
    | h0 :: hs => kumiFoldRight (fun acc v => acc * v) hs h0 :: tail

/-- `operator==(shape, shape)`; `include/kwk/utility/container/shape.hpp:219-228`. -/
def shapeEq (a b : Shape) : Bool :=
  let sz := min a.length b.length
  ((compress sz a).zip (compress sz b)).foldl (fun result ab => result && (ab.1 == ab.2)) true

/-- `as_stride(shape)`; `include/kwk/utility/container/stride.hpp:173-189`. -/
def asStride (s : Shape) : Strides :=
  match s with
  | [] => []
  | [_] => [1]
  | _ :: ds => kumiFoldLeft (fun a m => (m * a.headD 0) :: a) ds [1]

/-- `compress<N>(stride)`: keeps the last `N` strides; `include/kwk/utility/container/stride.hpp:191-196`. -/
def strideCompress (n : Nat) (st : Strides) : Strides := st.drop (st.length - n)

/-- `stride::linearize`: binary left fold of the products starting from `0`;
`include/kwk/utility/container/stride.hpp:129-137`. -/
def linearize (st : Strides) (is : List Int) : Int :=
  (st.zipWith (fun g i => g * i) is).foldl (fun a b => a + b) 0

/-- `shape::contains` for coordinates whose type can represent the extents;
`include/kwk/utility/container/shape.hpp:240-245`. Narrow coordinate types: `Model/Machine.lean`. -/
def contains (s : Shape) (p : List Int) : Bool :=
  (s.zipWith (fun m i => decide (i < m)) p).foldr (fun a b => a && b) true

/-- `linear_index(shape, idx...)`; `include/kwk/utility/linear_index.hpp:29-37`. -/
def linearIndex (md : Mode) (s : Shape) (p : List Int) : Res Int := do
  kwkAssert md (contains s p)
  pure (linearize (asStride s) p)

/-- `coordinates(idx, shape)`; `include/kwk/utility/coordinates.hpp:31-55`.
The `static_cast<Idx>` of each coordinate is the identity here (unbounded integers). -/
def coordinates (md : Mode) (idx : Int) (s : Shape) : Res (List Int) := do
  kwkAssert md (decide (idx < numel s))
  let strds := asStride s
  let c0 ← cdiv idx (strds.headD 0)
  let cs ← (strds.tail.zip s.tail).mapM fun (st, d) => do cmod (← cdiv idx st) d
  pure (c0 :: cs)

/-- `position::operator==`: coordinate-wise; `include/kwk/utility/position.hpp:33-41`. -/
def positionEq (a b : List Int) : Bool :=
  (a.zip b).all (fun ab => ab.1 == ab.2)

end Kwk
