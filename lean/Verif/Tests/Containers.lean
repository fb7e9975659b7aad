import Verif.Model.Options
import Verif.Model.Slicer
import Verif.Model.Algos
import Verif.Model.Effects
import Verif.Model.AnyAllocator
import Verif.Model.TypedPrint
import Verif.Model.Objects

/-!
# Unit tests of containers and memory, run on the model

The tests of `test/unit/container`, `test/unit/utility/memory`, `test/unit/algorithm/views` and
`test/unit/algorithm/algos/position.cpp`, with the model in place of the library.  Floating-point data are replaced by
integers.
-/

namespace Kwk.Tests.Containers

/-- The elements `1, 2, ..., n` of `ref`, in block 0. -/
private def ref (n : Nat) : Mem Int := fun p =>
  if p.blk = 0 ∧ 0 ≤ p.off ∧ p.off < n then some (p.off + 1) else none

/-- The elements of a container in the order of `for_each`. -/
private def elements (m : Mem Int) (c : Container) : Option (List Int) :=
  match forEachElems (fun l ps m => do
      let x ← load m (ps.headD ⟨9, 9⟩)
      pure (l ++ [x], m)) ([] : List Int) c [] m with
  | .ok r => r.1.returned
  | _ => none

/-- The first `n` elements of `ref`. -/
private def upTo (n : Nat) : List Int := (List.range n).map fun (k : Nat) => (k : Int) + 1

/-- The source of the tests: the address of `ref`. -/
private def src (k : SourceKind) : Opt Unit := .source ⟨(), some ⟨0, 0⟩, k⟩

/-- What the tests look at: `size()`, `shape()`, `is_fully_static`, and the elements. -/
private structure Seen where
  size : Int
  shape : Shape
  static : Bool
  elems : Option (List Int)
  deriving DecidableEq

/-- A view. -/
private def seenView (n : Nat) (opts : List (Opt Unit)) : Option Seen := do
  let b ← makeView opts
  let c ← b.view
  pure ⟨c.numel, c.shape, c.static, elements (ref n) c⟩

/-- An empty program, with `ref` in memory. -/
private def start (n : Nat) : World Int := ⟨ref n, fun _ => none, 1, fun _ => -1, fun _ => none⟩

/-- A table with run-time shape. -/
private def seenTable (n : Nat) (opts : List (Opt Unit)) : Option Seen := do
  let b ← makeTable opts
  let o ← b.construction 0
  match (start n).run [o] with
  | .ok w => do
    let t ← w.tables 0
    let d ← t.data
    if d = 0 then none
    pure ⟨numel t.shape, t.shape, b.static, elements w.mem (Container.ofShape ⟨d, 0⟩ t.shape)⟩
  | .error _ => none

/-- A table with compile-time shape. -/
private def seenStack (n : Nat) (opts : List (Opt Unit)) : Option Seen := do
  let b ← makeTable opts
  let r ← b.stackTable (ref n)
  match r with
  | .ok t =>
    let m : Mem Int := fun p => if p.blk = 5 ∧ 0 ≤ p.off then t.cells[p.off.toNat]? else none
    pure ⟨numel t.shape, t.shape, b.static, elements m (Container.ofShape ⟨5, 0⟩ t.shape)⟩
  | .error _ => none


/-! `test/unit/container/view/dynamic.1d.cpp:14-124` -/

example : seenView 7 [src (.array (.cArray 7 .elem)), .size ⟨[7], false⟩]
    = some ⟨7, [7], false, some (upTo 7)⟩ := by decide +kernel
example : seenView 7 [src (.array (.cArray 7 .elem)), .size ⟨[4], false⟩]
    = some ⟨4, [4], false, some (upTo 4)⟩ := by decide +kernel
example : seenView 7 [src (.array (.stdArray 7 .elem)), .size ⟨[7], false⟩]
    = some ⟨7, [7], false, some (upTo 7)⟩ := by decide +kernel
example : seenView 7 [src (.array (.stdArray 7 .elem)), .size ⟨[4], false⟩]
    = some ⟨4, [4], false, some (upTo 4)⟩ := by decide +kernel
example : seenView 7 [src (.range 7), .size ⟨[7], false⟩]
    = some ⟨7, [7], false, some (upTo 7)⟩ := by decide +kernel
example : seenView 7 [src (.range 7), .size ⟨[4], false⟩]
    = some ⟨4, [4], false, some (upTo 4)⟩ := by decide +kernel
example : seenView 7 [src (.ptr), .size ⟨[7], false⟩]
    = some ⟨7, [7], false, some (upTo 7)⟩ := by decide +kernel
example : seenView 7 [src (.ptr), .size ⟨[4], false⟩]
    = some ⟨4, [4], false, some (upTo 4)⟩ := by decide +kernel

/-! `test/unit/container/view/dynamic.2d.cpp:14-120` -/

example : seenView 12 [src (.array (.cArray 12 .elem)), .size ⟨[4, 3], false⟩]
    = some ⟨12, [4, 3], false, some (upTo 12)⟩ := by decide +kernel
example : seenView 12 [src (.array (.cArray 12 .elem)), .size ⟨[3, 4], false⟩]
    = some ⟨12, [3, 4], false, some (upTo 12)⟩ := by decide +kernel
example : seenView 12 [src (.array (.stdArray 12 .elem)), .size ⟨[4, 3], false⟩]
    = some ⟨12, [4, 3], false, some (upTo 12)⟩ := by decide +kernel
example : seenView 12 [src (.array (.stdArray 12 .elem)), .size ⟨[3, 4], false⟩]
    = some ⟨12, [3, 4], false, some (upTo 12)⟩ := by decide +kernel
example : seenView 12 [src (.range 12), .size ⟨[4, 3], false⟩]
    = some ⟨12, [4, 3], false, some (upTo 12)⟩ := by decide +kernel
example : seenView 12 [src (.range 12), .size ⟨[3, 4], false⟩]
    = some ⟨12, [3, 4], false, some (upTo 12)⟩ := by decide +kernel
example : seenView 12 [src (.ptr), .size ⟨[4, 3], false⟩]
    = some ⟨12, [4, 3], false, some (upTo 12)⟩ := by decide +kernel
example : seenView 12 [src (.ptr), .size ⟨[3, 4], false⟩]
    = some ⟨12, [3, 4], false, some (upTo 12)⟩ := by decide +kernel

/-! `test/unit/container/view/dynamic.3d.cpp:14-132` -/

example : seenView 24 [src (.array (.cArray 24 .elem)), .size ⟨[4, 3, 2], false⟩]
    = some ⟨24, [4, 3, 2], false, some (upTo 24)⟩ := by decide +kernel
example : seenView 24 [src (.array (.cArray 24 .elem)), .size ⟨[3, 4, 2], false⟩]
    = some ⟨24, [3, 4, 2], false, some (upTo 24)⟩ := by decide +kernel
example : seenView 24 [src (.array (.stdArray 24 .elem)), .size ⟨[4, 3, 2], false⟩]
    = some ⟨24, [4, 3, 2], false, some (upTo 24)⟩ := by decide +kernel
example : seenView 24 [src (.array (.stdArray 24 .elem)), .size ⟨[3, 4, 2], false⟩]
    = some ⟨24, [3, 4, 2], false, some (upTo 24)⟩ := by decide +kernel
example : seenView 24 [src (.range 24), .size ⟨[4, 3, 2], false⟩]
    = some ⟨24, [4, 3, 2], false, some (upTo 24)⟩ := by decide +kernel
example : seenView 24 [src (.range 24), .size ⟨[3, 4, 2], false⟩]
    = some ⟨24, [3, 4, 2], false, some (upTo 24)⟩ := by decide +kernel
example : seenView 24 [src (.ptr), .size ⟨[4, 3, 2], false⟩]
    = some ⟨24, [4, 3, 2], false, some (upTo 24)⟩ := by decide +kernel
example : seenView 24 [src (.ptr), .size ⟨[3, 4, 2], false⟩]
    = some ⟨24, [3, 4, 2], false, some (upTo 24)⟩ := by decide +kernel

/-! `test/unit/container/view/dynamic.4d.cpp:14-132` -/

example : seenView 24 [src (.array (.cArray 24 .elem)), .size ⟨[2, 3, 2, 2], false⟩]
    = some ⟨24, [2, 3, 2, 2], false, some (upTo 24)⟩ := by decide +kernel
example : seenView 24 [src (.array (.cArray 24 .elem)), .size ⟨[3, 2, 2, 2], false⟩]
    = some ⟨24, [3, 2, 2, 2], false, some (upTo 24)⟩ := by decide +kernel
example : seenView 24 [src (.array (.stdArray 24 .elem)), .size ⟨[2, 3, 2, 2], false⟩]
    = some ⟨24, [2, 3, 2, 2], false, some (upTo 24)⟩ := by decide +kernel
example : seenView 24 [src (.array (.stdArray 24 .elem)), .size ⟨[3, 2, 2, 2], false⟩]
    = some ⟨24, [3, 2, 2, 2], false, some (upTo 24)⟩ := by decide +kernel
example : seenView 24 [src (.range 24), .size ⟨[2, 3, 2, 2], false⟩]
    = some ⟨24, [2, 3, 2, 2], false, some (upTo 24)⟩ := by decide +kernel
example : seenView 24 [src (.range 24), .size ⟨[3, 2, 2, 2], false⟩]
    = some ⟨24, [3, 2, 2, 2], false, some (upTo 24)⟩ := by decide +kernel
example : seenView 24 [src (.ptr), .size ⟨[2, 3, 2, 2], false⟩]
    = some ⟨24, [2, 3, 2, 2], false, some (upTo 24)⟩ := by decide +kernel
example : seenView 24 [src (.ptr), .size ⟨[3, 2, 2, 2], false⟩]
    = some ⟨24, [3, 2, 2, 2], false, some (upTo 24)⟩ := by decide +kernel

/-! `test/unit/container/view/static.1d.cpp:14-117` -/

example : seenView 7 [src (.array (.cArray 7 .elem))] = some ⟨7, [7], true, some (upTo 7)⟩ := by decide +kernel
example : seenView 7 [src (.array (.cArray 7 .elem)), .size ⟨[4], true⟩]
    = some ⟨4, [4], true, some (upTo 4)⟩ := by decide +kernel
example : seenView 7 [src (.array (.stdArray 7 .elem))] = some ⟨7, [7], true, some (upTo 7)⟩ := by decide +kernel
example : seenView 7 [src (.array (.stdArray 7 .elem)), .size ⟨[4], true⟩]
    = some ⟨4, [4], true, some (upTo 4)⟩ := by decide +kernel
example : seenView 7 [src (.range 7), .size ⟨[7], true⟩]
    = some ⟨7, [7], true, some (upTo 7)⟩ := by decide +kernel
example : seenView 5 [src (.range 5), .size ⟨[5], true⟩]
    = some ⟨5, [5], true, some (upTo 5)⟩ := by decide +kernel
example : seenView 7 [src (.ptr), .size ⟨[7], true⟩]
    = some ⟨7, [7], true, some (upTo 7)⟩ := by decide +kernel
example : seenView 5 [src (.ptr), .size ⟨[5], true⟩]
    = some ⟨5, [5], true, some (upTo 5)⟩ := by decide +kernel

/-! `test/unit/container/view/static.2d.cpp:14-117` -/

example : seenView 12 [src (.array (.cArray 12 .elem)), .size ⟨[4, 3], true⟩]
    = some ⟨12, [4, 3], true, some (upTo 12)⟩ := by decide +kernel
example : seenView 12 [src (.array (.cArray 12 .elem)), .size ⟨[3, 4], true⟩]
    = some ⟨12, [3, 4], true, some (upTo 12)⟩ := by decide +kernel
example : seenView 12 [src (.array (.stdArray 12 .elem)), .size ⟨[4, 3], true⟩]
    = some ⟨12, [4, 3], true, some (upTo 12)⟩ := by decide +kernel
example : seenView 12 [src (.array (.stdArray 12 .elem)), .size ⟨[3, 4], true⟩]
    = some ⟨12, [3, 4], true, some (upTo 12)⟩ := by decide +kernel
example : seenView 12 [src (.range 12), .size ⟨[4, 3], true⟩]
    = some ⟨12, [4, 3], true, some (upTo 12)⟩ := by decide +kernel
example : seenView 12 [src (.range 12), .size ⟨[3, 4], true⟩]
    = some ⟨12, [3, 4], true, some (upTo 12)⟩ := by decide +kernel
example : seenView 12 [src (.ptr), .size ⟨[4, 3], true⟩]
    = some ⟨12, [4, 3], true, some (upTo 12)⟩ := by decide +kernel
example : seenView 12 [src (.ptr), .size ⟨[3, 4], true⟩]
    = some ⟨12, [3, 4], true, some (upTo 12)⟩ := by decide +kernel

/-! `test/unit/container/view/static.3d.cpp:14-121` -/

example : seenView 24 [src (.array (.cArray 24 .elem)), .size ⟨[4, 3, 2], true⟩]
    = some ⟨24, [4, 3, 2], true, some (upTo 24)⟩ := by decide +kernel
example : seenView 24 [src (.array (.cArray 24 .elem)), .size ⟨[3, 4, 2], true⟩]
    = some ⟨24, [3, 4, 2], true, some (upTo 24)⟩ := by decide +kernel
example : seenView 24 [src (.array (.stdArray 24 .elem)), .size ⟨[4, 3, 2], true⟩]
    = some ⟨24, [4, 3, 2], true, some (upTo 24)⟩ := by decide +kernel
example : seenView 24 [src (.array (.stdArray 24 .elem)), .size ⟨[3, 4, 2], true⟩]
    = some ⟨24, [3, 4, 2], true, some (upTo 24)⟩ := by decide +kernel
example : seenView 24 [src (.range 24), .size ⟨[4, 3, 2], true⟩]
    = some ⟨24, [4, 3, 2], true, some (upTo 24)⟩ := by decide +kernel
example : seenView 24 [src (.range 24), .size ⟨[3, 4, 2], true⟩]
    = some ⟨24, [3, 4, 2], true, some (upTo 24)⟩ := by decide +kernel

/-! `test/unit/container/view/static.4d.cpp:14-140` -/

example : seenView 24 [src (.array (.cArray 24 .elem)), .size ⟨[2, 3, 2, 2], true⟩]
    = some ⟨24, [2, 3, 2, 2], true, some (upTo 24)⟩ := by decide +kernel
example : seenView 24 [src (.array (.cArray 24 .elem)), .size ⟨[3, 2, 2, 2], true⟩]
    = some ⟨24, [3, 2, 2, 2], true, some (upTo 24)⟩ := by decide +kernel
example : seenView 24 [src (.array (.stdArray 24 .elem)), .size ⟨[2, 3, 2, 2], true⟩]
    = some ⟨24, [2, 3, 2, 2], true, some (upTo 24)⟩ := by decide +kernel
example : seenView 24 [src (.array (.stdArray 24 .elem)), .size ⟨[3, 2, 2, 2], true⟩]
    = some ⟨24, [3, 2, 2, 2], true, some (upTo 24)⟩ := by decide +kernel
example : seenView 24 [src (.range 24), .size ⟨[2, 3, 2, 2], true⟩]
    = some ⟨24, [2, 3, 2, 2], true, some (upTo 24)⟩ := by decide +kernel
example : seenView 24 [src (.range 24), .size ⟨[3, 2, 2, 2], true⟩]
    = some ⟨24, [3, 2, 2, 2], true, some (upTo 24)⟩ := by decide +kernel

/-! `test/unit/container/view/empty`: the data of an empty vector may be a null pointer, in which case there is nothing to
read. -/

example : seenView 1 [src (.array (.cArray 1 .elem)), .size ⟨[0], false⟩]
    = some ⟨0, [0], false, some (upTo 0)⟩ := by decide +kernel
example : seenView 0 [src (.range 0), .size ⟨[0], false⟩]
    = some ⟨0, [0], false, some (upTo 0)⟩ := by decide +kernel
example : seenView 0 [src (.ptr), .size ⟨[0], false⟩]
    = some ⟨0, [0], false, some (upTo 0)⟩ := by decide +kernel
example : seenView 1 [src (.array (.stdArray 1 .elem)), .size ⟨[0], false⟩]
    = some ⟨0, [0], false, some (upTo 0)⟩ := by decide +kernel
example : (makeView [(.source ⟨(), none, .ptr⟩ : Opt Unit), .size ⟨[0], false⟩]).map (fun b => (b.shape, b.static, b.block))
    = some ([0], false, .shallow none) := by decide +kernel

/-! `test/unit/container/table/dynamic.1d.cpp:14-124` -/

example : seenTable 7 [src (.array (.cArray 7 .elem)), .size ⟨[7], false⟩]
    = some ⟨7, [7], false, some (upTo 7)⟩ := by decide +kernel
example : seenTable 7 [src (.array (.cArray 7 .elem)), .size ⟨[4], false⟩]
    = some ⟨4, [4], false, some (upTo 4)⟩ := by decide +kernel
example : seenTable 7 [src (.array (.stdArray 7 .elem)), .size ⟨[7], false⟩]
    = some ⟨7, [7], false, some (upTo 7)⟩ := by decide +kernel
example : seenTable 7 [src (.array (.stdArray 7 .elem)), .size ⟨[4], false⟩]
    = some ⟨4, [4], false, some (upTo 4)⟩ := by decide +kernel
example : seenTable 7 [src (.range 7), .size ⟨[7], false⟩]
    = some ⟨7, [7], false, some (upTo 7)⟩ := by decide +kernel
example : seenTable 7 [src (.range 7), .size ⟨[4], false⟩]
    = some ⟨4, [4], false, some (upTo 4)⟩ := by decide +kernel
example : seenTable 7 [src (.ptr), .size ⟨[7], false⟩]
    = some ⟨7, [7], false, some (upTo 7)⟩ := by decide +kernel
example : seenTable 7 [src (.ptr), .size ⟨[4], false⟩]
    = some ⟨4, [4], false, some (upTo 4)⟩ := by decide +kernel

/-! `test/unit/container/table/dynamic.2d.cpp:14-120` -/

example : seenTable 12 [src (.array (.cArray 12 .elem)), .size ⟨[4, 3], false⟩]
    = some ⟨12, [4, 3], false, some (upTo 12)⟩ := by decide +kernel
example : seenTable 12 [src (.array (.cArray 12 .elem)), .size ⟨[3, 4], false⟩]
    = some ⟨12, [3, 4], false, some (upTo 12)⟩ := by decide +kernel
example : seenTable 12 [src (.array (.stdArray 12 .elem)), .size ⟨[4, 3], false⟩]
    = some ⟨12, [4, 3], false, some (upTo 12)⟩ := by decide +kernel
example : seenTable 12 [src (.array (.stdArray 12 .elem)), .size ⟨[3, 4], false⟩]
    = some ⟨12, [3, 4], false, some (upTo 12)⟩ := by decide +kernel
example : seenTable 12 [src (.range 12), .size ⟨[4, 3], false⟩]
    = some ⟨12, [4, 3], false, some (upTo 12)⟩ := by decide +kernel
example : seenTable 12 [src (.range 12), .size ⟨[3, 4], false⟩]
    = some ⟨12, [3, 4], false, some (upTo 12)⟩ := by decide +kernel
example : seenTable 12 [src (.ptr), .size ⟨[4, 3], false⟩]
    = some ⟨12, [4, 3], false, some (upTo 12)⟩ := by decide +kernel
example : seenTable 12 [src (.ptr), .size ⟨[3, 4], false⟩]
    = some ⟨12, [3, 4], false, some (upTo 12)⟩ := by decide +kernel

/-! `test/unit/container/table/dynamic.3d.cpp:14-132` -/

example : seenTable 24 [src (.array (.cArray 24 .elem)), .size ⟨[4, 3, 2], false⟩]
    = some ⟨24, [4, 3, 2], false, some (upTo 24)⟩ := by decide +kernel
example : seenTable 24 [src (.array (.cArray 24 .elem)), .size ⟨[3, 4, 2], false⟩]
    = some ⟨24, [3, 4, 2], false, some (upTo 24)⟩ := by decide +kernel
example : seenTable 24 [src (.array (.stdArray 24 .elem)), .size ⟨[4, 3, 2], false⟩]
    = some ⟨24, [4, 3, 2], false, some (upTo 24)⟩ := by decide +kernel
example : seenTable 24 [src (.array (.stdArray 24 .elem)), .size ⟨[3, 4, 2], false⟩]
    = some ⟨24, [3, 4, 2], false, some (upTo 24)⟩ := by decide +kernel
example : seenTable 24 [src (.range 24), .size ⟨[4, 3, 2], false⟩]
    = some ⟨24, [4, 3, 2], false, some (upTo 24)⟩ := by decide +kernel
example : seenTable 24 [src (.range 24), .size ⟨[3, 4, 2], false⟩]
    = some ⟨24, [3, 4, 2], false, some (upTo 24)⟩ := by decide +kernel
example : seenTable 24 [src (.ptr), .size ⟨[4, 3, 2], false⟩]
    = some ⟨24, [4, 3, 2], false, some (upTo 24)⟩ := by decide +kernel
example : seenTable 24 [src (.ptr), .size ⟨[3, 4, 2], false⟩]
    = some ⟨24, [3, 4, 2], false, some (upTo 24)⟩ := by decide +kernel

/-! `test/unit/container/table/dynamic.4d.cpp:14-132` -/

example : seenTable 24 [src (.array (.cArray 24 .elem)), .size ⟨[2, 3, 2, 2], false⟩]
    = some ⟨24, [2, 3, 2, 2], false, some (upTo 24)⟩ := by decide +kernel
example : seenTable 24 [src (.array (.cArray 24 .elem)), .size ⟨[3, 2, 2, 2], false⟩]
    = some ⟨24, [3, 2, 2, 2], false, some (upTo 24)⟩ := by decide +kernel
example : seenTable 24 [src (.array (.stdArray 24 .elem)), .size ⟨[2, 3, 2, 2], false⟩]
    = some ⟨24, [2, 3, 2, 2], false, some (upTo 24)⟩ := by decide +kernel
example : seenTable 24 [src (.array (.stdArray 24 .elem)), .size ⟨[3, 2, 2, 2], false⟩]
    = some ⟨24, [3, 2, 2, 2], false, some (upTo 24)⟩ := by decide +kernel
example : seenTable 24 [src (.range 24), .size ⟨[2, 3, 2, 2], false⟩]
    = some ⟨24, [2, 3, 2, 2], false, some (upTo 24)⟩ := by decide +kernel
example : seenTable 24 [src (.range 24), .size ⟨[3, 2, 2, 2], false⟩]
    = some ⟨24, [3, 2, 2, 2], false, some (upTo 24)⟩ := by decide +kernel
example : seenTable 24 [src (.ptr), .size ⟨[2, 3, 2, 2], false⟩]
    = some ⟨24, [2, 3, 2, 2], false, some (upTo 24)⟩ := by decide +kernel
example : seenTable 24 [src (.ptr), .size ⟨[3, 2, 2, 2], false⟩]
    = some ⟨24, [3, 2, 2, 2], false, some (upTo 24)⟩ := by decide +kernel

/-! `test/unit/container/table/static.1d.cpp:14-124` -/

example : seenStack 7 [src (.array (.cArray 7 .elem))] = some ⟨7, [7], true, some (upTo 7)⟩ := by decide +kernel
example : seenStack 7 [src (.array (.cArray 7 .elem)), .size ⟨[4], true⟩]
    = some ⟨4, [4], true, some (upTo 4)⟩ := by decide +kernel
example : seenStack 7 [src (.array (.stdArray 7 .elem))] = some ⟨7, [7], true, some (upTo 7)⟩ := by decide +kernel
example : seenStack 7 [src (.array (.stdArray 7 .elem)), .size ⟨[4], true⟩]
    = some ⟨4, [4], true, some (upTo 4)⟩ := by decide +kernel
example : seenStack 7 [src (.range 7), .size ⟨[7], true⟩]
    = some ⟨7, [7], true, some (upTo 7)⟩ := by decide +kernel
example : seenStack 5 [src (.range 5), .size ⟨[5], true⟩]
    = some ⟨5, [5], true, some (upTo 5)⟩ := by decide +kernel
example : seenStack 7 [src (.ptr), .size ⟨[7], true⟩]
    = some ⟨7, [7], true, some (upTo 7)⟩ := by decide +kernel
example : seenStack 5 [src (.ptr), .size ⟨[5], true⟩]
    = some ⟨5, [5], true, some (upTo 5)⟩ := by decide +kernel

/-! `test/unit/container/table/static.2d.cpp:14-124` -/

example : seenStack 12 [src (.array (.cArray 12 .elem)), .size ⟨[4, 3], true⟩]
    = some ⟨12, [4, 3], true, some (upTo 12)⟩ := by decide +kernel
example : seenStack 12 [src (.array (.cArray 12 .elem)), .size ⟨[3, 4], true⟩]
    = some ⟨12, [3, 4], true, some (upTo 12)⟩ := by decide +kernel
example : seenStack 12 [src (.array (.stdArray 12 .elem)), .size ⟨[4, 3], true⟩]
    = some ⟨12, [4, 3], true, some (upTo 12)⟩ := by decide +kernel
example : seenStack 12 [src (.array (.stdArray 12 .elem)), .size ⟨[3, 4], true⟩]
    = some ⟨12, [3, 4], true, some (upTo 12)⟩ := by decide +kernel
example : seenStack 12 [src (.range 12), .size ⟨[4, 3], true⟩]
    = some ⟨12, [4, 3], true, some (upTo 12)⟩ := by decide +kernel
example : seenStack 12 [src (.range 12), .size ⟨[3, 4], true⟩]
    = some ⟨12, [3, 4], true, some (upTo 12)⟩ := by decide +kernel
example : seenStack 12 [src (.ptr), .size ⟨[4, 3], true⟩]
    = some ⟨12, [4, 3], true, some (upTo 12)⟩ := by decide +kernel
example : seenStack 12 [src (.ptr), .size ⟨[3, 4], true⟩]
    = some ⟨12, [3, 4], true, some (upTo 12)⟩ := by decide +kernel

/-! `test/unit/container/table/static.3d.cpp:14-128` -/

example : seenStack 24 [src (.array (.cArray 24 .elem)), .size ⟨[4, 3, 2], true⟩]
    = some ⟨24, [4, 3, 2], true, some (upTo 24)⟩ := by decide +kernel
example : seenStack 24 [src (.array (.cArray 24 .elem)), .size ⟨[3, 4, 2], true⟩]
    = some ⟨24, [3, 4, 2], true, some (upTo 24)⟩ := by decide +kernel
example : seenStack 24 [src (.array (.stdArray 24 .elem)), .size ⟨[4, 3, 2], true⟩]
    = some ⟨24, [4, 3, 2], true, some (upTo 24)⟩ := by decide +kernel
example : seenStack 24 [src (.array (.stdArray 24 .elem)), .size ⟨[3, 4, 2], true⟩]
    = some ⟨24, [3, 4, 2], true, some (upTo 24)⟩ := by decide +kernel
example : seenStack 24 [src (.range 24), .size ⟨[4, 3, 2], true⟩]
    = some ⟨24, [4, 3, 2], true, some (upTo 24)⟩ := by decide +kernel
example : seenStack 24 [src (.range 24), .size ⟨[3, 4, 2], true⟩]
    = some ⟨24, [3, 4, 2], true, some (upTo 24)⟩ := by decide +kernel

/-! `test/unit/container/table/static.4d.cpp:14-145` -/

example : seenStack 24 [src (.array (.cArray 24 .elem)), .size ⟨[2, 3, 2, 2], true⟩]
    = some ⟨24, [2, 3, 2, 2], true, some (upTo 24)⟩ := by decide +kernel
example : seenStack 24 [src (.array (.cArray 24 .elem)), .size ⟨[3, 2, 2, 2], true⟩]
    = some ⟨24, [3, 2, 2, 2], true, some (upTo 24)⟩ := by decide +kernel
example : seenStack 24 [src (.array (.stdArray 24 .elem)), .size ⟨[2, 3, 2, 2], true⟩]
    = some ⟨24, [2, 3, 2, 2], true, some (upTo 24)⟩ := by decide +kernel
example : seenStack 24 [src (.array (.stdArray 24 .elem)), .size ⟨[3, 2, 2, 2], true⟩]
    = some ⟨24, [3, 2, 2, 2], true, some (upTo 24)⟩ := by decide +kernel
example : seenStack 24 [src (.range 24), .size ⟨[2, 3, 2, 2], true⟩]
    = some ⟨24, [2, 3, 2, 2], true, some (upTo 24)⟩ := by decide +kernel
example : seenStack 24 [src (.range 24), .size ⟨[3, 2, 2, 2], true⟩]
    = some ⟨24, [3, 2, 2, 2], true, some (upTo 24)⟩ := by decide +kernel

/-! `test/unit/container/table/slicing.cpp:18-45` -/

/-- The table: twelve elements inside the object, at block 0. -/
private def v : Container := ⟨⟨0, 0⟩, [12], [1], false, true, true, none⟩

/-- Reachability and elements of a slice, read by position. -/
private def sliced (s : Slicer) : Option (Bool × List (Option Int)) :=
  match v.slice .checked [s] with
  | .ok c => some (c.reach, (List.range c.numel.toNat).map fun (i : Nat) => ((c.get (ref 12) [(i : Int)]).toOption))
  | .error _ => none

example : (makeTable [src (.array (.cArray 12 .elem))]).map (fun b => (b.shape, b.strides, b.specific, b.static, b.reach))
    = some (v.shape, v.strides, v.specific, v.static, v.reach) := by decide +kernel
example : sliced .joker = some (true, (upTo 12).map some) := by decide +kernel
example : (v.slice .checked [atIndex 3]).toOption.map (fun c => (c.reach, (c.get (ref 12) [0]).toOption)) = some (true, some 4) := by
  decide +kernel
example : sliced (.ext (EndT.all.sub 1)) = some (true, [some 12]) := by decide +kernel
example : sliced (between 3 (.int 6)) = some (true, [some 4, some 5, some 6]) := by decide +kernel
example : sliced (slice (to := some (.int 5)) (from_ := some (.int 2))) = some (true, [some 3, some 4, some 5]) := by decide +kernel
example : sliced (slice (by_ := some 2) (from_ := some (.int 2)) (to := some (.int 5))) = some (false, [some 3, some 5]) := by
  decide +kernel
example : sliced (every 2) = some (false, [some 1, some 3, some 5, some 7, some 9, some 11]) := by decide +kernel

/-! `test/unit/algorithm/views/relabel.cpp:13-58` -/

example : ∀ n ∈ [2, 6, 24, 120], ((makeView [src (.array (.cArray n .elem)), .label "data"]).bind Built.view).map
    (fun c => (c.label, (relabel c "vdata").label)) = some (some "data", some "vdata") := by decide +kernel

/-! `test/unit/algorithm/views/reverse.cpp:16-44` -/

/-- `data` in block 0, `res` in block 1. -/
private def two : Mem Int := fun p => if p.blk ≤ 1 ∧ 0 ≤ p.off ∧ p.off < 2 then some (if p.blk = 0 then p.off else 7) else none

example : (match forEachElems (fun (_ : Unit) ps m => do
      let x ← load m (ps.getD 1 ⟨9, 9⟩)
      let m ← store m (ps.getD 0 ⟨9, 9⟩) x
      pure ((), m)) () (Container.ofShape ⟨1, 0⟩ [2]) [reverse (Container.ofShape ⟨0, 0⟩ [2])] two with
    | .ok r => some (r.2 ⟨1, 0⟩, r.2 ⟨1, 1⟩)
    | .error _ => none) = some (some 1, some 0) := by decide +kernel

/-! `test/unit/algorithm/algos/position.cpp:13-33` -/

example : positionPrint [0, 1, 2] = "position<3>(0, 1, 2)" := by decide +kernel

/-! `test/unit/utility/memory/heap.cpp:11-27` -/

example : ((start 0).allocate heapAlloc 0).1 = none := by decide +kernel
example : ((start 0).allocate heapAlloc 64).1 ≠ none := by decide +kernel
example : (match (start 0).allocate heapAlloc 64 with
    | (some b, w) => (w.free b (some heapAlloc)).toOption.isSome
    | _ => false) = true := by decide +kernel

/-! `test/unit/utility/memory/allocator.cpp:71-117`: the allocators of the boxes -/

/-- `box(n, a)`: the parameter `a` is moved into the member. -/
private def boxOf (a : AnyAlloc) : Res AnyAlloc := a.construct .rvalue 9

/-- `box(that)`: `box(that.size_, that.alloc)` for a `const` box. -/
private def boxCopy (a : AnyAlloc) : Res AnyAlloc := do
  let p ← a.construct .constLvalue 9
  boxOf p

/-- `b = that`: copy and swap. -/
private def boxAssign (b that : AnyAlloc) : Res AnyAlloc := do
  let c ← boxCopy that
  pure (c.swap b).1

/-- `b = std::move(that)`: the local box is built by default and swapped with `that`, then with `b`. -/
private def boxMove (b that : AnyAlloc) : AnyAlloc × AnyAlloc :=
  let (l, that') := AnyAlloc.swap .empty that
  ((b.swap l).1, that')

example : (do
    let b0 ← boxOf (.ofAlloc heapAlloc)
    let b1 ← boxOf (.ofAlloc heapAlloc)
    let b2 ← boxCopy b1
    let b1 ← boxAssign b1 b0
    let (b2, b0) := boxMove b2 b0
    let t1 ← b1.target
    let t2 ← b2.target
    pure (t1, t2, b0)) = (.ok (heapAlloc, heapAlloc, .empty) : Res _) := by decide +kernel

/-! Sizes of objects: `test/unit/container/*/*.cpp`, `test/unit/utility/shape/default_ctor.cpp:17-210` -/

/-- Extents: `some t` at run time, `none` at compile time. -/
private def extents (l : List (Option IntType)) : Desc :=
  (l.zipIdx).map fun x => ⟨.implicit (l.length - 1 - x.2), match x.1 with | some t => .dynamic t | none => .static 3⟩

example : [1, 2, 3, 4].map (fun n => viewSize false (extents (List.replicate n (some .i64)))) = [16, 24, 48, 64] := by decide +kernel
example : viewSize false (extents [some .i32]) = 16 := by decide +kernel -- test/unit/container/view/dynamic.1d.cpp
example : viewSize false (extents [some .u64]) = 16 := by decide +kernel -- test/unit/container/view/empty/dynamic_ptr.1d.cpp
example : [1, 2, 3, 4].map (fun n => viewSize false (extents (List.replicate n none))) = [8, 8, 8, 8] := by decide +kernel
example : [1, 2, 3, 4].map (fun n => tableSize false 24 ⟨4, 4⟩ (extents (List.replicate n (some .i64)))) = [24, 32, 56, 72] := by
  decide +kernel
example : tableSize false 24 ⟨4, 4⟩ (extents [some .i32]) = 24 := by decide +kernel -- test/unit/container/table/dynamic.1d.cpp
example : [1, 2, 3, 4].map (fun n => tableSize false 24 ⟨4, 4⟩ (extents (List.replicate n none))) = [96, 96, 96, 96] := by
  decide +kernel
example : ∀ l ∈ [[some IntType.i32], [none], [some .i32, some .i32], [some .i32, none], [none, some .i32], [none, none],
    [some .i32, some .i32, some .i32], [some .i32, some .i32, none], [some .i32, none, some .i32], [some .i32, none, none],
    [none, some .i32, some .i32], [none, some .i32, none], [none, none, some .i32], [none, none, none],
    [some .i32, some .i32, some .i32, some .i32], [some .i32, none, some .i32, none], [none, none, none, none]],
    (descSize (extents l)).size = if l.countP Option.isSome = 0 then 1 else 4 * l.countP Option.isSome := by decide +kernel

end Kwk.Tests.Containers
