import Verif.Model.Loops
import Verif.Model.Shape

/-!
# Model: algorithms in constant expressions

A call can be evaluated in a constant expression only if every function that the evaluation reaches is declared `constexpr`
([expr.const]).  Modelled are the library functions that the algorithms declared `constexpr` reach, in the order of the calls.
The functions given by the user are taken to be `constexpr`, the containers and shapes to be constants; the lambdas of the library
are implicitly `constexpr`.  The overloads without context are `constexpr` too and forward to the ones with context; they are not
repeated.  kumi and the standard library functions used are `constexpr`.
-/

namespace Kwk

/-- The functions that are reached. -/
inductive Fn where
  /-- an algorithm -/
  | algorithm
  /-- `cpu_context::map(f, shape)` -/
  | mapShape
  /-- `cpu_context::map(f, c0, cs...)` -/
  | map
  /-- `cpu_context::map_index(f, c)` -/
  | mapIndex
  /-- `__::for_each` -/
  | loop
  /-- `ctx.in(c)` -/
  | ctxIn
  /-- `ctx.out(c)` -/
  | ctxOut
  /-- `Context::inout(c)` -/
  | ctxInout
  /-- `c.shape()` -/
  | shapeOf
  /-- `operator==` of shapes -/
  | shapeEq
  /-- `print_assertion_header`, which a failed assertion calls -/
  | assertionHeader
  /-- `c(is...)` -/
  | access
  /-- the function of the user -/
  | callback
deriving DecidableEq, Repr

/-- Whether the function is declared `constexpr`.  Algorithms: e.g. `include/kwk/algorithm/algos/reduce.hpp:30`,
`include/kwk/algorithm/algos/for_each.hpp:26`; contexts: `include/kwk/context/cpu/context.hpp:18-36`, `include/kwk/context/base.hpp:24-26`;
loops: `include/kwk/detail/algorithm/for_each.hpp:24-25`; shapes: `include/kwk/detail/container/accessor.hpp:26`,
`include/kwk/utility/container/shape.hpp:219-220`; assertions: `include/kwk/detail/assert.hpp:63-66`; elements:
`include/kwk/container/container.hpp:128-138`. -/
def Fn.isConstexpr : Fn → Bool
  | .algorithm | .mapShape | .map | .mapIndex | .loop | .shapeOf | .shapeEq | .callback => true
  | .ctxIn | .ctxOut | .ctxInout | .assertionHeader | .access => false

/-- The calls of `__::for_each(f, s)` if `f` makes the calls `body`; `include/kwk/detail/algorithm/for_each.hpp:24-40`. -/
def loopCalls (body : List Fn) (s : Shape) : List Fn :=
  .loop :: (forEach (m := StateM (List Fn)) (fun _ => modify (· ++ body)) s []).2

/-- The calls of `cpu.map(f, s)`; `include/kwk/context/cpu/context.hpp:18-22`. -/
def mapShapeCalls (body : List Fn) (s : Shape) : List Fn := .mapShape :: loopCalls body s

/-- The calls of `cpu.map(f, c0, cs...)` for `n` containers, the first of shape `s`; `include/kwk/context/cpu/context.hpp:24-29`. -/
def mapCalls (n : Nat) (s : Shape) : List Fn :=
  .map :: .shapeOf :: mapShapeCalls (List.replicate n .access ++ [.callback]) s

/-- The calls of `cpu.map_index(f, c)`; `include/kwk/context/cpu/context.hpp:31-36`. -/
def mapIndexCalls (s : Shape) : List Fn := .mapIndex :: .shapeOf :: mapShapeCalls [.access, .callback] s

/-- A call of an algorithm, with the shape of the container over which it walks and the number of further containers. -/
inductive AlgoCall where
  /-- `for_each(f, shape)` -/
  | forEachShape (s : Shape)
  /-- `for_each(f, c0, cs...)` -/
  | forEach (s : Shape) (more : Nat)
  /-- `for_each_index(f, c)` -/
  | forEachIndex (s : Shape)
  /-- `reduce(c, f, init)` -/
  | reduce (s : Shape)
  /-- `all_of`, `any_of`, `count`, `count_if`: they call `reduce` -/
  | byReduce (s : Shape)
  /-- `none_of`: calls `any_of` -/
  | noneOf (s : Shape)
  /-- `transform_reduce(c1, c2, init, R, T)` -/
  | transformReduce (s : Shape)
  /-- `inner_product(c1, c2, init, f1, f2)` -/
  | innerProduct (s1 s2 : Shape)
  /-- `fill`, `iota` -/
  | fill (s : Shape)
  /-- `generate(f, c)` -/
  | generate (s : Shape)
  /-- `transform(f, out, c0, cs...)` -/
  | transform (s : Shape) (more : Nat)
  /-- `copy(out, in)`: calls `transform` -/
  | copy (s : Shape)
  /-- `copy_if(f, out, in)` -/
  | copyIf (s : Shape)
  /-- `replace_if(out, f, v)` -/
  | replaceIf (s : Shape)
  /-- `replace(out, v, w)`: calls `replace_if` -/
  | replace (s : Shape)
  /-- `transform_exclusive_scan`, `transform_inclusive_scan` -/
  | transformScan (s : Shape)
  /-- `exclusive_scan`, `inclusive_scan`: they call the former -/
  | scan (s : Shape)

/-- The functions that a call reaches, in order.  `include/kwk/algorithm/algos/for_each.hpp:25-29, 55-60, 104-112`,
`include/kwk/algorithm/algos/reduce.hpp:29-36`, `include/kwk/algorithm/algos/predicates.hpp:27-79`,
`include/kwk/algorithm/algos/numeric.hpp:28-34, 91-101, 142-159, 180-198`, `include/kwk/algorithm/algos/generator.hpp:19-81`,
`include/kwk/algorithm/algos/transform.hpp:16-24`, `include/kwk/algorithm/algos/copy.hpp:21-39`,
`include/kwk/algorithm/algos/replace.hpp:16-32`. -/
def AlgoCall.calls (md : Mode) : AlgoCall → List Fn
  | .forEachShape s => .algorithm :: mapShapeCalls [.callback] s
  | .forEach s more => .algorithm :: .shapeOf :: mapShapeCalls (List.replicate (more + 1) .access ++ [.callback]) s
  | .forEachIndex s => .algorithm :: .shapeOf :: .algorithm :: mapShapeCalls [.access, .callback] s
  | .reduce s => .algorithm :: .ctxIn :: mapCalls 1 s
  | .byReduce s => .algorithm :: .algorithm :: .ctxIn :: mapCalls 1 s
  | .noneOf s => .algorithm :: .algorithm :: .algorithm :: .ctxIn :: mapCalls 1 s
  | .transformReduce s => .algorithm :: .ctxIn :: .ctxIn :: mapCalls 2 s
  | .innerProduct s1 s2 =>
    .algorithm :: (match md with
      | .checked => .shapeOf :: .shapeOf :: .shapeEq :: (if shapeEq s1 s2 then [] else [.assertionHeader])
      | .unchecked => []) ++ .ctxIn :: .ctxIn :: mapCalls 2 s1
  | .fill s => .algorithm :: .ctxOut :: mapCalls 1 s
  | .generate s => .algorithm :: .ctxOut :: mapIndexCalls s
  | .transform s more => .algorithm :: .ctxOut :: (List.replicate (more + 1) .ctxIn ++ mapCalls (more + 2) s)
  | .copy s => .algorithm :: .algorithm :: .ctxOut :: .ctxIn :: mapCalls 2 s
  | .copyIf s => .algorithm :: .ctxOut :: .ctxIn :: mapCalls 2 s
  | .replaceIf s => .algorithm :: .ctxInout :: mapCalls 1 s
  | .replace s => .algorithm :: .algorithm :: .ctxInout :: mapCalls 1 s
  | .transformScan s => .algorithm :: .ctxIn :: .ctxOut :: mapCalls 2 s
  | .scan s => .algorithm :: .algorithm :: .ctxIn :: .ctxOut :: mapCalls 2 s

/-- The call can be evaluated in a constant expression; the algorithms of `include/kwk/algorithm/algos/for_each.hpp:25-117` and of
the other headers cited at `AlgoCall.calls`. -/
def AlgoCall.isConstant (md : Mode) (a : AlgoCall) : Bool := (a.calls md).all Fn.isConstexpr

end Kwk
