/-!
# Model: which function a call of an algorithm reaches

Every algorithm is a set of function templates: with or without an execution context, with or without the default functions.  A call
selects one of them by overload resolution, and its body usually calls another one.  This file models the parameters of all these
templates, the rules of C++20 that choose among them (`[over.match.best]`, `[temp.func.order]`, `[temp.deduct.partial]`) and the calls in
their bodies.

Simplifications: an argument is described by what it is and by its value category; every parameter that is not constrained accepts
everything; ordering by constraints is not modelled (no two templates of a set have the same parameters).
-/

namespace Kwk.Calls

/-- The algorithms; `include/kwk/algorithm/algos.hpp:9-35`. -/
inductive Algo where
  | forEach | forEachIndex | transform | copy | copyIf | reduce | allOf | anyOf | noneOf | count | countIf
  | transformReduce | innerProduct | transformExclusiveScan | exclusiveScan | transformInclusiveScan | inclusiveScan
  | find | findIf | findIfNot | findFirstOf | findLastIf | findLast | findLastIfNot
  | fill | generate | iota | replaceIf | replace | lowerBound | upperBound | binarySearch
  deriving DecidableEq, Repr

/-- What an argument is.  `container`: it satisfies `concepts::container` (`include/kwk/concepts/container.hpp:62-72`); `shape`: a
`kwk::shape`; the others satisfy neither. -/
inductive Kind where
  | context | function | container | shape | value
  deriving DecidableEq, Repr

/-- Value category and constness of an argument: a named object, a named `const` object, a temporary.
`KWK_FWD` keeps it; `include/kwk/detail/abi.hpp:11`. -/
inductive Cat where
  | named | constant | temporary
  deriving DecidableEq, Repr

/-- Objects made by the bodies of the algorithms; lambdas and default values at
`include/kwk/algorithm/algos/reduce.hpp:47, 59`, `include/kwk/algorithm/algos/predicates.hpp:30, 42, 66, 78`,
`include/kwk/algorithm/algos/numeric.hpp:47, 61, 76-82, 113-114, 128-133, 158, 170, 197, 209`,
`include/kwk/algorithm/algos/find.hpp:76, 90, 106-109, 125, 177, 191`, `include/kwk/algorithm/algos/copy.hpp:24`,
`include/kwk/algorithm/algos/generator.hpp:65-66`, `include/kwk/algorithm/algos/replace.hpp:31`,
`include/kwk/algorithm/algos/binary_search.hpp:68, 114, 149`, `include/kwk/algorithm/algos/for_each.hpp:107-109`. -/
inductive Made where
  /-- `a + e` -/
  | plus
  /-- `i1 * i2` -/
  | times
  /-- the argument itself -/
  | identity
  /-- `e < i` -/
  | less
  /-- `value_type{}` -/
  | zero
  /-- value-initialised object of the type of a sum of products -/
  | zeroOfProducts
  /-- `std::size_t{}` -/
  | zeroCount
  | true
  | false
  /-- `e == value` -/
  | equals
  /-- `!f(x)` -/
  | negated
  /-- `any_of(ctx, in, x == e)` -/
  | memberOf
  /-- `a && f(e)` -/
  | conjunction
  /-- `a || f(e)` -/
  | disjunction
  /-- `a + ((e==value) ? 1 : 0)` -/
  | countEqual
  /-- `a + (f(e) ? 1 : 0)` -/
  | countWhen
  /-- `kwk::reverse(out)` -/
  | reversed
  /-- `f(c(is...), is...)` -/
  | atCoordinates
  /-- `c.shape()` -/
  | shapeOf
  deriving DecidableEq, Repr

/-- An object during the execution of a call: one of the arguments given by the user, the CPU context
(`include/kwk/context/cpu/context.hpp:39`), or something made from such an object by the body of an algorithm. -/
inductive Thing where
  | user (i : Nat)
  | cpu
  | fresh (m : Made)
  | made (m : Made) (of : Thing)
  /-- made from a function and a container, which it sees as `const` or not -/
  | over (m : Made) (f c : Thing) (constant : Bool)
  deriving DecidableEq, Repr

/-- An argument of a call. Calls e.g. at `include/kwk/algorithm/algos/reduce.hpp:41, 47`. -/
structure Arg where
  /-- which object -/
  thing : Thing
  /-- what it is -/
  kind : Kind
  /-- value category -/
  cat : Cat
  /-- it is a copy of this object, or made from such a copy -/
  copied : Bool
  deriving DecidableEq, Repr

/-- Forms of parameters: `T&`, `T const&`, `T&&` (forwarding reference), `T`.
E.g. `include/kwk/algorithm/algos/transform.hpp:19, 29`. -/
inductive Form where
  | lref | clref | fwd | val
  deriving DecidableEq, Repr

/-- A parameter: its form and what it is for.  `concepts::container` constrains the containers, `shape<S...>` the shapes, nothing the
others; `include/kwk/algorithm/algos/for_each.hpp:25-26, 55-56`. -/
structure Param where
  /-- form -/
  form : Form
  /-- what it is for -/
  kind : Kind
  deriving DecidableEq, Repr

/-- An argument of a call in the body of an algorithm: a parameter by its name, `KWK_FWD` of a parameter, `KWK_FWD` of the parameter
pack, `cpu`, or an object made on the spot, possibly from one or two parameters. E.g. `include/kwk/algorithm/algos/transform.hpp:31`. -/
inductive Source where
  | param (i : Nat)
  | forward (i : Nat)
  | forwardRest
  | cpu
  | fresh (k : Kind) (m : Made)
  | made (k : Kind) (m : Made) (i : Nat)
  | over (k : Kind) (m : Made) (i j : Nat)
  deriving DecidableEq, Repr

/-- Body of a function template: it runs the loops itself, or calls a function.  `qualified`: the call is written `kwk::name(...)`, so
that only the templates declared so far, the one being defined included, are seen; otherwise argument-dependent lookup finds all of them.
E.g. `include/kwk/algorithm/algos/reduce.hpp:30-36, 39-42`. -/
inductive Body where
  | runs
  | calls (qualified : Bool) (a : Algo) (args : List Source)
  deriving DecidableEq, Repr

/-- A function template: its parameters, its trailing parameter pack and its body. E.g. `include/kwk/algorithm/algos/for_each.hpp:80-84`. -/
structure Overload where
  /-- parameters -/
  params : List Param
  /-- parameter pack -/
  pack : Option Param := none
  /-- body -/
  body : Body
  deriving DecidableEq, Repr

/-! ## Overload resolution -/

/-- The parameters for a call with `n` arguments, each with whether it comes from the pack; none if the number of arguments is wrong.
Rule of C++ (`[over.match.viable]`), for the templates of e.g. `include/kwk/algorithm/algos/for_each.hpp:56, 81`. -/
def Overload.expand (o : Overload) (n : Nat) : Option (List (Param × Bool)) :=
  let ps := o.params.map fun p => (p, false)
  if n = o.params.length then some ps
  else match o.pack with
    | some p => if o.params.length < n then some (ps ++ List.replicate (n - o.params.length) (p, true)) else none
    | none => none

/-- A parameter accepts an argument: constraints hold, and `T&` takes no temporary.
Rule of C++ (`[temp.deduct.call]`), for e.g. `include/kwk/algorithm/algos/generator.hpp:19-20`. -/
def Param.accepts (p : Param) (a : Arg) : Bool :=
  (p.kind != .container || a.kind == .container) && (p.kind != .shape || a.kind == .shape) &&
  (p.form != .lref || a.cat != .temporary)

/-- A function template can be called with these arguments. Rule of C++ (`[over.match.viable]`), for e.g.
`include/kwk/algorithm/algos/reduce.hpp:39, 45`. -/
def Overload.viable (o : Overload) (args : List Arg) : Bool :=
  match o.expand args.length with
  | none => false
  | some ps => (ps.zip args).all fun pa => pa.1.1.accepts pa.2

/-- The conversion to parameter `p` is better than the one to `q`: `T&&` against `T const&` for a temporary, `T&` or `T&&` against
`T const&` for an object that is not `const`. Rule of C++ (`[over.ics.rank]`), for e.g. `include/kwk/algorithm/algos/transform.hpp:19, 29`. -/
def betterConversion (p q : Param) (a : Arg) : Bool :=
  q.form == .clref &&
  match a.cat with
  | .temporary => p.form == .fwd
  | .named => p.form == .fwd || p.form == .lref
  | .constant => false

/-- Parameter `p` is at least as specialised as `q` (each with whether it comes from a pack): `shape<S...>` is more specialised than a
type, a parameter of a pack is less specialised than another one; between references, `T&` and `T const&` are more specialised than
`T&&`, and `T const&` than `T&`. Rule of C++ (`[temp.deduct.partial]`), for e.g. `include/kwk/algorithm/algos/for_each.hpp:56, 81`. -/
def atLeastAsSpecialised (p q : Param × Bool) : Bool :=
  (q.1.kind != .shape || p.1.kind == .shape) && (!p.2 || q.2) &&
  !((p.1.kind == .shape) == (q.1.kind == .shape) && p.1.form != .val && q.1.form != .val &&
    ((p.1.form == .fwd && q.1.form != .fwd) || (p.1.form == .lref && q.1.form == .clref)))

/-- The first template is more specialised than the second one, for a call with `n` arguments.
Rule of C++ (`[temp.func.order]`), for e.g. `include/kwk/algorithm/algos/for_each.hpp:56, 81`. -/
def moreSpecialised (o o' : Overload) (n : Nat) : Bool :=
  match o.expand n, o'.expand n with
  | some ps, some qs =>
    (ps.zip qs).all (fun pq => atLeastAsSpecialised pq.1 pq.2) && !(qs.zip ps).all fun qp => atLeastAsSpecialised qp.1 qp.2
  | _, _ => false

/-- The first template is a better match than the second one.
Rule of C++ (`[over.match.best]`), for e.g. `include/kwk/algorithm/algos/transform.hpp:19, 29`. -/
def betterMatch (o o' : Overload) (args : List Arg) : Bool :=
  match o.expand args.length, o'.expand args.length with
  | some ps, some qs =>
    let trip := (ps.zip qs).zip args
    !trip.any (fun t => betterConversion t.1.2.1 t.1.1.1 t.2) &&
    (trip.any (fun t => betterConversion t.1.1.1 t.1.2.1 t.2) || moreSpecialised o o' args.length)
  | _, _ => false

/-- Overload resolution: the number of the template that is a better match than all other viable ones; none if the call does not
compile. Rule of C++ (`[over.match.best]`), for e.g. `include/kwk/algorithm/algos/for_each.hpp:26, 50, 56, 81`. -/
def resolve (os : List Overload) (args : List Arg) : Option Nat :=
  let viable := (List.range os.length).filter fun i => (os[i]?.map (·.viable args)).getD false
  viable.find? fun i => viable.all fun j =>
    i == j || match os[i]?, os[j]? with
      | some o, some o' => betterMatch o o' args
      | _, _ => false

/-! ## The algorithms -/

/-- `Context& ctx`; `include/kwk/algorithm/algos/reduce.hpp:30`. -/
def ctx : Param := ⟨.lref, .context⟩

/-- `Func f`; `include/kwk/algorithm/algos/reduce.hpp:30`. -/
def func : Param := ⟨.val, .function⟩

/-- `Func&& f`; `include/kwk/algorithm/algos/for_each.hpp:56`. -/
def funcFwd : Param := ⟨.fwd, .function⟩

/-- `In const& in`; `include/kwk/algorithm/algos/reduce.hpp:30`. -/
def inp : Param := ⟨.clref, .container⟩

/-- `C0&& c0`; `include/kwk/algorithm/algos/for_each.hpp:56`. -/
def contFwd : Param := ⟨.fwd, .container⟩

/-- `Out& out`; `include/kwk/algorithm/algos/generator.hpp:20`. -/
def out : Param := ⟨.lref, .container⟩

/-- `shape<S...> const& shp`; `include/kwk/algorithm/algos/for_each.hpp:26`. -/
def shp : Param := ⟨.clref, .shape⟩

/-- `auto value`; `include/kwk/algorithm/algos/generator.hpp:20`. -/
def val : Param := ⟨.val, .value⟩

/-- The call `name(cpu, p0, p1, ...)` with all `n` parameters, unqualified; `include/kwk/algorithm/algos/generator.hpp:28`. -/
def viaCpu (a : Algo) (n : Nat) : Body := .calls false a (.cpu :: (List.range n).map .param)

/-- The call `kwk::name(cpu, p0, p1, ...)` with all `n` parameters; `include/kwk/algorithm/algos/reduce.hpp:41`. -/
def viaKwkCpu (a : Algo) (n : Nat) : Body := .calls true a (.cpu :: (List.range n).map .param)

/-- The function templates of each algorithm, in the order of their declarations.  Calls that prepare or change arguments and results
around the inner call (`find_last_if`, `none_of`, `binary_search`) are reduced to the inner call.
`include/kwk/algorithm/algos/for_each.hpp:25-118`, `include/kwk/algorithm/algos/transform.hpp:16-32`,
`include/kwk/algorithm/algos/copy.hpp:21-45`, `include/kwk/algorithm/algos/reduce.hpp:29-66`,
`include/kwk/algorithm/algos/predicates.hpp:27-85`, `include/kwk/algorithm/algos/numeric.hpp:28-216`,
`include/kwk/algorithm/algos/find.hpp:35-199`, `include/kwk/algorithm/algos/generator.hpp:19-87`,
`include/kwk/algorithm/algos/replace.hpp:16-38`, `include/kwk/algorithm/algos/binary_search.hpp:29-155`. -/
def overloads : Algo → List Overload
  | .forEach => [
      ⟨[ctx, funcFwd, shp], none, .runs⟩,
      ⟨[funcFwd, shp], none, .calls true .forEach [.cpu, .forward 0, .param 1]⟩,
      ⟨[ctx, funcFwd, contFwd], some contFwd, .runs⟩,
      ⟨[funcFwd, contFwd], some contFwd, .calls true .forEach [.cpu, .forward 0, .forward 1, .forwardRest]⟩]
  | .forEachIndex => [
      ⟨[ctx, funcFwd, contFwd], none, .calls true .forEach [.param 0, .over .function .atCoordinates 1 2, .made .shape .shapeOf 2]⟩,
      ⟨[func, contFwd], none, viaCpu .forEachIndex 2⟩]
  | .transform => [
      ⟨[ctx, funcFwd, out, inp], some inp, .runs⟩,
      ⟨[funcFwd, out, contFwd], some contFwd, .calls true .transform [.cpu, .forward 0, .param 1, .forward 2, .forwardRest]⟩]
  | .copy => [
      ⟨[ctx, out, inp], none, .calls true .transform [.param 0, .fresh .function .identity, .param 1, .forward 2]⟩,
      ⟨[out, inp], none, viaKwkCpu .copy 2⟩]
  | .copyIf => [
      ⟨[ctx, func, out, inp], none, .runs⟩,
      ⟨[func, out, inp], none, viaKwkCpu .copyIf 3⟩]
  | .reduce => [
      ⟨[ctx, inp, func, val], none, .runs⟩,
      ⟨[inp, func, val], none, viaKwkCpu .reduce 3⟩,
      ⟨[ctx, inp, func], none, .calls true .reduce [.param 0, .param 1, .param 2, .fresh .value .zero]⟩,
      ⟨[inp, func], none, viaKwkCpu .reduce 2⟩,
      ⟨[ctx, inp], none, .calls true .reduce [.param 0, .param 1, .fresh .function .plus]⟩,
      ⟨[inp], none, viaKwkCpu .reduce 1⟩]
  | .allOf => [
      ⟨[ctx, inp, func], none, .calls false .reduce [.param 0, .param 1, .made .function .conjunction 2, .fresh .value .true]⟩,
      ⟨[inp, func], none, viaCpu .allOf 2⟩]
  | .anyOf => [
      ⟨[ctx, inp, func], none, .calls false .reduce [.param 0, .param 1, .made .function .disjunction 2, .fresh .value .false]⟩,
      ⟨[inp, func], none, viaCpu .anyOf 2⟩]
  | .noneOf => [
      ⟨[ctx, inp, func], none, .calls false .anyOf [.param 0, .param 1, .param 2]⟩,
      ⟨[inp, func], none, viaCpu .noneOf 2⟩]
  | .count => [
      ⟨[ctx, inp, val], none, .calls false .reduce [.param 0, .param 1, .made .function .countEqual 2, .fresh .value .zeroCount]⟩,
      ⟨[inp, val], none, viaCpu .count 2⟩]
  | .countIf => [
      ⟨[ctx, inp, func], none, .calls false .reduce [.param 0, .param 1, .made .function .countWhen 2, .fresh .value .zeroCount]⟩,
      ⟨[inp, func], none, viaCpu .countIf 2⟩]
  | .transformReduce => [
      ⟨[ctx, inp, inp, val, func, func], none, .runs⟩,
      ⟨[inp, inp, val, func, func], none, viaCpu .transformReduce 5⟩,
      ⟨[ctx, inp, inp, val, func], none,
        .calls false .transformReduce [.param 0, .param 1, .param 2, .param 3, .fresh .function .plus, .param 4]⟩,
      ⟨[inp, inp, val, func], none, viaCpu .transformReduce 4⟩,
      ⟨[ctx, inp, inp, val], none,
        .calls false .transformReduce [.param 0, .param 1, .param 2, .param 3, .fresh .function .times]⟩,
      ⟨[inp, inp, val], none, viaCpu .transformReduce 3⟩,
      ⟨[ctx, inp, inp], none, .calls false .transformReduce [.param 0, .param 1, .param 2, .fresh .value .zeroOfProducts]⟩,
      ⟨[inp, inp], none, viaCpu .transformReduce 2⟩]
  | .innerProduct => [
      ⟨[ctx, inp, inp, val, func, func], none, .runs⟩,
      ⟨[inp, inp, val, func, func], none, viaCpu .innerProduct 5⟩,
      ⟨[ctx, inp, inp, val], none,
        .calls false .innerProduct [.param 0, .param 1, .param 2, .param 3, .fresh .function .plus, .fresh .function .times]⟩,
      ⟨[inp, inp, val], none, viaCpu .innerProduct 3⟩,
      ⟨[ctx, inp, inp], none, .calls false .innerProduct [.param 0, .param 1, .param 2, .fresh .value .zeroOfProducts]⟩,
      ⟨[inp, inp], none, viaCpu .innerProduct 2⟩]
  | .transformExclusiveScan => [
      ⟨[ctx, inp, out, val, func, func], none, .runs⟩,
      ⟨[inp, out, val, func, func], none, viaCpu .transformExclusiveScan 5⟩]
  | .exclusiveScan => [
      ⟨[ctx, inp, out, val, func], none, .calls false .transformExclusiveScan
        [.param 0, .param 1, .param 2, .param 3, .param 4, .fresh .function .identity]⟩,
      ⟨[inp, out, val, func], none, viaCpu .exclusiveScan 4⟩,
      ⟨[ctx, inp, out, val], none,
        .calls false .exclusiveScan [.param 0, .param 1, .param 2, .param 3, .fresh .function .plus]⟩,
      ⟨[inp, out, val], none, viaCpu .exclusiveScan 3⟩]
  | .transformInclusiveScan => [
      ⟨[ctx, inp, out, val, func, func], none, .runs⟩,
      ⟨[inp, out, val, func, func], none, viaCpu .transformInclusiveScan 5⟩]
  | .inclusiveScan => [
      ⟨[ctx, inp, out, val, func], none, .calls false .transformInclusiveScan
        [.param 0, .param 1, .param 2, .param 3, .param 4, .fresh .function .identity]⟩,
      ⟨[inp, out, val, func], none, viaCpu .inclusiveScan 4⟩,
      ⟨[ctx, inp, out, val], none,
        .calls false .inclusiveScan [.param 0, .param 1, .param 2, .param 3, .fresh .function .plus]⟩,
      ⟨[inp, out, val], none, viaCpu .inclusiveScan 3⟩]
  | .findIf => [
      ⟨[ctx, inp, func], none, .runs⟩,
      ⟨[inp, func], none, viaKwkCpu .findIf 2⟩]
  | .find => [
      ⟨[ctx, inp, val], none, .calls false .findIf [.param 0, .param 1, .made .function .equals 2]⟩,
      ⟨[inp, val], none, viaCpu .find 2⟩]
  | .findIfNot => [
      ⟨[ctx, inp, func], none, .calls false .findIf [.param 0, .param 1, .made .function .negated 2]⟩,
      ⟨[inp, func], none, viaKwkCpu .findIfNot 2⟩]
  | .findFirstOf => [
      ⟨[ctx, inp, inp], none, .calls false .findIf [.param 0, .param 1, .made .function .memberOf 2]⟩,
      ⟨[inp, inp], none, viaKwkCpu .findFirstOf 2⟩]
  | .findLastIf => [
      ⟨[ctx, inp, func], none, .calls false .findIf [.param 0, .made .container .reversed 1, .param 2]⟩,
      ⟨[inp, func], none, viaCpu .findLastIf 2⟩]
  | .findLast => [
      ⟨[ctx, inp, val], none, .calls false .findLastIf [.param 0, .param 1, .made .function .equals 2]⟩,
      ⟨[inp, val], none, viaKwkCpu .findLast 2⟩]
  | .findLastIfNot => [
      ⟨[ctx, inp, func], none, .calls false .findLastIf [.param 0, .param 1, .made .function .negated 2]⟩,
      ⟨[inp, func], none, viaKwkCpu .findLastIfNot 2⟩]
  | .fill => [
      ⟨[ctx, out, val], none, .runs⟩,
      ⟨[out, val], none, viaCpu .fill 2⟩]
  | .generate => [
      ⟨[ctx, func, out], none, .runs⟩,
      ⟨[func, out], none, viaCpu .generate 2⟩]
  | .iota => [
      ⟨[ctx, out, val], none, .runs⟩,
      ⟨[out, val], none, viaCpu .iota 2⟩,
      ⟨[ctx, out], none, .calls false .iota [.param 0, .param 1, .fresh .value .zero]⟩,
      ⟨[out], none, viaCpu .iota 1⟩,
      ⟨[ctx, out, val, val], none, .runs⟩,
      ⟨[out, val, val], none, viaCpu .iota 3⟩]
  | .replaceIf => [
      ⟨[ctx, out, func, val], none, .runs⟩,
      ⟨[out, func, val], none, viaCpu .replaceIf 3⟩]
  | .replace => [
      ⟨[ctx, out, val, val], none, .calls false .replaceIf [.param 0, .param 1, .made .function .equals 2, .param 3]⟩,
      ⟨[out, val, val], none, viaCpu .replace 3⟩]
  | .lowerBound => [
      ⟨[ctx, inp, val, func], none, .runs⟩,
      ⟨[inp, val, func], none, viaCpu .lowerBound 3⟩,
      ⟨[ctx, inp, val], none, .calls false .lowerBound [.param 0, .param 1, .param 2, .fresh .function .less]⟩,
      ⟨[inp, val], none, viaCpu .lowerBound 2⟩]
  | .upperBound => [
      ⟨[ctx, inp, val, func], none, .runs⟩,
      ⟨[inp, val, func], none, viaCpu .upperBound 3⟩,
      ⟨[ctx, inp, val], none, .calls false .upperBound [.param 0, .param 1, .param 2, .fresh .function .less]⟩,
      ⟨[inp, val], none, viaCpu .upperBound 2⟩]
  | .binarySearch => [
      ⟨[ctx, inp, val, func], none, .calls false .lowerBound [.param 0, .param 1, .param 2, .param 3]⟩,
      ⟨[inp, val, func], none, viaCpu .binarySearch 3⟩,
      ⟨[ctx, inp, val], none, .calls false .binarySearch [.param 0, .param 1, .param 2, .fresh .function .less]⟩,
      ⟨[inp, val], none, viaCpu .binarySearch 2⟩]

/-! ## Calls -/

/-- A parameter named in a body: an object that is `const` if the parameter is `T const&` or if the argument of `T&`, `T&&` is.  A parameter
`T` is a copy of the argument, unless the argument is a temporary, which is moved.
Rule of C++ (`[temp.deduct.call]`), for e.g. `include/kwk/algorithm/algos/reduce.hpp:39-42`. -/
def Param.inside (p : Param) (a : Arg) : Arg :=
  { a with
    cat := match p.form with
      | .val => .named
      | .clref => .constant
      | .lref | .fwd => if a.cat = .constant then .constant else .named
    copied := a.copied || (p.form == .val && a.cat != .temporary) }

/-- `KWK_FWD` of a parameter: a temporary if it was taken by value, or by `T&&` from a temporary; `include/kwk/detail/abi.hpp:11`. -/
def Param.forwarded (p : Param) (a : Arg) : Arg :=
  match p.form with
  | .val => { p.inside a with cat := .temporary }
  | .fwd => a
  | _ => p.inside a

/-- The arguments of a call in a body, from the parameters and arguments of the call being executed.
E.g. `include/kwk/algorithm/algos/transform.hpp:31`. -/
def Source.eval (ps : List (Param × Bool)) (args : List Arg) (s : Source) : List Arg :=
  let pa := ps.zip args
  match s with
  | .param i => pa[i]?.elim [] fun x => [x.1.1.inside x.2]
  | .forward i => pa[i]?.elim [] fun x => [x.1.1.forwarded x.2]
  | .forwardRest => (pa.filter fun x => x.1.2).map fun x => x.1.1.forwarded x.2
  | .cpu => [⟨.cpu, .context, .constant, false⟩]
  | .fresh k m => [⟨.fresh m, k, .temporary, false⟩]
  | .made k m i => pa[i]?.elim [] fun x => [⟨.made m x.2.thing, k, .temporary, (x.1.1.inside x.2).copied⟩]
  | .over k m i j => pa[i]?.elim [] fun x => pa[j]?.elim [] fun y =>
    [⟨.over m x.2.thing y.2.thing ((y.1.1.inside y.2).cat == .constant), k, .temporary,
      (x.1.1.inside x.2).copied || (y.1.1.inside y.2).copied⟩]

/-- A call of an algorithm, followed to the function that runs the loops: this function and its parameters, as its body sees them.  None if
a call on the way does not compile, or if there are more than `fuel` calls.  `seen` is the number of templates that are visible.
E.g. `include/kwk/algorithm/algos/reduce.hpp:63-66`. -/
def callIn : Nat → Algo → Nat → List Arg → Option (Algo × List Arg)
  | 0, _, _, _ => none
  | fuel + 1, a, seen, args => do
    let os := (overloads a).take seen
    let i ← resolve os args
    let o ← os[i]?
    let ps ← o.expand args.length
    -- a function called as a context has no member `map`: the body does not compile
    if (ps.zip args).any fun x => x.1.1.kind == .context && x.2.kind != .context then none
    else match o.body with
      | .runs => some (a, (ps.zip args).map fun x => x.1.1.inside x.2)
      | .calls qualified b srcs =>
        callIn fuel b (if qualified && b == a then i + 1 else (overloads b).length) (srcs.flatMap (Source.eval ps args))

/-- A call of an algorithm by a user, who sees all templates; `include/kwk/algorithm/algos.hpp:9-35`. -/
def call (a : Algo) (args : List Arg) : Option (Algo × List Arg) := callIn 6 a (overloads a).length args

end Kwk.Calls
