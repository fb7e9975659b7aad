import Verif.Model.Overloads

/-!
# Model: algorithms that users write for their own contexts

`include/kwk/algorithm/algos/reduce.hpp:27-28` asks users to overload `reduce` for their contexts.  This file adds such templates, declared
in the namespace of the user, to the calls of `Verif.Model.Overloads`.

Simplifications: the templates of the user have the parameters of those of the library, except for the context, whose type is the one of
the user; they are declared in the namespace of this type, so that argument-dependent lookup finds them where a call is not qualified.
-/

namespace Kwk.Calls

/-- A template, of the user or of the library. For the pair of e.g. `include/kwk/algorithm/algos/reduce.hpp:30` and the overload its
comment asks for (lines 27-28). -/
structure Candidate where
  /-- template -/
  o : Overload
  /-- it is one of the user, whose first parameter has the type of the context of the user -/
  mine : Bool
  deriving DecidableEq, Repr

/-- The templates that the user writes for an algorithm: those of the library that run the loops, with the context of the user taken as
`my_context&`, `my_context const&` or `my_context`. `include/kwk/algorithm/algos/reduce.hpp:27-30`. -/
def userTemplates (form : Form) (a : Algo) : List Candidate :=
  ((overloads a).filter fun o => o.body == .runs).map fun o => ⟨{ o with params := ⟨form, .context⟩ :: o.params.tail }, true⟩

/-- The argument is the context of the user, which is the first argument of the user's call (`Kwk.Spec.callArgs`).  For
`include/kwk/algorithm/algos/reduce.hpp:27-28`. -/
def Arg.mine (a : Arg) : Bool := a.thing == .user 0

/-- A template can be called with these arguments; the first parameter of the user's takes no other type, and `my_context&` no `const`
object. Rule of C++ (`[over.match.viable]`), for `include/kwk/algorithm/algos/reduce.hpp:27-30`. -/
def Candidate.viable (c : Candidate) (args : List Arg) : Bool :=
  c.o.viable args && (!c.mine || match c.o.params.head?, args.head? with
    | some p, some a => a.mine && (p.form != .lref || a.cat == .named)
    | _, _ => false)

/-- The first template is more specialised than the second one: a type is more specialised than a template parameter.
Rule of C++ (`[temp.func.order]`), for `include/kwk/algorithm/algos/reduce.hpp:27-30`. -/
def Candidate.moreSpecialised (c d : Candidate) (n : Nat) : Bool :=
  match c.mine == d.mine, c.o.expand n, d.o.expand n with
  | true, _, _ => Calls.moreSpecialised c.o d.o n
  | false, some ps, some qs => c.mine && (ps.tail.zip qs.tail).all fun pq => atLeastAsSpecialised pq.1 pq.2
  | false, _, _ => false

/-- The first template is a better match than the second one. Rule of C++ (`[over.match.best]`), for
`include/kwk/algorithm/algos/reduce.hpp:27-30`. -/
def Candidate.betterMatch (c d : Candidate) (args : List Arg) : Bool :=
  match c.o.expand args.length, d.o.expand args.length with
  | some ps, some qs =>
    let trip := (ps.zip qs).zip args
    !trip.any (fun t => betterConversion t.1.2.1 t.1.1.1 t.2) &&
    (trip.any (fun t => betterConversion t.1.1.1 t.1.2.1 t.2) || c.moreSpecialised d args.length)
  | _, _ => false

/-- Overload resolution among the templates of the library and of the user. Rule of C++ (`[over.match.best]`), for
`include/kwk/algorithm/algos/reduce.hpp:27-30`. -/
def resolveMine (cs : List Candidate) (args : List Arg) : Option Nat :=
  let viable := (List.range cs.length).filter fun i => (cs[i]?.map (·.viable args)).getD false
  viable.find? fun i => viable.all fun j =>
    i == j || match cs[i]?, cs[j]? with
      | some c, some d => c.betterMatch d args
      | _, _ => false

/-- A call is followed to a template of the user, or to one of the library that runs the loops.  The user wrote templates for the algorithm
`b`, taking the context in the given form; calls that are not qualified find them if the context of the user is an argument
(`[basic.lookup.argdep]`), the others do not, as they are bound when the library is read (`[temp.nondep]`, `[basic.lookup.qual]`).
`include/kwk/algorithm/algos/reduce.hpp:27-66`. -/
def callMineIn (form : Form) (b : Algo) : Nat → Algo → Nat → Bool → List Arg → Option (Bool × Algo × List Arg)
  | 0, _, _, _, _ => none
  | fuel + 1, a, seen, qualified, args => do
    let users := if a == b && !qualified && args.any Arg.mine then userTemplates form a else []
    let cs := (((overloads a).take seen).map fun o => ⟨o, false⟩) ++ users
    let i ← resolveMine cs args
    let c ← cs[i]?
    let ps ← c.o.expand args.length
    -- a function called as a context has no member `map`: the body does not compile
    if (ps.zip args).any fun x => x.1.1.kind == .context && x.2.kind != .context then none
    else match c.o.body with
      | .runs => some (c.mine, a, (ps.zip args).map fun x => x.1.1.inside x.2)
      | .calls q a' srcs =>
        callMineIn form b fuel a' (if q && a' == a then i + 1 else (overloads a').length) q (srcs.flatMap (Source.eval ps args))

/-- A call of an algorithm by the user, written `kwk::name(...)` or `name(...)`: whether it ends in a template of the user, the algorithm
and its arguments. `include/kwk/algorithm/algos/reduce.hpp:27-66`. -/
def callMine (form : Form) (b : Algo) (qualified : Bool) (a : Algo) (args : List Arg) : Option (Bool × Algo × List Arg) :=
  callMineIn form b 6 a (overloads a).length qualified args

end Kwk.Calls
