import Verif.Model.Overloads

/-!
# Specification: what calls of algorithms mean

A call without context means the call on the CPU; a call without functions or initial value means the call with the default ones.
-/

namespace Kwk.Spec

open Kwk.Calls

/-- What an argument is for. -/
inductive Role where
  | function | input | output | shape | value
  deriving DecidableEq, Repr

/-- Inputs and outputs are containers. -/
def Role.kind : Role → Kind
  | .function => .function
  | .input | .output => .container
  | .shape => .shape
  | .value => .value

/-- One way to call an algorithm, without context: the roles of its arguments, the algorithm that does the work, and what this algorithm
works with.  The arguments are `user 1`, `user 2`, ...; `user 0` is the context, if there is one. -/
structure CallForm where
  /-- algorithm called -/
  name : Algo
  /-- its arguments -/
  roles : List Role
  /-- algorithm that does the work -/
  runs : Algo
  /-- what it works with, after the context -/
  things : List Thing
  deriving DecidableEq, Repr

/-- The ways to call the algorithms that take a fixed number of containers. -/
def callForms : List CallForm := [
  ⟨.forEach, [.function, .shape], .forEach, [.user 1, .user 2]⟩,
  ⟨.copy, [.output, .input], .transform, [.fresh .identity, .user 1, .user 2]⟩,
  ⟨.copyIf, [.function, .output, .input], .copyIf, [.user 1, .user 2, .user 3]⟩,
  ⟨.reduce, [.input, .function, .value], .reduce, [.user 1, .user 2, .user 3]⟩,
  ⟨.reduce, [.input, .function], .reduce, [.user 1, .user 2, .fresh .zero]⟩,
  ⟨.reduce, [.input], .reduce, [.user 1, .fresh .plus, .fresh .zero]⟩,
  ⟨.allOf, [.input, .function], .reduce, [.user 1, .made .conjunction (.user 2), .fresh .true]⟩,
  ⟨.anyOf, [.input, .function], .reduce, [.user 1, .made .disjunction (.user 2), .fresh .false]⟩,
  ⟨.noneOf, [.input, .function], .reduce, [.user 1, .made .disjunction (.user 2), .fresh .false]⟩,
  ⟨.count, [.input, .value], .reduce, [.user 1, .made .countEqual (.user 2), .fresh .zeroCount]⟩,
  ⟨.countIf, [.input, .function], .reduce, [.user 1, .made .countWhen (.user 2), .fresh .zeroCount]⟩,
  ⟨.transformReduce, [.input, .input, .value, .function, .function], .transformReduce, [.user 1, .user 2, .user 3, .user 4, .user 5]⟩,
  ⟨.transformReduce, [.input, .input, .value, .function], .transformReduce, [.user 1, .user 2, .user 3, .fresh .plus, .user 4]⟩,
  ⟨.transformReduce, [.input, .input, .value], .transformReduce, [.user 1, .user 2, .user 3, .fresh .plus, .fresh .times]⟩,
  ⟨.transformReduce, [.input, .input], .transformReduce, [.user 1, .user 2, .fresh .zeroOfProducts, .fresh .plus, .fresh .times]⟩,
  ⟨.innerProduct, [.input, .input, .value, .function, .function], .innerProduct, [.user 1, .user 2, .user 3, .user 4, .user 5]⟩,
  ⟨.innerProduct, [.input, .input, .value], .innerProduct, [.user 1, .user 2, .user 3, .fresh .plus, .fresh .times]⟩,
  ⟨.innerProduct, [.input, .input], .innerProduct, [.user 1, .user 2, .fresh .zeroOfProducts, .fresh .plus, .fresh .times]⟩,
  ⟨.transformExclusiveScan, [.input, .output, .value, .function, .function], .transformExclusiveScan,
    [.user 1, .user 2, .user 3, .user 4, .user 5]⟩,
  ⟨.exclusiveScan, [.input, .output, .value, .function], .transformExclusiveScan,
    [.user 1, .user 2, .user 3, .user 4, .fresh .identity]⟩,
  ⟨.exclusiveScan, [.input, .output, .value], .transformExclusiveScan,
    [.user 1, .user 2, .user 3, .fresh .plus, .fresh .identity]⟩,
  ⟨.transformInclusiveScan, [.input, .output, .value, .function, .function], .transformInclusiveScan,
    [.user 1, .user 2, .user 3, .user 4, .user 5]⟩,
  ⟨.inclusiveScan, [.input, .output, .value, .function], .transformInclusiveScan,
    [.user 1, .user 2, .user 3, .user 4, .fresh .identity]⟩,
  ⟨.inclusiveScan, [.input, .output, .value], .transformInclusiveScan,
    [.user 1, .user 2, .user 3, .fresh .plus, .fresh .identity]⟩,
  ⟨.findIf, [.input, .function], .findIf, [.user 1, .user 2]⟩,
  ⟨.find, [.input, .value], .findIf, [.user 1, .made .equals (.user 2)]⟩,
  ⟨.findIfNot, [.input, .function], .findIf, [.user 1, .made .negated (.user 2)]⟩,
  ⟨.findFirstOf, [.input, .input], .findIf, [.user 1, .made .memberOf (.user 2)]⟩,
  ⟨.findLastIf, [.input, .function], .findIf, [.made .reversed (.user 1), .user 2]⟩,
  ⟨.findLast, [.input, .value], .findIf, [.made .reversed (.user 1), .made .equals (.user 2)]⟩,
  ⟨.findLastIfNot, [.input, .function], .findIf, [.made .reversed (.user 1), .made .negated (.user 2)]⟩,
  ⟨.fill, [.output, .value], .fill, [.user 1, .user 2]⟩,
  ⟨.generate, [.function, .output], .generate, [.user 1, .user 2]⟩,
  ⟨.iota, [.output], .iota, [.user 1, .fresh .zero]⟩,
  ⟨.iota, [.output, .value], .iota, [.user 1, .user 2]⟩,
  ⟨.iota, [.output, .value, .value], .iota, [.user 1, .user 2, .user 3]⟩,
  ⟨.replaceIf, [.output, .function, .value], .replaceIf, [.user 1, .user 2, .user 3]⟩,
  ⟨.replace, [.output, .value, .value], .replaceIf, [.user 1, .made .equals (.user 2), .user 3]⟩,
  ⟨.lowerBound, [.input, .value, .function], .lowerBound, [.user 1, .user 2, .user 3]⟩,
  ⟨.lowerBound, [.input, .value], .lowerBound, [.user 1, .user 2, .fresh .less]⟩,
  ⟨.upperBound, [.input, .value, .function], .upperBound, [.user 1, .user 2, .user 3]⟩,
  ⟨.upperBound, [.input, .value], .upperBound, [.user 1, .user 2, .fresh .less]⟩,
  ⟨.binarySearch, [.input, .value, .function], .lowerBound, [.user 1, .user 2, .user 3]⟩,
  ⟨.binarySearch, [.input, .value], .lowerBound, [.user 1, .user 2, .fresh .less]⟩]

/-- `for_each_index` of a function over a container, which is `const` or not for the function too. -/
def forEachIndexForm (constant : Bool) : CallForm :=
  ⟨.forEachIndex, [.function, .input], .forEach, [.over .atCoordinates (.user 1) (.user 2) constant, .made .shapeOf (.user 2)]⟩

/-- `for_each` of a function over `n` containers. -/
def forEachForm (n : Nat) : CallForm :=
  ⟨.forEach, .function :: List.replicate n .input, .forEach, (List.range (n + 1)).map fun i => .user (i + 1)⟩

/-- `transform` of `n` containers into one. -/
def transformForm (n : Nat) : CallForm :=
  ⟨.transform, .function :: .output :: List.replicate n .input, .transform, (List.range (n + 2)).map fun i => .user (i + 1)⟩

/-- The arguments of a call: of these roles and categories, numbered from `k`. -/
def argsFrom : Nat → List Role → List Cat → List Arg
  | k, r :: rs, c :: cs => ⟨.user k, r.kind, c, false⟩ :: argsFrom (k + 1) rs cs
  | _, _, _ => []

/-- All arguments of a call, with the context if there is one. -/
def callArgs (f : CallForm) (context : Option Cat) (cats : List Cat) : List Arg :=
  (context.toList.map fun c => ⟨.user 0, .context, c, false⟩) ++ argsFrom 1 f.roles cats

/-- The context and the outputs are named objects. -/
def NamedTargets (f : CallForm) (context : Option Cat) (cats : List Cat) : Prop :=
  context ≠ some .temporary ∧ ∀ rc ∈ f.roles.zip cats, rc.1 = .output → rc.2 ≠ .temporary

/-- What a call should do: run this algorithm with these things, on the context given or on the CPU. -/
def CallForm.meaning (f : CallForm) (context : Option Cat) : Algo × List Thing :=
  (f.runs, (if context.isSome then .user 0 else .cpu) :: f.things)

/-- An object as seen through a reference: `const` if it is. -/
def asSeen (a : Arg) : Arg := { a with cat := if a.cat = .constant then .constant else .named }

/-- An object as seen through a reference to `const`. -/
def asRead (a : Arg) : Arg := { a with cat := .constant }

/-- The argument of the call that an object is, or was made from. -/
def origin : Thing → Option Nat
  | .user i => some i
  | .made _ t => origin t
  | _ => none

/-- How an object may reach the function that does the work: containers, shapes and contexts are not copied, inputs are `const`, outputs are
`const` iff they were given so. -/
def ReachesWell (f : CallForm) (cats : List Cat) (x : Arg) : Prop :=
  match origin x.thing with
  | none => x.kind = .function ∨ x.kind = .value ∨ x.copied = false
  | some 0 => x.copied = false
  | some (i + 1) => match f.roles[i]?, cats[i]? with
    | some .function, some _ | some .value, some _ => True
    | some .output, some c => x.copied = false ∧ x.cat = c
    | some .input, some _ => x.copied = false ∧ (x.kind = .container → x.cat = .constant)
    | some .shape, some _ => x.copied = false
    | _, _ => False

/-- The arguments of a call, but the `k`-th one is something else. -/
def misuse (f : CallForm) (context : Option Cat) (cats : List Cat) (k : Nat) (kind : Kind) : List Arg :=
  (callArgs f context cats).modify (context.toList.length + k) fun a => { a with kind := kind }

instance (f : CallForm) (cats : List Cat) (x : Arg) : Decidable (ReachesWell f cats x) := by
  unfold ReachesWell; repeat' split
  all_goals infer_instance

instance (f : CallForm) (context : Option Cat) (cats : List Cat) : Decidable (NamedTargets f context cats) := by
  unfold NamedTargets; infer_instance

end Kwk.Spec
