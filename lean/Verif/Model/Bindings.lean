import Verif.Model.Objects

/-!
# Model: structured bindings

`auto [a, b] = s;` for shapes, strides and positions, which take part in the tuple protocol: `std::tuple_size`, `std::tuple_element` and
`get`.  The rules of the language (`[dcl.struct.bind]`, `[dcl.init.ref]`) are part of the model: a hidden entity `e` is declared like the
whole declaration; name `i` is a reference to `tuple_element<i, E>::type`, initialised by `get<i>(e)`.
-/

namespace Kwk

/-- `auto`, `auto&` or `auto&&`. -/
inductive RefSpec where
  | none
  | lref
  | rref
  deriving DecidableEq, Repr

/-- `auto [..]`, `auto const& [..]`, ...: the declaration. -/
structure BindDecl where
  isConst : Bool
  ref : RefSpec
  deriving DecidableEq, Repr

/-- The expression on the right: its value category (xvalues and prvalues are not distinguished) and constness. -/
structure InitExpr where
  lvalue : Bool
  isConst : Bool
  deriving DecidableEq, Repr

/-- The hidden entity `e`: constness of its type `E`, whether it is an lvalue reference, whether it is a copy of the right-hand side. -/
structure Entity where
  isConst : Bool
  lvalueRef : Bool
  copy : Bool
  deriving DecidableEq, Repr

/-- Declaration of `e`; `none` when the reference cannot be bound.  `auto&` takes the constness of the right-hand side, so that it binds to
`const` rvalues; `auto&&` is a forwarding reference, `auto const&&` is not. -/
def entityOf (d : BindDecl) (x : InitExpr) : Option Entity :=
  match d.ref with
  | .none => some ⟨d.isConst, false, true⟩
  | .lref =>
    let c := d.isConst || x.isConst
    if x.lvalue || c then some ⟨c, true, false⟩ else Option.none
  | .rref =>
    if d.isConst then if x.lvalue then Option.none else some ⟨true, false, false⟩
    else some ⟨x.isConst, x.lvalue, false⟩

/-- What a call of `get<i>` denotes: a cell of the storage, or an object without run-time content. -/
inductive Target where
  | cell (k : Nat)
  | constant (v : Int)
  deriving DecidableEq, Repr

/-- The result of `get<i>(e)`: what it denotes and whether its type is `const`. -/
structure GetResult where
  target : Target
  isConst : Bool
  deriving DecidableEq, Repr

/-- `__get<i>()` called on an object of this constness.  The cell is an lvalue of the object, `*this` being an lvalue whatever the
qualifier of the function.  For compile-time extents the function returns `fixed<v>` by `decltype(auto)`, that is the declared type of a
`constexpr` variable, `constant<v> const`; `include/kwk/detail/sequence/prefilled.hpp:213-240`, `include/kwk/utility/fixed.hpp:106-107`. -/
def getMember (d : Desc) (thisConst : Bool) (i : Nat) : GetResult :=
  match (mapDescriptor d).index.getD i none with
  | some k => ⟨.cell k, thisConst⟩
  | none =>
    match (d.map (·.content)).getD i (.static 0) with
    | .static v => ⟨.constant v, true⟩
    | .dynamic _ => ⟨.constant 0, true⟩

/-- Parameter of an overload of `get`: `prefilled const&`, `prefilled&`, `prefilled const&&`, `prefilled&&`;
`include/kwk/detail/sequence/prefilled.hpp:242-269`. -/
structure GetParam where
  isConst : Bool
  rvalue : Bool
  deriving DecidableEq, Repr

/-- The overloads, in the order of the file.  The functions of namespace `kwk` with the same parameters are less specialised than these
friends; `include/kwk/detail/sequence/prefilled.hpp:242-269, 457-486`. -/
def getParams : List GetParam := [⟨true, false⟩, ⟨false, false⟩, ⟨true, true⟩, ⟨false, true⟩]

/-- A parameter accepts an argument: no loss of `const`, rvalues only for `&&`, and no rvalue for a `&` without `const`;
`include/kwk/detail/sequence/prefilled.hpp:242-269`. -/
def GetParam.accepts (p : GetParam) (argConst argLvalue : Bool) : Bool :=
  (p.isConst || !argConst) && (if p.rvalue then !argLvalue else argLvalue || p.isConst)

/-- `p` is at least as good as `q` for the argument: `&&` before `&` for rvalues, then less `const`;
`include/kwk/detail/sequence/prefilled.hpp:242-269`. -/
def GetParam.noWorse (p q : GetParam) (argLvalue : Bool) : Bool :=
  if !argLvalue && p.rvalue != q.rvalue then p.rvalue else !p.isConst || q.isConst

/-- `get<i>(e)`, the best overload; each calls `__get` on an object of the constness of its parameter; `none` if the index is too large
(`requires(N < static_size)`); `include/kwk/detail/sequence/prefilled.hpp:242-269`. -/
def getCall (d : Desc) (argConst argLvalue : Bool) (i : Nat) : Option GetResult :=
  if i < d.length then
    let viable := getParams.filter (·.accepts argConst argLvalue)
    (viable.find? fun p => viable.all fun q => p.noWorse q argLvalue).map fun p => getMember d p.isConst i
  else none

/-- One of the names: a reference to a cell of the entity, through which it can be written or not, or to a constant. -/
structure BoundName where
  target : Target
  writable : Bool
  deriving DecidableEq, Repr

/-- A reference to a type with or without `const`, initialised by the result of `get`; `none` if a `const` would be lost. -/
def bindRef (elemConst : Bool) (r : GetResult) : Option BoundName :=
  if r.isConst && !elemConst then none else some ⟨r.target, !elemConst⟩

/-- `std::tuple_element<i, E>`: the type of `__get<i>()` without reference and `const`; the standard library adds the `const` of `E`.  Only
this `const` is given; `include/kwk/detail/sequence/prefilled.hpp:496-500`, `include/kwk/utility/container/shape.hpp:415-418`,
`include/kwk/utility/container/stride.hpp:206-209`. -/
def elementConst (e : Entity) : Bool := e.isConst

/-- `std::tuple_size`; `include/kwk/detail/sequence/prefilled.hpp:491-494`, `include/kwk/utility/container/shape.hpp:410-413`,
`include/kwk/utility/container/stride.hpp:201-204`. -/
def tupleSize (d : Desc) : Nat := d.length

/-- `auto [a1, ..., an] = s;` for a shape or stride with these descriptors; `none` if it does not compile.
`include/kwk/detail/sequence/prefilled.hpp:242-269, 491-500`. -/
def decompose (decl : BindDecl) (x : InitExpr) (n : Nat) (d : Desc) : Option (List BoundName) := do
  let e ← entityOf decl x
  if n = tupleSize d then
    (List.range n).mapM fun i => do bindRef (elementConst e) (← getCall d e.isConst e.lvalueRef i)
  else none

/-- `std::tuple_element<i, position<Sz>>` is specialised for `i = Sz` only; `include/kwk/utility/position.hpp:74`. -/
def positionElement (sz i : Nat) : Option IntType := if i = sz then some .i32 else none

/-- `get<i>(position)`: a reference to the coordinate.  The two overloads take `position const&` and `position&`, so that rvalues are read
only; there is no constraint on the index; `include/kwk/utility/position.hpp:57-68`. -/
def positionGet (argConst argLvalue : Bool) (i : Nat) : GetResult := ⟨.cell i, argConst || !argLvalue⟩

/-- `auto [a1, ..., an] = p;` for a position; `include/kwk/utility/position.hpp:57-74`. -/
def decomposePosition (decl : BindDecl) (x : InitExpr) (n sz : Nat) : Option (List BoundName) := do
  let e ← entityOf decl x
  if n = sz then
    (List.range n).mapM fun i => do
      let _ ← positionElement sz i
      bindRef e.isConst (positionGet e.isConst e.lvalueRef i)
  else none

/-- The value of a name, given the entity; `include/kwk/detail/sequence/prefilled.hpp:213-240`. -/
def BoundName.read (b : BoundName) (s : Prefilled) : Int :=
  match b.target with
  | .cell k => s.storage.getD k 0
  | .constant v => v

/-- The right-hand side and the entity, which are the same object unless the entity is a copy. -/
structure BindScope where
  orig : Prefilled
  ent : Prefilled

/-- `name = v;`: conversion to the type of the cell; `none` if it does not compile;
`include/kwk/detail/sequence/prefilled.hpp:228-240`. -/
def BoundName.assign (b : BoundName) (copy : Bool) (v : Int) (w : BindScope) : Option BindScope :=
  match b.target, b.writable with
  | .cell k, true =>
    let s : Prefilled := { w.ent with storage := w.ent.storage.set k ((cellType w.ent.desc k).wrap v) }
    some ⟨if copy then w.orig else s, s⟩
  | _, _ => none

end Kwk
