import Verif.Model.Typed
import Verif.Model.Search
import Verif.Model.Mixed

/-!
# Model: searching, counting, copying and replacing integers of different types

The algorithms that compare elements with `==` or `<`, or assign to elements, on C++ integers.  Memory holds the values as
`Int`; the types of the elements are parameters, and other values carry their type (`Coord`).
-/

namespace Kwk

/-- `a == b` for integers: both are converted to their common type. C++ [expr.eq], used at
`include/kwk/algorithm/algos/find.hpp:76, 108, 177`, `include/kwk/algorithm/algos/predicates.hpp:66`,
`include/kwk/algorithm/algos/replace.hpp:31`. -/
def eqT (a b : Coord) : Bool :=
  decide ((a.type.common b.type).wrap a.value = (a.type.common b.type).wrap b.value)

/-- `find(c, value)` for elements of type `t`; `include/kwk/algorithm/algos/find.hpp:72-83`. -/
def findT (t : IntType) (m : Mem Int) (c : Container) (value : Coord) : Res (Option (List Int)) :=
  findIf m c (fun e => eqT ⟨t, e⟩ value)

/-- `find_last(c, value)` for elements of type `t`; `include/kwk/algorithm/algos/find.hpp:173-184`. -/
def findLastT (t : IntType) (m : Mem Int) (c : Container) (value : Coord) : Res (Option (List Int)) :=
  findLastIf m c (fun e => eqT ⟨t, e⟩ value)

/-- `find_first_of(c, values)` for elements of type `t` and values of type `u`: `x == e`;
`include/kwk/algorithm/algos/find.hpp:100-116`. -/
def findFirstOfT (t u : IntType) (m : Mem Int) (c vs : Container) : Res (Option (List Int)) :=
  findIfM (m := Res) (fun is => c.get m is) (fun e => anyOf m vs (fun x => eqT ⟨u, x⟩ ⟨t, e⟩)) c.shape

/-- `count_if(c, f)`: `a + (f(e) ? 1 : 0)` where `a` is a `std::size_t`;
`include/kwk/algorithm/algos/predicates.hpp:75-84`. -/
def countIfT (m : Mem Int) (c : Container) (f : Int → Bool) : Res Int :=
  reduceM (fun is => c.get m is) (fun a e => addTo .u64 a ⟨.i32, if f e then 1 else 0⟩) 0 c.shape

/-- `count(c, value)` for elements of type `t`; `include/kwk/algorithm/algos/predicates.hpp:63-72`. -/
def countT (t : IntType) (m : Mem Int) (c : Container) (value : Coord) : Res Int :=
  reduceM (fun is => c.get m is) (fun a e => addTo .u64 a ⟨.i32, if eqT ⟨t, e⟩ value then 1 else 0⟩) 0 c.shape

/-- `lower_bound(c, value)` for elements of type `t`, with the default comparison;
`include/kwk/algorithm/algos/binary_search.hpp:64-73`. -/
def lowerBoundT {σ : Type} (md : Mode) (t : IntType) (m : Mem Int) (c : Container) (value : Coord) :
    StateT σ Res (Option (List Int)) :=
  lowerBound md m c value (fun e i => pure (ltT ⟨t, e⟩ i))

/-- `upper_bound(c, value)` for elements of type `t`, with the default comparison;
`include/kwk/algorithm/algos/binary_search.hpp:110-119`. -/
def upperBoundT {σ : Type} (md : Mode) (t : IntType) (m : Mem Int) (c : Container) (value : Coord) :
    StateT σ Res (Option (List Int)) :=
  upperBound md m c value (fun e i => pure (ltT e ⟨t, i⟩))

/-- `binary_search(c, value)` for elements of type `t`, with the default comparison;
`include/kwk/algorithm/algos/binary_search.hpp:123-154`. -/
def binarySearchT {σ : Type} (md : Mode) (t : IntType) (m : Mem Int) (c : Container) (value : Coord) :
    StateT σ Res Bool := do
  match ← lowerBoundT md t m c value with
  | none => pure false
  | some p => do
    let e ← (c.get m p : Res Int)
    pure (!ltT value ⟨t, e⟩)

/-- `fill(out, value)` for elements of type `u`: the assignment converts; `include/kwk/algorithm/algos/generator.hpp:19-29`. -/
def fillT (u : IntType) (m : Mem Int) (c : Container) (value : Coord) : Res (Mem Int) :=
  fill m c (u.wrap value.value)

/-- `generate(f, out)` for elements of type `u` and a function that returns a number with its type;
`include/kwk/algorithm/algos/generator.hpp:32-43`. -/
def generateT (u : IntType) (m : Mem Int) (f : List Int → Coord) (c : Container) : Res (Mem Int) :=
  generate m (fun is => u.wrap (f is).value) c

/-- `transform(f, out, ins...)` for elements of type `u` in `out`: the result of `f` is converted by the assignment;
`include/kwk/algorithm/algos/transform.hpp:16-31`. -/
def transformT (u : IntType) (m : Mem Int) (f : List Int → Coord) (out : Container) (ins : List Container) :
    Res (Mem Int) :=
  transform m (fun vs => u.wrap (f vs).value) out ins

/-- `copy(out, in)` from elements of type `t` to elements of type `u`; `include/kwk/algorithm/algos/copy.hpp:21-30`. -/
def copyT (t u : IntType) (m : Mem Int) (out inp : Container) : Res (Mem Int) :=
  transformT u m (fun vs => ⟨t, vs.headD 0⟩) out [inp]

/-- `copy_if(f, out, in)` to elements of type `u`: `if(f(i)) o = i`; `include/kwk/algorithm/algos/copy.hpp:34-44`. -/
def copyIfT (u : IntType) (m : Mem Int) (f : Int → Bool) (out inp : Container) : Res (Mem Int) := do
  let r ← mapCtx (fun o is ((), m) => do
    let v ← load m (is.headD o)
    if f v then do
      let m ← store m o (u.wrap v)
      pure ((), m)
    else pure ((), m)) out [inp] () m
  pure r.2

/-- `replace(out, old_value, new_value)` for elements of type `t`; `include/kwk/algorithm/algos/replace.hpp:16-37`. -/
def replaceT (t : IntType) (m : Mem Int) (c : Container) (oldValue newValue : Coord) : Res (Mem Int) :=
  replaceIf m c (fun x => eqT ⟨t, x⟩ oldValue) (t.wrap newValue.value)

end Kwk
