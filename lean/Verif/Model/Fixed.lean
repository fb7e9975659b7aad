import Verif.Model.Machine

/-! # Model: compile-time constants and literals -/

namespace Kwk

/-- `std::bit_width`. Used at `include/kwk/utility/fixed.hpp:62-68`. -/
def bitWidth (n : Nat) : Nat := if n = 0 then 0 else Nat.log2 n + 1

/-- `__::clamp<Value>()`: the type and the value it keeps;
`include/kwk/utility/fixed.hpp:62-68`.  `Value` is an unsigned 64-bit number (`0ULL` in `b10`,
`std::size_t` in `array_traits`). -/
def clamp (n : Nat) : Coord :=
  if bitWidth n ≤ 8 then ⟨.u8, IntType.u8.wrap n⟩
  else if bitWidth n ≤ 19 then ⟨.u16, IntType.u16.wrap n⟩
  else if bitWidth n ≤ 32 then ⟨.u32, IntType.u32.wrap n⟩
  else ⟨.u64, n⟩

/-- `__::b10<c...>()` on character codes: `value = value * 10 + (c - '0')` in `unsigned long long`;
`include/kwk/utility/fixed.hpp:70-75`. -/
def b10 (cs : List Nat) : Int :=
  cs.foldl (fun (v : Int) (c : Nat) => IntType.u64.wrap (v * 10 + ((c : Int) - 48))) 0

/-- `operator""_c`; `include/kwk/utility/fixed.hpp:118-121`. -/
def literalC (cs : List Nat) : Coord := clamp (b10 cs).toNat

/-- Integral promotion. C++ [conv.prom], used at `include/kwk/utility/fixed.hpp:86-100`. -/
def IntType.promote (t : IntType) : IntType := if t.bits < 32 then .i32 else t

/-- Usual arithmetic conversions of two integral types.
C++ [expr.arith.conv], used at `include/kwk/utility/fixed.hpp:86-100`. -/
def IntType.common (t u : IntType) : IntType :=
  if t.promote.bits < u.promote.bits then u.promote
  else if u.promote.bits < t.promote.bits then t.promote
  else ⟨t.promote.bits, t.promote.signed && u.promote.signed⟩

/-- A binary operator on `constant<N>` and `constant<M>`: the operands are converted to their common
type and the result has that type.  `overflow` stands for an ill-formed program: the expression is
not a constant expression; `include/kwk/utility/fixed.hpp:90-97`. -/
def constOp (f : Int → Int → Int) (a b : Coord) : Res Coord := do
  let t := a.type.common b.type
  let v ← t.op (f (t.wrap a.value) (t.wrap b.value))
  return ⟨t, v⟩

/-- `constant<N> + constant<M>`; `include/kwk/utility/fixed.hpp:90-91`. -/
def constAdd : Coord → Coord → Res Coord := constOp (· + ·)

/-- `constant<N> - constant<M>`; `include/kwk/utility/fixed.hpp:93-94`. -/
def constSub : Coord → Coord → Res Coord := constOp (· - ·)

/-- `constant<N> * constant<M>`; `include/kwk/utility/fixed.hpp:96-97`. -/
def constMul : Coord → Coord → Res Coord := constOp (· * ·)

/-- `constant<N> / constant<M>`; `include/kwk/utility/fixed.hpp:99-100`. -/
def constDiv (a b : Coord) : Res Coord := do
  let t := a.type.common b.type
  let v ← cdiv (t.wrap a.value) (t.wrap b.value)
  return ⟨t, ← t.op v⟩

/-- `-constant<N>`; `include/kwk/utility/fixed.hpp:86`. -/
def constNeg (a : Coord) : Res Coord := do
  let t := a.type.promote
  return ⟨t, ← t.op (-(t.wrap a.value))⟩

end Kwk
