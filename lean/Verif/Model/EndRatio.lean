import Verif.Model.Base

/-!
# Model: `kwk::ratio` and `kwk::end` expressions

Numerators, denominators and offsets are unbounded integers (simplification: the C++ uses the types
of the operands, or compile-time constants).
-/

namespace Kwk

/-- `kwk::ratio`; `include/kwk/utility/ratio.hpp:16-28`. -/
structure Ratio where
  /-- numerator -/
  num : Int
  /-- denominator -/
  denum : Int
  deriving DecidableEq, Repr

namespace Ratio

/-- unary `-`; `include/kwk/utility/ratio.hpp:30-31`. -/
def neg (r : Ratio) : Ratio := ⟨-r.num, r.denum⟩
/-- `+`; `include/kwk/utility/ratio.hpp:33-39`. -/
def add (a b : Ratio) : Ratio := ⟨a.num * b.denum + b.num * a.denum, a.denum * b.denum⟩
/-- `-`; `include/kwk/utility/ratio.hpp:41-47`. -/
def sub (a b : Ratio) : Ratio := ⟨a.num * b.denum - b.num * a.denum, a.denum * b.denum⟩
/-- `ratio * ratio`; `include/kwk/utility/ratio.hpp:49-53`. -/
def mul (a b : Ratio) : Ratio := ⟨a.num * b.num, a.denum * b.denum⟩
/-- `ratio * integer`, `integer * ratio`; `include/kwk/utility/ratio.hpp:55-65`. -/
def scale (a : Ratio) (c : Int) : Ratio := ⟨a.num * c, a.denum⟩
/-- `ratio / ratio`; `include/kwk/utility/ratio.hpp:67-71`. -/
def div (a b : Ratio) : Ratio := ⟨a.num * b.denum, a.denum * b.num⟩
/-- `ratio / integer`; `include/kwk/utility/ratio.hpp:73-77`. -/
def divInt (a : Ratio) (b : Int) : Ratio := ⟨a.num, a.denum * b⟩
/-- `==`; `include/kwk/utility/ratio.hpp:79-83`. -/
def eq (a b : Ratio) : Bool := a.num * b.denum == a.denum * b.num
/-- `!=`; `include/kwk/utility/ratio.hpp:85-89`. -/
def ne (a b : Ratio) : Bool := !(eq a b)

end Ratio

/-- `kwk::end_t`; `include/kwk/utility/end.hpp:26-53`. -/
structure EndT where
  /-- `offset()` -/
  shift : Int
  /-- `ratio()` -/
  frac : Ratio
  deriving DecidableEq, Repr

namespace EndT

/-- `kwk::end`; `include/kwk/utility/end.hpp:98-99`. -/
def all : EndT := ⟨0, ⟨1, 1⟩⟩
/-- `end_t::size(n)`: `(n * factor + offset) / divisor`; `include/kwk/utility/end.hpp:49`. -/
def size (e : EndT) (n : Int) : Res Int := cdiv (n * e.frac.num + e.shift) e.frac.denum
/-- `e + o`, `o + e`; `include/kwk/utility/end.hpp:55-65`. -/
def add (e : EndT) (o : Int) : EndT := ⟨e.shift + o * e.frac.denum, e.frac⟩
/-- `e - o`; `include/kwk/utility/end.hpp:67-72`. -/
def sub (e : EndT) (o : Int) : EndT := ⟨e.shift - o * e.frac.denum, e.frac⟩
/-- `o - e`; `include/kwk/utility/end.hpp:74-78`. -/
def rsub (o : Int) (e : EndT) : EndT := ⟨o * e.frac.denum - e.shift, e.frac.neg⟩
/-- `e * o`, `o * e`; `include/kwk/utility/end.hpp:80-90`. -/
def mul (e : EndT) (o : Int) : EndT := ⟨e.shift * o, e.frac.scale o⟩
/-- `e / o`; `include/kwk/utility/end.hpp:92-96`. -/
def div (e : EndT) (o : Int) : EndT := ⟨e.shift, e.frac.divInt o⟩

end EndT
end Kwk
