import Verif.Model.Build
import Verif.Model.Convert
import Verif.Model.TypedShape

/-!
# Unit tests of shapes and strides, run on the model

The tests of `test/unit/utility/shape` and `test/unit/utility/stride`, with the model in place of the library.
They are no proofs of properties: they compare the model with what its authors say the library does.
-/

namespace Kwk.Tests.Shapes

private def width : AxisId := .named "width"
private def height : AxisId := .named "height"
private def depth : AxisId := .named "depth"
private def channel : AxisId := .named "channel"

/-- The extents of `of_size(args...)`; `include/kwk/utility/container/shape.hpp:338-342`. -/
private def sh (args : List BuildArg) : Option Shape :=
  match ofSize .checked args with
  | some (.ok p) => some p.values
  | _ => none

/-- `of_size(a...) == of_size(b...)`; `include/kwk/utility/container/shape.hpp:219-228`. -/
private def eq (a b : List BuildArg) : Option Bool := do shapeEq (← sh a) (← sh b)

/-- The extents of `shape<es...>(args...)`: `none` when the assertions fail or no constructor accepts the arguments;
`include/kwk/utility/container/shape.hpp:170-190`. -/
private def built (es : List Extent) (args : List Arg) : Option Shape :=
  match Prefilled.ofExtents .checked (normalizeExtents es) 0 args with
  | .ok p => some p.values
  | _ => none

/-- The same with named extents. -/
private def builtNamed (es : List Extent) (args : List (AxisId × Arg)) : Option Shape :=
  match Prefilled.ofNamed .checked (normalizeExtents es) 0 args with
  | .ok p => some p.values
  | _ => none

/-- The size of an object of type `shape<es...>`, in bytes of run-time extents. -/
private def bytes (d : Desc) : Nat := ((List.range (dynamicSize d)).map fun k => (cellType d k).bits / 8).sum

/-! `test/unit/utility/shape/compare.cpp:11-115` -/

example : eq [.int .i32 3]
    [.int .i32 3] = some true := by decide -- line 19
example : eq [.int .i32 3]
    [.int .i32 1, .int .i32 3] = some true := by decide -- line 20
example : eq [.int .i32 3]
    [.int .i32 1, .int .i32 1, .int .i32 3] = some true := by decide -- line 21
example : eq [.int .i32 3]
    [.int .i32 1, .int .i32 1, .int .i32 1, .int .i32 3] = some true := by decide -- line 22
example : eq [.named height (.int .i32 3)]
    [.named height (.int .i32 3)] = some true := by decide -- line 24
example : eq [.named height (.int .i32 3)]
    [.int .i32 1, .named height (.int .i32 3)] = some true := by decide -- line 25
example : eq [.named height (.int .i32 3)]
    [.int .i32 1, .int .i32 1, .named height (.int .i32 3)] = some true := by decide -- line 26
example : eq [.named height (.int .i32 3)]
    [.int .i32 1, .int .i32 1, .int .i32 1, .named height (.int .i32 3)] = some true := by decide -- line 27
example : eq [.int .i32 3, .int .i32 5]
    [.int .i32 15] = some true := by decide -- line 29
example : eq [.int .i32 3, .int .i32 5]
    [.int .i32 3, .int .i32 5] = some true := by decide -- line 30
example : eq [.int .i32 3, .int .i32 5]
    [.int .i32 1, .int .i32 3, .int .i32 5] = some true := by decide -- line 31
example : eq [.int .i32 3, .int .i32 5]
    [.int .i32 1, .int .i32 1, .int .i32 3, .int .i32 5] = some true := by decide -- line 32
example : eq [.named width (.int .i32 15)]
    [.named height (.int .i32 3), .named width (.int .i32 5)] = some true := by decide -- line 34
example : eq [.named height (.int .i32 3), .named width (.int .i32 5)]
    [.named width (.int .i32 15)] = some true := by decide -- line 35
example : eq [.named height (.int .i32 3), .named width (.int .i32 5)]
    [.named height (.int .i32 3), .named width (.int .i32 5)] = some true := by decide -- line 36
example : eq [.named height (.int .i32 3), .named width (.int .i32 5)]
    [.int .i32 1, .named height (.int .i32 3), .named width (.int .i32 5)] = some true := by decide -- line 37
example : eq [.named height (.int .i32 3), .named width (.int .i32 5)]
    [.int .i32 1, .int .i32 1, .named height (.int .i32 3), .named width (.int .i32 5)] = some true := by decide -- line 38
example : eq [.int .i32 3, .int .i32 5, .int .i32 7]
    [.int .i32 105] = some true := by decide -- line 40
example : eq [.int .i32 3, .int .i32 5, .int .i32 7]
    [.int .i32 15, .int .i32 7] = some true := by decide -- line 41
example : eq [.int .i32 3, .int .i32 5, .int .i32 7]
    [.int .i32 3, .int .i32 5, .int .i32 7] = some true := by decide -- line 42
example : eq [.int .i32 3, .int .i32 5, .int .i32 7]
    [.int .i32 1, .int .i32 3, .int .i32 5, .int .i32 7] = some true := by decide -- line 43
example : eq [.named width (.int .i32 105)]
    [.named depth (.int .i32 3), .named height (.int .i32 5), .named width (.int .i32 7)] = some true := by decide -- line 45
example : eq [.named height (.int .i32 15), .named width (.int .i32 7)]
    [.named depth (.int .i32 3), .named height (.int .i32 5), .named width (.int .i32 7)] = some true := by decide -- line 46
example : eq [.named depth (.int .i32 3), .named height (.int .i32 5), .named width (.int .i32 7)]
    [.named width (.int .i32 105)] = some true := by decide -- line 47
example : eq [.named depth (.int .i32 3), .named height (.int .i32 5), .named width (.int .i32 7)]
    [.named height (.int .i32 15), .named width (.int .i32 7)] = some true := by decide -- line 48
example : eq [.named depth (.int .i32 3), .named height (.int .i32 5), .named width (.int .i32 7)]
    [.named depth (.int .i32 3), .named height (.int .i32 5), .named width (.int .i32 7)] = some true := by decide -- line 49
example : eq [.named depth (.int .i32 3), .named height (.int .i32 5), .named width (.int .i32 7)]
    [.int .i32 1, .named depth (.int .i32 3), .named height (.int .i32 5), .named width (.int .i32 7)] = some true := by decide -- line 50
example : eq [.int .i32 3, .int .i32 5, .int .i32 7, .int .i32 9]
    [.int .i32 945] = some true := by decide -- line 52
example : eq [.int .i32 3, .int .i32 5, .int .i32 7, .int .i32 9]
    [.int .i32 105, .int .i32 9] = some true := by decide -- line 53
example : eq [.int .i32 3, .int .i32 5, .int .i32 7, .int .i32 9]
    [.int .i32 15, .int .i32 7, .int .i32 9] = some true := by decide -- line 54
example : eq [.int .i32 3, .int .i32 5, .int .i32 7, .int .i32 9]
    [.int .i32 3, .int .i32 5, .int .i32 7, .int .i32 9] = some true := by decide -- line 55
example : eq [.named depth (.int .i32 15), .named height (.int .i32 7), .named width (.int .i32 9)]
    [.named channel (.int .i32 3), .named depth (.int .i32 5), .named height (.int .i32 7), .named width (.int .i32 9)] = some true := by decide -- line 57
example : eq [.named height (.int .i32 105), .named width (.int .i32 9)]
    [.named channel (.int .i32 3), .named depth (.int .i32 5), .named height (.int .i32 7), .named width (.int .i32 9)] = some true := by decide -- line 58
example : eq [.named width (.int .i32 945)]
    [.named channel (.int .i32 3), .named depth (.int .i32 5), .named height (.int .i32 7), .named width (.int .i32 9)] = some true := by decide -- line 59
example : eq [.named channel (.int .i32 3), .named depth (.int .i32 5), .named height (.int .i32 7), .named width (.int .i32 9)]
    [.named width (.int .i32 945)] = some true := by decide -- line 60
example : eq [.named channel (.int .i32 3), .named depth (.int .i32 5), .named height (.int .i32 7), .named width (.int .i32 9)]
    [.named height (.int .i32 105), .named width (.int .i32 9)] = some true := by decide -- line 61
example : eq [.named channel (.int .i32 3), .named depth (.int .i32 5), .named height (.int .i32 7), .named width (.int .i32 9)]
    [.named depth (.int .i32 15), .named height (.int .i32 7), .named width (.int .i32 9)] = some true := by decide -- line 62
example : eq [.named channel (.int .i32 3), .named depth (.int .i32 5), .named height (.int .i32 7), .named width (.int .i32 9)]
    [.named channel (.int .i32 3), .named depth (.int .i32 5), .named height (.int .i32 7), .named width (.int .i32 9)] = some true := by decide -- line 63
example : eq [.int .i32 3]
    [.int .i32 7] = some false := by decide -- line 74
example : eq [.int .i32 3]
    [.int .i32 5, .int .i32 3] = some false := by decide -- line 75
example : eq [.int .i32 3]
    [.int .i32 1, .int .i32 2, .int .i32 3] = some false := by decide -- line 76
example : eq [.int .i32 3]
    [.int .i32 1, .int .i32 2, .int .i32 1, .int .i32 9] = some false := by decide -- line 77
example : eq [.named height (.int .i32 3)]
    [.named height (.int .i32 9)] = some false := by decide -- line 79
example : eq [.named height (.int .i32 3)]
    [.int .i32 6, .named height (.int .i32 3)] = some false := by decide -- line 80
example : eq [.named height (.int .i32 3)]
    [.int .i32 1, .int .i32 3, .named height (.int .i32 3)] = some false := by decide -- line 81
example : eq [.named height (.int .i32 3)]
    [.int .i32 2, .int .i32 9, .int .i32 1, .named height (.int .i32 3)] = some false := by decide -- line 82
example : eq [.int .i32 3, .int .i32 5]
    [.int .i32 17] = some false := by decide -- line 84
example : eq [.int .i32 3, .int .i32 5]
    [.int .i32 7, .int .i32 5] = some false := by decide -- line 85
example : eq [.int .i32 3, .int .i32 5]
    [.int .i32 1, .int .i32 9, .int .i32 5] = some false := by decide -- line 86
example : eq [.int .i32 3, .int .i32 5]
    [.int .i32 3, .int .i32 1, .int .i32 3, .int .i32 5] = some false := by decide -- line 87
example : eq [.named width (.int .i32 15)]
    [.named height (.int .i32 9), .named width (.int .i32 5)] = some false := by decide -- line 89
example : eq [.named height (.int .i32 3), .named width (.int .i32 5)]
    [.named width (.int .i32 5)] = some false := by decide -- line 90
example : eq [.named height (.int .i32 3), .named width (.int .i32 5)]
    [.named height (.int .i32 3), .named width (.int .i32 15)] = some false := by decide -- line 91
example : eq [.named height (.int .i32 3), .named width (.int .i32 5)]
    [.int .i32 1, .named height (.int .i32 8), .named width (.int .i32 5)] = some false := by decide -- line 92
example : eq [.named height (.int .i32 3), .named width (.int .i32 5)]
    [.int .i32 1, .int .i32 7, .named height (.int .i32 3), .named width (.int .i32 5)] = some false := by decide -- line 93
example : eq [.int .i32 3, .int .i32 5, .int .i32 7]
    [.int .i32 107] = some false := by decide -- line 95
example : eq [.int .i32 3, .int .i32 5, .int .i32 7]
    [.int .i32 35, .int .i32 7] = some false := by decide -- line 96
example : eq [.int .i32 3, .int .i32 5, .int .i32 7]
    [.int .i32 3, .int .i32 95, .int .i32 7] = some false := by decide -- line 97
example : eq [.int .i32 3, .int .i32 5, .int .i32 7]
    [.int .i32 3, .int .i32 3, .int .i32 5, .int .i32 7] = some false := by decide -- line 98
example : eq [.named width (.int .i32 15)]
    [.named depth (.int .i32 3), .named height (.int .i32 5), .named width (.int .i32 7)] = some false := by decide -- line 100
example : eq [.named height (.int .i32 15), .named width (.int .i32 77)]
    [.named depth (.int .i32 3), .named height (.int .i32 5), .named width (.int .i32 7)] = some false := by decide -- line 101
example : eq [.named depth (.int .i32 3), .named height (.int .i32 5), .named width (.int .i32 7)]
    [.named width (.int .i32 175)] = some false := by decide -- line 102
example : eq [.named depth (.int .i32 3), .named height (.int .i32 5), .named width (.int .i32 7)]
    [.named height (.int .i32 75), .named width (.int .i32 7)] = some false := by decide -- line 103
example : eq [.named depth (.int .i32 3), .named height (.int .i32 5), .named width (.int .i32 7)]
    [.named depth (.int .i32 3), .named height (.int .i32 35), .named width (.int .i32 7)] = some false := by decide -- line 104
example : eq [.named depth (.int .i32 3), .named height (.int .i32 5), .named width (.int .i32 7)]
    [.int .i32 3, .named depth (.int .i32 33), .named height (.int .i32 5), .named width (.int .i32 7)] = some false := by decide -- line 105
example : eq [.int .i32 3, .int .i32 5, .int .i32 7, .int .i32 9]
    [.int .i32 975] = some false := by decide -- line 107
example : eq [.int .i32 3, .int .i32 5, .int .i32 7, .int .i32 9]
    [.int .i32 105, .int .i32 11] = some false := by decide -- line 108
example : eq [.int .i32 3, .int .i32 5, .int .i32 7, .int .i32 9]
    [.int .i32 1, .int .i32 7, .int .i32 9] = some false := by decide -- line 109
example : eq [.int .i32 3, .int .i32 5, .int .i32 7, .int .i32 9]
    [.int .i32 3, .int .i32 1, .int .i32 77, .int .i32 9] = some false := by decide -- line 110
example : eq [.named depth (.int .i32 19), .named height (.int .i32 7), .named width (.int .i32 9)]
    [.named channel (.int .i32 3), .named depth (.int .i32 5), .named height (.int .i32 7), .named width (.int .i32 9)] = some false := by decide -- line 112
example : eq [.named height (.int .i32 115), .named width (.int .i32 9)]
    [.named channel (.int .i32 3), .named depth (.int .i32 5), .named height (.int .i32 7), .named width (.int .i32 9)] = some false := by decide -- line 113
example : eq [.named width (.int .i32 995)]
    [.named channel (.int .i32 3), .named depth (.int .i32 5), .named height (.int .i32 7), .named width (.int .i32 9)] = some false := by decide -- line 114
example : eq [.named channel (.int .i32 3), .named depth (.int .i32 5), .named height (.int .i32 7), .named width (.int .i32 9)]
    [.named width (.int .i32 975)] = some false := by decide -- line 115
example : eq [.named channel (.int .i32 3), .named depth (.int .i32 5), .named height (.int .i32 7), .named width (.int .i32 9)]
    [.named height (.int .i32 135), .named width (.int .i32 9)] = some false := by decide -- line 116
example : eq [.named channel (.int .i32 3), .named depth (.int .i32 5), .named height (.int .i32 7), .named width (.int .i32 9)]
    [.named depth (.int .i32 15), .named height (.int .i32 8), .named width (.int .i32 9)] = some false := by decide -- line 117
example : eq [.named channel (.int .i32 3), .named depth (.int .i32 5), .named height (.int .i32 7), .named width (.int .i32 9)]
    [.named channel (.int .i32 11), .named depth (.int .i32 80), .named height (.int .i32 7), .named width (.int .i32 9)] = some false := by decide -- line 118

/-! `test/unit/utility/shape/default_ctor.cpp:14-195` -/

example : bytes (normalizeExtents [.joker]) = 4 := by decide -- line 19
example : bytes (normalizeExtents [.int 7]) = 0 := by decide -- line 20
example : nbdims (Prefilled.default (normalizeExtents [.joker])).values = 1 := by decide -- line 22
example : nbdims (Prefilled.default (normalizeExtents [.int 7])).values = 1 := by decide -- line 23
example : numel (Prefilled.default (normalizeExtents [.joker])).values = 0 := by decide -- line 25
example : numel (Prefilled.default (normalizeExtents [.int 7])).values = 7 := by decide -- line 26
example : List.length (Prefilled.default (normalizeExtents [.joker])).values = 1 := by decide -- line 28
example : List.length (Prefilled.default (normalizeExtents [.int 7])).values = 1 := by decide -- line 29
example : (sh [.int .i32 0]).map (shapeEq (Prefilled.default (normalizeExtents [.joker])).values) = some true := by decide -- line 31
example : (sh [.int .i32 7]).map (shapeEq (Prefilled.default (normalizeExtents [.int 7])).values) = some true := by decide -- line 32
example : bytes (normalizeExtents [.joker, .joker]) = 8 := by decide -- line 42
example : bytes (normalizeExtents [.joker, .int 7]) = 4 := by decide -- line 43
example : bytes (normalizeExtents [.int 7, .joker]) = 4 := by decide -- line 44
example : bytes (normalizeExtents [.int 7, .int 5]) = 0 := by decide -- line 45
example : nbdims (Prefilled.default (normalizeExtents [.joker, .joker])).values = 2 := by decide -- line 47
example : nbdims (Prefilled.default (normalizeExtents [.joker, .int 7])).values = 2 := by decide -- line 48
example : nbdims (Prefilled.default (normalizeExtents [.int 7, .joker])).values = 2 := by decide -- line 49
example : nbdims (Prefilled.default (normalizeExtents [.int 7, .int 5])).values = 2 := by decide -- line 50
example : List.length (Prefilled.default (normalizeExtents [.joker, .joker])).values = 2 := by decide -- line 52
example : List.length (Prefilled.default (normalizeExtents [.joker, .int 7])).values = 2 := by decide -- line 53
example : List.length (Prefilled.default (normalizeExtents [.int 7, .joker])).values = 2 := by decide -- line 54
example : List.length (Prefilled.default (normalizeExtents [.int 7, .int 5])).values = 2 := by decide -- line 55
example : (sh [.int .i32 0, .int .i32 0]).map (shapeEq (Prefilled.default (normalizeExtents [.joker, .joker])).values) = some true := by decide -- line 57
example : (sh [.int .i32 0, .int .i32 7]).map (shapeEq (Prefilled.default (normalizeExtents [.joker, .int 7])).values) = some true := by decide -- line 58
example : (sh [.int .i32 7, .int .i32 0]).map (shapeEq (Prefilled.default (normalizeExtents [.int 7, .joker])).values) = some true := by decide -- line 59
example : (sh [.int .i32 7, .int .i32 5]).map (shapeEq (Prefilled.default (normalizeExtents [.int 7, .int 5])).values) = some true := by decide -- line 60
example : bytes (normalizeExtents [.joker, .joker, .joker]) = 12 := by decide -- line 74
example : bytes (normalizeExtents [.joker, .joker, .int 7]) = 8 := by decide -- line 75
example : bytes (normalizeExtents [.joker, .int 7, .joker]) = 8 := by decide -- line 76
example : bytes (normalizeExtents [.joker, .int 7, .int 5]) = 4 := by decide -- line 77
example : bytes (normalizeExtents [.int 7, .joker, .joker]) = 8 := by decide -- line 78
example : bytes (normalizeExtents [.int 7, .joker, .int 5]) = 4 := by decide -- line 79
example : bytes (normalizeExtents [.int 7, .int 5, .joker]) = 4 := by decide -- line 80
example : bytes (normalizeExtents [.int 7, .int 5, .int 3]) = 0 := by decide -- line 81
example : nbdims (Prefilled.default (normalizeExtents [.joker, .joker, .joker])).values = 3 := by decide -- line 83
example : nbdims (Prefilled.default (normalizeExtents [.joker, .joker, .int 7])).values = 3 := by decide -- line 84
example : nbdims (Prefilled.default (normalizeExtents [.joker, .int 7, .joker])).values = 3 := by decide -- line 85
example : nbdims (Prefilled.default (normalizeExtents [.joker, .int 7, .int 5])).values = 3 := by decide -- line 86
example : nbdims (Prefilled.default (normalizeExtents [.int 7, .joker, .joker])).values = 3 := by decide -- line 87
example : nbdims (Prefilled.default (normalizeExtents [.int 7, .joker, .int 5])).values = 3 := by decide -- line 88
example : nbdims (Prefilled.default (normalizeExtents [.int 7, .int 5, .joker])).values = 3 := by decide -- line 89
example : nbdims (Prefilled.default (normalizeExtents [.int 7, .int 5, .int 3])).values = 3 := by decide -- line 90
example : List.length (Prefilled.default (normalizeExtents [.joker, .joker, .joker])).values = 3 := by decide -- line 92
example : List.length (Prefilled.default (normalizeExtents [.joker, .joker, .int 7])).values = 3 := by decide -- line 93
example : List.length (Prefilled.default (normalizeExtents [.joker, .int 7, .joker])).values = 3 := by decide -- line 94
example : List.length (Prefilled.default (normalizeExtents [.joker, .int 7, .int 5])).values = 3 := by decide -- line 95
example : List.length (Prefilled.default (normalizeExtents [.int 7, .joker, .joker])).values = 3 := by decide -- line 96
example : List.length (Prefilled.default (normalizeExtents [.int 7, .joker, .int 5])).values = 3 := by decide -- line 97
example : List.length (Prefilled.default (normalizeExtents [.int 7, .int 5, .joker])).values = 3 := by decide -- line 98
example : List.length (Prefilled.default (normalizeExtents [.int 7, .int 5, .int 3])).values = 3 := by decide -- line 99
example : (sh [.int .i32 0, .int .i32 0, .int .i32 0]).map (shapeEq (Prefilled.default (normalizeExtents [.joker, .joker, .joker])).values) = some true := by decide -- line 101
example : (sh [.int .i32 0, .int .i32 0, .int .i32 7]).map (shapeEq (Prefilled.default (normalizeExtents [.joker, .joker, .int 7])).values) = some true := by decide -- line 102
example : (sh [.int .i32 0, .int .i32 7, .int .i32 0]).map (shapeEq (Prefilled.default (normalizeExtents [.joker, .int 7, .joker])).values) = some true := by decide -- line 103
example : (sh [.int .i32 0, .int .i32 7, .int .i32 5]).map (shapeEq (Prefilled.default (normalizeExtents [.joker, .int 7, .int 5])).values) = some true := by decide -- line 104
example : (sh [.int .i32 7, .int .i32 0, .int .i32 0]).map (shapeEq (Prefilled.default (normalizeExtents [.int 7, .joker, .joker])).values) = some true := by decide -- line 105
example : (sh [.int .i32 7, .int .i32 0, .int .i32 5]).map (shapeEq (Prefilled.default (normalizeExtents [.int 7, .joker, .int 5])).values) = some true := by decide -- line 106
example : (sh [.int .i32 7, .int .i32 5, .int .i32 0]).map (shapeEq (Prefilled.default (normalizeExtents [.int 7, .int 5, .joker])).values) = some true := by decide -- line 107
example : (sh [.int .i32 7, .int .i32 5, .int .i32 3]).map (shapeEq (Prefilled.default (normalizeExtents [.int 7, .int 5, .int 3])).values) = some true := by decide -- line 108
example : bytes (normalizeExtents [.joker, .joker, .joker, .joker]) = 16 := by decide -- line 130
example : bytes (normalizeExtents [.joker, .joker, .joker, .int 7]) = 12 := by decide -- line 131
example : bytes (normalizeExtents [.joker, .joker, .int 7, .joker]) = 12 := by decide -- line 132
example : bytes (normalizeExtents [.joker, .joker, .int 7, .int 5]) = 8 := by decide -- line 133
example : bytes (normalizeExtents [.joker, .int 7, .joker, .joker]) = 12 := by decide -- line 134
example : bytes (normalizeExtents [.joker, .int 7, .joker, .int 5]) = 8 := by decide -- line 135
example : bytes (normalizeExtents [.joker, .int 7, .int 5, .joker]) = 8 := by decide -- line 136
example : bytes (normalizeExtents [.joker, .int 7, .int 5, .int 3]) = 4 := by decide -- line 137
example : bytes (normalizeExtents [.int 9, .joker, .joker, .joker]) = 12 := by decide -- line 138
example : bytes (normalizeExtents [.int 9, .joker, .joker, .int 7]) = 8 := by decide -- line 139
example : bytes (normalizeExtents [.int 9, .joker, .int 7, .joker]) = 8 := by decide -- line 140
example : bytes (normalizeExtents [.int 9, .joker, .int 7, .int 5]) = 4 := by decide -- line 141
example : bytes (normalizeExtents [.int 9, .int 7, .joker, .joker]) = 8 := by decide -- line 142
example : bytes (normalizeExtents [.int 9, .int 7, .joker, .int 5]) = 4 := by decide -- line 143
example : bytes (normalizeExtents [.int 9, .int 7, .int 5, .joker]) = 4 := by decide -- line 144
example : bytes (normalizeExtents [.int 9, .int 7, .int 5, .int 3]) = 0 := by decide -- line 145
example : nbdims (Prefilled.default (normalizeExtents [.joker, .joker, .joker, .joker])).values = 4 := by decide -- line 147
example : nbdims (Prefilled.default (normalizeExtents [.joker, .joker, .joker, .int 7])).values = 4 := by decide -- line 148
example : nbdims (Prefilled.default (normalizeExtents [.joker, .joker, .int 7, .joker])).values = 4 := by decide -- line 149
example : nbdims (Prefilled.default (normalizeExtents [.joker, .joker, .int 7, .int 5])).values = 4 := by decide -- line 150
example : nbdims (Prefilled.default (normalizeExtents [.joker, .int 7, .joker, .joker])).values = 4 := by decide -- line 151
example : nbdims (Prefilled.default (normalizeExtents [.joker, .int 7, .joker, .int 5])).values = 4 := by decide -- line 152
example : nbdims (Prefilled.default (normalizeExtents [.joker, .int 7, .int 5, .joker])).values = 4 := by decide -- line 153
example : nbdims (Prefilled.default (normalizeExtents [.joker, .int 7, .int 5, .int 3])).values = 4 := by decide -- line 154
example : nbdims (Prefilled.default (normalizeExtents [.int 9, .joker, .joker, .joker])).values = 4 := by decide -- line 155
example : nbdims (Prefilled.default (normalizeExtents [.int 9, .joker, .joker, .int 7])).values = 4 := by decide -- line 156
example : nbdims (Prefilled.default (normalizeExtents [.int 9, .joker, .int 7, .joker])).values = 4 := by decide -- line 157
example : nbdims (Prefilled.default (normalizeExtents [.int 9, .joker, .int 7, .int 5])).values = 4 := by decide -- line 158
example : nbdims (Prefilled.default (normalizeExtents [.int 9, .int 7, .joker, .joker])).values = 4 := by decide -- line 159
example : nbdims (Prefilled.default (normalizeExtents [.int 9, .int 7, .joker, .int 5])).values = 4 := by decide -- line 160
example : nbdims (Prefilled.default (normalizeExtents [.int 9, .int 7, .int 5, .joker])).values = 4 := by decide -- line 161
example : nbdims (Prefilled.default (normalizeExtents [.int 9, .int 7, .int 5, .int 3])).values = 4 := by decide -- line 162
example : List.length (Prefilled.default (normalizeExtents [.joker, .joker, .joker, .joker])).values = 4 := by decide -- line 164
example : List.length (Prefilled.default (normalizeExtents [.joker, .joker, .joker, .int 7])).values = 4 := by decide -- line 165
example : List.length (Prefilled.default (normalizeExtents [.joker, .joker, .int 7, .joker])).values = 4 := by decide -- line 166
example : List.length (Prefilled.default (normalizeExtents [.joker, .joker, .int 7, .int 5])).values = 4 := by decide -- line 167
example : List.length (Prefilled.default (normalizeExtents [.joker, .int 7, .joker, .joker])).values = 4 := by decide -- line 168
example : List.length (Prefilled.default (normalizeExtents [.joker, .int 7, .joker, .int 5])).values = 4 := by decide -- line 169
example : List.length (Prefilled.default (normalizeExtents [.joker, .int 7, .int 5, .joker])).values = 4 := by decide -- line 170
example : List.length (Prefilled.default (normalizeExtents [.joker, .int 7, .int 5, .int 3])).values = 4 := by decide -- line 171
example : List.length (Prefilled.default (normalizeExtents [.int 9, .joker, .joker, .joker])).values = 4 := by decide -- line 172
example : List.length (Prefilled.default (normalizeExtents [.int 9, .joker, .joker, .int 7])).values = 4 := by decide -- line 173
example : List.length (Prefilled.default (normalizeExtents [.int 9, .joker, .int 7, .joker])).values = 4 := by decide -- line 174
example : List.length (Prefilled.default (normalizeExtents [.int 9, .joker, .int 7, .int 5])).values = 4 := by decide -- line 175
example : List.length (Prefilled.default (normalizeExtents [.int 9, .int 7, .joker, .joker])).values = 4 := by decide -- line 176
example : List.length (Prefilled.default (normalizeExtents [.int 9, .int 7, .joker, .int 5])).values = 4 := by decide -- line 177
example : List.length (Prefilled.default (normalizeExtents [.int 9, .int 7, .int 5, .joker])).values = 4 := by decide -- line 178
example : List.length (Prefilled.default (normalizeExtents [.int 9, .int 7, .int 5, .int 3])).values = 4 := by decide -- line 179
example : (sh [.int .i32 0, .int .i32 0, .int .i32 0, .int .i32 0]).map (shapeEq (Prefilled.default (normalizeExtents [.joker, .joker, .joker, .joker])).values) = some true := by decide -- line 181
example : (sh [.int .i32 0, .int .i32 0, .int .i32 0, .int .i32 7]).map (shapeEq (Prefilled.default (normalizeExtents [.joker, .joker, .joker, .int 7])).values) = some true := by decide -- line 182
example : (sh [.int .i32 0, .int .i32 0, .int .i32 7, .int .i32 0]).map (shapeEq (Prefilled.default (normalizeExtents [.joker, .joker, .int 7, .joker])).values) = some true := by decide -- line 183
example : (sh [.int .i32 0, .int .i32 0, .int .i32 7, .int .i32 5]).map (shapeEq (Prefilled.default (normalizeExtents [.joker, .joker, .int 7, .int 5])).values) = some true := by decide -- line 184
example : (sh [.int .i32 0, .int .i32 7, .int .i32 0, .int .i32 0]).map (shapeEq (Prefilled.default (normalizeExtents [.joker, .int 7, .joker, .joker])).values) = some true := by decide -- line 185
example : (sh [.int .i32 0, .int .i32 7, .int .i32 0, .int .i32 5]).map (shapeEq (Prefilled.default (normalizeExtents [.joker, .int 7, .joker, .int 5])).values) = some true := by decide -- line 186
example : (sh [.int .i32 0, .int .i32 7, .int .i32 5, .int .i32 0]).map (shapeEq (Prefilled.default (normalizeExtents [.joker, .int 7, .int 5, .joker])).values) = some true := by decide -- line 187
example : (sh [.int .i32 0, .int .i32 7, .int .i32 5, .int .i32 3]).map (shapeEq (Prefilled.default (normalizeExtents [.joker, .int 7, .int 5, .int 3])).values) = some true := by decide -- line 188
example : (sh [.int .i32 9, .int .i32 0, .int .i32 0, .int .i32 0]).map (shapeEq (Prefilled.default (normalizeExtents [.int 9, .joker, .joker, .joker])).values) = some true := by decide -- line 189
example : (sh [.int .i32 9, .int .i32 0, .int .i32 0, .int .i32 7]).map (shapeEq (Prefilled.default (normalizeExtents [.int 9, .joker, .joker, .int 7])).values) = some true := by decide -- line 190
example : (sh [.int .i32 9, .int .i32 0, .int .i32 7, .int .i32 0]).map (shapeEq (Prefilled.default (normalizeExtents [.int 9, .joker, .int 7, .joker])).values) = some true := by decide -- line 191
example : (sh [.int .i32 9, .int .i32 0, .int .i32 7, .int .i32 5]).map (shapeEq (Prefilled.default (normalizeExtents [.int 9, .joker, .int 7, .int 5])).values) = some true := by decide -- line 192
example : (sh [.int .i32 9, .int .i32 7, .int .i32 0, .int .i32 0]).map (shapeEq (Prefilled.default (normalizeExtents [.int 9, .int 7, .joker, .joker])).values) = some true := by decide -- line 193
example : (sh [.int .i32 9, .int .i32 7, .int .i32 0, .int .i32 5]).map (shapeEq (Prefilled.default (normalizeExtents [.int 9, .int 7, .joker, .int 5])).values) = some true := by decide -- line 194
example : (sh [.int .i32 9, .int .i32 7, .int .i32 5, .int .i32 0]).map (shapeEq (Prefilled.default (normalizeExtents [.int 9, .int 7, .int 5, .joker])).values) = some true := by decide -- line 195
example : (sh [.int .i32 9, .int .i32 7, .int .i32 5, .int .i32 3]).map (shapeEq (Prefilled.default (normalizeExtents [.int 9, .int 7, .int 5, .int 3])).values) = some true := by decide -- line 196

/-! `test/unit/utility/shape/mixed_named_unnamed.cpp:12-142` -/

example : (some (Prefilled.default (normalizeExtents [.axis width none])).values).map List.length = some 1 := by decide -- line 17
example : (some (Prefilled.default (normalizeExtents [.axis width none])).values).map (·.getD 0 100) = some 0 := by decide -- line 18
example : (builtNamed [.axis width none] [(width, .val 77)]).map List.length = some 1 := by decide -- line 21
example : (builtNamed [.axis width none] [(width, .val 77)]).map (·.getD 0 100) = some 77 := by decide -- line 22
example : (sh [.named width (.int .i32 99)]).map List.length = some 1 := by decide -- line 25
example : (sh [.named width (.int .i32 99)]).map (·.getD 0 100) = some 99 := by decide -- line 26
example : (some (Prefilled.default (normalizeExtents [.axis width (some (.static 55))])).values).map List.length = some 1 := by decide -- line 29
example : (some (Prefilled.default (normalizeExtents [.axis width (some (.static 55))])).values).map (·.getD 0 100) = some 55 := by decide -- line 30
example : (built [.axis width (some (.static 55))] [.val 55]).map List.length = some 1 := by decide -- line 33
example : (built [.axis width (some (.static 55))] [.val 55]).map (·.getD 0 100) = some 55 := by decide -- line 34
example : (builtNamed [.axis width (some (.static 55))] [(width, .val 55)]).map List.length = some 1 := by decide -- line 37
example : (builtNamed [.axis width (some (.static 55))] [(width, .val 55)]).map (·.getD 0 100) = some 55 := by decide -- line 38
example : (builtNamed [.axis width (some (.static 55))] [(width, .joker)]).map List.length = some 1 := by decide -- line 41
example : (builtNamed [.axis width (some (.static 55))] [(width, .joker)]).map (·.getD 0 100) = some 55 := by decide -- line 42
example : (some (Prefilled.default (normalizeExtents [.axis width none, .axis height none])).values).map (·.getD 0 100) = some 0 := by decide -- line 52
example : (some (Prefilled.default (normalizeExtents [.axis width none, .axis height none])).values).map (·.getD 1 100) = some 0 := by decide -- line 53
example : (sh [.named height (.int .i32 99), .named width (.int .i32 77)]).map (·.getD 1 100) = some 77 := by decide -- line 56
example : (sh [.named height (.int .i32 99), .named width (.int .i32 77)]).map (·.getD 0 100) = some 99 := by decide -- line 57
example : (builtNamed [.axis width none, .axis height none] [(height, .val 99), (width, .val 77)]).map (·.getD 0 100) = some 77 := by decide -- line 60
example : (builtNamed [.axis width none, .axis height none] [(height, .val 99), (width, .val 77)]).map (·.getD 1 100) = some 99 := by decide -- line 61
example : (builtNamed [.axis width none, .axis height none] [(width, .val 77), (height, .val 99)]).map (·.getD 0 100) = some 77 := by decide -- line 64
example : (builtNamed [.axis width none, .axis height none] [(width, .val 77), (height, .val 99)]).map (·.getD 1 100) = some 99 := by decide -- line 65
example : (builtNamed [.axis width (some (.static 55)), .axis height none] [(height, .val 99)]).map (·.getD 0 100) = some 55 := by decide -- line 68
example : (builtNamed [.axis width (some (.static 55)), .axis height none] [(height, .val 99)]).map (·.getD 1 100) = some 99 := by decide -- line 69
example : (builtNamed [.axis width (some (.static 55)), .axis height none] [(height, .val 99), (width, .val 55)]).map (·.getD 0 100) = some 55 := by decide -- line 72
example : (builtNamed [.axis width (some (.static 55)), .axis height none] [(height, .val 99), (width, .val 55)]).map (·.getD 1 100) = some 99 := by decide -- line 73
example : (builtNamed [.axis width (some (.static 55)), .axis height none] [(height, .val 99), (width, .joker)]).map (·.getD 0 100) = some 55 := by decide -- line 76
example : (builtNamed [.axis width (some (.static 55)), .axis height none] [(height, .val 99), (width, .joker)]).map (·.getD 1 100) = some 99 := by decide -- line 77
example : (builtNamed [.axis width none, .axis height none] [(width, .val 99)]).map (·.getD 0 100) = some 99 := by decide -- line 80
example : (builtNamed [.axis width none, .axis height none] [(width, .val 99)]).map (·.getD 1 100) = some 0 := by decide -- line 81
example : (built [.axis width none, .axis height none] [.val 99, .val 77]).map (·.getD 0 100) = some 99 := by decide -- line 86
example : (built [.axis width none, .axis height none] [.val 99, .val 77]).map (·.getD 1 100) = some 77 := by decide -- line 87
example : (built [.axis width none, .axis height none] [.val 77, .val 99]).map (·.getD 0 100) = some 77 := by decide -- line 90
example : (built [.axis width none, .axis height none] [.val 77, .val 99]).map (·.getD 1 100) = some 99 := by decide -- line 91
example : (built [.axis width (some (.static 55)), .axis height none] [.joker, .val 99]).map (·.getD 0 100) = some 55 := by decide -- line 94
example : (built [.axis width (some (.static 55)), .axis height none] [.joker, .val 99]).map (·.getD 1 100) = some 99 := by decide -- line 95
example : (built [.axis width none, .axis height (some (.static 88))] [.val 99, .joker]).map (·.getD 0 100) = some 99 := by decide -- line 98
example : (built [.axis width none, .axis height (some (.static 88))] [.val 99, .joker]).map (·.getD 1 100) = some 88 := by decide -- line 99
example : (built [.axis width (some (.static 33)), .axis height (some (.static 88))] [.joker, .joker]).map (·.getD 0 100) = some 33 := by decide -- line 102
example : (built [.axis width (some (.static 33)), .axis height (some (.static 88))] [.joker, .joker]).map (·.getD 1 100) = some 88 := by decide -- line 103
example : (built [.axis width (some (.static 55)), .axis height none] [.val 55, .val 99]).map (·.getD 0 100) = some 55 := by decide -- line 106
example : (built [.axis width (some (.static 55)), .axis height none] [.val 55, .val 99]).map (·.getD 1 100) = some 99 := by decide -- line 107
example : (some (Prefilled.default (normalizeExtents [.axis width (some (.static 33)), .axis height (some (.static 88))])).values).map (·.getD 0 100) = some 33 := by decide -- line 110
example : (some (Prefilled.default (normalizeExtents [.axis width (some (.static 33)), .axis height (some (.static 88))])).values).map (·.getD 1 100) = some 88 := by decide -- line 111
example : (built [.joker, .joker] [.val 99, .val 77]).map (·.getD 0 100) = some 99 := by decide -- line 116
example : (built [.joker, .joker] [.val 99, .val 77]).map (·.getD 1 100) = some 77 := by decide -- line 117
example : (sh [.int .i32 99, .int .i32 77]).map (·.getD 0 100) = some 99 := by decide -- line 120
example : (sh [.int .i32 99, .int .i32 77]).map (·.getD 1 100) = some 77 := by decide -- line 121
example : (built [.int 55, .joker] [.joker, .val 99]).map (·.getD 0 100) = some 55 := by decide -- line 124
example : (built [.int 55, .joker] [.joker, .val 99]).map (·.getD 1 100) = some 99 := by decide -- line 125
example : (built [.int 55, .joker] [.val 55, .val 99]).map (·.getD 0 100) = some 55 := by decide -- line 128
example : (built [.int 55, .joker] [.val 55, .val 99]).map (·.getD 1 100) = some 99 := by decide -- line 129
example : (built [.joker, .int 33] [.val 99, .joker]).map (·.getD 0 100) = some 99 := by decide -- line 132
example : (built [.joker, .int 33] [.val 99, .joker]).map (·.getD 1 100) = some 33 := by decide -- line 133
example : (built [.joker, .int 33] [.val 99, .val 33]).map (·.getD 0 100) = some 99 := by decide -- line 136
example : (built [.joker, .int 33] [.val 99, .val 33]).map (·.getD 1 100) = some 33 := by decide -- line 137
example : (built [.int 44, .int 33] [.joker, .joker]).map (·.getD 0 100) = some 44 := by decide -- line 140
example : (built [.int 44, .int 33] [.joker, .joker]).map (·.getD 1 100) = some 33 := by decide -- line 141
example : (built [.int 44, .int 33] [.joker, .val 33]).map (·.getD 0 100) = some 44 := by decide -- line 144
example : (built [.int 44, .int 33] [.joker, .val 33]).map (·.getD 1 100) = some 33 := by decide -- line 145
example : (built [.int 44, .int 33] [.val 44, .joker]).map (·.getD 0 100) = some 44 := by decide -- line 148
example : (built [.int 44, .int 33] [.val 44, .joker]).map (·.getD 1 100) = some 33 := by decide -- line 149
example : (built [.int 44, .int 33] [.val 44, .val 33]).map (·.getD 0 100) = some 44 := by decide -- line 152
example : (built [.int 44, .int 33] [.val 44, .val 33]).map (·.getD 1 100) = some 33 := by decide -- line 153
example : (some (Prefilled.default (normalizeExtents [.int 44, .int 33])).values).map (·.getD 0 100) = some 44 := by decide -- line 156
example : (some (Prefilled.default (normalizeExtents [.int 44, .int 33])).values).map (·.getD 1 100) = some 33 := by decide -- line 157

/-! `test/unit/utility/shape/as_array.cpp:14-50`: extents with their types; `390_c` has two bytes. -/

example : asArray [⟨.i32, 9⟩] = [⟨.i32, 9⟩] := by decide -- line 17
example : asArray [⟨.u8, 9⟩] = [⟨.u8, 9⟩] := by decide -- line 18
example : asArray [⟨.u16, 390⟩] = [⟨.u16, 390⟩] := by decide -- line 19
example : asArray [⟨.i32, 9⟩, ⟨.i32, 7⟩] = [⟨.i32, 9⟩, ⟨.i32, 7⟩] := by decide -- line 25
example : asArray [⟨.u8, 9⟩, ⟨.u8, 7⟩] = [⟨.u8, 9⟩, ⟨.u8, 7⟩] := by decide -- line 26
example : asArray [⟨.u16, 390⟩, ⟨.u8, 7⟩] = [⟨.u16, 390⟩, ⟨.u16, 7⟩] := by decide -- line 27
example : asArray [⟨.i32, 9⟩, ⟨.i32, 7⟩, ⟨.i32, 11⟩] = [⟨.i32, 9⟩, ⟨.i32, 7⟩, ⟨.i32, 11⟩] := by decide -- line 33
example : asArray [⟨.u8, 9⟩, ⟨.u8, 7⟩, ⟨.u8, 11⟩] = [⟨.u8, 9⟩, ⟨.u8, 7⟩, ⟨.u8, 11⟩] := by decide -- line 34
example : asArray [⟨.u16, 390⟩, ⟨.u8, 7⟩, ⟨.u8, 11⟩] = [⟨.u16, 390⟩, ⟨.u16, 7⟩, ⟨.u16, 11⟩] := by decide -- line 35
example : asArray [⟨.i32, 9⟩, ⟨.i32, 7⟩, ⟨.i32, 11⟩, ⟨.i32, 32⟩] = [⟨.i32, 9⟩, ⟨.i32, 7⟩, ⟨.i32, 11⟩, ⟨.i32, 32⟩] := by decide -- line 41
example : asArray [⟨.u8, 9⟩, ⟨.u8, 7⟩, ⟨.u8, 11⟩, ⟨.i8, 32⟩] = [⟨.u8, 9⟩, ⟨.u8, 7⟩, ⟨.u8, 11⟩, ⟨.u8, 32⟩] := by decide -- line 42
example : asArray [⟨.u16, 390⟩, ⟨.u8, 7⟩, ⟨.u8, 11⟩, ⟨.i16, 32⟩] = [⟨.u16, 390⟩, ⟨.u16, 7⟩, ⟨.u16, 11⟩, ⟨.u16, 32⟩] := by decide -- line 43

/-! `test/unit/utility/shape/convert.cpp:13-51` -/

private def d2 : Desc := normalizeExtents [.joker, .joker]
private def d4 : Desc := normalizeExtents [.joker, .joker, .joker, .joker]

/-- The extents of a converted shape; `include/kwk/detail/sequence/shape_constraints.hpp:44-67`. -/
private def conv (d : Desc) (src : Prefilled) : Option Shape :=
  match convertPrefilled .checked d src with
  | .ok p => some p.values
  | _ => none

example : (conv d4 ⟨d2, [4, 2]⟩).map (shapeEq [1, 1, 4, 2]) = some true := by decide -- lines 18, 28
example : conv d4 ⟨d2, [4, 2]⟩ = some (convertShape 4 [4, 2]) := by decide
example : conv d2 ⟨d4, [4, 2, 6, 9]⟩ = some [4 * 2 * 6, 9] := by decide -- lines 36-37, 47-48
example : convertShape 2 [4, 2, 6, 9] = [4 * 2 * 6, 9] := by decide

/-! `test/unit/utility/shape/ctor.cpp:12-27`, `test/unit/utility/shape/of_size.cpp:13-28` -/

example : sh ((List.range 1).map fun (i : Nat) => .int .i64 (3 * (1 + i))) = some ((List.range 1).map fun (i : Nat) => (3 * (1 + i) : Int)) := by decide
example : sh ((List.range 2).map fun (i : Nat) => .int .i64 (3 * (1 + i))) = some ((List.range 2).map fun (i : Nat) => (3 * (1 + i) : Int)) := by decide
example : sh ((List.range 3).map fun (i : Nat) => .int .i64 (3 * (1 + i))) = some ((List.range 3).map fun (i : Nat) => (3 * (1 + i) : Int)) := by decide
example : sh ((List.range 4).map fun (i : Nat) => .int .i64 (3 * (1 + i))) = some ((List.range 4).map fun (i : Nat) => (3 * (1 + i) : Int)) := by decide
example : sh ((List.range 5).map fun (i : Nat) => .int .i64 (3 * (1 + i))) = some ((List.range 5).map fun (i : Nat) => (3 * (1 + i) : Int)) := by decide
example : sh ((List.range 6).map fun (i : Nat) => .int .i64 (3 * (1 + i))) = some ((List.range 6).map fun (i : Nat) => (3 * (1 + i) : Int)) := by decide
example : sh ((List.range 7).map fun (i : Nat) => .int .i64 (3 * (1 + i))) = some ((List.range 7).map fun (i : Nat) => (3 * (1 + i) : Int)) := by decide
example : sh ((List.range 8).map fun (i : Nat) => .int .i64 (3 * (1 + i))) = some ((List.range 8).map fun (i : Nat) => (3 * (1 + i) : Int)) := by decide
example : sh ((List.range 9).map fun (i : Nat) => .int .i64 (3 * (1 + i))) = some ((List.range 9).map fun (i : Nat) => (3 * (1 + i) : Int)) := by decide
example : sh ((List.range 10).map fun (i : Nat) => .int .i64 (3 * (1 + i))) = some ((List.range 10).map fun (i : Nat) => (3 * (1 + i) : Int)) := by decide

/-! `test/unit/utility/shape/fit_constraints.cpp:11-47` -/

/-- `of_size(a...).fit_constraints(of_size(r...))`; `include/kwk/detail/sequence/shape_constraints.hpp:69-84`. -/
private def fits (a r : List BuildArg) : Option Bool :=
  match ofSize .checked a, ofSize .checked r with
  | some (.ok a), some (.ok r) => some (fitConstraints a r)
  | _, _ => none

example : fits [.int .i32 11, .int .i32 12, .int .i32 13] [.int .i32 7, .int .i32 8, .int .i32 9] = some true := by decide -- line 15
example : fits [.int .i32 11, .const 12, .int .i32 13] [.int .i32 7, .int .i32 8, .int .i32 9] = some true := by decide -- line 16
example : fits [.const 11, .const 12, .const 13] [.int .i32 7, .int .i32 8, .int .i32 9] = some true := by decide -- line 17
example : fits [.int .i32 11, .int .i32 12, .int .i32 13] [.int .i32 7, .const 8, .int .i32 9] = some false := by decide -- line 24
example : fits [.int .i32 11, .const 12, .int .i32 13] [.int .i32 7, .const 8, .int .i32 9] = some false := by decide -- line 25
example : fits [.int .i32 11, .int .i32 8, .int .i32 13] [.int .i32 7, .const 8, .int .i32 9] = some true := by decide -- line 26
example : fits [.int .i32 11, .const 8, .int .i32 13] [.int .i32 7, .const 8, .int .i32 9] = some true := by decide -- line 27
example : fits [.const 11, .const 8, .const 13] [.int .i32 7, .const 8, .int .i32 9] = some true := by decide -- line 28
example : fits [.int .i32 11, .int .i32 12, .int .i32 13] [.const 7, .const 8, .const 9] = some false := by decide -- line 35
example : fits [.int .i32 11, .const 12, .int .i32 13] [.const 7, .const 8, .const 9] = some false := by decide -- line 36
example : fits [.int .i32 11, .const 8, .int .i32 13] [.const 7, .const 8, .const 9] = some false := by decide -- line 37
example : fits [.int .i32 11, .const 8, .const 9] [.const 7, .const 8, .const 9] = some false := by decide -- line 38
example : fits [.const 7, .const 8, .int .i32 13] [.const 7, .const 8, .const 9] = some false := by decide -- line 39
example : fits [.const 7, .const 8, .const 9] [.const 7, .const 8, .const 9] = some true := by decide -- line 40
example : fits [.int .i32 7, .const 8, .const 9] [.const 7, .const 8, .const 9] = some true := by decide -- line 41
example : fits [.const 7, .int .i32 8, .const 9] [.const 7, .const 8, .const 9] = some true := by decide -- line 42
example : fits [.const 7, .const 8, .int .i32 9] [.const 7, .const 8, .const 9] = some true := by decide -- line 43
example : fits [.const 7, .int .i32 8, .int .i32 9] [.const 7, .const 8, .const 9] = some true := by decide -- line 44

/-! `test/unit/utility/shape/joker.cpp:12-77`: one axis, then all combinations of a joker, a number and a constant. -/

example : built [.joker] [.joker] = some [0] := by decide -- line 17
example : built [.joker] [.val 3] = some [3] := by decide -- line 20
example : built [.joker] [.val 3] = some [3] := by decide -- line 23
example : built [.int 3] [.joker] = some [3] := by decide -- line 26
example : built [.int 3] [.val 3] = some [3] := by decide -- line 29
example : built [.int 3] [.val 3] = some [3] := by decide -- line 32

/-- The combinations of extents, with the values they stand for. -/
private def combos : List (Int × Int) → List (List BuildArg × Shape)
  | [] => [([], [])]
  | (n, c) :: ds => (combos ds).flatMap fun (as, vs) =>
    [(.joker :: as, 0 :: vs), (.int .i32 n :: as, n :: vs), (.const c :: as, c :: vs)]

/-- `of_size` of every combination equals `of_size` of the expected values. -/
private def comboOk (ds : List (Int × Int)) : Bool :=
  (combos ds).all fun (as, vs) => (sh as).map (shapeEq · vs) == some true

example : comboOk [(7, 61), (3, 42)] = true := by decide +kernel -- lines 64-67
example : comboOk [(5, 93), (7, 61), (3, 42)] = true := by decide +kernel -- lines 69-72
example : comboOk [(9, 33), (5, 93), (7, 61), (3, 42)] = true := by decide +kernel -- lines 74-77

/-! `test/unit/utility/shape/properties.cpp:11-39` -/

example : (sh [.int .i32 4, .int .i32 2, .int .i32 6, .int .i32 9]).map nbdims = some 4 := by decide -- line 18
example : (sh [.int .i32 1, .int .i32 4, .int .i32 2, .int .i32 6]).map nbdims = some 3 := by decide -- line 19
example : (sh [.int .i32 1, .int .i32 1, .int .i32 4, .int .i32 2]).map nbdims = some 2 := by decide -- line 20
example : (sh [.int .i32 1, .int .i32 1, .int .i32 1, .int .i32 4]).map nbdims = some 1 := by decide -- line 21
example : (sh [.int .i32 1, .int .i32 1, .int .i32 1, .int .i32 1]).map nbdims = some 0 := by decide -- line 22
example : numelT [⟨.u8, 4⟩, ⟨.u8, 2⟩, ⟨.u8, 6⟩, ⟨.u8, 9⟩] = .ok ⟨.i32, 432⟩ := by decide -- line 27
example : numelT [⟨.i16, 4⟩, ⟨.i16, 2⟩, ⟨.i16, 6⟩, ⟨.i16, 9⟩] = .ok ⟨.i32, 432⟩ := by decide -- line 28
example : numelT [⟨.i32, 4⟩, ⟨.i32, 2⟩, ⟨.i32, 6⟩, ⟨.i32, 9⟩] = .ok ⟨.i32, 432⟩ := by decide -- line 29
example : numelT [⟨.u32, 4⟩, ⟨.u32, 2⟩, ⟨.u32, 6⟩, ⟨.u32, 9⟩] = .ok ⟨.i32, 432⟩ := by decide -- line 30
example : numelT [⟨.i64, 4⟩, ⟨.i64, 2⟩, ⟨.i64, 6⟩, ⟨.i64, 9⟩] = .ok ⟨.i32, 432⟩ := by decide -- line 31
example : numelT [⟨.u64, 4⟩, ⟨.u64, 2⟩, ⟨.u64, 6⟩, ⟨.u64, 9⟩] = .ok ⟨.i32, 432⟩ := by decide -- line 32
example : (sh [.int .i32 4, .int .i32 2, .int .i32 6, .int .i32 9]).map numel = some 432 := by decide -- line 34
example : (sh [.int .i32 4, .int .i32 2, .int .i32 6, .int .i32 1]).map numel = some 48 := by decide -- line 35
example : (sh [.int .i32 4, .int .i32 2, .int .i32 1, .int .i32 1]).map numel = some 8 := by decide -- line 36
example : (sh [.int .i32 4, .int .i32 1, .int .i32 1, .int .i32 1]).map numel = some 4 := by decide -- line 37
example : (sh [.int .i32 1, .int .i32 1, .int .i32 1, .int .i32 1]).map numel = some 1 := by decide -- line 38

/-! `test/unit/utility/shape/mixed_static_dynamic.cpp:12-184`: size in bytes, number of elements, extents. -/

/-- Size in bytes (empty objects count 0), number of elements and extents of a shape. -/
private def look : Option (Res Prefilled) → Option (Nat × Int × Shape)
  | some (.ok p) => some (bytes p.desc, numel p.values, p.values)
  | _ => none

example : look (ofSize .checked [.int .i32 7]) = some (4, 7, [7]) := by decide -- line 16
example : look (ofSizeT .checked .i16 [.int .i32 33]) = some (2, 33, [33]) := by decide -- line 22
example : look (ofSizeT .checked .i16 [.int .i16 33]) = some (2, 33, [33]) := by decide -- line 28
example : look (ofSize .checked [.int .i16 33]) = some (2, 33, [33]) := by decide -- line 34
example : look (ofSize .checked [.const 9]) = some (0, 9, [9]) := by decide -- line 40
example : look (ofSize .checked [.const 390]) = some (0, 390, [390]) := by decide -- line 47
example : look (ofSize .checked [.int .i32 7, .int .i32 9]) = some (8, 63, [7, 9]) := by decide -- line 59
example : look (ofSizeT .checked .i16 [.int .i32 9, .int .i32 3]) = some (4, 27, [9, 3]) := by decide -- line 67
example : look (ofSize .checked [.const 5, .int .i32 8]) = some (4, 40, [5, 8]) := by decide -- line 75
example : look (ofSizeT .checked .i16 [.int .i32 5, .const 9]) = some (2, 45, [5, 9]) := by decide -- line 83
example : look (ofSize .checked [.const 7, .const 9]) = some (0, 63, [7, 9]) := by decide -- line 91
example : look (ofSize .checked [.int .i32 7, .int .i32 9, .int .i32 11]) = some (12, 693, [7, 9, 11]) := by decide -- line 104
example : look (ofSizeT .checked .i16 [.int .i32 9, .int .i32 3, .int .i32 7]) = some (6, 189, [9, 3, 7]) := by decide -- line 113
example : look (ofSize .checked [.const 7, .int .i32 9, .int .i32 11]) = some (8, 693, [7, 9, 11]) := by decide -- line 122
example : look (ofSize .checked [.int .i32 7, .const 9, .int .i32 11]) = some (8, 693, [7, 9, 11]) := by decide -- line 131
example : look (ofSize .checked [.int .i32 7, .int .i32 9, .const 11]) = some (8, 693, [7, 9, 11]) := by decide -- line 140
example : look (ofSize .checked [.const 7, .const 9, .int .i32 11]) = some (4, 693, [7, 9, 11]) := by decide -- line 149
example : look (ofSize .checked [.int .i32 7, .const 9, .const 11]) = some (4, 693, [7, 9, 11]) := by decide -- line 158
example : look (ofSizeT .checked .i16 [.const 7, .int .i32 9, .const 11]) = some (2, 693, [7, 9, 11]) := by decide -- line 167
example : look (ofSize .checked [.const 7, .const 9, .const 11]) = some (0, 693, [7, 9, 11]) := by decide -- line 176

/-! `test/unit/utility/shape/tuple.cpp:11-23` -/

example : sh [.int .i32 3, .int .i32 5, .int .i32 7, .int .i32 9, .int .i32 11, .int .i32 13, .int .i32 69] = some [3, 5, 7, 9, 11, 13, 69] := by decide

/-! `test/unit/utility/stride/as_stride.cpp:12-40` -/

/-- `as_stride(of_size(a...)) == with_strides(b...)` and `is_unit`; `include/kwk/utility/container/stride.hpp:74-79, 171-189`. -/
private def strides (t : IntType) (a b : List BuildArg) : Option (Bool × Bool) :=
  match ofSize .checked a, withStrides .checked b with
  | some (.ok a), some (.ok b) =>
    match asStrideP .checked t a with
    | some (.ok s) => some (decide (s.values = b.values), isUnit s.desc)
    | _ => none
  | _, _ => none

example : strides .i32 [.int .i32 9] [.const 1] = some (true, true) := by decide -- lines 15-16
example : strides .i32 [.int .i32 3, .int .i32 4] [.int .i32 4, .const 1] = some (true, true) := by decide -- lines 18-19
example : strides .i32 [.int .i32 3, .int .i32 5, .int .i32 7] [.int .i32 35, .int .i32 7, .const 1] = some (true, true) := by decide -- lines 21-22
example : strides .i32 [.int .i32 2, .int .i32 4, .int .i32 6, .int .i32 8] [.int .i32 192, .int .i32 48, .int .i32 8, .const 1] = some (true, true) := by decide -- lines 24-25
example : asStrideT [⟨.u8, 4⟩] = .ok [fixedOne] := by decide -- line 33
example : asStrideT [⟨.u8, 4⟩, ⟨.u8, 5⟩] = .ok [⟨.i32, 5⟩, fixedOne] := by decide -- line 34
example : asStrideT [⟨.u8, 3⟩, ⟨.u8, 4⟩, ⟨.u8, 5⟩] = .ok [⟨.i32, 20⟩, ⟨.i32, 5⟩, fixedOne] := by decide -- line 35
example : asStrideT [⟨.u8, 2⟩, ⟨.u8, 3⟩, ⟨.u8, 4⟩, ⟨.u8, 5⟩] = .ok [⟨.i32, 60⟩, ⟨.i32, 20⟩, ⟨.i32, 5⟩, fixedOne] := by decide -- line 36

/-! `test/unit/utility/stride/coordinates.cpp:12-55`, `test/unit/utility/stride/linear_index.cpp:12-76`: all positions of
a shape, in the order of nested loops. -/

/-- All positions, the last coordinate running fastest. -/
private def positions : List Nat → List (List Int)
  | [] => [[]]
  | n :: ns => (List.range n).flatMap fun (i : Nat) => (positions ns).map fun p => (i : Int) :: p

/-- The coordinates of the `k`-th position are that position, and back. -/
private def roundTrip (s : List Nat) : Bool :=
  ((positions s).zipIdx).all fun (p, k) =>
    decide (coordinates .checked k (s.map Int.ofNat) = .ok p) && decide (linearIndex .checked (s.map Int.ofNat) p = .ok k)

example : roundTrip [120] = true := by decide +kernel
example : roundTrip [60, 2] = true := by decide +kernel
example : roundTrip [20, 3, 2] = true := by decide +kernel
example : roundTrip [5, 4, 3, 2] = true := by decide +kernel
example : roundTrip [13] = true := by decide +kernel
example : roundTrip [4, 3] = true := by decide +kernel
example : roundTrip [4, 3, 2] = true := by decide +kernel

example : linearIndex .checked [5, 4, 3, 2] [3, 2, 1, 0] = .ok (0 + 2 * 1 + 6 * 2 + 24 * 3) := by decide

/-! `test/unit/utility/stride/with_strides.cpp:14-60`: all combinations of `1_c`, `2_c` and 9. -/

/-- The combinations, with the values they stand for. -/
private def strideCombos : Nat → List (List BuildArg × List Int)
  | 0 => [([], [])]
  | n + 1 => (strideCombos n).flatMap fun (as, vs) =>
    [(.const 1 :: as, 1 :: vs), (.const 2 :: as, 2 :: vs), (.int .i32 9 :: as, 9 :: vs)]

/-- The strides are the values given, and `is_unit` tells whether the last one is the constant 1. -/
private def strideOk (n : Nat) : Bool :=
  (strideCombos n).all fun (as, vs) =>
    match withStrides .checked as with
    | some (.ok p) => decide (p.values = vs) && (isUnit p.desc == decide (as.getLast? = some (.const 1)))
    | _ => false

example : strideOk 1 = true := by decide +kernel
example : strideOk 2 = true := by decide +kernel
example : strideOk 3 = true := by decide +kernel
example : strideOk 4 = true := by decide +kernel

end Kwk.Tests.Shapes
