/-!
# Model: which values can be given as label and allocator

`table{o...}` and `view{o...}` deduce their type from the types of the options: `builder` has the settings, with options that
are value-initialised, as a template argument.  So these types have to be fit for template arguments.
-/

namespace Kwk

/-- C++ types, as far as template arguments of these types go; C++ [temp.param], used at `include/kwk/container/view.hpp:92-101`,
`include/kwk/detail/container/builder.hpp:19-20`. -/
inductive CppType where
  /-- numbers, enumerations, `bool` -/
  | arithmetic
  /-- pointers to objects, to functions and to members -/
  | pointer
  /-- lvalue references -/
  | reference
  /-- arrays, as members of classes -/
  | array (t : CppType)
  /-- a class with these bases and non-static data members; `accessible`: it is a literal type, all of them are public and none is
  mutable; `dflt`: `T{}` is a constant expression -/
  | cls (accessible dflt : Bool) (members : List CppType)

mutual

/-- Structural types; C++ [temp.param], required of the template argument at `include/kwk/detail/container/builder.hpp:19-20`. -/
def CppType.isStructural : CppType → Bool
  | .arithmetic | .pointer | .reference => true
  | .array t => t.isStructural
  | .cls accessible _ ms => accessible && allStructural ms

/-- The same for all bases and members; C++ [temp.param], `include/kwk/detail/container/builder.hpp:19-20`. -/
def CppType.allStructural : List CppType → Bool
  | [] => true
  | t :: ts => t.isStructural && CppType.allStructural ts

end

/-- `T{}` is a constant expression: as in `O{}...` of the deduction guides; `include/kwk/container/view.hpp:92-100`,
`include/kwk/container/table.hpp:111-117`. -/
def CppType.defaultConstant : CppType → Bool
  | .arithmetic | .pointer => true
  | .reference => false
  | .array t => t.defaultConstant
  | .cls _ dflt _ => dflt

/-- `rbr::option<K, T>`: an aggregate with one public member `contents` of type `T` (raberu), made at
`include/kwk/settings/label.hpp:19-22` and, for allocators, by the inherited operator of `include/kwk/settings/allocator.hpp:20`. -/
def optionType (t : CppType) : CppType := .cls true t.defaultConstant [t]

/-- `rbr::settings<O...>`: derived from the options (raberu), made at `include/kwk/container/view.hpp:92-100`,
`include/kwk/container/table.hpp:111-117`. -/
def settingsType (os : List CppType) : CppType := .cls true (os.all CppType.defaultConstant) os

/-- A type that a value can have, with the conversions that the constraints ask for;
`include/kwk/settings/label.hpp:19`, `include/kwk/settings/allocator.hpp:17-18`. -/
structure ValueType where
  /-- the type, after decay -/
  type : CppType
  /-- converts to `std::string` implicitly -/
  toString : Bool
  /-- has `allocate` and `deallocate` -/
  allocates : Bool

/-- `char const*`, which string literals decay to; `include/kwk/settings/label.hpp:19-22`. -/
def charPointer : ValueType := ⟨.pointer, true, false⟩

/-- `std::string`: its members are private; as in the constraint at `include/kwk/settings/label.hpp:19`. -/
def stdString : ValueType := ⟨.cls false true [.pointer, .arithmetic, .array .arithmetic], true, false⟩

/-- `std::string_view`: converts to `std::string` by an explicit constructor only; `include/kwk/settings/label.hpp:19`. -/
def stdStringView : ValueType := ⟨.cls false true [.pointer, .arithmetic], false, false⟩

/-- `kwk::heap_allocator`, a class without members; `include/kwk/utility/memory/heap_allocator.hpp:22`. -/
def heapAllocatorType : ValueType := ⟨.cls true true [], false, true⟩

/-- `kwk::any_allocator`, which holds a `std::unique_ptr`, whose members are private; its destructor is not `constexpr` in C++20, so that there is no constant;
`include/kwk/utility/memory/any_allocator.hpp:26-91`. -/
def anyAllocatorType : ValueType := ⟨.cls false false [.cls false true [.pointer]], false, true⟩

/-- An option of a container. -/
inductive OptionArg where
  /-- `label = v` -/
  | label (v : ValueType)
  /-- `allocator = v` -/
  | allocator (v : ValueType)
  /-- one of the library's own options: a source, a shape, strides, `as<T>`, `unreachable`: classes with public members -/
  | own

/-- The type of the option; `none`: the constraint of `operator=` is not met; `include/kwk/settings/label.hpp:19-22`,
`include/kwk/settings/allocator.hpp:17-20`. -/
def OptionArg.type : OptionArg → Option CppType
  | .label v => if v.toString then some (optionType v.type) else none
  | .allocator v => if v.allocates then some (optionType v.type) else none
  | .own => some (.cls true true [.pointer])

/-- The deduction of `view{o...}` and `table{o...}` succeeds: the settings with options `O{}` are a template argument;
`include/kwk/container/view.hpp:92-100`, `include/kwk/container/table.hpp:111-117`. -/
def deduces (os : List CppType) : Bool := (settingsType os).isStructural && os.all CppType.defaultConstant

/-- `view{o...}` or `table{o...}` compiles, as far as the options go; `include/kwk/container/view.hpp:58-66, 92-100`,
`include/kwk/container/table.hpp:58-66, 111-117`. -/
def buildCompiles (os : List OptionArg) : Bool :=
  match os.mapM OptionArg.type with
  | some ts => deduces ts
  | none => false

/-- The constraint of `relabel(c, l)` holds; `include/kwk/algorithm/views/relabel.hpp:18-19`. -/
def relabelAccepts (v : ValueType) : Bool := (OptionArg.label v).type.isSome

/-- The body of `relabel(c, l)` compiles: a view of the settings with the label, a pointer source and the shape;
`include/kwk/algorithm/views/relabel.hpp:21`, `include/kwk/container/container.hpp:75-78`. -/
def relabelCompiles (v : ValueType) : Bool := buildCompiles [.label v, .own, .own]

end Kwk
