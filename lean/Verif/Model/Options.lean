import Verif.Model.Sources
import Verif.Model.Ownership
import Verif.Model.StackTable

/-!
# Model: options of containers

`table{o1, o2, ...}` and `view{o1, o2, ...}`: which element type, shape, strides, memory block, label and
allocator the options give.  Options are values of the keywords `source`, `size`, `strides`, `value_type`,
`label`, `allocator`, `unreachable` and the container category.

About the option library (raberu, whose source is not part of the repository) we assume: `settings` of two options
with the same keyword is ill-formed, `o[k]` is the option of keyword `k`, `o[k | d]` is `d` if there is none,
`o[k]` is `unknown_key` if there is none, and `merge(a, b)` keeps the options of `a` and those of `b` whose
keyword is not in `a`.
-/

namespace Kwk

/-- The keywords; `include/kwk/settings/source.hpp:20-52`, `include/kwk/settings/size.hpp:16-37`,
`include/kwk/settings/strides.hpp:16-28`, `include/kwk/settings/type.hpp:15-44`,
`include/kwk/settings/label.hpp:15-28`, `include/kwk/settings/allocator.hpp:15-26`,
`include/kwk/settings/reachable.hpp:14-20`, `include/kwk/settings/category.hpp:16-25`. -/
inductive Key where
  | category | source | size | strides | type | label | allocator | unreachable
  deriving DecidableEq, Repr

/-- Container categories; `include/kwk/container/settings/category.hpp:18-46`. -/
inductive Category where
  | view | table
  deriving DecidableEq, Repr

/-- The three kinds of sources; `include/kwk/settings/source/ptr_source.hpp:15-34`,
`include/kwk/settings/source/array_source.hpp:15-31`, `include/kwk/settings/source/range_source.hpp:15-25`. -/
inductive SourceKind where
  /-- a pointer -/
  | ptr
  /-- an array of known type -/
  | array (t : Nest)
  /-- a contiguous range of `n` elements -/
  | range (n : Nat)
  deriving DecidableEq, Repr

/-- A source: the type of its elements and the address of the first one, `none` for null;
`include/kwk/settings/source.hpp:23-44`. -/
structure Source (τ : Type) where
  /-- `source_traits<...>::value_type` -/
  elem : τ
  /-- `storage(src)` -/
  data : Option Ptr
  /-- which kind -/
  kind : SourceKind
  deriving DecidableEq, Repr

/-- A shape with the knowledge whether all its extents are compile-time ones (`is_fully_static`); stands for the types
`shape<...>` of the `size` option; `include/kwk/settings/size.hpp:18-30`. -/
structure Extents where
  /-- the extents -/
  dims : Shape
  /-- `is_fully_static` -/
  allStatic : Bool
  deriving DecidableEq, Repr

/-- An option; `include/kwk/settings/source.hpp:20-52`, `include/kwk/settings/size.hpp:16-37`,
`include/kwk/settings/strides.hpp:16-28`, `include/kwk/settings/type.hpp:15-44`,
`include/kwk/settings/label.hpp:15-28`, `include/kwk/settings/allocator.hpp:15-26`,
`include/kwk/settings/reachable.hpp:14-20`, `include/kwk/settings/category.hpp:16-25`. -/
inductive Opt (τ : Type) where
  | category (c : Category)
  | source (s : Source τ)
  | size (s : Extents)
  | strides (s : Extents)
  | type (t : τ)
  | label (l : String)
  | allocator (a : AllocId)
  | unreachable
  deriving DecidableEq, Repr

variable {τ : Type}

/-- The keyword of an option; the `keyword_type` members, e.g. `include/kwk/settings/type.hpp:21`,
`include/kwk/settings/source/ptr_source.hpp:18`. -/
def Opt.key : Opt τ → Key
  | .category _ => .category
  | .source _ => .source
  | .size _ => .size
  | .strides _ => .strides
  | .type _ => .type
  | .label _ => .label
  | .allocator _ => .allocator
  | .unreachable => .unreachable

/-- `o[k]`: the option of keyword `k`.  Used at `include/kwk/container/pick.hpp:22-26`. -/
def fetch (k : Key) (opts : List (Opt τ)) : Option (Opt τ) := opts.find? fun o => o.key = k

/-- `o[category]`. `include/kwk/detail/container/builder.hpp:23`. -/
def optCategory (opts : List (Opt τ)) : Option Category :=
  match fetch .category opts with
  | some (.category c) => some c
  | _ => none

/-- The value of `o[value_type]`, `none` for `unknown_key`; `include/kwk/container/settings/type.hpp:30, 39`. -/
def optType (opts : List (Opt τ)) : Option τ :=
  match fetch .type opts with
  | some (.type t) => some t
  | _ => none

/-- The `source` option, if there is one; `include/kwk/container/settings/source.hpp:18-29`. -/
def optSource (opts : List (Opt τ)) : Option (Source τ) :=
  match fetch .source opts with
  | some (.source s) => some s
  | _ => none

/-- `default_shape(src)`; `include/kwk/settings/source/ptr_source.hpp:42-43`,
`include/kwk/settings/source/array_source.hpp:36-37`, `include/kwk/settings/source/range_source.hpp:33-37`.
Sizes of a range are run-time ones. -/
def SourceKind.defaultShape : SourceKind → Extents
  | .ptr => ⟨[0], false⟩
  | .array t => ⟨t.sizes, true⟩
  | .range n => ⟨[(n : Int)], false⟩

/-- `pick(size, o)`: the option, or the default shape of the source; without source, that of an empty pointer;
`include/kwk/container/settings/size.hpp:17-22`, `include/kwk/container/settings/source.hpp:18-29`. -/
def pickSize (opts : List (Opt τ)) : Extents :=
  match fetch .size opts with
  | some (.size s) => s
  | _ =>
    match optSource opts with
    | some s => s.kind.defaultShape
    | none => SourceKind.ptr.defaultShape

/-- `pick(strides, o)`: the option, or the row-major strides of the shape;
`include/kwk/container/settings/strides.hpp:18-23`. -/
def pickStrides (opts : List (Opt τ)) : Extents :=
  match fetch .strides opts with
  | some (.strides s) => s
  | _ => ⟨asStride (pickSize opts).dims, (pickSize opts).allStatic⟩

/-- `pick(value_type, o)`.  A view needs exactly one of `source` and `value_type`; for a table `value_type` goes
before the type of the source.  `none`: ill-formed, or a table whose element type is `unknown_key`;
`include/kwk/container/settings/type.hpp:18-42`. -/
def pickType (c : Category) (opts : List (Opt τ)) : Option τ :=
  match c with
  | .view =>
    match optSource opts, optType opts with
    | some s, none => some s.elem
    | none, some t => some t
    | _, _ => none
  | .table =>
    match optType opts with
    | some t => some t
    | none => (optSource opts).map Source.elem

/-- `pick(label, o)`; `include/kwk/container/settings/label.hpp:16-20`,
`include/kwk/detail/container/metadata.hpp:17-46`. -/
def pickLabel (opts : List (Opt τ)) : Option String :=
  match fetch .label opts with
  | some (.label l) => some l
  | _ => none

/-- `pick(allocator, o)`; `include/kwk/container/settings/allocator.hpp:17-22`. -/
def pickAllocator (opts : List (Opt τ)) : AllocId :=
  match fetch .allocator opts with
  | some (.allocator a) => a
  | _ => heapAlloc

/-- `!Options[unreachable]`; `include/kwk/detail/container/builder.hpp:31-32`. -/
def pickReach (opts : List (Opt τ)) : Bool := (fetch .unreachable opts).isNone

/-- The memory block of a container; `include/kwk/detail/memory/block.hpp:17-39`. -/
inductive Block where
  /-- `shallow_block`: a pointer, null without source; `include/kwk/detail/memory/shallow_block.hpp:13-35` -/
  | shallow (p : Option Ptr)
  /-- `stack_block<T, n>`; `include/kwk/detail/memory/stack_block.hpp:16-50` -/
  | stack (n : Int)
  /-- `heap_block`, with the allocator that it uses; `include/kwk/detail/memory/heap_block.hpp:16-64` -/
  | heap (a : AllocId)
  deriving DecidableEq, Repr

/-- `block_t<kind, shape, T, options>`; `include/kwk/detail/memory/block.hpp:20-36`. -/
def pickBlock (c : Category) (opts : List (Opt τ)) : Block :=
  match c with
  | .view => .shallow ((optSource opts).bind Source.data)
  | .table =>
    if (pickSize opts).allStatic then .stack (numel (pickSize opts).dims) else .heap (pickAllocator opts)

/-- What the builder and the constructors make of the options;
`include/kwk/detail/container/builder.hpp:19-39`, `include/kwk/container/container.hpp:19-47`. -/
structure Built (τ : Type) where
  /-- `value_type` -/
  elem : τ
  /-- `shape()` -/
  shape : Shape
  /-- the stored strides -/
  strides : Strides
  /-- `useSpecificStrides` -/
  specific : Bool
  /-- the static accessor is used -/
  static : Bool
  /-- the memory block -/
  block : Block
  /-- `label()` -/
  label : Option String
  /-- `preserve_reachability` -/
  reach : Bool
  /-- the elements are copied from here (tables) -/
  copyFrom : Option (Option Ptr)
  deriving DecidableEq, Repr

/-- `builder<settings(category, opts...)>` and the construction with these options.  `none`: ill-formed;
`include/kwk/detail/container/builder.hpp:19-39`, `include/kwk/detail/container/accessor.hpp:29-34, 51-68`,
`include/kwk/detail/memory/heap_block.hpp:39-52`, `include/kwk/detail/memory/stack_block.hpp:30-35`. -/
def construct (opts : List (Opt τ)) : Option (Built τ) :=
  if (opts.map Opt.key).Nodup then
    match optCategory opts with
    | none => none
    | some c =>
      match pickType c opts with
      | none => none
      | some t => some
        { elem := t
          shape := (pickSize opts).dims
          strides := (pickStrides opts).dims
          specific := (fetch .strides opts).isSome
          static := (pickSize opts).allStatic && (pickStrides opts).allStatic
          block := pickBlock c opts
          label := pickLabel opts
          reach := pickReach opts
          copyFrom := match c with
            | .view => none
            | .table => (optSource opts).map Source.data }
  else none

/-- `view{opts...}`: `rbr::settings(view_, opts...)`; `include/kwk/container/view.hpp:57-59, 93-95, 109`. -/
def makeView (opts : List (Opt τ)) : Option (Built τ) := construct (.category .view :: opts)

/-- `table{opts...}`: `rbr::settings(table_, opts...)`; `include/kwk/container/table.hpp:57-59, 112-113, 127`. -/
def makeTable (opts : List (Opt τ)) : Option (Built τ) := construct (.category .table :: opts)

/-- `rbr::merge(a, b)`. Used at `include/kwk/container/table.hpp:62-66`, `include/kwk/container/view.hpp:62-66`. -/
def mergeOpts (a b : List (Opt τ)) : List (Opt τ) := a ++ b.filter fun o => o.key ∉ a.map Opt.key

/-- `view(settings)`: a category in the settings is overruled; `include/kwk/container/view.hpp:61-66`. -/
def viewOfOpts (opts : List (Opt τ)) : Option (Built τ) := construct (mergeOpts [.category .view] opts)

/-- `table(settings)`: a category in the settings is overruled; `include/kwk/container/table.hpp:61-66`. -/
def tableOfOpts (opts : List (Opt τ)) : Option (Built τ) := construct (mergeOpts [.category .table] opts)

/-- The view that was built, if its pointer is not null; `include/kwk/container/container.hpp:19-47`. -/
def Built.view (b : Built τ) : Option Container :=
  match b.block with
  | .shallow (some p) => some ⟨p, b.shape, b.strides, b.specific, b.static, b.reach, b.label⟩
  | _ => none

/-- Construction of a run-time shaped table under the name `x`: allocation and copy of `numel` elements from the
source; `include/kwk/detail/memory/heap_block.hpp:39-52`. -/
def Built.construction {α : Type} (b : Built τ) (x : Nat) : Option (Op α) :=
  match b.block with
  | .heap a => some (.make x a b.shape b.copyFrom)
  | _ => none

/-- Construction of a table with compile-time shape from a source that is not null: copy of its elements;
`include/kwk/detail/memory/stack_block.hpp:30-43`. -/
def Built.stackTable {α : Type} (b : Built τ) (m : Mem α) : Option (Res (StackTable α)) :=
  match b.block, b.copyFrom with
  | .stack _, some (some p) => some (StackTable.ofSettings m ⟨p, b.shape, none⟩)
  | _, _ => none

end Kwk
