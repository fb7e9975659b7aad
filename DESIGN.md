# Formal model of kiwaku: design

Paths below are relative to `/repo/include/kwk` unless they start with `/`.
The model lives in `lean/Verif`.  It was written by reading the C++ as text.

## 1. Trusted base

* The Lean 4.33.0 kernel.
* The axioms reported by `#print axioms` for every property theorem.  Each
  theorem depends on a subset of `propext`, `Classical.choice`, `Quot.sound`.
  `lean/Verif/Axioms.lean` prints them for every theorem named in
  `MANIFEST.json`.
* The hand translation of the C++ into Lean.  Each definition cites the file
  and lines it models, with its simplifications.
* The behaviour assumed for libraries that are not in the repository:
  * `kumi::fold_left(f,t,init)` visits the LAST element first;
    `kumi::fold_right` visits the FIRST element first; both call `f(acc,v)`.
    (Consistent with the strides documented and tested in the repository.)
  * `kumi::locate` returns the index of the first match or the size;
    `kumi::extract(t,index<k>)` keeps the elements from `k` on;
    `kumi::split(t,index<k>)` gives the first `k` and the rest.
  * `rbr::merge(a,b)`: options of `a` win over options of `b`.
  * Sizes of objects (C123): Itanium C++ ABI on a 64-bit machine; `kumi::tuple` keeps its members in order;
    `unique_ptr` with an allocator as deleter as in `Model/Objects`.

### Modelled
Shapes and strides (values and compile-time/run-time descriptors), compress,
conversions, `linear_index`, `coordinates`, `contains`, the nested loops, the
CPU context, every non-empty algorithm header, slicers, `end`, `ratio`,
containers (base address, shape, strides, accessor specialisations), slicing,
`reverse`, `reshape`, `relabel`, table ownership and block life cycle,
`any_allocator`, array sources, `fixed`/`_c`, interpolation, construction options.

### Not modelled
* C++ typing and overload resolution (except among the templates of each algorithm: C124), `constexpr`, concepts (except the
  decision functions listed above), SFINAE, exceptions thrown by user code (except during the construction of tables, C125, and by the
  functions given to algorithms, C127; destructors, swaps, moves and assignments inside algorithms do not throw).
* Overflow, underflow and contraction of floating-point operations (interpolation is over the rationals in C58, with every operation
  rounded in C132).
* Stream output of types, axes, constants and tags; stream formatting state; concurrency, the SIMD / SYCL contexts, the build system.
* The element type is an arbitrary type; copying an element is assumed to be
  faithful and without side effect.

### Conventions
* Undefined behaviour and failed assertions are distinct outcomes
  (`Fault`), never silently totalised: out-of-bounds access, division by
  zero, signed overflow, null dereference, failed `KIWAKU_ASSERT`.
* Two build modes: `checked` (assertions abort) and `unchecked` (`NDEBUG`).
* Extents, strides, indexes are mathematical integers (`Int`) with C++
  truncating division, except in `Model/Machine.lean` (one integer type for all
  extents, overflow as an outcome: C08, C09, C60) and `Model/Mixed.lean` (each extent and
  coordinate has its own integral type, usual arithmetic conversions, unsigned wrap,
  signed overflow: C70).  Both are related to the ideal model by refinement theorems.
* User callbacks are arbitrary Lean functions; for `for_each` arbitrary
  monadic actions (any effect).
* Memory is a partial map from (block, offset) to values; a read or write
  outside its domain is the outcome `Fault.outOfBounds`.

## 2. Specification side

`Spec/*.lean` is independent of the model:
* `InBox s p`: every coordinate of `p` is in `[0, extent)`.
* `Lex`: lexicographic order on tuples. `positions s`: list of the tuples in
  the box, characterised as lexicographically sorted and complete.
* products, partition points, rational values, "number of k with b+k*s<e", …

## 3. Properties: what is modelled and how it is proved

Index space (`Model/Shape`)
* C01, C02 induction over the shape; Horner form of the linear index.
* C03, C04 induction; mixed-radix division lemmas for truncating division on
  non-negative integers.  Absence of faults is part of the statement.
* C05 order isomorphism from the Horner form; rank = index in `positions`.
* C06 induction on the fold that builds strides.
* C07 length of `positions`; induction.
* C08 refinement: checked 32-bit evaluation returns the ideal value.  The
  full statement is false when an extent is 0 ([0,65536,65536] multiplies
  65536*65536 first): negation proved, `_partial` for positive extents,
  and the exact condition for `numel`.
* C09 false: negative coordinates are accepted, narrow coordinate types
  truncate the extent.  Negation + `_partial` for non-negative coordinates
  of a wide enough type; exact condition for all values of a type.
* C10, C11 induction on the number of merged axes.
* C12 reflexive, symmetric, equal numel proved; transitivity is false
  ([2,3]==[6]==[3,2]): negation + `_partial` (exactly which orders).
* C13 composition of C10 with leading ones.
* C14 false ([3,1,4] gives 3): negation + `_partial` (ones only in front).

Descriptors (`Model/Prefilled`)
* C15 induction over descriptor list with the storage map invariant
  (storage index = number of run-time axes before).
* C16 false for shape<2,_,3,_>: negation + `_partial` (all axes run-time, or
  a single run-time axis, or static axes only after the run-time ones).
* C17 permutation invariance of look-up by distinct name.
* C18 reduction to the filling lemmas of C15 and to C13; agreement with compile-time axes is a
  precondition in unchecked builds.
* C19 false when the reference is fully dynamic with another order;
  negation + `_partial`.

Iteration and reading algorithms (`Model/Loops`, `Model/Algos`)
* C20 nested closures = sequencing over `positions`, in any lawful monad.
* C21 trace of calls = shortest prefix up to the first hit.
* C22 C20 + C05.
* C23 fold over the loop; memory unchanged.
* C24, C25, C26, C28 corollaries of C21/C23 against logical specifications.
* C27 proved for default layouts; false for strided views: negation + `_partial`.
* C29 proved for identical shapes; `inner_product` accepts [2,3] and [3,2]
  as "equal" only when orders agree, shapes of different orders are a
  compile-time matter.
* C30-C33 loop invariants of the binary search; measure for termination.

Writing algorithms
* C34-C40 a single theorem on "for each position read inputs, write output",
  with an explicit no-read-after-overwrite condition; frame for every cell
  that is not addressed by the output.
* C41 false (no shape check): negation + `_partial` (exact condition on the cells read).

Slicing and views (`Model/Slicer`, `Model/Container`)
* C42, C43 per-axis lemmas lifted by induction on the order.
* C44 false: `origin` uses default strides of the view's shape.  Negation +
  `_partial` (view with default layout).
* C45 ceil-division lemma; negative step ignoring `to` recorded.
* C46 default layout proved; false for strided (and so for double reverse).
* C47 false for four slicers; negation + `_partial` (up to three slicers; exactly which numbers of slicers).
* C48 exact rational semantics of expressions; truncation only at the end;
  failing law recorded for negative intermediate values.
* C49 rational arithmetic.
* C50 case analysis on the accessor specialisation.
* C51, C54 proved for default layout; false for strided: negation + `_partial`.
* C59 per helper; `at(i)` is false (extent 0): negation + `_partial`.

Memory (`Model/Ownership`, `Model/StackTable`, `Model/AnyAllocator`, `Model/Views`)
* C52 default layout proved; strided views copied wrongly: negation + `_partial`.
* C53 invariant by induction over operation sequences.
* C55 false for heap tables: negation + `_partial` (re-assignment, destruction).
* C63 default layout proved; strided: negation + `_partial`.
* C64 exact condition on strides proved; false in general.
* C65 non-empty objects copied as const proved; empty and non-const: negations.
* C66 swap of run-time and static tables.

Constants, sources, interpolation (`Model/Fixed`, `Model/Sources`, `Model/Interp`)
* C56 false: 65536_c is 0 (clamp truncates to 16 bits below 2^19), digit
  separators: negation + `_partial`, with the exact set of wrong values.
* C57 true for C arrays, false for nested std::array: negation + `_partial`.
* C58 weights proved over the rationals; false for bounds at the last grid point:
  negation + `_partial`.
* C67 exact if and only if the result fits the common type; false otherwise.
* C68 induction over the axes.
* C60 machine loop counter of bounded width never passes the extent.

Later additions
* C61, C62 mixed named/unnamed axes and `is_similar` (`Model/Prefilled`).
* C69 exact condition under which the assertions of `linear_index` and `coordinates`
  fire; false for negative arguments.
* C70 refinement of the ideal model by typed arithmetic (`Model/Mixed`): every value
  below 2^31 is representable in every common type.
* C71 position equality, C76 size queries: case analysis and induction.
* C72 stream output as strings (`Model/Print`): induction over positions; the expected text is `Spec/Text`.
* C77, C78, C104, C105: the characters written are read back by a small reader of arithmetic expressions (`Spec/Reader`).
* C73-C75 callbacks with state or arbitrary effects (`Model/Effects`): the loop is
  `foldlM` over `positions`, in any lawful monad for C74.
* C79-C82 the numeric algorithms with their default functions on C++ integers (`Model/Typed`): running
  sums with usual arithmetic conversions, exact when the partial sums fit, modular or undefined otherwise.
* C83-C88 building shapes and strides (`Model/Build`): descriptors computed from the arguments, overload
  resolution among the constructors of `prefilled`, `as_stride` with names and compile-time knowledge, `as_array`.
  Everything reduces to the filling lemmas of C15 and C61; what a caller expects of each argument is `Spec/Build`.
* C89-C91 tables as values (`Spec/Values`): a small machine without memory says what each operation means for
  plain values; the heap model simulates it (invariant: ownership, contents, memory of the rest untouched).
* C116 adds calls of algorithms to these programs (`Model/Programs`, `Spec/Programs`); the theorems on algorithms (C34-C39, C112) give
  what each call writes, and their frame conditions keep the invariant.
* C122 adds views and control flow (`Model/Clients`, `Spec/Clients`): a program is a tree whose branches are chosen by answers. On the
  plain side a view is an index space with the position each index stands for (`Spec.Sees`); on the memory side it is the container
  that the library makes, and its addresses are those of these positions.
* C123 sizes of objects (`Model/Objects`, `Spec/Objects`): classes are laid out member by member with padding, empty bases free;
  the specification is the record of the values that must be kept at run time.
* C124 calls (`Model/Overloads`): the parameters of every function template of every algorithm, the rules of overload resolution and partial
  ordering that apply to them, and the calls in the bodies. What each call means is the table `Spec.callForms`. Fixed numbers of
  arguments by evaluation of all categories; any number of containers by lemmas on the expansion of parameter packs. Each argument carries
  where it comes from, its constness and how often it was copied, so that the parameters of the function that does the work can be compared
  with the arguments of the caller; calls with something else in place of a container must not compile (`Spec.misuse`).
* C125, C126 failures (`Model/Failures`): operations on tables take as parameter what fails during them: a set of points that throw, and
  an allocator that returns null. Members that are complete are destroyed. What is wanted is `Spec.SameState`: nothing happened.
  Programs in which blocks are lost are states without losses plus a list of blocks that nobody owns (`Lemmas/Leaks`).
* C127 functions that throw (`Model/Throws`): the loops in the exception monad over the memory; the specification
  (`Spec.untilThrow`) takes positions in order and stops.
* C92-C94 construction options (`Model/Options`): an option list is looked up by keyword, as `raberu` settings are
  (its assumed behaviour is stated at the top of the file); what the options mean is `Spec.Follows`.
* C95-C98 laws between algorithms: stated on results only, no new specification except `Spec.Rank`, the row-major number
  of an optional position.
* C99 contiguity of slices: `Spec.RunOfPositions` says which selections are one run of row-major positions.
* C100, C101 blocks and reversed views with typed numbers (`Model/TypedViews`): a typed number represents an integer exactly or
  modulo 2^64; modular operations keep this relation (`Lemmas/TypedViews`, `Rep`).
* C102 slices with typed numbers: arguments with types are `Spec/TypedSlice`; what they select is said by `Spec.Picks` after forgetting
  the types. C103: the range overload of `linear_index`.
* C106-C108 searching and writing integers with types (`Model/TypedSearch`): comparisons in the common type; the exact conditions
  under which they agree with the comparison of values are `Spec.EqualsByValue` and `Spec.OrdersByValue`; necessity by
  containers whose elements are all the same number. C109: the accumulator of `count_if` is a `std::size_t`, sums modulo 2^64.
* C110 compatibility of shape types (`Model/Prefilled`): the check of C15 and C84, stated on names and compile-time extents.
* C111 comparison of typed shapes and strides (`Model/TypedShape`): exact when products stay in the common type.
* C112 algorithms on slices: `Spec.Selected` says which positions slicers select; C42 transfers the theorems on algorithms.
* C117 sees a container as the list of its elements in row-major order (`Spec.Lists`); algorithms and views become list functions.
* C119 sharing of memory in transform, copy_if and scans: `cells_run` follows any loop that writes at most the current cell of `out`; exact conditions.
* C118 copy between overlapping containers: `move_run` follows the loop cell by cell; exact condition, false in general.
* C113 compile-time knowledge (`Model/Known`): numbers carry whether they are constants; forgetting it gives the typed model of
  C102. A ternary converts to the common type of its operands.
* C120 constness (`Model/Constness`): a container expression is its memory block, the constness of its element type and its own; chains of
  slices, reversed views and views are lists of steps.
* C121 starts of slices (`originK` in `Model/Known`): which slices of containers compile.
* C128 slicers of the user's own types (`Model/Custom`): what a type provides is a record of optional functions; `Spec/Custom` says which
  indexes it announces. Answers are run-time numbers (no compile-time knowledge).
* C129 accepted conversions of shapes (`Model/Conversions`): the constraint says what is accepted; whether the body compiles is a second
  function, because `compress` loses the names.
* C130 structured bindings (`Model/Bindings`): the language rules for the hidden entity and for binding references are part of the trusted
  base; the tuple protocol of the library is modelled on top of them.
* C131 binary searches on `int` variables (`Model/MachineSearch`), extents of any integer types; below `2^31` elements they are
  those of C30-C32. Only the default layout.
* C132 linear interpolation with rounding (`Model/FloatInterp`): a floating-point type is its rounding function, an infinite value or a NaN
  is `none`; `Spec/FloatInterp` defines rounding to nearest with p bits, and the theorems hold for any rounding with small relative error.
* C133 sums of floating-point elements (`Model/FloatSums`): the algorithms of `Model/Algos` with rounded operations; accumulator, sum and
  product have roundings of their own.
* C134-C137 numbers of arithmetic types (`Model/Numbers`): an element is a typed integer or a floating-point value (number, infinity, NaN)
  with the rounding of its type. C++ conversions before comparisons and on assignment are part of the trusted base. Exponents are
  unbounded, zero has no sign, `bool` is left out. `Spec/Numbers` says which number a value stands for and what an assignment stores.
* C138-C140 contexts of the user (`Model/Contexts`): a context is the order in which its `map` visits the positions of a shape, one
  after the other; `cpu` is the row-major order.
* C141 concurrent calls (`Model/Parallel`): a call of a callback is the sequence of its accesses to elements and to the variable it captures by
  reference; a schedule mixes the accesses of the calls in any way. Accesses are atomic in the model; where C++ calls two accesses a data
  race (undefined), `Race` of `Spec/Parallel` holds. The end of `map` waits for all calls.
* C142 the user's own algorithms (`Model/Customised`): the user declares, in the namespace of their context, templates with the parameters of the
  library's ones that run the loops, with their context in place of `Context&`. Calls that are not qualified find them by argument-dependent lookup,
  qualified ones do not. Overload resolution as in C124, with a type more specialised than a template parameter.
* C143 extents of the user's own types (`Model/UserExtents`): what a type provides (conversion to `std::size_t`, the two overloads of
  `tag_invoke`, `value`) decides which overloads are found and which constructors compile; the constructors themselves are those of
  `Model/Prefilled`.  Assumptions about C++: an overload for the user's type is more specialised than the forwarding template; comparing the object with
  a compile-time size goes through its conversion; types have no `operator==` of their own and no overloads for options that contain them.
* C144 lifetimes of elements (`Model/Lifetimes`): the events of every operation (storage obtained and given back, constructors,
  assignments, reads, destructors), for `heap_block` on top of the states of `Model/Ownership` and for `stack_block` with its array inside
  the object. `Spec/Lifetimes` has the rules of the language; an element type either begins and ends implicitly or needs its constructor
  and destructor. Subobjects of elements and the lifetimes of objects outside tables are not modelled.
* C145 validity of views (`Spec/Stays`, no model of its own): `goesTo` says in terms of named tables where the elements of a table are after
  an operation; `ElementsGo` carries this through a program; `Looks` relates a view to the table whose elements it shows. Addresses are never
  reused by the model's allocators, so that an access through a dangling view is an error rather than a lucky hit. Assigning a table to
  itself ends its elements too: the assignment copies, then swaps.
* C146 views of more than 2^31 elements (`Spec/LongAxes`, the typed model of C102): extents of 64-bit types. Only views of memory allocated
  elsewhere can be that large, as `numel()` is an `int` (C100).
* C147 algorithms over all integer types (`Model/Walk`, `Spec/Walk`): the loops of C60 and the element access of C70, C102 and C146 together.
  The counters of the loops are the coordinates, with the types of the extents; for slices these are the types that `slice_extent`
  computes. The function gets the places of the elements, not the values; C20 to C34 treat what the algorithms do with the values.
* C148 algorithms as functions on lists, for all integer types (`Model/DataWalk`, `Spec/Arrays`): C117 for containers in memory whose extents, strides and counters have types. `ArrayAt` says what memory holds, without shapes.
* C149 slices and reversed views of arrays (`Spec/ArraySlices`): what the algorithms on them do to the array of the container, in both
  build modes.
* C150 copies, assignments and exchanges (`Model/Copies`, `Spec/Copies`): the variant of `accessor` is chosen from the template
  arguments of shape and strides; an operation that does not compile is `none`. Types of strides are compared by their template
  arguments as written, as C++ does. Exact conditions on the type, and what the objects show afterwards.
* C151 objects as sources (`Model/SourceTypes`, `Spec/SourceTypes`): types of objects as a small grammar (arrays, ranges with and without
  `data()`, pointers, const or not at each level); which `operator=` of `source` is chosen, what `array_traits` makes of the type, and which
  places of the array an element of the container occupies. C57 (`Model/Sources`) is the case of arrays that are not const.
* C152 types of option values (`Model/OptionTypes`, `Spec/OptionTypes`): C++ types as far as [temp.param] distinguishes them, the constraints
  of `label =`, `allocator =` and `relabel`, and the deduction guides, in which the options are template arguments (`O{}...`). The layout of
  `rbr::option` and `rbr::settings` (public member, public bases) is assumed; that the library's own options are structural is read off
  their classes.
* C153 shapes built from some of their named axes (`Spec/NamedAxes`): on `Model/Prefilled`; the documented extents are a relation between an
  axis, the values given and an extent.
* C154 interpolation with coordinates of any types (`Model/MixedInterp`, `Spec/MixedInterp`): C132 with a type for each coordinate; the
  roundings of all formats come as one family, and operands are converted to the more precise of the two types. Elements are
  read with the typed element access of C102. Simplifications as in C132.
* C155 searches on contents that are not sorted (`Spec/SearchAny`; the model of C30-C32): a boundary is a position where the answer changes,
  in terms of the order of positions.
* C156 algorithms in constant expressions (`Model/ConstEval`): the library functions that a call reaches, as a list; a call is constant if all
  of them are `constexpr`. User functions are taken to be `constexpr`, and containers to be constants; whether a container of some
  kind can be a constant (views of arrays with static storage, tables on stack blocks) is left out.
* C157 fully static tables whose elements throw (`Model/StackThrows`): the operations of C144 with the values of the elements; every call of a
  constructor or assignment operator of the element type may throw, chosen by number; arrays under construction are unwound, functions
  declared `noexcept` end the program.  Destructors do not throw; an operation that throws leaves its operands as they were.
* C158 messages of failed assertions (`Model/Messages`): the functions with assertions again, with the reports they make; streams are
  strings, and string streams have a put position. The kind of build is a parameter: own reports, Boost handlers, debugger break.
* C159 arguments as objects (`Model/Arguments`): parameters, variables captured by copy and local variables are objects in blocks of their own, which
  end with the function; a function object is the list of its members. All objects have the type of the elements, function objects
  other than that of `replace_if` have no members, and the counter of `count` is a value (it has another type than the elements).
* C160 objects given to functions (`Model/Identity`): a function sees the address and value of its argument, which is an element or a temporary copied
  from one; copies and arguments are recorded. Copies have the value of the original. The function of `replace_if`, `copy_if` and
  `transform` has no record, as it is called while memory changes: what is stated is what it was given at each position.
* C161 elements without copy constructor (`Model/Uncopyable`): the way of an element through the parameters of the library's functions is a list; a
  parameter `auto` needs a copy constructor. The calls themselves are those of `Model/Identity`.
* C162 function objects with state (`Model/FunctionObjects`, `Model/FunctionPairs`): the way of a function from the caller to the call is a list of references, copies
  and captures; a capture by copy is const. The state is one value, read and written by calls. Function pointers and moves are left out.
  Two functions of one algorithm are a pair of states.
* C163 what ordered searches give to their order (`Model/OrderedIdentity`): the memory is replaced by one whose elements carry their addresses, so
  that `lower_bound` and `upper_bound` of `Model/Search` are reused as they are; the order is given the element or, in the library's default
  order, a copy, which the trace of C160 records.
* C164 values that are only compared (`Model/ComparedValues`): each parameter or captured variable that is initialised from a variable adds one to a
  counter; the rest of an algorithm is the function of `Model/Algos` or `Model/Search`. Moves are not counted.
* C165 functions that can only be moved (`Model/FunctionCopies`): as C164, for the function object of an algorithm. `return f` for an argument that
  was given up is a move, as in C++20 (P1825). Two functions of one call are given in the same way.
* C166 values that are stored or accumulated (`Model/StoredValues`): as C164, with the copies made in the loops; copies by assignment count, and a
  parameter that is returned is moved. `value++` counts as one copy.
* C114, C115 concepts and axes as values (`Model/AxisOps`): the settings given to a concept are two optional values; `basic_container` holds for
  every container modelled. Axes carry a typed number or a joker.

## 4. Where the code and the properties disagree

Each line is proved: a theorem gives a concrete witness, and a `_partial` theorem
covers the rest of the property.

| Property | What the code does |
|---|---|
| C08 | `numel` of `[0,65536,65536]` overflows `int`, although the shape is empty. |
| C09, C69 | Negative coordinates pass `contains`, so the assertions of `linear_index`; `coordinates(-1, s)` is accepted, and can divide by zero. Narrow coordinate types convert the extent. |
| C12 | `==` between orders is not transitive: `[2,3]==[6]`, `[6]==[3,2]`. |
| C14 | `nbdims` counts the ones that follow a non-trivial extent. |
| C15 | A value that does not fit a narrow axis type is converted silently (recorded, outside the claim). |
| C16 | `s[i]` indexes the run-time storage, not the axes: wrong as soon as a compile-time axis comes before. |
| C17 | Missing named extents are 0, documented as 1; contradictions are not detected when all axes are static. |
| C18 | `shape<3,_>` is declared constructible from a 1-D shape, but no such conversion can succeed. |
| C19 | `fit_constraints` does not compare the orders when the reference has run-time axes only. |
| C27, C46 | `reverse` computes the last address from `numel`, wrong for strided views; reversing twice leaves the container. |
| C39 | In-place exclusive scan reads overwritten elements. |
| C41 | No shape check in `copy`, `transform`, `for_each`, `transform_reduce`: reads outside the smaller container. |
| C42 | Empty slices at the end of an axis fail an assertion in checked builds (recorded). |
| C44 | Slicing a strided view computes the origin with default strides. |
| C45 | Reversed intervals get a negative extent, step 0 divides by zero, `to` is ignored with a negative step (recorded). |
| C47 | With four slicers or more, non-contiguous slices are reported as reachable. |
| C51, C52, C54, C63 | `settings()` drops explicit strides: reshape, copy, relabel and view of a strided container show other elements. `reshape` does not check `numel`. |
| C55 | A moved-from heap table keeps its shape, with a null data pointer. |
| C56, C57 | `clamp` truncates values in `[2^16, 2^19)`; digit separators are read as digits; nested `std::array` extents come out reversed. |
| C118 | `copy` goes through the positions in order, so moving elements up inside one block repeats the first ones, and `copy(c, reverse(c))` makes a palindrome instead of reversing. |
| C58 | At the upper border the linear interpolation reads one position past the end (with weight 0). On the border of an axis other than the first this position is usually an element of the next row, so only the end of the block is affected (`C58_border_exact_partial`). |
| C59 | `at(i)` selects no element. |
| C64 | A table with explicit strides allocates `numel` elements only. |
| C65 | Copying an empty `any_allocator` dereferences null; copying a non-const one recurses for ever. |
| C67 | Differences and negations of 32-bit constants wrap. |
| C70 | Above 2^31 elements `numel` is cut to 32 bits, and unsigned extents wrap (outside the claim). |
| C72 | From order 4 on, no empty line separates panels when the last panel index starts again. |
| C77 | `end/2 + 1` is written `end/2+2`. |
| C78 | `slice(to, length)` is written as ending at `to` but starts at 0; `slice(from, to, length)` ignores `to`; a length that is a fraction of `end` is scaled before truncation; bounds that fail C77. |
| C104 | `end + 3u` is written `end3` (`std::showpos` has no effect on unsigned numbers), `end - 3u` is written `end4294967293`; bounds of 8-bit types are written as characters. |
| C106 | In `unsigned` elements `find(c, -1)` finds 4294967295; `count` and `replace` likewise. |
| C107 | `lower_bound({1u,2u,3u}, -1)` finds nothing; elements `-3` are found greater than `2u`. |
| C108 | Numbers too large for the elements are converted silently: `fill` of `int8_t` with 200 stores -56. |
| C111 | Extents of type `unsigned int` wrap when merged: `[65536,65536,5]==[0,5]`; a stride `-1` equals the stride `4294967295u`. |
| C113 | `slice(from=0_c, to=8_c, by=2_c)` has a run-time extent: the two operands of `?:` have different types, and are converted to integers. |
| C120 | The elements of a `const` table with a run-time extent can be written; those of a `const` static table can be written through a view made of it (`settings()` casts the const away); slices of a static table are never writable, slices of a run-time one always are. |
| C121 | Slicing a container from a compile-time constant (`v(slice(from = 1_c))`, `v(1_c, _)`) does not compile: `linear_index` takes `std::integral` indexes only. Shapes can be sliced so. |
| C123 | Of three or more axes, if only the first is a run-time one (64 bits), containers take 8 bytes for strides that are all known at compile time: `stride_` is an empty member, not an empty base. |
| C124 | `for_each(f, a, b)` with a named function object selects the template with a context, `f` being taken for the context, and does not compile; `transform(f, out, a, b)` with a named function and a `const` container `b` is ambiguous. |
| C125 | `ptr_t{allocate(a,sz), deleter(a)}`: the deleter's `any_allocator` allocates after the block is obtained; if that throws, the block is lost. In the default constructor, which is `noexcept`, the program is terminated. |
| C126 | `malloc`'s null pointer is not checked: a table without source looks like any other, and reading it is undefined; with a source, elements are copied through the null pointer. |
| C128 | Objects of a class that converts to `std::ptrdiff_t` satisfy `reindex`, but slicing a container by one does not compile (`linear_index` takes `std::integral` only; the error arises while checking `concepts::slicer`). With both the conversion and a member `reindex` the call is ambiguous. |
| C129 | `shape<_,3,_>` is accepted from `of_size(4, n, fixed<5>)`, which the documentation calls incompatible, and fails at run time if `n` is not 3; `shape<width,height>` is accepted from shapes with three axes, but the conversion does not compile. |
| C130 | `auto [h, w] = of_size(3_c, 4)` does not compile: `get` returns `constant<3> const`, `tuple_element` announces `constant<3>`. The same for strides computed from a shape, which end with `fixed<1>`. Positions cannot be decomposed in any form: `tuple_element<I, position<Sz>>` is only defined for `I = Sz`; moreover `get` has no overload for rvalues. |
| C131 | `numel()` is an `int`: in 65536 x 65536 elements with 64-bit extents the binary searches find nothing, in `2^32 + 5` elements they look at the first five. |
| C132 | (Compared with exact arithmetic.) All elements 3, `float` coordinate 0.025: the result is 3.0000002, outside of the range of the elements. At a grid point next to an infinite element or a NaN the result is a NaN, although that element has weight 0. |
| C133 | (Initial value of an integer type.) `inner_product(a, b, 0)` of `float` containers cuts the sum to an `int` after every element: two products of 0.25 sum up to 0. |
| C134 | Integers are rounded before they are compared with floating-point numbers: `find` of `16777216.f` (or the neighbour to which the type rounds) succeeds in an `int` table that holds only 16777217. |
| C135 | The same for `binary_search`. With NaN after the numbers `{1, 5}`, `upper_bound` of 2 finds nothing and `binary_search` claims that 7 is there; in `{1, 5}` it claims that NaN is there. With a value of another signedness, it misses `1u` in the `int`s `{-1, 1}`. |
| C137 | `iota` of a `float` table of more than 2^24 + 1 elements: `value++` is rounded, so that 16777217 is missing; with the usual rounding, all later elements are 16777216. |
| C140 | In a context that visits from the last position to the first, `iota` counts and `inclusive_scan` adds up from the last element. |
| C141 | In a concurrent context `reduce`, the predicates and counts, `iota` and the scans race on the captured variable; counting two matches can give 1. |
| C142 | A user's `reduce` for their context is not used by `reduce(ctx, in, f)` and `reduce(ctx, in)`, nor a user's `transform` by `copy`, nor a user's `for_each` by `for_each_index`: the library calls `kwk::reduce` etc. One that takes `my_context const&` is not used with contexts that are not `const`. |
| C143 | `of_size(width = u)` with `u` of a user's type does not compile, as `to_descriptor` of the option returns `void`. A type with overloads for `to_descriptor` and `as_dimension` is refused unless it converts to `std::size_t`. `std::is_constructible_v<shape<_>, double>` holds, but the constructor does not compile; `shape<3>{2.0}` compiles and, without assertions, ignores the value. `of_size<T>(u)` does not store `u` as `T`. |
| C144 | `heap_block` casts the memory of the allocator to `value_type*` and assigns to it without constructing the elements; its deleter gives the memory back without destroying them. A run-time shaped `table` of `std::string` has undefined behaviour as soon as an element is given a value, and what the elements own is leaked. |
| C146 | Extents of 64 bits: in three billion elements with every second selected, `int` positions from 1073741824 on overflow along the last axis (step times coordinate in `int`). In checked builds `contains` converts the extent to the type of the coordinate, so that `view(5)` and slices from an `int` index fail the assertion. The reversed view of 2^31 elements or more starts at the wrong place, as `numel()` is an `int`. |
| C147 | `for_each` over the slice in steps of -1 of three elements with an `unsigned int` extent gets the first element, then reads `2^32` elements too far. Over 1500000000 elements in steps of 2, given by an `int` length, it overflows, although the extent is of 64 bits; without a length it does not. |
| C149 | With an `unsigned int` extent, `find_last` on three elements and `fill` on a slice in steps of -1 leave the block; `reverse` of three billion elements starts 1294967297 elements before the first. |
| C150 | `accessor` for one run-time extent, and for two with given strides, calls members `swap` of shapes and strides that do not exist: assignment and `swap` of such containers do not compile (moves do). `settings()` carries neither label nor strides: tables with a label, or with given strides of another type than the row-major ones, cannot be copied. A container of three run-time extents cannot be made of one of three constant extents, although the constructor accepts it. C52, C66 and C125 speak of the types for which the operation compiles. |
| C151 | `source_` removes the reference but not const before asking `array_traits`, which has no specialisation for `std::array<T,N> const`: a const (or `constexpr`) `std::array` counts as one element of array type, `view{source = a, of_size(4)}` is a view of four arrays, the last three outside of `a`, and a table copies them. Rvalue C arrays do not compile. `source = std::array<T,0>` names an element that does not exist. |
| C152 | `label = std::string{...}`, `relabel(c, std::string{...})` and `allocator = any_allocator{...}` meet their constraints, but no container can be built with them: the guides put the options, by `O{}`, into a template argument, and these types are not structural. (`any_allocator` is documented as meant for containers.) |
| C153 | Run-time axes for which no value is given by name are 0, documented as 1, so that the shape has no positions; with compile-time axes only, values given by name are not looked at, in checked builds either. |
| C154 | `linear` takes the integral part of a coordinate by a cast to `int`: with extents above `2^31`, a 64-bit coordinate 2147483647 overflows, and 4294967296 is cut to 0, so that the first two elements are mixed with weights `1 - 2^32` and `2^32`. `floor` is right for all coordinates. |
| C156 | `base_context::in`, `out` and `inout` and `container::operator()` are not `constexpr`: of all algorithms declared `constexpr` only `for_each` over a shape, and `for_each` and `for_each_index` over containers without elements, can be used in a constant expression. |
| C157 | `container(container_kind)`, `container::swap` and `stack_block::swap` are `noexcept`: an element that throws in the default construction of a fully static table, in a swap, or in the swap that ends a copy assignment terminates the program. |
| C158 | Indexes and extents of run-time 8-bit types are shown as characters in messages (`65` as `A`). With `BOOST_ENABLE_ASSERT_HANDLER` the string stream is opened with its put position at 0, so that the details overwrite `[KIWAKU] Assertion failed: `, and a handler that returns runs into `KWK_UNREACHABLE()`, one that throws into `noexcept`. |
| C160 | `all_of`, `any_of`, `none_of`, `count_if`, `find_if_not` and `find_last_if_not` copy the elements (parameters `auto e`, `auto x`) and give the copies to the function: `count_if(v, [&](auto const& x) { return &x == &v(1,0); })` is 0, where `find_if` finds the element. `all_of` and `any_of` copy all elements also when the answer is known; `count`, `find` and `reduce(in)` copy each element they look at. |
| C161 | `all_of`, `any_of`, `none_of`, `count`, `count_if`, `find`, `find_if_not`, `find_last`, `find_last_if_not` and `reduce(in)` do not compile for elements without copy constructor, which `find_if`, `find_last_if`, `reduce` with a function and `for_each` accept. |
| C162 | `all_of`, `any_of`, `none_of`, `count_if`, `find_if_not`, `find_last_if_not`, `generate`, `copy_if` and `replace_if` do not compile with a function whose call operator is not const (a `mutable` lambda); `binary_search` gives `lower_bound` a copy and asks its last question to another object. |
| C163 | `lower_bound`, `upper_bound` and `binary_search` without an order do not compile for elements without copy constructor; for other elements each comparison copies one. |
| C164 | `find`, `find_last`, `lower_bound` and `upper_bound` without a context, all forms of `count`, `replace` and `binary_search`, and searches without an order do not compile for a value that can be moved but not copied, though they only compare it. |
| C165 | Only `transform`, `for_each` over containers and, with a context, `find_if`, `reduce` with an initial value, `for_each_index`, `lower_bound`, `upper_bound`, `inner_product`, `transform_reduce` with two functions and the two `transform_…_scan` compile for a function object that can be moved but not copied; the others copy it. |
| C166 | Only `reduce` with an initial value, `transform_reduce` and `inner_product` with two functions, `fill` and `iota`, all with a context, and `iota` without a value make no needless copy of a value that is given up. |
| C114 | `is_similar` ignores the names of axes: `height x width` is accepted where `width x height` is wanted, but does not convert to it. |
| C79 | `reduce(c)` adds in the type of the elements: bytes wrap, `int` overflows. |
| C80 | Products of `uint16_t` are computed in `int` and overflow; a negative times an unsigned wraps. |
| C81 | `iota` increments after the last element: undefined when the last value is the largest `int`. |
| C82 | `exclusive_scan` computes the sum of all elements although it is not written: can overflow. |
| C83, C84, C86 | `of_size(width[3])` gives an axis of size 0: an axis passed as a value is replaced by the default. `with_strides(width, width)` is accepted. |
| C85 | `as_array` picks the first of the largest extent types: `int8_t` before `uint8_t` makes large extents negative. |
| C87 | `kwk::stride<_>{}` is `[0]`, documented as `[1]`. |
| C94 | No check that a source is as long as the shape: a table copies `numel` elements whatever the source has. |
| C100 | The number of bytes of a block comes from `numel`, cut to 32 bits: 65536 x 65536 elements with 64-bit extents get an empty block. |
| C101 | With extents of type `unsigned int`, negated strides are large positive numbers: a reversed view reads 2^32 elements too far. |
| C102 | `last(3u)` on a 64-bit extent starts 2^32 elements too far, and so does a negative step over `unsigned int` coordinates. In checked builds, a slice of 300 elements from byte 50 on is refused. |
| C73 | `for_each(f, shape)` returns `void`: the state of the function object is lost. |

Observed while reading, not modelled: algorithms take
their output by non-const reference, so that a slice must have a name (`auto s = c(slicers...); fill(s, v)`);
`unsigned long poss[] = {is...}` in `find_if` narrows from signed counters inside
braces, which the standard forbids (the model stores the counters converted, as compilers that accept it do).

## 5. Files

* `Spec/*`: specification vocabulary. `Model/*`: the code. `Lemmas/*`: helper lemmas.
  `Props/*`: the property theorems, with examples.
  `Tests/*`: the unit tests of the repository (`/repo/test/unit`) with the model in place of the library: the model gives the
  values that these tests expect (evidence that the translation is faithful; not property theorems). `Axioms.lean`: axioms of each theorem.
* `seeded/LOG.jsonl`: wrong programs tried against the theorems.
