{"id": "C01", "title": "Linear index of a valid position stays in range", "statement": "For a shape whose extents are all non-negative, kwk::linear_index of any position whose every coordinate lies in [0, extent) is a value in [0, numel).", "quantifier": "all orders >= 1, all non-negative extents, all positions inside the shape", "why_tests_cant": "Tests enumerate a handful of small shapes up to order 4; the claim ranges over every order and every extent.", "anchors": ["include/kwk/utility/linear_index.hpp: linear_index", "include/kwk/utility/container/stride.hpp: as_stride, stride::linearize", "include/kwk/utility/container/shape.hpp: numel"]}
{"id": "C02", "title": "Different positions never share a linear index", "statement": "For a shape with non-negative extents, two valid positions with the same kwk::linear_index are the same position.", "quantifier": "all orders, all non-negative extents, all pairs of positions inside the shape", "why_tests_cant": "Pairs of positions over unbounded shapes cannot be enumerated.", "anchors": ["include/kwk/utility/linear_index.hpp: linear_index", "include/kwk/utility/container/stride.hpp: as_stride, stride::linearize"]}
{"id": "C03", "title": "coordinates undoes linear_index", "statement": "For every valid position p of a shape s, kwk::coordinates(kwk::linear_index(s,p), s) terminates without assertion failure or division by zero and returns exactly p.", "quantifier": "all orders >= 1, all shapes with non-negative extents, all valid positions", "why_tests_cant": "Unbounded family of shapes and positions; also needs the absence of division by zero for all of them.", "anchors": ["include/kwk/utility/coordinates.hpp: coordinates", "include/kwk/utility/linear_index.hpp: linear_index", "include/kwk/utility/container/stride.hpp: as_stride"]}
{"id": "C04", "title": "linear_index undoes coordinates", "statement": "For every index k in [0, numel) of a shape s, kwk::coordinates(k, s) is a valid position of s and kwk::linear_index of that position is k.", "quantifier": "all orders >= 1, all shapes with non-negative extents, all k in [0,numel)", "why_tests_cant": "Unbounded family of shapes and indexes.", "anchors": ["include/kwk/utility/coordinates.hpp: coordinates", "include/kwk/utility/linear_index.hpp: linear_index"]}
{"id": "C05", "title": "Linear order is row-major (lexicographic) order", "statement": "For valid positions p and q of a shape, linear_index(p) < linear_index(q) exactly when p precedes q lexicographically (leftmost coordinate most significant), and linear_index(p) is the number of valid positions that precede p.", "quantifier": "all orders, all non-negative extents, all pairs of valid positions", "why_tests_cant": "A universally quantified order isomorphism between two unbounded sets.", "anchors": ["include/kwk/utility/linear_index.hpp: linear_index", "include/kwk/utility/container/stride.hpp: as_stride, stride::linearize"]}
{"id": "C06", "title": "Strides derived from a shape are the row-major strides", "statement": "The stride of axis k produced from a shape equals the product of all extents to the right of k; in particular the innermost stride is 1 and increasing coordinate k by one moves the linear index by exactly stride k.", "quantifier": "all orders >= 1, all extents, all axes", "why_tests_cant": "Tests check a few 1D-4D shapes only.", "anchors": ["include/kwk/utility/container/stride.hpp: as_stride, stride::linearize"]}
{"id": "C07", "title": "numel counts the positions of the shape", "statement": "For a shape of order >= 1 with non-negative extents numel() is the product of the extents, equals the number of distinct valid positions, and is zero exactly when some extent is zero.", "quantifier": "all orders >= 1, all non-negative extents", "why_tests_cant": "Counting argument over unbounded shapes.", "anchors": ["include/kwk/utility/container/shape.hpp: shape::numel"]}
{"id": "C08", "title": "Index arithmetic does not overflow 32-bit integers when the shape fits", "statement": "If the extents are non-negative and the mathematical number of elements fits a 32-bit signed integer, then numel, the derived strides and the linear index of every valid position are computed without any intermediate 32-bit signed overflow and agree with the mathematical values.", "quantifier": "all orders >= 1, all shapes whose mathematical element count is at most 2^31-1, all valid positions", "why_tests_cant": "Overflow shows only for huge extents which tests never build; the claim is about every intermediate product.", "anchors": ["include/kwk/utility/container/shape.hpp: shape::numel", "include/kwk/utility/container/stride.hpp: as_stride, stride::linearize", "include/kwk/utility/linear_index.hpp: linear_index"]}
{"id": "C09", "title": "contains accepts exactly the valid positions", "statement": "shape::contains(p...) returns true exactly when every coordinate of p is at least 0 and smaller than the matching extent, whatever integral type the coordinates have.", "quantifier": "all shapes, all coordinate tuples, all integral coordinate types", "why_tests_cant": "Needs all coordinate values, including negative ones and values that do not fit the extent type.", "anchors": ["include/kwk/utility/container/shape.hpp: shape::contains"]}
{"id": "C10", "title": "Compressing a shape keeps its elements", "statement": "compress<N> of a shape of order M >= N >= 1 has order N, keeps the N-1 innermost extents, has the same numel, and addresses the same element: collapsing the M-N+1 leading coordinates into their linear index gives the same overall linear index.", "quantifier": "all orders, all N in [1,M], all extents, all positions", "why_tests_cant": "Quantifies over all orders and all positions.", "anchors": ["include/kwk/utility/container/shape.hpp: compress", "include/kwk/utility/container/stride.hpp: compress"]}
{"id": "C11", "title": "Compression steps compose", "statement": "Compressing a shape to order N and then to order K gives the same shape as compressing directly to order K, for K <= N <= order.", "quantifier": "all shapes, all K <= N <= order", "why_tests_cant": "Unbounded orders and extents.", "anchors": ["include/kwk/utility/container/shape.hpp: compress"]}
{"id": "C12", "title": "Shape equality behaves like an equality", "statement": "shape operator== is reflexive, symmetric and transitive; equal shapes have the same numel; on shapes of equal order it is extent-wise equality.", "quantifier": "all shapes, all pairs and triples of shapes of any orders", "why_tests_cant": "Algebraic laws over all triples of shapes.", "anchors": ["include/kwk/utility/container/shape.hpp: operator==, compress"]}
{"id": "C13", "title": "Order conversion keeps the element set and its order", "statement": "Building a shape of higher order from one of lower order, or of lower order from one of higher order, keeps numel; the k-th element in row-major order of one is the k-th of the other, and going to a higher order and back returns the original shape.", "quantifier": "all dynamic shapes, all source and target orders >= 1", "why_tests_cant": "Unbounded orders and extents.", "anchors": ["include/kwk/utility/container/shape.hpp: shape(shape<D2...> const&), operator=", "include/kwk/detail/sequence/shape_constraints.hpp: basic_shape_checks::construct"]}
{"id": "C14", "title": "nbdims counts the non-trivial dimensions", "statement": "nbdims() is the number of dimensions whose extent is different from 1.", "quantifier": "all shapes", "why_tests_cant": "Ranges over all extents lists.", "anchors": ["include/kwk/utility/container/shape.hpp: shape::nbdims"]}
{"id": "C15", "title": "Extents read back as they were given", "statement": "A shape built from numeric extents returns through get<i> the value given for axis i, for any mix of compile-time and run-time axes: run-time axes return the passed value, compile-time axes their static value, a joker gives the default; when fewer values than axes are given, the missing leading axes are 1. In checked builds a run-time value that contradicts a compile-time axis is rejected.", "quantifier": "all descriptor lists, all lists of passed extents of length at most the order whose values the axis types can represent", "why_tests_cant": "All mixes of static and dynamic axes at all orders; tests go to order 4.", "anchors": ["include/kwk/utility/container/shape.hpp: shape(T... d)", "include/kwk/detail/sequence/prefilled.hpp: prefilled, __construct, __get", "include/kwk/detail/sequence/helpers.hpp: map_descriptor", "include/kwk/utility/traits/as_dimension.hpp"]}
{"id": "C16", "title": "Run-time subscript agrees with compile-time access", "statement": "For a shape with at least one run-time axis, s[i] for a valid run-time axis i returns the same value as get<i>(s).", "quantifier": "all descriptor lists, all values, all run-time axes i", "why_tests_cant": "Every placement of static axes matters; tests subscript only fully dynamic shapes.", "anchors": ["include/kwk/detail/sequence/prefilled.hpp: prefilled::operator[](std::convertible_to<std::size_t>), __get", "include/kwk/detail/sequence/helpers.hpp: map_descriptor"]}
{"id": "C17", "title": "Named extents may be passed in any order", "statement": "For a shape whose axes are all named, passing the same named extents in any permutation gives the same shape, and s[axis] returns the value passed for that axis.", "quantifier": "all sets of distinct axis names, all values, all permutations of the arguments", "why_tests_cant": "Factorially many permutations at every order.", "anchors": ["include/kwk/detail/sequence/prefilled.hpp: __construct(named_extent), __find_axis, operator[](axis)"]}
{"id": "C18", "title": "An accepted conversion preserves the extents", "statement": "If the library accepts converting shape type Src into shape type Dst, then for every Src value the conversion gives a Dst value with the same numel when the compile-time axes of Dst agree with the converted extents, and a checked build reports an assertion when they do not. The library accepts the conversion iff, when Src has at most as many axes as Dst, the axes aligned from the innermost one carry the same names and no two different compile-time sizes, and, when Src has more axes, Dst has no compile-time size.", "quantifier": "all descriptor lists Src and Dst, all run-time values", "why_tests_cant": "Requires all pairs of descriptors.", "anchors": ["include/kwk/detail/sequence/shape_constraints.hpp: is_contructible_from, construct", "include/kwk/detail/sequence/prefilled.hpp: is_equivalent, is_compatible, split"]}
{"id": "C19", "title": "fit_constraints checks order and static extents", "statement": "s.fit_constraints(ref) is true exactly when s and ref have the same order and every compile-time extent of ref equals the matching extent of s.", "quantifier": "all pairs of shapes", "why_tests_cant": "All pairs of descriptor lists and values.", "anchors": ["include/kwk/utility/container/shape.hpp: fit_constraints", "include/kwk/detail/sequence/shape_constraints.hpp: basic_shape_checks::fit_constraints"]}
{"id": "C20", "title": "for_each visits every position exactly once in row-major order", "statement": "kwk::for_each(f, shape) calls f exactly once for every valid position and for no other tuple, in increasing linear_index order; a zero or negative extent yields no call.", "quantifier": "all orders >= 1, all extents, all callbacks (any effect)", "why_tests_cant": "Unbounded shapes and arbitrary stateful callbacks.", "anchors": ["include/kwk/detail/algorithm/for_each.hpp: for_each", "include/kwk/algorithm/algos/for_each.hpp: for_each", "include/kwk/context/cpu/context.hpp: map"]}
{"id": "C21", "title": "Interruptible loop stops at the first hit", "statement": "The predicate given to find_if is evaluated on positions in row-major order up to and including the first one that satisfies it, and on no later one; it is evaluated on all positions when none does.", "quantifier": "all shapes, all predicates (including stateful ones)", "why_tests_cant": "Requires the exact set of calls for all shapes and predicates.", "anchors": ["include/kwk/detail/algorithm/for_until.hpp: for_until", "include/kwk/algorithm/algos/find.hpp: find_if"]}
{"id": "C22", "title": "Walking a default-layout container walks memory linearly", "statement": "For a view or table without explicit strides, for_each presents the elements at addresses data, data+1, ..., data+numel-1 in that order.", "quantifier": "all orders, all non-negative extents", "why_tests_cant": "Unbounded shapes.", "anchors": ["include/kwk/algorithm/algos/for_each.hpp: for_each", "include/kwk/container/container.hpp: operator()(Is...)", "include/kwk/detail/container/accessor.hpp: index"]}
{"id": "C23", "title": "reduce is a left fold in row-major order", "statement": "reduce(c, f, init) returns f(...f(f(init,e0),e1)...,en-1) where e0..en-1 are the elements of c in row-major order, reads nothing else, and leaves memory unchanged; init is returned for an empty container.", "quantifier": "all containers (any layout) whose positions are readable, all f, all init", "why_tests_cant": "Any non-commutative f would reveal another order; tests use sums.", "anchors": ["include/kwk/algorithm/algos/reduce.hpp: reduce", "include/kwk/context/cpu/context.hpp: map"]}
{"id": "C24", "title": "all_of, any_of and none_of are the quantifiers", "statement": "all_of is true iff the predicate holds for every element, any_of iff it holds for some element, none_of iff it holds for none; on an empty container they are true, false and true.", "quantifier": "all containers, all predicates", "why_tests_cant": "Ranges over all contents and predicates.", "anchors": ["include/kwk/algorithm/algos/predicates.hpp: all_of, any_of, none_of"]}
{"id": "C25", "title": "count and count_if count", "statement": "count(c,v) is the number of positions whose element equals v and count_if(c,p) the number of positions whose element satisfies p; both are at most numel and count_if(p)+count_if(not p)=numel.", "quantifier": "all containers, all values and predicates", "why_tests_cant": "Ranges over all contents.", "anchors": ["include/kwk/algorithm/algos/predicates.hpp: count, count_if"]}
{"id": "C26", "title": "find, find_if and find_if_not return the first match", "statement": "The result is empty iff no element matches; otherwise it is a valid position whose element matches and no lexicographically smaller position matches.", "quantifier": "all containers (any layout), all predicates", "why_tests_cant": "Minimality over all smaller positions for all contents.", "anchors": ["include/kwk/algorithm/algos/find.hpp: find_if, find, find_if_not"]}
{"id": "C27", "title": "find_last, find_last_if and find_last_if_not return the last match", "statement": "The result is empty iff no element matches; otherwise it is a valid position whose element matches and no lexicographically larger position matches.", "quantifier": "all containers (any layout), all predicates", "why_tests_cant": "Maximality over all larger positions for all contents and all layouts; tests use default layout only.", "anchors": ["include/kwk/algorithm/algos/find.hpp: find_last_if, find_last, find_last_if_not", "include/kwk/algorithm/views/reverse.hpp: reverse"]}
{"id": "C28", "title": "find_first_of returns the first element found in the value set", "statement": "find_first_of(c, vs) is empty iff no element of c equals an element of vs; otherwise it is the lexicographically first position of c whose element equals some element of vs.", "quantifier": "all pairs of containers", "why_tests_cant": "Ranges over all contents of both containers.", "anchors": ["include/kwk/algorithm/algos/find.hpp: find_first_of", "include/kwk/algorithm/algos/predicates.hpp: any_of"]}
{"id": "C29", "title": "transform_reduce and inner_product fold pairwise", "statement": "For containers of equal shape both return the left fold, in row-major order, of R(acc, T(a_i, b_i)) from init. inner_product in checked builds rejects containers whose shapes compare different; with accepted shapes it never reads outside either container.", "quantifier": "all pairs of containers, all R, T, init", "why_tests_cant": "Needs all shapes, in particular shapes that compare equal without being identical.", "anchors": ["include/kwk/algorithm/algos/numeric.hpp: transform_reduce, inner_product"]}
{"id": "C30", "title": "lower_bound finds the partition point", "statement": "On a container partitioned by func(e,value) in row-major order, lower_bound returns the position of the first element for which func(e,value) is false, or nothing when there is none (in particular for an empty container).", "quantifier": "all containers (any order), all values, all func for which the content is partitioned", "why_tests_cant": "All sizes and contents; off-by-one errors appear only at particular sizes.", "anchors": ["include/kwk/algorithm/algos/binary_search.hpp: lower_bound", "include/kwk/utility/coordinates.hpp: coordinates"]}
{"id": "C31", "title": "upper_bound finds the end of the not-greater prefix", "statement": "On a container partitioned by not func(value,e), upper_bound returns the position of the first element for which func(value,e) is true, or nothing when there is none.", "quantifier": "all containers (any order), all values, all func for which the content is partitioned", "why_tests_cant": "All sizes and contents.", "anchors": ["include/kwk/algorithm/algos/binary_search.hpp: upper_bound"]}
{"id": "C32", "title": "binary_search decides membership in a sorted container", "statement": "On a container sorted by a strict weak order func, binary_search returns true iff some element is equivalent to value under func.", "quantifier": "all containers sorted by a strict weak order, all values", "why_tests_cant": "All sizes, contents and orders.", "anchors": ["include/kwk/algorithm/algos/binary_search.hpp: binary_search, lower_bound"]}
{"id": "C33", "title": "Bound searches terminate within a logarithmic number of comparisons", "statement": "lower_bound and upper_bound terminate on every container, sorted or not, calling func at most floor(log2(numel))+1 times, and only on valid positions.", "quantifier": "all containers, all func, all values", "why_tests_cant": "Worst-case bound over all inputs.", "anchors": ["include/kwk/algorithm/algos/binary_search.hpp: lower_bound, upper_bound"]}
{"id": "C34", "title": "fill and generate set every element", "statement": "After fill(c,v) every element of c is v; after generate(f,c) the element at position p is f(p); no memory outside the container's elements changes.", "quantifier": "all containers whose positions address distinct valid cells, all v and f", "why_tests_cant": "All layouts and the frame condition on all other memory.", "anchors": ["include/kwk/algorithm/algos/generator.hpp: fill, generate"]}
{"id": "C35", "title": "iota writes an arithmetic progression in row-major order", "statement": "After iota(c,v) the element of linear rank k is v+k; after iota(c,v,step) it is v+k*step; after iota(c) it is k.", "quantifier": "all containers whose positions address distinct valid cells, all v and step", "why_tests_cant": "All shapes.", "anchors": ["include/kwk/algorithm/algos/generator.hpp: iota"]}
{"id": "C36", "title": "transform applies the function position-wise", "statement": "After transform(f,out,in...) the element of out at p is f of the former elements of the inputs at p, for every position p of out, and all other memory is unchanged; this holds also in place and for any overlap in which no input element is overwritten before its position is reached.", "quantifier": "all containers, all f, all overlaps satisfying the stated condition", "why_tests_cant": "All overlaps between views on shared memory.", "anchors": ["include/kwk/algorithm/algos/transform.hpp: transform", "include/kwk/context/cpu/context.hpp: map"]}
{"id": "C37", "title": "copy and copy_if copy position-wise", "statement": "After copy(out,in) out equals in position by position and in is unchanged when disjoint; copy_if(f,out,in) changes exactly the positions whose input element satisfies f.", "quantifier": "all containers, all predicates", "why_tests_cant": "All contents and layouts.", "anchors": ["include/kwk/algorithm/algos/copy.hpp: copy, copy_if"]}
{"id": "C38", "title": "replace and replace_if change exactly the matching elements", "statement": "After replace_if(c,f,v) every element that satisfied f is v and every other element and all other memory is unchanged; replace(c,old,new) does this for equality with old, is idempotent when new differs from old, and leaves no element equal to old in that case.", "quantifier": "all containers whose positions address distinct cells, all f, old, new", "why_tests_cant": "All contents.", "anchors": ["include/kwk/algorithm/algos/replace.hpp: replace_if, replace"]}
{"id": "C39", "title": "Scans write running folds", "statement": "After transform_exclusive_scan the element of rank k is the left fold of the first k transformed inputs from init; after transform_inclusive_scan that of the first k+1. In-place use gives the same result.", "quantifier": "all containers, all f1, f2, init", "why_tests_cant": "All sizes; non-commutative f1.", "anchors": ["include/kwk/algorithm/algos/numeric.hpp: transform_exclusive_scan, exclusive_scan, transform_inclusive_scan, inclusive_scan"]}
{"id": "C40", "title": "Writing algorithms are memory safe and framed", "statement": "fill, generate, iota, transform, copy, copy_if, replace, replace_if and the scans never access a cell that is not the cell of a position of the driving container's shape in one of their arguments, and change only cells of the output.", "quantifier": "all containers, all contents", "why_tests_cant": "Absence of stray accesses for all inputs.", "anchors": ["include/kwk/algorithm/algos/generator.hpp", "include/kwk/algorithm/algos/transform.hpp", "include/kwk/algorithm/algos/copy.hpp", "include/kwk/algorithm/algos/replace.hpp", "include/kwk/algorithm/algos/numeric.hpp"]}
{"id": "C41", "title": "Mismatched shapes are not accepted silently", "statement": "transform, copy, for_each and transform_reduce over containers of different shapes never read outside an argument container.", "quantifier": "all pairs of containers of equal order and different shapes", "why_tests_cant": "Needs all shape pairs; tests always pass equal shapes.", "anchors": ["include/kwk/algorithm/algos/transform.hpp: transform", "include/kwk/algorithm/algos/numeric.hpp: transform_reduce", "include/kwk/context/cpu/context.hpp: map"]}
{"id": "C42", "title": "A slice shows the selected elements", "statement": "For a container with default layout and one slicer per axis, element i of c(slicers...) is the element of c at begin_k + i_k*step_k along every axis k, where begin and step come from the slicer (joker, integer, end expression, slice(from,to,by,length)).", "quantifier": "all orders, all extents, all slicers (in checked builds: that select at least one index on every axis), all positions of the result", "why_tests_cant": "All combinations of slicers at all orders.", "anchors": ["include/kwk/container/container.hpp: operator()(Slicers...)", "include/kwk/utility/slicer.hpp: reindex, reshape, restride, origin", "include/kwk/utility/container/stride.hpp: stride::operator()"]}
{"id": "C43", "title": "A slice never leaves its container", "statement": "If every slicer selects inside its axis, every position of the slice addresses an element of the original container, and different positions address different elements.", "quantifier": "all orders, all extents, all in-range slicers (in checked builds: that select at least one index on every axis)", "why_tests_cant": "All combinations of slicers.", "anchors": ["include/kwk/container/container.hpp: operator()(Slicers...)", "include/kwk/utility/slicer.hpp: reindex, reshape, restride"]}
{"id": "C44", "title": "Slicing a slice composes", "statement": "Slicing the result of a slicing operation gives the view that selects the composed positions of the original container.", "quantifier": "all orders, all pairs of slicer lists", "why_tests_cant": "Tests slice only once.", "anchors": ["include/kwk/container/container.hpp: operator()(Slicers...)", "include/kwk/utility/slicer.hpp: origin"]}
{"id": "C45", "title": "The extent of a sliced axis counts the selected indexes", "statement": "For slice(from=b,to=e,by=s) with 0<=b<=e<=n and s>0 the new extent is the number of k>=0 with b+k*s<e; for a negative step without 'to' it is the number of k>=0 with b+k*s>=0; for a length slicer it is the length.", "quantifier": "all b, e, s, n in the stated ranges", "why_tests_cant": "Rounding of every (length, step) pair.", "anchors": ["include/kwk/utility/slicer.hpp: slicer::reshape"]}
{"id": "C46", "title": "reverse reverses", "statement": "reverse(c) shows at position p the element of c at position shape-1-p, and reversing twice shows c again.", "quantifier": "all containers of any layout, all positions", "why_tests_cant": "All shapes and layouts; tests use a single 1D view of two elements.", "anchors": ["include/kwk/algorithm/views/reverse.hpp: reverse"]}
{"id": "C47", "title": "A slice reported as contiguous is contiguous", "statement": "If a slice of a default-layout container is reported as preserving reachability then its elements in row-major order occupy consecutive addresses.", "quantifier": "all orders, all slicer lists", "why_tests_cant": "All lists of slicer kinds of every length.", "anchors": ["include/kwk/utility/traits/reachable.hpp: preserve_reachability", "include/kwk/container/container.hpp: operator()(Slicers...)"]}
{"id": "C48", "title": "end expressions evaluate like arithmetic on the extent", "statement": "For an extent n, an expression built from end by adding, subtracting, multiplying and dividing by integers evaluates to the value of the same expression on the exact rational n, truncated once at the end; hence end-k is n-k, end/k is n/k truncated and (end/2)+1 is n/2+1 for non-negative quantities.", "quantifier": "all expressions, all n, all operands with non-zero divisors", "why_tests_cant": "All nestings of operators.", "anchors": ["include/kwk/utility/end.hpp: end_t, operators"]}
{"id": "C49", "title": "ratio implements rational arithmetic", "statement": "kwk::ratio operators +,-,*,/ and unary minus compute the rational sum, difference, product, quotient and negation, and == decides equality of the rationals.", "quantifier": "all ratios with non-zero denominators", "why_tests_cant": "All operands.", "anchors": ["include/kwk/utility/ratio.hpp: ratio, operators"]}
{"id": "C50", "title": "Specialised accessors agree with the general one", "statement": "The 1D/2D accessors specialised for default or explicit strides give the same address as the general stride formula for every position, and the stride they report is the one they use.", "quantifier": "all 1D and 2D shapes and strides, all positions", "why_tests_cant": "All values.", "anchors": ["include/kwk/detail/container/accessor.hpp: accessor specialisations"]}
{"id": "C51", "title": "reshape of a container keeps the row-major element sequence", "statement": "reshape(c, sz) with the same number of elements shows the same elements in the same row-major order as c.", "quantifier": "all containers of any layout, all shapes sz of equal numel", "why_tests_cant": "All shapes and layouts; no test exists.", "anchors": ["include/kwk/algorithm/views/reshape.hpp: reshape", "include/kwk/container/container.hpp: settings"]}
{"id": "C52", "title": "Copying a container into a table copies every element", "statement": "table(other) and table = other give a table of the same shape whose element at every position equals the one of other, stored in fresh memory: later writes to one are not visible in the other.", "quantifier": "all containers of any layout, all contents", "why_tests_cant": "All layouts and contents, and all later writes.", "anchors": ["include/kwk/container/table.hpp: table(table const&), table(container), operator=", "include/kwk/container/container.hpp: settings", "include/kwk/detail/memory/heap_block.hpp"]}
{"id": "C53", "title": "Tables never leak, share or double-free their memory", "statement": "After any sequence of constructions, copies, moves, assignments (including self assignment), swaps and destructions of tables, every allocated block is owned by exactly one live table, no block is freed twice or used after being freed, each block is freed by a copy of the allocator that allocated it, and destroying all tables frees every block.", "quantifier": "all finite sequences of operations on any number of tables", "why_tests_cant": "Unbounded sequences of operations.", "anchors": ["include/kwk/container/table.hpp: special members", "include/kwk/detail/memory/heap_block.hpp: heap_block, deleter", "include/kwk/container/container.hpp: swap"]}
{"id": "C54", "title": "relabel changes only the label", "statement": "relabel(c,l) shows the elements of c at every position, with label l.", "quantifier": "all containers of any layout, all labels", "why_tests_cant": "All layouts; tests check the label only.", "anchors": ["include/kwk/algorithm/views/relabel.hpp: relabel", "include/kwk/container/container.hpp: settings"]}
{"id": "C55", "title": "A moved-from table is empty", "statement": "After moving from a table, the source reports a size consistent with its data: no position within its shape addresses released memory.", "quantifier": "all tables", "why_tests_cant": "No test touches a moved-from table.", "anchors": ["include/kwk/container/table.hpp: table(table&&)", "include/kwk/detail/container/accessor.hpp: accessor", "include/kwk/detail/memory/heap_block.hpp"]}
{"id": "C56", "title": "Integer literals with suffix _c keep their value", "statement": "The value of a decimal literal N_c is N, and a compile-time array extent is the array's size.", "quantifier": "all decimal literals below 2^64, all array sizes", "why_tests_cant": "Tests use a few small literals.", "anchors": ["include/kwk/utility/fixed.hpp: clamp, b10, operator\"\"_c", "include/kwk/detail/range.hpp: array_traits"]}
{"id": "C57", "title": "A view over a nested array has the array's shape", "statement": "A view or table built from a multi-dimensional C array or nested std::array without explicit shape has v(i,j,...) equal to a[i][j]....", "quantifier": "all nesting depths, all extents, all positions", "why_tests_cant": "All nestings; tests use flat arrays.", "anchors": ["include/kwk/detail/range.hpp: array_traits", "include/kwk/settings/source/array_source.hpp: default_shape"]}
{"id": "C58", "title": "Linear interpolation interpolates", "statement": "kwk::linear at real coordinates returns a combination of the 2^N surrounding elements with non-negative weights that sum to 1; it returns the element itself at grid points, reproduces every multi-affine function exactly (in exact arithmetic), and reads only elements of the container for every point inside the grid.", "quantifier": "all orders, all data, all points in the grid", "why_tests_cant": "Real-valued inputs and all orders.", "anchors": ["include/kwk/utility/container/interpolator.hpp: setup_linear_interpolation, linear_"]}
{"id": "C59", "title": "Helper slicers select what their names say", "statement": "first(n), last(n), drop_first(n), drop_last(n), between(b,e), at(i) and every(s) select respectively the first n, last n, all but the first n, all but the last n indexes, the indexes in [b,e), the single index i, and every s-th index.", "quantifier": "all n, b, e, i, s within the extent, all extents", "why_tests_cant": "All argument values.", "anchors": ["include/kwk/utility/slicer.hpp: between, at, every, first, drop_first, last, drop_last"]}
{"id": "C60", "title": "Loop counters do not wrap", "statement": "for_each and for_until loops terminate for every extent of every integral type: the loop counter, stored in the extent's own type, never overflows or wraps.", "quantifier": "all integral widths, signed or not, all representable extents", "why_tests_cant": "Largest values of each type.", "anchors": ["include/kwk/detail/algorithm/for_each.hpp: for_each", "include/kwk/detail/algorithm/for_until.hpp: for_until", "include/kwk/utility/fixed.hpp: to_int_t"]}
{"id": "C61", "title": "Mixed implicit and named extents read back in axis order", "statement": "A shape that mixes unnamed and named axes, built from plain and named values given in the order of its axes, returns through get<i> the value given for axis i (its compile-time value for a compile-time axis, the default for a joker). A list naming an axis at a position where the shape has another name (or none) is not accepted.", "quantifier": "for all axis descriptors with distinct names, all accepted argument lists, both build modes", "why_tests_cant": "The arguments are normalized to named options and routed through a search by axis name and a compressed storage index; every combination of named, unnamed, static and dynamic axes is a different template instance.", "anchors": ["include/kwk/detail/sequence/prefilled.hpp: __is_ordered, prefilled(def, V...)", "include/kwk/detail/sequence/helpers.hpp: normalize_axis, normalize_extents"]}
{"id": "C62", "title": "is_similar accepts exactly the shapes that refine the expected one", "statement": "Expected.is_similar(S), used by the constrained container concept, is true exactly when both shapes have the same order and every compile-time axis of Expected is a compile-time axis of S with the same extent.", "quantifier": "for all pairs of shape descriptors", "why_tests_cant": "A fold over pairs of descriptors with an early result that may be overwritten by a later step; a wrong fold direction or accumulator only shows for particular positions of the differing axis.", "anchors": ["include/kwk/detail/sequence/prefilled.hpp: is_similar, __checker", "include/kwk/concepts/container.hpp: same_shape"]}
{"id": "C63", "title": "A view of a container shows the container's own elements", "statement": "A view built from another container has the same shape, and its element at every position is the very same object as the container's, so writes through one are seen through the other.", "quantifier": "all containers of any layout, all positions, all written values", "why_tests_cant": "All shapes and layouts; tests view compact tables only.", "anchors": ["include/kwk/container/view.hpp: view(container const&)", "include/kwk/container/container.hpp: settings"]}
{"id": "C64", "title": "A table with explicit strides allocates enough memory", "statement": "Every position of a freshly built table, with or without explicit strides, is a cell of the memory allocated for it.", "quantifier": "all shapes, all strides", "why_tests_cant": "All shapes and strides; over-reads of the heap often go unnoticed.", "anchors": ["include/kwk/detail/memory/heap_block.hpp: heap_block(Settings const&)", "include/kwk/detail/container/builder.hpp: builder", "include/kwk/detail/container/accessor.hpp: index"]}
{"id": "C65", "title": "any_allocator is a value type", "statement": "Copying an any_allocator, in any state and from a const or non-const object, ends and gives an any_allocator holding an equal allocator; moving hands the allocator over and leaves the source empty; assignment and swap behave accordingly, and allocate/deallocate reach the held allocator.", "quantifier": "all states, all held allocators", "why_tests_cant": "Tests copy one const non-empty object.", "anchors": ["include/kwk/utility/memory/any_allocator.hpp: any_allocator"]}
{"id": "C66", "title": "swap exchanges two containers", "statement": "swap(a,b) exchanges shape and elements of two tables, leaves all other tables alone, and swapping twice restores the original state.", "quantifier": "all tables with run-time or static shapes, all contents", "why_tests_cant": "All shapes and contents.", "anchors": ["include/kwk/container/container.hpp: swap", "include/kwk/detail/memory/stack_block.hpp: swap", "include/kwk/detail/memory/heap_block.hpp: swap"]}
{"id": "C67", "title": "Arithmetic on compile-time constants is exact", "statement": "If +, -, * or unary - on kwk::constant values compiles, the resulting constant is the exact mathematical result.", "quantifier": "all pairs of constants of any integral type", "why_tests_cant": "Tests use a few small constants.", "anchors": ["include/kwk/utility/fixed.hpp: constant, operator+, operator-, operator*"]}
{"id": "C68", "title": "Round-to-floor interpolation reads the element below the point", "statement": "kwk::floor at real coordinates inside the grid, borders included, returns the element at the rounded-down coordinates and reads only elements of the container.", "quantifier": "all orders, all data, all points in the grid", "why_tests_cant": "Real-valued inputs and all orders.", "anchors": ["include/kwk/utility/container/interpolator.hpp: floor_"]}
{"id": "C69", "title": "Checked builds reject positions and indexes outside the shape", "statement": "With assertions enabled, linear_index and coordinates stop with an assertion exactly when the position is outside the shape, or the index is outside [0, numel); they never divide by zero or return a wrong answer silently.", "quantifier": "all shapes, all positions and indexes including negative ones", "why_tests_cant": "Tests only try a few arguments that are too large.", "anchors": ["include/kwk/utility/linear_index.hpp: linear_index", "include/kwk/utility/coordinates.hpp: coordinates", "include/kwk/detail/assert.hpp: KIWAKU_ASSERT"]}
{"id": "C70", "title": "Mixed extent and coordinate types give exact indexes", "statement": "When extents, coordinates and indexes have any mix of integral types and the shape has fewer than 2^31 elements, numel, strides, linear_index, the 2D container offset and coordinates give the mathematical result: no intermediate conversion, wrap or overflow changes it.", "quantifier": "all combinations of integral types, all shapes whose element count, taking empty axes as one, is below 2^31, all positions; in checked builds coordinate types that can represent the extents", "why_tests_cant": "The number of type combinations and values.", "anchors": ["include/kwk/utility/container/shape.hpp: numel, as_stride", "include/kwk/utility/linear_index.hpp: linear_index", "include/kwk/utility/coordinates.hpp: coordinates", "include/kwk/detail/container/accessor.hpp: index"]}
{"id": "C71", "title": "Position equality", "statement": "Two positions of the same order compare equal exactly when all their coordinates are equal; for valid positions of one shape this is the same as having the same linear index.", "quantifier": "all positions, all shapes", "why_tests_cant": "All positions.", "anchors": ["include/kwk/utility/position.hpp: operator=="]}
{"id": "C73", "title": "for_each keeps and returns the state of the function object", "statement": "for_each and for_each_index call the function object once per position in row-major order, threading its state, and return the object in its final state.", "quantifier": "all shapes and containers, all stateful function objects", "why_tests_cant": "All function objects and shapes; a lost state shows only with function objects that have one.", "anchors": ["include/kwk/algorithm/algos/for_each.hpp: for_each, for_each_index"]}
{"id": "C74", "title": "Predicates are called in order and only while the answer is open", "statement": "all_of, any_of and none_of test the elements in row-major order and do not call the predicate again once the answer is known; count_if calls it exactly once per element.  This holds for predicates with arbitrary side effects.", "quantifier": "all shapes, all element reads, all effectful predicates", "why_tests_cant": "Any side effect of the predicate.", "anchors": ["include/kwk/algorithm/algos/predicates.hpp: all_of, any_of, none_of, count_if"]}
{"id": "C75", "title": "Stateful generators and functions are called in row-major order", "statement": "generate and transform call their function once per position in row-major order; the k-th result goes to the k-th position, and the state is the one after the last call.", "quantifier": "all containers with distinct cells, all stateful functions, all inputs that do not overlap the output", "why_tests_cant": "All function states and layouts.", "anchors": ["include/kwk/algorithm/algos/generator.hpp: generate", "include/kwk/algorithm/algos/transform.hpp: transform"]}
{"id": "C76", "title": "Size queries are consistent", "statement": "size, numel, empty and dim of a container agree with its shape: size = numel = number of valid positions, empty exactly when there is none, dim<I> is the extent of axis I and 1 beyond the order.", "quantifier": "all containers of order at least one with non-negative extents", "why_tests_cant": "All shapes, through several accessor specialisations.", "anchors": ["include/kwk/container/container.hpp: numel, empty, dim", "include/kwk/detail/container/accessor.hpp: size"]}
{"id": "C72", "title": "Printing a container shows its elements", "statement": "Writing a container to a stream writes the label line if it has one, then the rows in row-major order, one per line between brackets, with an empty line between consecutive panels (2D parts); an empty container is written as [ ].", "quantifier": "all containers of any order and layout, all contents, with and without label", "why_tests_cant": "All shapes; tests print at most order 3.", "anchors": ["include/kwk/container/container.hpp: operator<<"]}
{"id": "C77", "title": "Printed end expressions have the value of the expression", "statement": "The text written for an end expression, read as an arithmetic expression with the usual operator precedence, has the value of the expression for every extent.", "quantifier": "all end expressions without division by zero, all extents", "why_tests_cant": "All expressions.", "anchors": ["include/kwk/utility/end.hpp: operator<<"]}
{"id": "C78", "title": "Printed slicers describe the selection", "statement": "The text start:step:stop written for a slicer with a positive step describes what it selects: it starts at start and contains the start+k*step below stop.", "quantifier": "all slicers with positive step, all extents", "why_tests_cant": "All combinations of keywords and values.", "anchors": ["include/kwk/utility/slicer.hpp: operator<<, reindex, reshape"]}
{"id": "C79", "title": "reduce over integer elements is the exact sum", "statement": "reduce(c) returns the mathematical sum of the elements; with an explicit accumulator, init plus that sum.", "quantifier": "all integer element and accumulator types, all shapes, layouts and contents", "why_tests_cant": "Depends on every partial sum; tests use small values.", "anchors": ["include/kwk/algorithm/algos/reduce.hpp: reduce"]}
{"id": "C80", "title": "transform_reduce and inner_product of two integer containers is the exact dot product", "statement": "transform_reduce(a,b) and inner_product(a,b) return the sum of the products of corresponding elements; with an initial value of an integer type they return that value plus this sum.", "quantifier": "all integer types of the elements and of the initial value, all shapes, layouts and contents", "why_tests_cant": "Depends on integral promotions of every pair of types and on all values.", "anchors": ["include/kwk/algorithm/algos/numeric.hpp:27-140"]}
{"id": "C81", "title": "iota over machine integers writes consecutive values whenever they fit", "statement": "iota(out,value) writes value+k, and iota(out,value,step) writes value+k*step, into the k-th element in row-major order, provided the values written fit in the type of value.", "quantifier": "all integer types, all shapes and layouts, all start values and steps", "why_tests_cant": "The extreme values of each type are not tested.", "anchors": ["include/kwk/algorithm/algos/generator.hpp: iota"]}
{"id": "C82", "title": "Scans over machine integers are exact whenever the values written fit", "statement": "inclusive_scan writes init plus the sum of the first k+1 elements, exclusive_scan init plus the sum of the first k elements, provided these sums fit in the type of init.", "quantifier": "all integer types, all shapes, all layouts with disjoint input and output", "why_tests_cant": "Depends on every partial sum.", "anchors": ["include/kwk/algorithm/algos/numeric.hpp: exclusive_scan, inclusive_scan"]}
{"id": "C83", "title": "of_size builds the shape its arguments describe", "statement": "of_size(d...) has one axis per argument, in order: an integer or constant gives an unnamed axis of that size, kwk::_ an unnamed axis of size 0, an axis (width) a named axis of size 0, and width = v a named axis of size v. The axis is known at compile time exactly when its size was given as a constant, and s[axis] returns the size given for that axis. The call is ill-formed exactly when an axis is named twice or named extents are mixed with bare axes.", "quantifier": "for all argument lists, all integer types and values, all axis names, both build modes", "why_tests_cant": "Each combination of argument kinds is another template instance going through descriptors, overload resolution and compressed storage; the number of combinations grows exponentially with the order.", "anchors": ["include/kwk/utility/container/shape.hpp: of_size", "include/kwk/utility/traits/to_descriptor.hpp: to_descriptor", "include/kwk/detail/sequence/prefilled.hpp: constructors, duplicate_axis"]}
{"id": "C84", "title": "of_size<T> stores the sizes as T", "statement": "of_size<T>(d...) gives the shape of of_size(d...) with all run-time sizes stored as T; each size read back is the value of T congruent to the size given, hence that size exactly when T can represent it.", "quantifier": "for all integer types T, all argument lists without named extents, both build modes", "why_tests_cant": "A size that does not fit T changes silently; the values for which this happens depend on T.", "anchors": ["include/kwk/utility/container/shape.hpp: of_size<SizeType>", "include/kwk/detail/sequence/helpers.hpp: force_type"]}
{"id": "C85", "title": "as_array returns the extents", "statement": "s.as_array() has as many elements as s has axes, all of the type of a largest extent type of s, and holds the extents of s.", "quantifier": "for all shapes with extents of any integer types", "why_tests_cant": "The element type is chosen among the extent types by size only; wrong values appear only for particular pairs of types and values.", "anchors": ["include/kwk/detail/sequence/prefilled.hpp: as_array", "include/kwk/utility/fixed.hpp: largest_type, largest_integral"]}
{"id": "C86", "title": "with_strides builds the strides its arguments describe", "statement": "with_strides(d...) has one stride per argument, in order, with the name, the value and the compile-time knowledge of the argument; a stride that is not given (kwk::_ or a bare axis) is 1.", "quantifier": "for all argument lists, all integer types and values, all axis names, both build modes", "why_tests_cant": "Same combinatorics as of_size, with another default value.", "anchors": ["include/kwk/utility/container/stride.hpp: stride, with_strides"]}
{"id": "C87", "title": "A default-constructed stride is [1 1 ... 1]", "statement": "kwk::stride<D...>{} has all its strides equal to 1.", "quantifier": "for all stride descriptors", "why_tests_cant": "Every descriptor is another type; the documented value is wrong exactly for the descriptors with a run-time stride.", "anchors": ["include/kwk/utility/container/stride.hpp: stride()"]}
{"id": "C88", "title": "as_stride keeps names and compile-time knowledge", "statement": "as_stride(s) has the axes of s in the same order and with the same names; st[axis] is the product of the extents of the axes inside that axis; it is known at compile time exactly when these extents all are; the innermost stride is known to be 1 (is_unit).", "quantifier": "for all shapes with distinct axes, compile-time or run-time, whose strides are representable", "why_tests_cant": "Every pattern of compile-time and run-time axes gives another type of strides.", "anchors": ["include/kwk/utility/container/stride.hpp: as_stride, is_unit", "include/kwk/detail/sequence/prefilled.hpp: axis, __construct"]}
{"id": "C89", "title": "Writing an element changes that element only", "statement": "t(p...) = v on a table whose elements are known succeeds; afterwards t reads v at p and the old value at every other position, every other table reads as before, and no memory outside of t's block has changed.", "quantifier": "for all tables in all reachable program states, all positions and all values", "why_tests_cant": "A wrong address that stays inside the block, or an address in another table's block, only shows for some shapes, positions and heap states.", "anchors": ["include/kwk/container/container.hpp: operator()", "include/kwk/container/table.hpp: table", "include/kwk/detail/memory/heap_block.hpp: heap_block"]}
{"id": "C90", "title": "Programs on tables have value semantics", "statement": "A program made of construction (default, sized, from an array), copy and move construction, copy and move assignment (self assignment included), swap, element writes and destruction, which is meaningful when tables are taken as plain values (a shape with one value per position, unspecified after a move), runs without fault and leaves exactly the objects and the elements that the program makes of plain values; memory outside of the tables does not change.", "quantifier": "for all programs, i.e. finite sequences of these operations on any number of tables", "why_tests_cant": "Aliasing, double release and lost updates depend on the sequence of operations; there are infinitely many sequences.", "anchors": ["include/kwk/container/table.hpp: table", "include/kwk/container/container.hpp: swap, operator()", "include/kwk/detail/memory/heap_block.hpp: heap_block, assign"]}
{"id": "C91", "title": "A default-constructed table is empty", "statement": "A default-constructed table with at least one run-time axis reports the compile-time extents of its type and 0 for the run-time axes, has numel 0 and no valid position, holds no memory, and its construction allocates nothing and touches no other table.", "quantifier": "for all table types with a run-time axis, in all program states", "why_tests_cant": "Every combination of compile-time and run-time axes is another type.", "anchors": ["include/kwk/container/table.hpp: table()", "include/kwk/detail/memory/heap_block.hpp: heap_block()", "include/kwk/detail/container/accessor.hpp: accessor()"]}
{"id": "C92", "title": "The order of construction options does not matter", "statement": "view{o1, ..., on} and table{o1, ..., on} build the same container, or are rejected together, in whatever order the options are written. Passing the options gathered in a settings object builds the same container; when the container type is written out (make_view_t, make_table_t), a container category among these settings is overruled by the constructor.", "quantifier": "for all lists of options and all their permutations", "why_tests_cant": "Eight options have thousands of orders and infinitely many values.", "anchors": ["include/kwk/container/view.hpp: view(settings), deduction guides", "include/kwk/container/table.hpp: table(settings), deduction guides", "include/kwk/detail/container/builder.hpp: builder"]}
{"id": "C93", "title": "Construction options mean what they say", "statement": "A view is accepted exactly if no option is repeated and there is a source or a value_type but not both; a table if no option is repeated and there is a source or a value_type. The shape is the size option, or else the size of the range, the extents of the array, or an empty shape; the strides are the strides option, or else row-major; label and reachability are those asked for; the element type is that of the source (view) or the value_type option, then that of the source (table). A view points to its source and copies nothing; a table lives on the stack exactly if all its extents are compile-time constants, and otherwise uses the given allocator, or the heap allocator.", "quantifier": "for all lists of options", "why_tests_cant": "The presence or absence of each option is combined with all values of the others; the rejected combinations do not compile.", "anchors": ["include/kwk/container/settings/type.hpp: pick_", "include/kwk/container/settings/size.hpp: pick_", "include/kwk/container/settings/strides.hpp: pick_", "include/kwk/detail/memory/block.hpp: block_type", "include/kwk/detail/container/builder.hpp: builder"]}
{"id": "C94", "title": "A container built over a source of n elements stays within it", "statement": "A table built from a source of n elements with any shape can be built, holding the first elements of the source in row-major order; a view of a source has all its positions within the source.", "quantifier": "for all sources, shapes, strides and contents", "why_tests_cant": "Reading past the end of the source is undefined and often goes unnoticed.", "anchors": ["include/kwk/detail/memory/heap_block.hpp: heap_block, assign", "include/kwk/detail/memory/stack_block.hpp: stack_block", "include/kwk/detail/memory/shallow_block.hpp: shallow_block"]}
{"id": "C95", "title": "Searches, counts and quantifiers agree", "statement": "For every container and predicate: any_of holds exactly if find_if finds something and exactly if count_if is positive; none_of exactly if count_if is 0; all_of exactly if find_if_not finds nothing and exactly if count_if is numel. On elements in non-decreasing order: find gives the position lower_bound gives whenever the value occurs, binary_search tells whether find finds it, lower_bound and upper_bound give the same answer when it does not occur, and the row-major distance from lower_bound to upper_bound (no position counting as one past the last) is count.", "quantifier": "for all containers, layouts, predicates, element types with a total order and values", "why_tests_cant": "The agreement relates seven functions on every content and shape; each test compares them on one container.", "anchors": ["include/kwk/algorithm/algos/find.hpp: find_if, find, find_if_not", "include/kwk/algorithm/algos/predicates.hpp: all_of, any_of, none_of, count, count_if", "include/kwk/algorithm/algos/binary_search.hpp: lower_bound, upper_bound, binary_search"]}
{"id": "C96", "title": "What is written is what the searches and counts find", "statement": "After fill(c, v), count(c, v) is numel, find(c, v) gives the first position (nothing if c is empty), and all_of(c, f) holds exactly if f(v) does or c is empty. After replace(c, old, new) with new different from old, old does not occur, the count of new is the sum of the former counts of old and new, and all other counts are as before. After iota(c, v), the value v + k occurs once and is found by find, lower_bound and binary_search at the position of linear index k, and no other value is found.", "quantifier": "for all containers with distinct cells, values, predicates", "why_tests_cant": "The laws hold between a writing and a reading algorithm for all layouts and sizes.", "anchors": ["include/kwk/algorithm/algos/generator.hpp: fill", "include/kwk/algorithm/algos/replace.hpp: replace", "include/kwk/algorithm/algos/generator.hpp: iota", "include/kwk/algorithm/algos/find.hpp: find", "include/kwk/algorithm/algos/predicates.hpp: count", "include/kwk/algorithm/algos/binary_search.hpp: lower_bound, binary_search"]}
{"id": "C97", "title": "Scans, reductions and transforms are consistent", "statement": "The last element of inclusive_scan(in, out, init, f) is reduce(in, f, init), the first element of exclusive_scan (into a container that does not share cells with in) is init, and each element of inclusive_scan is f of the corresponding element of exclusive_scan and the input element. Writing T of the elements of two containers to a third one with transform and reducing it with R gives transform_reduce(in1, in2, init, R, T).", "quantifier": "for all containers of equal shape, layouts, functions and initial values", "why_tests_cant": "The laws must hold for functions that are neither commutative nor associative, and for all layouts of the containers involved.", "anchors": ["include/kwk/algorithm/algos/numeric.hpp: inclusive_scan, exclusive_scan, transform_reduce", "include/kwk/algorithm/algos/reduce.hpp: reduce", "include/kwk/algorithm/algos/transform.hpp: transform"]}
{"id": "C98", "title": "Transforms fuse and copies can be undone", "statement": "transform in place by f and then by g leaves exactly the memory that a single transform by g after f leaves. Copying a container to another of the same shape with no cell in common makes both hold the same elements, and copying back changes no cell.", "quantifier": "for all containers with distinct cells, layouts and functions", "why_tests_cant": "Equality of the whole memory, including cells between the positions of strided containers, is not what a test looks at.", "anchors": ["include/kwk/algorithm/algos/transform.hpp: transform", "include/kwk/algorithm/algos/copy.hpp: copy"]}
{"id": "C99", "title": "A slice is contiguous exactly when it selects one run of positions", "statement": "For a slice of a default-layout container that selects something: its elements, in row-major order, occupy consecutive addresses exactly if the selected row-major positions of the sliced container form one run, that is: a few leading axes with a single selected index, then one axis with consecutive indexes, then whole axes.", "quantifier": "all orders, all lists of slicers (single indexes, whole axes, intervals with from, to, length and step), fewer slicers than axes included", "why_tests_cant": "An equivalence for every list of slicers of every length; a test can only compare a few slices.", "anchors": ["include/kwk/container/container.hpp: operator()(Slicers...)", "include/kwk/utility/slicer.hpp: slicer", "include/kwk/utility/traits/reachable.hpp: preserve_reachability"]}
{"id": "C100", "title": "The block of a table has room for its elements", "statement": "The number of bytes requested for a table is the number of its elements times their size, so that every valid position lies inside of the block, whatever integer types the extents have.", "quantifier": "all lists of extents of all integer types, all element sizes", "why_tests_cant": "Sizes near 2^31 elements are not allocated in tests, and the types of the extents can be combined in unboundedly many ways.", "anchors": ["include/kwk/detail/memory/heap_block.hpp: heap_block", "include/kwk/utility/container/shape.hpp: numel"]}
{"id": "C101", "title": "Reversed views and found positions are right for all integer types", "statement": "Reversing a default-layout container shows at every position the element of the opposite position, whatever integer types extents and coordinates have, and the position returned by find_last is the opposite of the one found in the reversed view.", "quantifier": "all orders, all combinations of integer types of extents and coordinates, all positions", "why_tests_cant": "Tests use int extents; the failure needs unsigned extents, and the success is a claim on modular arithmetic for every combination of types.", "anchors": ["include/kwk/algorithm/views/reverse.hpp: reverse", "include/kwk/algorithm/algos/find.hpp: find_last_if", "include/kwk/utility/container/stride.hpp: linearize"]}
{"id": "C102", "title": "Slices are right for all integer types", "statement": "Slicing a default-layout container selects the same positions whatever integer types the extents, indexes, bounds, steps, lengths, constants in end expressions and coordinates have: the slice has one position per selected position, and its elements are those of the selected positions, as long as the integers computed on the way stay between -2^31 and 2^31.", "quantifier": "all orders, all lists of non-empty selections (indexes, end expressions, intervals), fewer slicers than axes included, all combinations of integer types", "why_tests_cant": "Each of the numbers can have any of eight types; unsigned numbers represent negative offsets and strides modulo a power of two, which only sometimes cancels out.", "anchors": ["include/kwk/utility/slicer.hpp: reindex, reshape, restride, origin", "include/kwk/utility/end.hpp: end_t", "include/kwk/container/container.hpp: operator()(Slicers...)", "include/kwk/utility/container/shape.hpp: compress"]}
{"id": "C103", "title": "linear_index of a range uses its first indexes", "statement": "linear_index(shape, range) is the linear index of the first indexes of the range, one per axis, whatever follows in the range. A range with fewer indexes than axes is read past its end.", "quantifier": "all shapes, ranges and integer types", "why_tests_cant": "Holds for ranges of every length; the tests use ranges of exactly the right length.", "anchors": ["include/kwk/utility/linear_index.hpp: linear_index(shape, Indexes)"]}
{"id": "C104", "title": "Printed numbers show their value for all integer types", "statement": "The texts written for end expressions, slicers and ratios show the values of their numbers, whatever the integer types of the numbers and whether or not they are compile-time constants: read as arithmetic expressions, they have the value of the object written.", "quantifier": "all end expressions, slicers without length and ratios, all combinations of integer types, all extents", "why_tests_cant": "The type of each number decides how it is written; there are infinitely many expressions and many combinations of types.", "anchors": ["include/kwk/utility/end.hpp: operator<<", "include/kwk/utility/slicer.hpp: operator<<", "include/kwk/utility/ratio.hpp: operator<<", "include/kwk/utility/fixed.hpp: operator<<"]}
{"id": "C105", "title": "Printed shapes, strides and positions list their coordinates", "statement": "The numbers in the text of a shape or stride are its extents, in order, and exactly the compile-time extents are marked with _c; so shapes with the same text have the same extents. The numbers in the text of a position are its order and its coordinates, in order.", "quantifier": "all shapes and positions of all orders, all integer types", "why_tests_cant": "Every order, every value and every integer type.", "anchors": ["include/kwk/utility/container/shape.hpp: operator<<", "include/kwk/utility/container/stride.hpp: operator<<", "include/kwk/utility/position.hpp: operator<<"]}
{"id": "C106", "title": "Searching integers compares values", "statement": "find, find_last, find_first_of, count and replace treat an element as equal to a value exactly when the two numbers are equal, whatever the integer types of the elements and of the value.", "quantifier": "all containers, all contents, all pairs of integer types, all values", "why_tests_cant": "The types decide how the comparison converts its operands; every value of every type is concerned.", "anchors": ["include/kwk/algorithm/algos/find.hpp: find, find_last, find_first_of", "include/kwk/algorithm/algos/predicates.hpp: count", "include/kwk/algorithm/algos/replace.hpp: replace"]}
{"id": "C107", "title": "Binary searches on integers order by value", "statement": "In a container sorted by value, lower_bound, upper_bound and binary_search with the default comparison return the first element not less than the value, the first greater one, and whether the value is there, whatever the integer types of the elements and of the value.", "quantifier": "all sorted containers, all pairs of integer types, all values", "why_tests_cant": "All sorted contents, all values and all pairs of types.", "anchors": ["include/kwk/algorithm/algos/binary_search.hpp: lower_bound, upper_bound, binary_search"]}
{"id": "C108", "title": "Integers are stored with their value", "statement": "fill, generate, transform, copy and copy_if store the numbers they are given: an element read afterwards equals the number, whatever the integer types involved.", "quantifier": "all containers, all contents, all pairs of integer types", "why_tests_cant": "Every value of every type; the conversion is silent.", "anchors": ["include/kwk/algorithm/algos/generator.hpp: fill, generate", "include/kwk/algorithm/algos/transform.hpp: transform", "include/kwk/algorithm/algos/copy.hpp: copy, copy_if"]}
{"id": "C109", "title": "Counts do not overflow", "statement": "count_if returns the number of matching elements for every container of fewer than 2^64 elements, whatever the type of the elements; the computation never overflows.", "quantifier": "all containers, all contents, all predicates", "why_tests_cant": "Counts near the limits of the accumulator need containers larger than any memory.", "anchors": ["include/kwk/algorithm/algos/predicates.hpp: count_if, count"]}
{"id": "C110", "title": "is_compatible and is_equivalent compare shape types as documented", "statement": "a.is_compatible(b) holds exactly when a and b have the same order and no axis has two different compile-time extents; a.is_equivalent(b) holds exactly when the axes have the same names in the same order; is_similar implies is_compatible in both directions.", "quantifier": "all shape types: any order, any mix of names, compile-time and run-time extents", "why_tests_cant": "Shape types are template arguments: a test instantiates finitely many of infinitely many pairs.", "anchors": ["include/kwk/detail/sequence/prefilled.hpp: is_equivalent, is_compatible, is_similar, __checker", "include/kwk/settings/axis.hpp: is_equivalent"]}
{"id": "C111", "title": "Shapes and strides of different integer types compare by value", "statement": "Comparing two shapes or two strides whose numbers have different integer types gives the same answer as comparing their values: shapes of the same order are equal exactly when their extents are, a shape equals one of smaller order exactly when merging its leading extents gives it, and strides are equal exactly when their values are.", "quantifier": "all orders, all integer types of every number, all values the types represent", "why_tests_cant": "Wrong answers need products that wrap or a negative number meeting an unsigned type; a test fixes a few types and small values.", "anchors": ["include/kwk/utility/container/shape.hpp: operator==, compress", "include/kwk/utility/container/stride.hpp: operator=="]}
{"id": "C112", "title": "Algorithms on a slice act on the selected elements only", "statement": "fill, replace_if, transform in place and iota on c(slicers...) change exactly the elements of c that the slicers select (and, for replace_if, that satisfy the predicate), iota numbering them in the order of the selection, and leave every other element and every other cell untouched; count_if, all_of, any_of, none_of, reduce and find_if on a slice see exactly the selected elements, each once and in the order of the selection; copy between two slices of c of the same extents that share no element copies the i-th selected element onto the i-th; slicing with fewer slicers than axes is slicing the container with its leading axes merged.", "quantifier": "all shapes, all in-range slicers (indexes, whole axes, intervals with positive or negative steps), all element values and predicates, checked and unchecked builds", "why_tests_cant": "The slicers, shapes and steps combine without bound; a wrong cell shows only where the test looks, and untouched memory is not looked at.", "anchors": ["include/kwk/utility/slicer.hpp: reindex, reshape, restride, origin", "include/kwk/utility/container/shape.hpp: operator()", "include/kwk/utility/container/stride.hpp: operator()", "include/kwk/algorithm/algos/generator.hpp: fill", "include/kwk/algorithm/algos/replace.hpp: replace_if", "include/kwk/algorithm/algos/copy.hpp: copy"]}
{"id": "C113", "title": "Sizes known at compile time stay known", "statement": "An extent of a compressed or sliced shape is a compile-time constant exactly when all the numbers it is computed from are: the merged extents, the extent of the axis, and the constants written in the slicer and in its expressions on end. Being known at compile time never changes the value of an extent.", "quantifier": "all shapes with any mix of compile-time and run-time extents, all slicers, all expressions on end, all integer types", "why_tests_cant": "Each mix of constants and run-time numbers is a different type: a test instantiates finitely many.", "anchors": ["include/kwk/utility/slicer.hpp: reshape", "include/kwk/utility/container/shape.hpp: compress, operator()", "include/kwk/utility/end.hpp: end_t", "include/kwk/utility/fixed.hpp: constant"]}
{"id": "C114", "title": "The container concepts accept what their settings ask for", "statement": "concepts::container<T, settings...> accepts T exactly when T has the wanted value type and its shape type has the order and all compile-time extents of the wanted shape; every accepted T is accepted by exactly one of concepts::table and concepts::view; and the shape of an accepted container can be represented as the wanted shape: it converts to it and keeps its extents.", "quantifier": "all value types, all shape types (any order, names, compile-time and run-time extents), all extents", "why_tests_cant": "The concepts range over infinitely many types; the tests of the library check a few dozen.", "anchors": ["include/kwk/concepts/container.hpp: container, table, view, same_shape", "include/kwk/detail/sequence/prefilled.hpp: is_similar", "include/kwk/detail/sequence/shape_constraints.hpp: is_contructible_from, construct"]}
{"id": "C115", "title": "Axes merge, compare and print consistently", "statement": "Merging axes one after the other gives the last name among them, or the first index if none has a name, and the product of their extents, which is unknown as soon as one of them is; two axes are equal exactly when they are the same axis with equal extents; two different axes are written differently.", "quantifier": "all lists of axes with any names, indexes, integer types and extents whose product stays below 2^31; for texts, all names without the characters < and [", "why_tests_cant": "Identifiers are template arguments, and the number and order of merged axes is not bounded.", "anchors": ["include/kwk/settings/axis.hpp: compress, operator==, operator<<", "include/kwk/utility/joker.hpp: operator*, operator=="]}
{"id": "C116", "title": "Programs with tables and algorithms have value semantics", "statement": "Take any program that creates, copies, moves, assigns, swaps and destroys tables, writes single elements, and calls fill, generate, iota, replace_if, transform, copy, copy_if, inclusive_scan, exclusive_scan, and fill and copy on slices of tables. If the program is meaningful when tables are thought of as plain values (objects exist, shapes agree, elements are written before they are read, slicers are in range), then it runs without fault, at the end every table holds exactly the value that the program computes on plain values, no other memory is changed, every block has exactly one owner, and reduce, find_if and count_if of a table give what they give for its value.", "quantifier": "all programs of any length, all shapes, slicers, element types, functions and values, checked and unchecked builds", "why_tests_cant": "Programs are unbounded sequences; an aliasing or ownership error shows only for particular interleavings of moves, assignments and algorithms.", "anchors": ["include/kwk/container/table.hpp:40-100", "include/kwk/algorithm/algos/generator.hpp:19-87", "include/kwk/algorithm/algos/transform.hpp:16-24", "include/kwk/algorithm/algos/copy.hpp:21-39", "include/kwk/algorithm/algos/replace.hpp:16-38", "include/kwk/algorithm/algos/numeric.hpp:142-217", "include/kwk/container/container.hpp:140-152"]}
{"id": "C117", "title": "Algorithms are functions of the sequence of elements", "statement": "What an algorithm computes depends only on the elements of its containers in row-major order, not on their order, layout or kind. reduce is the left fold of the sequence, all_of, any_of, none_of, count_if and count are the corresponding list functions, find_if, find_if_not, find and find_first_of answer with the position whose number is the index of the first match, find_last_if with that of the last; lower_bound and upper_bound answer with the position whose number is the number of elements before the bound, binary_search whether an equivalent element occurs. fill, transform, replace_if, generate, iota, copy, copy_if and the scans replace the sequence by the constant, mapped, generated, copied or scanned one. reverse shows the reversed sequence of the same cells, reshape the same sequence, a slice the selected entries.", "quantifier": "all containers of any order and layout, all contents, functions and values", "why_tests_cant": "Relates unbounded sequences of all lengths to every shape and stride that can present them.", "anchors": ["include/kwk/context/cpu/context.hpp:24-36", "include/kwk/algorithm/algos/reduce.hpp:29-36", "include/kwk/algorithm/algos/find.hpp:35-164", "include/kwk/algorithm/algos/binary_search.hpp:29-139", "include/kwk/algorithm/algos/generator.hpp:19-81", "include/kwk/algorithm/algos/numeric.hpp:28-198", "include/kwk/algorithm/views/reverse.hpp:13-21", "include/kwk/algorithm/views/reshape.hpp:17-21"]}
{"id": "C118", "title": "copy between containers that share memory", "statement": "copy(out, in) between containers of one shape leaves in out, position by position, what in held before the call, also when out and in are views of the same memory.", "quantifier": "all pairs of containers of the same shape with distinct cells, all overlaps, all contents", "why_tests_cant": "Depends on how the cells of the two containers interleave; all shifts, strides and lengths have to be considered.", "anchors": ["include/kwk/algorithm/algos/copy.hpp:21-25", "include/kwk/algorithm/algos/transform.hpp:16-24", "include/kwk/context/cpu/context.hpp:24-29"]}
{"id": "C119", "title": "Which arguments of a writing algorithm may share memory", "statement": "Let out have distinct cells. transform(f, out, in...) and transform_inclusive_scan(in, out, init, f1, f2) give, for every function and all contents, the result that the inputs determined before the call exactly if no element of an input is stored where an earlier element of out is. transform_exclusive_scan does exactly if no element of in, except the last one, is stored where an earlier element of out, or the one at the same position, is. copy_if does exactly if no element of in is stored where an earlier element of out is, unless that one is copied from the same cell.", "quantifier": "all containers of the same shape, all layouts and overlaps; on the other side all functions, predicates, initial values and contents", "why_tests_cant": "An if-and-only-if over all overlaps, with a quantification over all functions and memory contents on one side.", "anchors": ["include/kwk/algorithm/algos/transform.hpp:16-24", "include/kwk/algorithm/algos/copy.hpp:21-44", "include/kwk/algorithm/algos/numeric.hpp:142-147", "include/kwk/algorithm/algos/numeric.hpp:180-186", "include/kwk/context/cpu/context.hpp:24-29"]}
{"id": "C120", "title": "Const containers protect their elements", "statement": "The elements of a const table, or of a container whose element type is const, cannot be written: not by indexing it, and not through any chain of slices, reversed views, views and const references made from it. Conversely the slices of a container whose elements may be written may be written.", "quantifier": "all memory blocks, const or mutable containers and element types, all chains of accesses of any length", "why_tests_cant": "Writing to a const element is an error of compilation: a test program contains only what compiles, and chains of accesses are unbounded.", "anchors": ["include/kwk/container/container.hpp: operator(), get_data, settings", "include/kwk/detail/memory/heap_block.hpp: get_data", "include/kwk/detail/memory/stack_block.hpp: get_data", "include/kwk/detail/memory/shallow_block.hpp: get_data", "include/kwk/algorithm/views/reverse.hpp: reverse", "include/kwk/container/view.hpp: view"]}
{"id": "C121", "title": "Containers can be sliced by whatever slices their shape", "statement": "If a shape can be sliced by some slicers, then so can a container of this shape, whether the numbers in the slicers and the extents are compile-time constants or not; and the slice starts at the same element as when all the numbers are known at run time only.", "quantifier": "all shapes with any mix of compile-time and run-time extents, all slicers, all expressions on end, all integer types", "why_tests_cant": "Each mix of constants and run-time numbers is a different type, and the failure is an error of compilation, which a test cannot contain.", "anchors": ["include/kwk/container/container.hpp: operator()", "include/kwk/utility/slicer.hpp: origin, reindex", "include/kwk/utility/linear_index.hpp: linear_index", "include/kwk/utility/end.hpp: end_t"]}
{"id": "C122", "title": "Programs that use views and decide on answers have value semantics", "statement": "Take any program that creates, copies, moves, assigns, swaps and destroys tables, gives whole tables, reshaped tables, reversed tables and slices of (reshaped) tables to fill, generate, iota, replace_if, transform, copy, copy_if and the scans, asks reads, sizes, reduce, find_if, find_last_if, count_if, all_of, any_of, none_of, lower_bound, upper_bound, binary_search and inner_product, and decides on the answers what to do next. A view of a table is thought of as a way to number positions of its value. If the program is meaningful on plain values and then returns r, it runs without fault, returns r, leaves every table with the value it has in the plain run, changes no other memory, and every block has exactly one owner.", "quantifier": "all programs with any control flow, all shapes, views, element types, functions, results and values, checked and unchecked builds", "why_tests_cant": "Tests call one algorithm on one view; that writes through one view are seen by all others, and that branches on answers never diverge from the plain program, quantifies over every program.", "anchors": ["include/kwk/container/table.hpp:40-100", "include/kwk/container/container.hpp:128-152", "include/kwk/algorithm/views/reshape.hpp:18-22", "include/kwk/algorithm/views/reverse.hpp:13-21", "include/kwk/algorithm/algos/find.hpp:35-192", "include/kwk/algorithm/algos/copy.hpp:21-39", "include/kwk/algorithm/algos/numeric.hpp:91-217", "include/kwk/algorithm/algos/binary_search.hpp:29-139"]}
{"id": "C123", "title": "Sizes known at compile time take no room", "statement": "The size of a shape or stride object depends only on the types of its run-time values: n of them of one type take n times its size, and none make an empty class. A view of compile-time shape is as large as a pointer, a table of compile-time shape as its elements. In general a container takes the room of its label, of its pointer (and allocator) or elements, of its run-time extents and, from order 3 on, of its run-time strides.", "quantifier": "all descriptors of shapes with standard integer types, with or without label, views, stack and heap tables", "why_tests_cant": "Sizes are tested for a few shapes with one type of extents; combinations of types, compile-time and run-time axes of any order cannot be enumerated.", "anchors": ["include/kwk/detail/sequence/prefilled.hpp: prefilled_base::make_storage", "include/kwk/detail/container/accessor.hpp: accessor specialisations", "include/kwk/container/container.hpp: container bases", "include/kwk/utility/container/shape.hpp: documentation of static size parameters"]}
{"id": "C124", "title": "Calls of algorithms reach the function meant", "statement": "Every way to call an algorithm (with or without a context, with or without functions and initial values, for any number of containers) whose context and outputs are named objects selects the function template meant for these arguments, whether the function object, inputs and values are named, const or temporary. Following the calls in the bodies ends in the function that runs the loops, with the arguments in their places, the documented defaults (sum, product, identity, less, zero) for those left out, and the context given, or the CPU if none is. Containers, shapes and contexts are not copied on the way; inputs are seen as const and outputs as const only if they are. A call with something else in the place of a container or of a shape is rejected.", "quantifier": "every form of call of the 32 algorithms, every number of containers for for_each and transform, every combination of value categories and constness of the arguments, with or without context", "why_tests_cant": "Overload resolution depends on the value category and constness of every argument and on the number of containers. The tests use temporary lambdas and named non-const views; a test that does not compile cannot be kept in the suite.", "anchors": ["include/kwk/algorithm/algos/for_each.hpp:25-118", "include/kwk/algorithm/algos/transform.hpp:16-32", "include/kwk/algorithm/algos/reduce.hpp:29-66", "include/kwk/algorithm/algos/numeric.hpp:28-216", "include/kwk/algorithm/algos/find.hpp:35-199", "include/kwk/algorithm/algos/binary_search.hpp:29-155"]}
{"id": "C125", "title": "Operations on tables that throw leave everything as it was", "statement": "If the construction or assignment of a table throws (copy of the label, allocator, copy of the allocator into the deleter, or assignment of an element), then all tables are as before, no memory stays allocated for the failed operation, and no element that existed before is changed. A program that catches such exceptions keeps the invariant that each allocated block belongs to exactly one table, and is not terminated.", "quantifier": "every reachable state of tables, every operation, every combination of failing steps, every sequence of operations with caught exceptions", "why_tests_cant": "Failure injection at every step of every operation in every state is not done by the unit tests, and a lost block is not visible without a leak checker.", "anchors": ["include/kwk/detail/memory/heap_block.hpp:37-63", "include/kwk/container/container.hpp:37-47", "include/kwk/container/table.hpp:54-98", "include/kwk/utility/memory/any_allocator.hpp:76-79"]}
{"id": "C126", "title": "A table whose memory could not be obtained does not pass for a usable table", "statement": "When the construction or assignment of a table ends without an exception, every position of the table can be read; when the allocator cannot provide the memory, the operation reports this by an exception and does not access memory.", "quantifier": "every reachable state, every shape, every operation that builds a table, every failure of the allocator", "why_tests_cant": "Tests do not exhaust memory, and the behaviour after a null pointer is undefined.", "anchors": ["include/kwk/utility/memory/heap_allocator.hpp:31-34", "include/kwk/detail/memory/heap_block.hpp:39-63"]}
{"id": "C127", "title": "Functions that throw inside algorithms: what is done stays done, the rest is untouched", "statement": "If a function given to transform, generate, copy_if, replace_if, inclusive_scan or exclusive_scan throws at a position, the exception reaches the caller, the positions before it in row-major order have been processed (for exclusive_scan the position itself too), and no other cell of memory is changed. reduce, count_if, all_of, any_of and find_if let the exception out if and only if the function is called at the position, that is unless the answer was known before. The same holds for none_of, transform_reduce, inner_product and, from the last position backwards in a container with the default layout, find_last_if. for_each makes its calls in row-major order until one throws and leaves the function object and the memory as the last call left them. lower_bound, upper_bound and binary_search either let an exception of the comparison at an element out, or give the result that any comparison with the same answers gives.", "quantifier": "all shapes, strides, memories, functions, exceptions and positions; containers that overlap in any way that does not overwrite inputs before they are read", "why_tests_cant": "Infinitely many functions and places to throw; tests use functions that do not throw.", "anchors": ["include/kwk/context/cpu/context.hpp:18-36", "include/kwk/detail/algorithm/for_each.hpp:24-40", "include/kwk/algorithm/algos/transform.hpp:16-24", "include/kwk/algorithm/algos/numeric.hpp:142-186", "include/kwk/algorithm/algos/find.hpp:35-63", "include/kwk/algorithm/algos/numeric.hpp:28-34", "include/kwk/algorithm/algos/for_each.hpp:55-117", "include/kwk/algorithm/algos/binary_search.hpp:29-139"]}
{"id": "C128", "title": "Containers and shapes can be sliced by objects of the user's own types", "statement": "A type that says where its selection starts (member reindex, or conversion to an index), how many indexes it has (member reshape, else one) and how far they are apart (member restride, else 1) can be used as a slicer, mixed with those of the library. The slice has the announced extents and shows the elements at the announced indexes, possibly in decreasing order or repeated. Shapes can be sliced by any type. With at most three slicers a slice is reported as contiguous only if it is, provided that types which declare has_step = false announce consecutive indexes.", "quantifier": "all slicer types (any functions of the shape, the strides and the axis), mixed lists of at most as many slicers as axes, all shapes and containers with default layout", "why_tests_cant": "The types are an open set; the unit test has one type with one member function and only slices shapes.", "anchors": ["include/kwk/utility/slicer.hpp:178-247", "include/kwk/concepts/slicer.hpp:16-50", "include/kwk/utility/traits/reachable.hpp:15-39", "include/kwk/container/container.hpp:140-151", "include/kwk/utility/container/shape.hpp:305-316"]}
{"id": "C129", "title": "Conversions between shapes that the types accept also work", "statement": "If the library says that a shape of one type can be constructed or assigned from a shape of another type, then the conversion compiles and it succeeds for every shape of the source type.", "quantifier": "all pairs of shape types (compile-time and run-time extents, names, integer types, any orders), all shapes of the source type", "why_tests_cant": "Infinitely many pairs of types, and for each of them all run-time values; a rejected or failing conversion only shows in a program that uses this pair.", "anchors": ["include/kwk/detail/sequence/shape_constraints.hpp:16-67", "include/kwk/utility/container/shape.hpp:195-216", "include/kwk/utility/container/shape.hpp:382-394", "test/doc/shape/compatible.cpp:11-26"]}
{"id": "C130", "title": "Shapes, strides and positions can be decomposed by structured bindings", "statement": "A declaration such as auto [h, w] = s, with any combination of const, & and && that would be possible for a single variable, compiles for shapes, strides and positions with one name for each axis. The names read as the extents (strides, coordinates) in order. A name that is not read only can be assigned: this changes that extent and nothing else; the original changes if and only if the names refer to it.", "quantifier": "all descriptors of shapes and strides (compile-time and run-time extents, any order and types), all positions, all forms of the declaration, all value categories and constness of the right-hand side, all values", "why_tests_cant": "The only test decomposes one const shape of run-time extents by value; whether a declaration compiles depends on the combination of extents, form of the declaration and constness.", "anchors": ["include/kwk/detail/sequence/prefilled.hpp:211-270", "include/kwk/detail/sequence/prefilled.hpp:457-499", "include/kwk/utility/container/shape.hpp:408-419", "include/kwk/utility/container/stride.hpp:199-210", "include/kwk/utility/position.hpp:57-74", "include/kwk/utility/fixed.hpp:106-107"]}
{"id": "C131", "title": "Binary searches are right on containers of any size", "statement": "On a sorted container, whatever integer types its extents have and however many elements it holds, lower_bound returns the first position whose element is not less than the value, upper_bound the first position whose element is greater, and binary_search tells whether an equal element exists. No arithmetic overflows.", "quantifier": "all shapes with extents of any integer types and fewer than 2^63 elements, all sorted contents, all values", "why_tests_cant": "Containers with more than 2^31 elements do not fit in the memory of a test machine, and the result depends on the number of elements modulo 2^32.", "anchors": ["include/kwk/algorithm/algos/binary_search.hpp:29-58", "include/kwk/algorithm/algos/binary_search.hpp:77-103", "include/kwk/algorithm/algos/binary_search.hpp:123-139", "include/kwk/utility/container/shape.hpp:284-288", "include/kwk/utility/coordinates.hpp:31-55"]}
{"id": "C132", "title": "Linear interpolation is accurate in floating-point arithmetic", "statement": "Linear interpolation computed in floating-point arithmetic with p-bit coordinates, elements of absolute value at most M and N axes differs from the exact multilinear interpolation of the 2^N surrounding elements by at most ((1+2^-p)^(2N+2^N+1) - 1) M. At a grid point it returns the element itself, without error, if the result type represents the element and the surrounding elements are finite. Non-negative elements give a non-negative result, and larger elements do not give a smaller result. The result is finite if and only if all surrounding elements are. Coordinates whose integral part plus one does not fit in an int are undefined behaviour; below that no conversion overflows.", "quantifier": "all numbers of axes, all non-negative representable coordinates, all element values, all floating-point formats whose rounding has a bounded relative error (in particular rounding to nearest with any number of bits)", "why_tests_cant": "The tests compare a few interpolated values within a tolerance; rounding errors depend on the coordinates and on all elements, and grow with the number of axes.", "anchors": ["include/kwk/utility/container/interpolator.hpp:14-42", "include/kwk/utility/container/interpolator.hpp:44-61"]}
{"id": "C133", "title": "Sums, dot products and scans of floating-point elements are as accurate as sequential summation", "statement": "For n elements of one floating-point type whose operations have relative error at most u, reduce(c) differs from the exact sum by at most ((1+u)^(n-1) - 1) times the sum of the absolute values, transform_reduce and inner_product of two containers from the exact dot product by at most ((1+u)^n - 1) times the sum of the absolute products, and each element of a scan from the exact running sum by the corresponding bound for the elements it covers; an initial value of another floating-point type adds at most one rounding per element. Results are finite if and only if the initial value and all elements are. If all partial sums are representable (in particular for integers below 2^p in total) the sum is exact. Larger elements do not give a smaller sum.", "quantifier": "all containers (any shape and layout), all element values, all floating-point formats whose rounding has a bounded relative error (in particular rounding to nearest with any number of bits), all floating-point initial values", "why_tests_cant": "Tests compare a few sums within a tolerance; the rounding errors depend on all elements and on the order of the additions.", "anchors": ["include/kwk/algorithm/algos/reduce.hpp:29-66", "include/kwk/algorithm/algos/numeric.hpp:28-140", "include/kwk/algorithm/algos/numeric.hpp:142-216"]}
{"id": "C134", "title": "Searches by value go by the number, whatever the arithmetic types", "statement": "find(c, v) returns the first position whose element is the number v, find_last(c, v) the last one, count(c, v) how many there are, and find_first_of(c, values) the first position whose element is the same number as one of the values, when the elements and the values have any integer or floating-point types. Infinities are found; NaN is never found or counted.", "quantifier": "all containers and contents, all element types and value types among the integer types and the binary floating-point formats (any number of significant bits, any rounding direction), all values", "why_tests_cant": "Tests use small numbers, for which the conversions before a comparison are exact; the conversions depend on both types and on the magnitude.", "anchors": ["include/kwk/algorithm/algos/find.hpp:72-116", "include/kwk/algorithm/algos/find.hpp:173-184", "include/kwk/algorithm/algos/predicates.hpp:63-72"]}
{"id": "C135", "title": "Binary searches go by the order of numbers, whatever the arithmetic types", "statement": "On a container sorted by the numbers its elements stand for, lower_bound(c, v) returns the first position whose element is not below v, upper_bound(c, v) the first position whose element is above v, and binary_search(c, v) tells whether v is an element, when the elements and the value have any integer or floating-point types, including infinities.", "quantifier": "all containers sorted by number, all element types and value types among the integer types and the binary floating-point formats (any number of significant bits, any rounding direction), all values", "why_tests_cant": "Tests search a few sorted tables of one type for small numbers; mixed types and numbers that are rounded before the comparison are not tried.", "anchors": ["include/kwk/algorithm/algos/binary_search.hpp:64-154"]}
{"id": "C136", "title": "Assignments to elements of another arithmetic type convert each number as specified, and touch nothing else", "statement": "fill, generate, transform, copy, copy_if, replace_if and replace assign exactly the selected elements. A number which the element type has is stored unchanged; otherwise it is reduced modulo the size of the type (integer to integer), cut to its integer part (floating point to integer) or rounded (to floating point). The run is undefined if and only if a number that is assigned is NaN, infinite or has an integer part that does not fit, and the elements are integers; elements that are not selected do not matter.", "quantifier": "all containers with distinct cells, all contents, all functions and predicates, all element types and value types among the integer types and the binary floating-point formats", "why_tests_cant": "Tests assign values of the element type; out-of-range conversions are undefined behaviour that a test run does not show, and they depend on the contents.", "anchors": ["include/kwk/algorithm/algos/generator.hpp:19-43", "include/kwk/algorithm/algos/transform.hpp:16-31", "include/kwk/algorithm/algos/copy.hpp:21-44", "include/kwk/algorithm/algos/replace.hpp:16-37"]}
{"id": "C137", "title": "iota with floating-point numbers stores an arithmetic progression", "statement": "iota(c, v) assigns v + k and iota(c, v, s) assigns v + k * s at the position of linear index k, converted to the type of the elements, for floating-point v and s and elements of any arithmetic type; nothing else changes.", "quantifier": "all containers with distinct cells (any shape), all start values and steps, all binary floating-point formats (any number of significant bits) and integer element types", "why_tests_cant": "The error accumulates over the container, and value++ stops having an effect only beyond 2^24 elements for float, which no test reaches.", "anchors": ["include/kwk/algorithm/algos/generator.hpp:46-81"]}
{"id": "C138", "title": "Element-wise algorithms, quantifiers and counts do not depend on the order in which a user's context visits the positions", "statement": "In any context whose map visits every position once, fill, generate, transform, copy, copy_if, replace_if and replace give every element the value of its own position and change nothing else; all_of, any_of, none_of, count, count_if and find_first_of return what they return on cpu. For transform, copy and copy_if no element of an input may be stored where another element of the output is, and for copy between containers of distinct cells this condition is exact.", "quantifier": "all contexts (any visiting order), all shapes, strides, contents, functions and predicates", "why_tests_cant": "The tests only run the cpu context, which has one order; a set of n positions has n! orders.", "anchors": ["include/kwk/context/base.hpp:15-26", "include/kwk/context/cpu/context.hpp:16-39", "include/kwk/algorithm/algos/generator.hpp:19-37", "include/kwk/algorithm/algos/transform.hpp:16-24", "include/kwk/algorithm/algos/copy.hpp:21-39", "include/kwk/algorithm/algos/replace.hpp:16-32", "include/kwk/algorithm/algos/predicates.hpp:27-79", "include/kwk/algorithm/algos/find.hpp:100-110"]}
{"id": "C139", "title": "Reductions in a user's context agree with cpu exactly when elements may be exchanged", "statement": "reduce(ctx, c, f, init) returns the fold of the elements in row-major order for every context that visits each position once, if and only if f(f(a, x), y) = f(f(a, y), x) for every value a that can be reached from init; under the same condition transform_reduce and inner_product do.", "quantifier": "all contexts (any visiting order), all containers and contents, all functions and initial values", "why_tests_cant": "The claim is about every order of the positions and every function; tests use sums on cpu.", "anchors": ["include/kwk/algorithm/algos/reduce.hpp:27-36", "include/kwk/algorithm/algos/numeric.hpp:28-34", "include/kwk/algorithm/algos/numeric.hpp:91-101"]}
{"id": "C140", "title": "iota and scans follow the row-major order in every context", "statement": "In any context whose map visits every position once, iota(ctx, c, v) stores v + k and iota(ctx, c, v, s) stores v + k * s at the position of linear index k, and inclusive_scan and exclusive_scan store the sums of the elements up to, respectively before, each position in row-major order.", "quantifier": "all contexts (any visiting order), all shapes and contents", "why_tests_cant": "The tests only run the cpu context; the order of the visits is a property of the user's context.", "anchors": ["include/kwk/algorithm/algos/generator.hpp:46-81", "include/kwk/algorithm/algos/numeric.hpp:142-198"]}
{"id": "C141", "title": "Algorithms in a context that runs the calls concurrently have no data race and give the sequential result", "statement": "When a context runs the calls of a callback concurrently, in any interleaving of their accesses, no two calls access the same place with at least one of them writing, and when the calls have ended the result is that of the sequential algorithm.", "quantifier": "all interleavings of the accesses of the calls, all containers and contents, all functions", "why_tests_cant": "Races show up only under some interleavings and the library has no concurrent context to test with; the number of interleavings is exponential.", "anchors": ["include/kwk/context/cpu/context.hpp:24-36", "include/kwk/algorithm/algos/reduce.hpp:27-36", "include/kwk/algorithm/algos/generator.hpp:19-81", "include/kwk/algorithm/algos/transform.hpp:16-24", "include/kwk/algorithm/algos/copy.hpp:34-39", "include/kwk/algorithm/algos/replace.hpp:16-20", "include/kwk/algorithm/algos/numeric.hpp:28-34", "include/kwk/algorithm/algos/numeric.hpp:142-186"]}
{"id": "C142", "title": "An algorithm that a user writes for their own context is used by all calls with this context", "statement": "If a user writes, next to their context, their own version of an algorithm that does the work (such as reduce, as the library asks for), then every call with this context whose work is done by this algorithm (such as count or all_of) uses the user's version, with the same objects; all other calls are unchanged and none becomes ambiguous.", "quantifier": "all algorithms and ways to call them, all value categories of context and arguments, contexts taken by reference, by reference to const or by value, any number of containers", "why_tests_cant": "Each combination of call, categories and signature of the user's version needs its own test, and a version that is silently bypassed gives the same values.", "anchors": ["include/kwk/algorithm/algos/reduce.hpp:27-66", "include/kwk/algorithm/algos/predicates.hpp:27-85", "include/kwk/algorithm/algos/numeric.hpp:28-216", "include/kwk/algorithm/algos/copy.hpp:21-45", "include/kwk/algorithm/algos/for_each.hpp:25-118", "include/kwk/algorithm/algos/transform.hpp:16-32", "include/kwk/algorithm/algos/find.hpp:35-199"]}
{"id": "C143", "title": "Extents of the user's own types can be used like those of the library", "statement": "If the user gives a type overloads of tag_invoke for to_descriptor and as_dimension, then its objects can be passed wherever extents are: of_size, with_strides and the constructors give the shape with the number that as_dimension returns, stored or known at compile time as to_descriptor says, alone or under the name of an axis, and stored as T by of_size<T>. The overloads of the user go before what the library would make of the type. What the constraints of a constructor accept can be built.", "quantifier": "all lists of arguments mixing the library's extents and objects of any user types (with or without conversion to std::size_t, overloads and constant members), all descriptors, both build modes", "why_tests_cant": "The tests call to_descriptor and as_dimension once each for one type and never build a shape from it; every combination of what a type provides with the position, the declared axis and the build mode is a different instantiation.", "anchors": ["include/kwk/utility/traits/to_descriptor.hpp:15-106", "include/kwk/utility/traits/as_dimension.hpp:15-92", "include/kwk/utility/invoke/tag_invoke.hpp:20-49", "include/kwk/utility/invoke/protocol.hpp:70-122", "include/kwk/concepts/extent.hpp:16-46", "include/kwk/detail/sequence/prefilled.hpp:81-185", "include/kwk/utility/container/shape.hpp:170-172", "include/kwk/utility/container/shape.hpp:338-353"]}
{"id": "C144", "title": "The elements of a table are constructed before they are used and destroyed once", "statement": "For every element type, every program that makes tables (empty, from a source, from another container), copies, moves, assigns, swaps, writes and destroys them uses elements only between their construction and their destruction, constructs no element over another one, and destroys every element it constructed before the storage is given back. When all tables are gone there were as many destructions as constructions at every place.", "quantifier": "all element types, all programs of operations on named tables with run-time shape or with fully static shape, all sources, all allocators", "why_tests_cant": "The tests only use tables of arithmetic types, for which constructors and destructors do nothing; a wrong lifetime is undefined behaviour and shows only for some types, in some programs and under some tools.", "anchors": ["include/kwk/detail/memory/heap_block.hpp:28-63", "include/kwk/detail/memory/stack_block.hpp:26-50", "include/kwk/container/table.hpp:54-98", "include/kwk/container/container.hpp:37-63", "include/kwk/utility/memory/heap_allocator.hpp:31-45"]}
{"id": "C145", "title": "A view of a table shows its elements until the table that has them is destroyed or assigned to", "statement": "A view or slice taken from a table shows the elements of that table, not a copy. Moving the table, move-assigning it to another one and swapping it take the elements along: afterwards the view shows the elements of the table they went to, at the same positions, and an assignment through either is seen through the other. Nothing else changes where a view looks: neither new tables, nor copies, nor algorithms. The values seen change only by assignments to elements of that table. The elements end when the table that has them is destroyed or assigned to, also by itself; from then on every access through the view is an error, however many tables are made later.", "quantifier": "all element types, all tables, views and slices, all programs of table operations and algorithm calls before and after the view was taken", "why_tests_cant": "A dangling view often still reads the old values, so a test passes by luck; and whether a view survives depends on the whole sequence of moves, swaps and assignments in between, of which there are infinitely many.", "anchors": ["include/kwk/container/table.hpp:54-98", "include/kwk/container/view.hpp:69-71", "include/kwk/container/container.hpp:140-151", "include/kwk/detail/memory/heap_block.hpp:28-63"]}
{"id": "C146", "title": "Views of more than 2^31 elements", "statement": "A view of memory with extents of 64-bit types may have up to 2^63 - 1 elements. The element at a valid position is the one at the row-major index, in whatever integer types the coordinates are given and in checked and unchecked builds. A slice of it shows the selected elements, and the reversed view shows the elements from the last to the first.", "quantifier": "all shapes with 64-bit extents and less than 2^63 elements, all positions with coordinates of all integer types, all slicers with bounds and steps of all types computed with as signed numbers, both build modes", "why_tests_cant": "No test uses extents above a few dozen, or types other than int along a sliced axis; billions of elements cannot be allocated in a unit test, and an overflow that shows at position 1073741824 is invisible below.", "anchors": ["include/kwk/utility/container/shape.hpp:240-245", "include/kwk/utility/container/shape.hpp:284-288", "include/kwk/utility/container/stride.hpp:129-137", "include/kwk/utility/container/stride.hpp:173-189", "include/kwk/utility/slicer.hpp:66-144", "include/kwk/algorithm/views/reverse.hpp:13-21"]}
{"id": "C147", "title": "Algorithms run over containers, views and slices of all integer types element by element in row-major order", "statement": "Whatever the integer types of the extents of one or more containers of the same extents are, for_each runs the function on their first elements, then on their second elements, and so on up to the last, and the searches run the predicate in the same order until it is true. Over a slice, they run the function on the selected elements in row-major order, whatever the types of the extents, bounds, steps and lengths are; this also holds for views with 64-bit extents of up to 2^63 - 1 elements.", "quantifier": "all shapes, all integer types of extents, all slicers with bounds, steps and lengths of all integer types whose numbers fit, all functions on all states", "why_tests_cant": "The coordinates handed to the containers have the types of the loop counters, which are those of the extents of the first container; for slices these are computed by the library from the types of extent, bounds and step. Tests use int throughout; products that leave the type of step and coordinate only show for unsigned int or beyond 2^31.", "anchors": ["include/kwk/algorithm/algos/for_each.hpp:55-60", "include/kwk/detail/algorithm/for_each.hpp:24-40", "include/kwk/detail/algorithm/for_until.hpp:18-36", "include/kwk/utility/fixed.hpp:30-45", "include/kwk/utility/slicer.hpp:66-144", "include/kwk/container/container.hpp:128-151"]}
{"id": "C148", "title": "Algorithms on containers with extents of all integer types compute the functions on lists", "statement": "Whatever the integer types of the extents of a container in row-major layout are, reduce, all_of, any_of, none_of, count, count_if and the pairwise reductions return what the function on the list of the elements returns; the searches return the position of the first element that satisfies the predicate, as far as the int coordinates of a kwk::position can hold it; fill, replace_if, generate, iota, transform, copy, copy_if and the scans leave the results of the function on lists in the output and change no other cell. Containers used together may have different types of extents.", "quantifier": "all shapes with extents of all integer types and less than 2^31 elements, or with 64-bit extents and less than 2^63 elements; all values, functions and predicates; all placements of inputs that are the output or apart from it", "why_tests_cant": "Counters, strides and offsets are computed in types that follow from the extents of the first container; tests have int extents throughout and a handful of elements, and check the output, not the memory around it.", "anchors": ["include/kwk/detail/algorithm/for_each.hpp:24-40", "include/kwk/algorithm/algos/for_each.hpp:55-60", "include/kwk/algorithm/algos/reduce.hpp:29-36", "include/kwk/algorithm/algos/find.hpp:35-63", "include/kwk/algorithm/algos/transform.hpp:16-24", "include/kwk/detail/container/accessor.hpp:19-178"]}
{"id": "C149", "title": "Algorithms on slices and reversed views of all integer types act on the selected entries of the array", "statement": "If the elements of a row-major container are an array, then reduce, count_if and find_if on a slice compute the functions on the list of the selected entries in row-major order of the selection; fill, replace_if, transform in place, iota, generate, an inclusive scan in place and copy to a slice change exactly the selected entries; copies and scans from a slice leave the selected entries, or their partial results, in order. This holds with and without assertions. reverse shows the array in reverse, algorithms that write through it write the array, and find_last_if returns the position of the last match. This holds whatever the integer types of extents, bounds, steps and lengths are.", "quantifier": "all shapes, all integer types of extents, all slicers with bounds, steps and lengths of all integer types whose numbers fit, all values, functions and predicates", "why_tests_cant": "Strides of slices and reversed views are products and negations computed in types that follow from extents and steps; with int they are right. Tests check a slice of a few int elements and never what the algorithm does to entries that are not selected.", "anchors": ["include/kwk/container/container.hpp:140-151", "include/kwk/utility/slicer.hpp:66-144", "include/kwk/algorithm/views/reverse.hpp:13-23", "include/kwk/algorithm/algos/find.hpp:121-164", "include/kwk/detail/container/accessor.hpp:99-126", "include/kwk/algorithm/algos/copy.hpp:21-25"]}
{"id": "C150", "title": "Containers can be copied, assigned and exchanged whatever their shape, strides and label", "statement": "Tables of every type can be copied and assigned, containers can be made of and assigned from every container that the concept of the constructor accepts, and two containers of the same type can be exchanged. A copy or assigned table shows the label, shape and strides of the original; an exchange exchanges label, elements, shape and strides.", "quantifier": "all types of containers (orders, constant and run-time extents, axis names, default and given strides, with and without label), all values", "why_tests_cant": "Whether the code compiles depends on which of six variants of the accessor the type selects, and member functions of templates are only checked when used; the tests assign no table of one dimension, copy no table with a label or with given strides, and a test that does not compile cannot be kept as a test.", "anchors": ["include/kwk/detail/container/accessor.hpp:19-188", "include/kwk/container/container.hpp:45-63", "include/kwk/container/container.hpp:75-78", "include/kwk/container/table.hpp:74-98", "include/kwk/container/view.hpp:68-79", "include/kwk/detail/container/metadata.hpp:17-46"]}
{"id": "C151", "title": "Any contiguous object can be the source of a container, const or not", "statement": "source = x is accepted exactly when x is a C array, a std::array, a contiguous range with data() and size(), or a pointer. The elements of a container built from it are then the innermost elements of the array, or the elements of the range; they are const exactly where x gives access to const elements only. The container starts at the first of them, element number i is element number i of the object, and nothing outside of the object is read. Whether x is const, or a temporary, makes no other difference.", "quantifier": "all nested arrays (C arrays and std::arrays in any order, const or not at any level), ranges and pointers; lvalues and rvalues; all lengths and element numbers", "why_tests_cant": "The tests use a few arrays that are not const; the behaviour depends on the type at each level of nesting, on const and on the value category, and reading outside of an array can go unnoticed.", "anchors": ["include/kwk/settings/source.hpp:25-44", "include/kwk/detail/range.hpp:18-43", "include/kwk/concepts/range.hpp:18-41", "include/kwk/settings/source/array_source.hpp:33-36"]}
{"id": "C152", "title": "Labels and allocators that are accepted can be used", "statement": "A view or table can be built from any list of options each of which is accepted on its own: label = x for whatever x converts to std::string, allocator = x for any allocator with its two functions. relabel(c, x) compiles for whatever its constraint accepts. The order of the options does not matter for this.", "quantifier": "all lists of options and all types of their values (scalars, pointers, arrays, classes with public or private members, nested to any depth)", "why_tests_cant": "The tests use string literals and the default allocator only; whether a program compiles for every type of label or allocator cannot be tested by running programs that compile.", "anchors": ["include/kwk/settings/label.hpp:19-22", "include/kwk/settings/allocator.hpp:17-20", "include/kwk/container/view.hpp:92-100", "include/kwk/container/table.hpp:111-117", "include/kwk/algorithm/views/relabel.hpp:18-22", "include/kwk/detail/container/builder.hpp:19-20"]}
{"id": "C153", "title": "Axes for which no extent is given by name have extent 1", "statement": "A shape whose axes are named can be built from named extents for some of its axes: axes with a value given have this value, compile-time axes keep theirs, jokers give the default, and run-time axes without a value have extent 1, as documented. In checked builds a value that contradicts a compile-time extent is rejected.", "quantifier": "all lists of named axes (compile-time or run-time, any integer types), all lists of named values for distinct axes of the shape that the axes can hold, both build modes", "why_tests_cant": "Every subset of the axes of every shape type is a case of its own; the tests give all extents.", "anchors": ["include/kwk/utility/container/shape.hpp:112-118", "include/kwk/detail/sequence/prefilled.hpp:103-129", "include/kwk/detail/sequence/prefilled.hpp:148-153"]}
{"id": "C154", "title": "Interpolation takes coordinates of any arithmetic types", "statement": "At a point inside of the grid of a container, whose coordinates may mix integers and floating-point numbers of any types and whose extents have any integer types, linear interpolation returns the multilinear interpolation of the surrounding elements up to the rounding errors of float arithmetic (the element itself at a grid point), and floor interpolation returns the element below the point. No element outside of the container is read.", "quantifier": "all row-major containers with extents of any integer types, all element values and floating-point or integer element types, all points inside of the grid, every choice of arithmetic types for their coordinates", "why_tests_cant": "The tests interpolate at points with float or double coordinates in small arrays; coordinates beyond the range of int, mixtures of types and rounding on all points need a proof.", "anchors": ["include/kwk/utility/container/interpolator.hpp:14-42", "include/kwk/utility/container/interpolator.hpp:44-61", "include/kwk/utility/container/interpolator.hpp:63-70"]}
{"id": "C155", "title": "Binary searches are safe and locally right on contents that are not sorted", "statement": "Whatever the contents of a container, sorted or not, lower_bound ends and returns a place where the comparison changes its answer: the element there does not precede the value, and the element just before it does; without a result the last element precedes the value. upper_bound does likewise for elements that the value precedes. binary_search never reports a value when no element is equivalent to it.", "quantifier": "all shapes, layouts and contents, all comparison functions (no order is assumed), all values, both build modes; for the default comparison all pairs of integer types", "why_tests_cant": "The tests search sorted arrays; the contents and comparisons for which nothing is sorted are unbounded.", "anchors": ["include/kwk/algorithm/algos/binary_search.hpp:29-58", "include/kwk/algorithm/algos/binary_search.hpp:77-103", "include/kwk/algorithm/algos/binary_search.hpp:123-139"]}
{"id": "C156", "title": "Algorithms declared constexpr can be used in constant expressions", "statement": "Every algorithm that the library declares constexpr (for_each, for_each_index, reduce and the algorithms built on it, transform_reduce, inner_product, fill, iota, generate, transform, copy, copy_if, replace, the scans) can be evaluated in a constant expression on constant containers and shapes, with constexpr functions and within its preconditions: no function that the evaluation reaches is not constexpr. It takes one element of each container, and calls the user's function once, at each position.", "quantifier": "all algorithms declared constexpr, all shapes, any number of containers, both build modes", "why_tests_cant": "The tests call the algorithms at run time only; which functions an evaluation reaches depends on the algorithm, the shape and the build mode, and templates that are never constant expressions need no diagnostic.", "anchors": ["include/kwk/context/base.hpp:24-26", "include/kwk/context/cpu/context.hpp:18-36", "include/kwk/container/container.hpp:115-138", "include/kwk/algorithm/algos/reduce.hpp:29-36", "include/kwk/algorithm/algos/for_each.hpp:25-60"]}
{"id": "C157", "title": "Exceptions of elements of fully static tables reach the caller and lose nothing", "statement": "When a constructor or assignment operator of an element throws during an operation on tables whose shape is fully static, the exception reaches the caller of the operation. The elements constructed so far by the operation are destroyed, no table loses an element, and every table keeps its values; only a move may leave the elements it had moved so far moved. After every program that catches these exceptions, elements were used only between their construction and their destruction, and each construction has its destruction.", "quantifier": "all element types, all choices of the calls that throw, all programs of operations on named tables with fully static shape (default construction, construction with and without source, copies, moves, assignments, swaps, writes, ends of life), all sources", "why_tests_cant": "The tests only use tables of arithmetic types, whose constructors and assignments do not throw; which call throws first, and in which program, has no finite list.", "anchors": ["include/kwk/detail/memory/stack_block.hpp:26-49", "include/kwk/container/container.hpp:37-63", "include/kwk/container/table.hpp:54-98"]}
{"id": "C158", "title": "Failed assertions are reported and explained", "statement": "When an assertion of the library fails (linear_index and coordinates out of bounds, inner_product of different shapes, extents that contradict a compile-time axis, subscripts of shapes), exactly one report is made: it says that the assertion is one of kiwaku, gives the condition, file and line, the axis, and every number involved (indexes, extents, expected and given values), and the program then ends without undefined behaviour. For constructors it is the first contradiction that is reported. Nothing is reported when no assertion fails or when assertions are disabled, and results do not depend on the way of reporting.", "quantifier": "all calls of the functions with assertions, all shapes, descriptors, indexes and extents of all integer types, run-time or constant; all builds: own reports, Boost handlers that end, return or throw, debugger break, disabled assertions", "why_tests_cant": "A failing assertion ends the test program; the text depends on types, constness and order of the arguments, and the handler on the build configuration, so a few examples of messages show neither which numbers are unreadable nor what a handler receives.", "anchors": ["include/kwk/detail/assert.hpp:25-109", "include/kwk/utility/linear_index.hpp:29-37", "include/kwk/utility/coordinates.hpp:31-55", "include/kwk/detail/sequence/prefilled.hpp:80-204", "include/kwk/detail/sequence/prefilled.hpp:272-310", "include/kwk/algorithm/algos/numeric.hpp:91-101", "include/kwk/settings/axis.hpp:72-84"]}
{"id": "C159", "title": "Values given to algorithms may be elements of the containers", "statement": "fill, iota (with and without step), replace, replace_if (the new value and the members of the function object), the scans, reduce, transform_reduce, inner_product, count, find, find_last, lower_bound, upper_bound and binary_search work with the values their arguments hold before the call, also when the arguments are elements of the container that is being written or read: an element can be given in place of a variable that holds the same value, with the same outcome. The objects given keep their values unless they are elements of the container that is written, and nothing else in memory changes.", "quantifier": "all containers of any order, layout and memory, all argument objects (variables and elements), all values, both forms of every algorithm, all predicates, operations and orders", "why_tests_cant": "Tests pass literals or variables. Whether a parameter is taken by value, a lambda captures by copy or reference, and when an object is read relative to the writes shows only when an argument aliases an element, for every place of the element in the traversal.", "anchors": ["include/kwk/algorithm/algos/generator.hpp:19-87", "include/kwk/algorithm/algos/replace.hpp:16-38", "include/kwk/algorithm/algos/reduce.hpp:29-42", "include/kwk/algorithm/algos/numeric.hpp:28-40", "include/kwk/algorithm/algos/numeric.hpp:91-107", "include/kwk/algorithm/algos/numeric.hpp:142-192", "include/kwk/algorithm/algos/predicates.hpp:63-73", "include/kwk/algorithm/algos/find.hpp:72-84", "include/kwk/algorithm/algos/find.hpp:173-185", "include/kwk/algorithm/algos/binary_search.hpp:29-144"]}
{"id": "C160", "title": "Functions given to algorithms receive the elements themselves", "statement": "all_of, any_of, none_of, count_if, find_if, find_if_not, find_last_if, find_last_if_not, reduce, for_each, replace_if, copy_if and transform give the user's function the elements of the container by reference, in row-major order (from the last one on for the find_last functions), each exactly as often as the answer requires, and the algorithms that only read copy no element. A function may therefore decide by the address of what it is given, as in count_if(v, [&](auto const& x) { return &x == &v(1,0); }).", "quantifier": "all containers of any order, layout and memory, all element values, all functions of the address and value of their argument", "why_tests_cant": "Tests use predicates on values, for which a copy and the element are the same. Whether a lambda in between has a parameter auto or auto const& shows only with functions that look at addresses, or in the number of copies.", "anchors": ["include/kwk/algorithm/algos/predicates.hpp:27-85", "include/kwk/algorithm/algos/find.hpp:34-98", "include/kwk/algorithm/algos/find.hpp:121-200", "include/kwk/algorithm/algos/reduce.hpp:29-66", "include/kwk/algorithm/algos/for_each.hpp:55-84", "include/kwk/algorithm/algos/replace.hpp:16-20", "include/kwk/algorithm/algos/copy.hpp:34-39", "include/kwk/algorithm/algos/transform.hpp:16-24"]}
{"id": "C161", "title": "Algorithms that read accept elements that cannot be copied", "statement": "all_of, any_of, none_of, count, count_if, find, find_if, find_if_not, find_last, find_last_if, find_last_if_not, find_first_of, reduce and for_each compile for containers whose element type has no copy constructor, as they only look at the elements. No call copies an element.", "quantifier": "all of these algorithms, all element types with and without copy constructor, all containers with the default strides, all memories, values and functions that take references", "why_tests_cant": "Tests use int and float. A call that does not compile is not a failing test, and copies of numbers leave no trace.", "anchors": ["include/kwk/algorithm/algos/predicates.hpp:27-83", "include/kwk/algorithm/algos/find.hpp:34-117", "include/kwk/algorithm/algos/find.hpp:121-198", "include/kwk/algorithm/algos/reduce.hpp:29-66", "include/kwk/algorithm/algos/for_each.hpp:55-84"]}
{"id": "C162", "title": "Function objects with state of their own", "statement": "The algorithms that take a function accept function objects whose call operator changes them, such as [n = 0](auto x) mutable { return ++n == 3; }, in the form with and without context. All calls made by one run of an algorithm go to one object, so that such a function sees its calls in order: find_if(c, f) with this f answers the third position, reduce threads the state along the elements, and binary_search asks its last question to the object that has answered the others. Only transform, which takes the function by reference, changes the caller's object, and leaves it as the last call did.", "quantifier": "all algorithms with one or two functions, both forms, all function objects with const or non-const call operator and all their states, all containers, memories and elements", "why_tests_cant": "Tests use lambdas without state, or with captures by reference, for which all copies are one. That a copy captured by an inner lambda is const is seen only when a call does not compile, and which of two copies is asked shows only for functions that depend on earlier calls.", "anchors": ["include/kwk/algorithm/algos/predicates.hpp:27-85", "include/kwk/algorithm/algos/find.hpp:34-98", "include/kwk/algorithm/algos/find.hpp:121-198", "include/kwk/algorithm/algos/reduce.hpp:29-42", "include/kwk/algorithm/algos/transform.hpp:16-33", "include/kwk/algorithm/algos/numeric.hpp:28-204", "include/kwk/algorithm/algos/generator.hpp:32-43", "include/kwk/algorithm/algos/copy.hpp:34-45", "include/kwk/algorithm/algos/replace.hpp:16-26", "include/kwk/algorithm/algos/binary_search.hpp:29-144"]}
{"id": "C163", "title": "Ordered searches look at the elements themselves", "statement": "lower_bound, upper_bound and binary_search, with or without an order given, compile for containers whose element type has no copy constructor. They give their order references to elements of the container, at most floor(log2 n) + 1 of them and one more for binary_search, and copy none.", "quantifier": "all three searches with and without an order, all element types with and without copy constructor, all shapes, strides and memories, all orders by which the container is partitioned", "why_tests_cant": "Tests search in containers of numbers, whose copies leave no trace, and a call that does not compile is not a failing test.", "anchors": ["include/kwk/algorithm/algos/binary_search.hpp:29-74", "include/kwk/algorithm/algos/binary_search.hpp:77-120", "include/kwk/algorithm/algos/binary_search.hpp:123-155"]}
{"id": "C164", "title": "Values that are only compared need not be copyable", "statement": "find, find_last, count, lower_bound, upper_bound, binary_search and the old value of replace compile for a value that can be moved but not copied, if the caller gives it up with std::move; no call copies the value.", "quantifier": "all these algorithms with and without a context and with and without an order, all containers, all values given as variables or with std::move, all orders by which the container is sorted", "why_tests_cant": "Tests look for numbers, whose copies leave no trace; a call that does not compile is not a failing test.", "anchors": ["include/kwk/algorithm/algos/find.hpp:72-84", "include/kwk/algorithm/algos/find.hpp:173-185", "include/kwk/algorithm/algos/predicates.hpp:63-73", "include/kwk/algorithm/algos/replace.hpp:16-38", "include/kwk/algorithm/algos/binary_search.hpp:29-155"]}
{"id": "C165", "title": "Functions that can only be moved", "statement": "all_of, any_of, none_of, count_if, find_if, find_if_not, find_last_if, find_last_if_not, reduce, copy_if, generate, replace_if, transform, for_each, for_each_index, lower_bound, upper_bound, binary_search, transform_reduce, inner_product, exclusive_scan, inclusive_scan and the two transform_…_scan compile for a function object that can be moved but not copied, if the caller gives it up with std::move; no such call copies the function.", "quantifier": "all these algorithms with and without a context, all containers with distinct elements (in order, for the searches; output apart from input, for the scans), all functions, given as variables or with std::move", "why_tests_cant": "Tests pass lambdas without captures or with references, which can be copied unnoticed; a call that does not compile is not a failing test.", "anchors": ["include/kwk/algorithm/algos/predicates.hpp:27-85", "include/kwk/algorithm/algos/find.hpp:34-98", "include/kwk/algorithm/algos/find.hpp:121-199", "include/kwk/algorithm/algos/reduce.hpp:29-54", "include/kwk/algorithm/algos/copy.hpp:34-45", "include/kwk/algorithm/algos/generator.hpp:32-43", "include/kwk/algorithm/algos/replace.hpp:16-26", "include/kwk/algorithm/algos/transform.hpp:16-33", "include/kwk/algorithm/algos/for_each.hpp:25-118", "include/kwk/algorithm/algos/binary_search.hpp:29-145", "include/kwk/algorithm/algos/numeric.hpp:28-215"]}
{"id": "C166", "title": "Values that are stored or accumulated are not copied needlessly", "statement": "A value that the caller gives up with std::move is copied only where it must be: fill and iota copy it once for each element, replace_if and replace once for each element replaced, the scans copy the accumulated value once for each element of the output, and reduce, transform_reduce and inner_product copy neither the initial value nor the accumulated one, with or without a context and whichever functions are left out.", "quantifier": "all containers with distinct elements (output apart from input, for the scans), all contents, functions and values, given as variables or with std::move", "why_tests_cant": "Copies of numbers are invisible; tests would need types that count them, for every overload.", "anchors": ["include/kwk/algorithm/algos/reduce.hpp:29-66", "include/kwk/algorithm/algos/numeric.hpp:28-215", "include/kwk/algorithm/algos/generator.hpp:19-88", "include/kwk/algorithm/algos/replace.hpp:16-38"]}
