{"id": "C01", "title": "Union membership", "statement": "For any two values of the 15 supported types (6 std::ops ranges, 5 crate ranges, 4 crate sets), a.union(b).contains(t) is true exactly when a.contains(t) or b.contains(t).", "quantifier": "every element type T with a total order, every pair of the 15x15 type combinations, every value of those types (including set values whose private pieces are not normalised, e.g. deserialised ones), every t; a RangeInclusive counts as a value only while it has not been iterated to its end (see C53)", "why_tests_cant": "unit tests fix a few i32 endpoints for each type pair; the merge recursion depends on the relative order of arbitrarily many endpoints and on inclusive/exclusive ties", "anchors": ["src/implementations/union/*.rs RangeUnion::union", "src/lib.rs Rangetools::union", "src/bounded_set.rs BoundedSet::add_range", "src/unbounded_set.rs UnboundedSet::defragment"]}
{"id": "C02", "title": "Intersection membership", "statement": "For any two values of the 15 supported types, a.intersection(b).contains(t) is true exactly when a.contains(t) and b.contains(t).", "quantifier": "every totally ordered T, every pair of the 15x15 type combinations, every value, every t; a RangeInclusive counts as a value only while it has not been iterated to its end (see C53)", "why_tests_cant": "81 distinct implementations with distributing loops over unboundedly many pieces", "anchors": ["src/implementations/intersection/*.rs RangeIntersection::intersection", "src/lib.rs Rangetools::intersection"]}
{"id": "C03", "title": "Complement membership", "statement": "For a value of any of the 15 supported types, a.complement().contains(t) is true exactly when a.contains(t) is false (also for empty ranges with reversed endpoints).", "quantifier": "every totally ordered T, every one of the 15 types, every value, every t; a RangeInclusive counts as a value only while it has not been iterated to its end (see C53)", "why_tests_cant": "complement folds intersections over all pieces; the number of pieces and the endpoint pattern are unbounded", "anchors": ["src/implementations/complement/*.rs RangeComplement::complement", "src/lib.rs Rangetools::complement"]}
{"id": "C04", "title": "Set algebra never panics and terminates", "statement": "union, intersection, complement, disjoint, intersects, is_empty and contains return normally: the internal assert!, unwrap() and VecDeque indexing on their paths never fail and their loops and recursions end.", "quantifier": "every totally ordered T, all 15 types and all pairs, every value, including set values that violate the private invariant", "why_tests_cant": "a panic would need a particular history of merges; tests visit only a handful", "anchors": ["src/bounded_range.rs BoundedRange::combine", "src/bounded_set.rs BoundedSet::add_range", "src/lower_bounded_set.rs LowerBoundedSet::defragment", "src/upper_bounded_set.rs UpperBoundedSet::defragment", "src/unbounded_set.rs PiecewiseUnboundedSet::defragment", "src/bound.rs LowerBound::cmp, UpperBound::cmp"]}
{"id": "C05", "title": "Whole expressions mean what the Boolean formula says", "statement": "Any expression built from ranges with to_inner, to_set, union, intersection and complement, nested to any depth, evaluates without panic to a value whose contains(t) equals the corresponding Boolean combination of the leaves' contains(t).", "quantifier": "every totally ordered T, every finite expression tree over the public constructors, every t; a RangeInclusive counts as a value only while it has not been iterated to its end (see C53)", "why_tests_cant": "unbounded depth and shape of the history of operations", "anchors": ["src/lib.rs Rangetools", "src/implementations/union/*.rs", "src/implementations/intersection/*.rs", "src/implementations/complement/*.rs"]}
{"id": "C06", "title": "Private set invariant holds for every reachable set", "statement": "Every set value a program can obtain through the public API (without deserialising) stores pieces that are all non-empty (by is_empty), pairwise non-overlapping and in increasing order; for the half-bounded and unbounded sets the bounded pieces also do not overlap the half-lines.", "quantifier": "every totally ordered T, every finite history of API calls", "why_tests_cant": "an invariant over all histories", "anchors": ["src/bounded_set.rs BoundedSet::ranges", "src/lower_bounded_set.rs LowerBoundedSet", "src/upper_bounded_set.rs UpperBoundedSet", "src/unbounded_set.rs PiecewiseUnboundedSet"]}
{"id": "C07", "title": "Union is commutative up to ==", "statement": "a.union(b) == b.union(a) (same type, structurally equal, not just the same members).", "quantifier": "every totally ordered T, all type pairs, all reachable values", "why_tests_cant": "== compares private pieces, so the order of merges could show; tests only compare a few results", "anchors": ["src/implementations/union/*.rs", "src/bounded_set.rs BoundedSet::add_set"]}
{"id": "C08", "title": "Union is associative up to ==", "statement": "a.union(b).union(c) == a.union(b.union(c)).", "quantifier": "every totally ordered T, all type triples, all reachable values", "why_tests_cant": "depends on every interleaving of merges of unboundedly many pieces", "anchors": ["src/implementations/union/*.rs", "src/bounded_set.rs BoundedSet::add_range"]}
{"id": "C09", "title": "Union is idempotent with units", "statement": "For reachable sets s: s.union(s) == s, s.union(EmptyRange) == s, EmptyRange.union(s) == s, and a set united with the empty BoundedSet equals itself; anything united with an UnboundedRange is the UnboundedRange.", "quantifier": "every totally ordered T, every reachable set of the four set types", "why_tests_cant": "s.union(s) re-merges each of unboundedly many pieces with itself", "anchors": ["src/implementations/union/*.rs"]}
{"id": "C10", "title": "Intersection is commutative up to ==", "statement": "a.intersection(b) == b.intersection(a).", "quantifier": "every totally ordered T, all type pairs, all reachable values", "why_tests_cant": "the two orders run different implementations", "anchors": ["src/implementations/intersection/*.rs"]}
{"id": "C11", "title": "Intersection is associative up to ==", "statement": "a.intersection(b).intersection(c) == a.intersection(b.intersection(c)).", "quantifier": "every totally ordered T, all type triples, all reachable values", "why_tests_cant": "different code paths for each grouping", "anchors": ["src/implementations/intersection/*.rs"]}
{"id": "C12", "title": "Intersection is idempotent with unit and zero", "statement": "For reachable sets s: s.intersection(s) == s, s.intersection(..) == s, and s.intersection(EmptyRange) is the EmptyRange.", "quantifier": "every totally ordered T, every reachable set of the four set types", "why_tests_cant": "self-intersection distributes over all pairs of pieces", "anchors": ["src/implementations/intersection/*.rs"]}
{"id": "C13", "title": "Distributive lattice laws up to ==", "statement": "For reachable sets a, b, c (any of the four set types): a.intersection(b.union(c)) == a.intersection(b).union(a.intersection(c)), a.union(b.intersection(c)) == a.union(b).intersection(a.union(c)).", "quantifier": "every totally ordered T, all triples of set types, all reachable values", "why_tests_cant": "structural equality of results of long merge histories", "anchors": ["src/implementations/union/*.rs", "src/implementations/intersection/*.rs"]}
{"id": "C14", "title": "De Morgan", "statement": "For reachable sets: a.union(b).complement() == a.complement().intersection(b.complement()); and a.intersection(b).complement() has exactly the members of a.complement().union(b.complement()).", "quantifier": "every totally ordered T, all pairs of set types, all reachable values", "why_tests_cant": "unbounded numbers of pieces", "anchors": ["src/implementations/complement/*.rs", "src/implementations/union/*.rs", "src/implementations/intersection/*.rs"]}
{"id": "C15", "title": "Double complement", "statement": "a.complement().complement() has exactly the members of a, and a.complement().complement().complement() == a.complement() for reachable sets.", "quantifier": "every totally ordered T, all types, all (reachable) values; a RangeInclusive counts as a value only while it has not been iterated to its end (see C53)", "why_tests_cant": "the double complement silently joins touching pieces, so == with the original is not guaranteed; only a proof separates the two claims", "anchors": ["src/implementations/complement/*.rs"]}
{"id": "C16", "title": "Excluded middle and contradiction", "statement": "a.union(a.complement()) contains every t; a.intersection(a.complement()) contains no t.", "quantifier": "every totally ordered T, all 15 types, every value, every t; a RangeInclusive counts as a value only while it has not been iterated to its end (see C53)", "why_tests_cant": "for all t and all values", "anchors": ["src/implementations/complement/*.rs", "src/implementations/union/*.rs", "src/implementations/intersection/*.rs"]}
{"id": "C17", "title": "Equality versus membership", "statement": "Two reachable sets of the same type that compare == have the same members; over a densely ordered T without endpoints, two reachable sets of the same type with the same members have == complements (so == double complements). Same members alone does not imply ==: touching pieces such as 0..3 and 3..5 are kept apart. Density is all that is needed, with or without endpoints, and it is needed: same members imply == complements for the normal sets of each type if and only if T is dense. Over every T, dense or not, sets of the same type built from half-open std ranges by union, intersection and complement have == complements exactly if they have the same members.", "quantifier": "every totally ordered T (first part), every dense T without endpoints (second part), all reachable set pairs; every T for sets built from half-open ranges", "why_tests_cant": "needs a quantifier over all members and all representations", "anchors": ["src/bounded_set.rs derive(PartialEq)", "src/unbounded_set.rs derive(PartialEq)"]}
{"id": "C18", "title": "is_empty is sound", "statement": "If is_empty() returns true the value contains no element.", "quantifier": "every totally ordered T, all 15 types, every value, every t", "why_tests_cant": "for all t", "anchors": ["src/implementations/rangetools/*.rs is_empty", "src/lib.rs Rangetools::is_empty"]}
{"id": "C19", "title": "is_empty is complete where it can be", "statement": "If is_empty() returns false, the value contains some element whenever T is dense without endpoints (all 15 types, all reachable values); for bounded ranges and sets it also holds over any T when every piece has an included start or an included end. Over discrete T a range excluded on both sides, and over bounded T a half-line, may contain nothing although is_empty() is false. Exactly: the values of which is_empty() wrongly says that they are not empty are those made of gaps between two neighbouring elements, both excluded, pieces with the ends the wrong way round, and half-lines that exclude the greatest or the least element of T; so is_empty() is right about all values of all 15 types if and only if T is dense and has elements but neither a least nor a greatest.", "quantifier": "every dense T without endpoints, or every totally ordered T with the endpoint condition; all values; a RangeInclusive counts as a value only while it has not been iterated to its end (see C53)", "why_tests_cant": "existence of a witness for every value", "anchors": ["src/implementations/rangetools/*.rs is_empty", "src/bounded_range.rs doc comment"]}
{"id": "C20", "title": "disjoint / intersects soundness", "statement": "disjoint(a,b) true implies no t is in both; intersects is always the negation of disjoint; if some t is in both then intersects(a,b) is true.", "quantifier": "every totally ordered T, all 15x15 type pairs, all values", "why_tests_cant": "for all t", "anchors": ["src/lib.rs Rangetools::disjoint, Rangetools::intersects"]}
{"id": "C21", "title": "intersects completeness", "statement": "intersects(a,b) true implies some t is in both, over a dense T without endpoints, for all type pairs and reachable values. intersects is right about all pairs of values of the 15 types if and only if T is dense and has elements but neither a least nor a greatest. Over any T, where the intersection is lossless, intersects is wrong about a pair exactly when the intersection is one of the values about which is_empty is wrong; for two BoundedRanges of integers, exactly when the later start excludes some n and the earlier end excludes n + 1.", "quantifier": "every dense T without endpoints, all type pairs, all reachable values; a RangeInclusive counts as a value only while it has not been iterated to its end (see C53)", "why_tests_cant": "existence of a common element for every pair", "anchors": ["src/lib.rs Rangetools::intersects"]}
{"id": "C22", "title": "intersects is exact on std ranges", "statement": "For two std ranges, at least one of which has a lower bound, intersects(a,b) is true exactly when they share an element - over every totally ordered T, dense or discrete. Values built from std ranges by union and intersection keep this exactness for is_empty. Two std ranges without lower bounds always intersect according to intersects, so for them it is exact precisely if the element type has no least element; if it has none, is_empty is exact for all such values. Values built from half-open std ranges (.., a.., ..b, a..b) by union, intersection and complement have it too: is_empty is exact if the type has a lower bound, and intersects if one of the two types has. is_empty is exact for all of these, with or without a lower bound, precisely if the element type has elements but no least one.", "quantifier": "every totally ordered T, all std range pairs not both unbounded below; all expressions of union/intersection over them; all expressions with complements over the half-open ones", "why_tests_cant": "for all T, all endpoints, and all expression histories", "anchors": ["src/lib.rs Rangetools::intersects", "src/implementations/intersection/range.rs"]}
{"id": "C23", "title": "disjoint and intersects are symmetric", "statement": "a.disjoint(b) == b.disjoint(a) and a.intersects(b) == b.intersects(a).", "quantifier": "every totally ordered T, all 15x15 type pairs, all reachable values", "why_tests_cant": "the two directions run different code", "anchors": ["src/lib.rs Rangetools::disjoint, Rangetools::intersects"]}
{"id": "C24", "title": "Bounds are totally ordered", "statement": "LowerBound and UpperBound over a totally ordered T are themselves totally ordered: cmp never panics, is reflexive, antisymmetric (Equal exactly when ==), transitive and total, and partial_cmp agrees with it.", "quantifier": "every totally ordered T, all bounds (triples for transitivity)", "why_tests_cant": "laws over all triples", "anchors": ["src/bound.rs LowerBound::partial_cmp, LowerBound::cmp, UpperBound::partial_cmp, UpperBound::cmp"]}
{"id": "C25", "title": "Bound order agrees with containment", "statement": "If LowerBound a <= b then every t above b is above a (and dually for UpperBound); max of two lower bounds admits exactly the t admitted by both and min exactly those admitted by either, dually for upper bounds. The order is exactly inclusion for all bounds precisely when T is dense (end points do not matter).", "quantifier": "every totally ordered T, all bound pairs, all t", "why_tests_cant": "for all t", "anchors": ["src/bound.rs LowerBound, UpperBound", "src/lower_bounded_range.rs contains", "src/upper_bounded_range.rs contains"]}
{"id": "C26", "title": "Bounds over partially ordered elements", "statement": "For T that is only PartialOrd (e.g. floats with NaN), partial_cmp of two LowerBounds/UpperBounds is None exactly when the elements are incomparable, swapping the operands reverses the result, and otherwise it is the element comparison with ties broken by inclusiveness.", "quantifier": "every lawful PartialOrd on T, all bound pairs", "why_tests_cant": "for all partial orders", "anchors": ["src/bound.rs LowerBound::partial_cmp, UpperBound::partial_cmp"]}
{"id": "C27", "title": "flipped", "statement": "Bound::flipped is an involution, keeps the value, and the half-line starting at a flipped upper bound is exactly the complement of the half-line ending at it (and dually).", "quantifier": "every totally ordered T, all bounds, all t", "why_tests_cant": "for all t", "anchors": ["src/bound.rs Bound::flipped", "src/implementations/complement/lower_bounded_range.rs", "src/implementations/complement/upper_bounded_range.rs"]}
{"id": "C28", "title": "map", "statement": "Bound/LowerBound/UpperBound::map preserves inclusiveness, satisfies the functor laws, and for strictly increasing f preserves the bound order and membership: mapped range contains f(t) iff the original contains t.", "quantifier": "all functions / all strictly increasing functions between totally ordered types, all bounds, all t", "why_tests_cant": "quantifies over functions", "anchors": ["src/bound.rs Bound::map, LowerBound::map, UpperBound::map"]}
{"id": "C29", "title": "to_inner and to_set preserve members", "statement": "a.to_inner() and a.to_set() contain exactly the elements of a, and to_set of a range is a set satisfying the private invariant.", "quantifier": "every totally ordered T, all 15 types, all values, all t; a RangeInclusive counts as a value only while it has not been iterated to its end (see C53)", "why_tests_cant": "for all t", "anchors": ["src/implementations/rangetools/*.rs to_inner, to_set", "src/bounded_set.rs From<BoundedRange>"]}
{"id": "C30", "title": "Conversions from and back to std ranges round-trip", "statement": "Converting a std range to the crate type preserves membership, and converting Range, RangeInclusive, RangeFrom, RangeTo, RangeToInclusive or RangeFull to its crate type and back to the same std type yields the same range, without panic, for every value (including MIN/MAX endpoints).", "quantifier": "every element type with Step, every std range, both build modes; a RangeInclusive counts as a value only while it has not been iterated to its end (see C53)", "why_tests_cant": "all endpoints, in particular the extreme ones", "anchors": ["src/bounded_range.rs From impls", "src/lower_bounded_range.rs From impls", "src/upper_bounded_range.rs From impls", "src/unbounded_range.rs From impls"]}
{"id": "C31", "title": "Conversions to std ranges preserve members", "statement": "Converting a crate range to a std range yields a range with exactly the same members whenever the needed one-step successor/predecessor exists; with overflow checks on (and for char always) the conversion panics otherwise, so a returned range is never wrong.", "quantifier": "every lawful Step type, every BoundedRange/LowerBoundedRange/UpperBoundedRange, all t, both build modes", "why_tests_cant": "all endpoints", "anchors": ["src/bounded_range.rs From<BoundedRange> for Range, RangeInclusive", "src/lower_bounded_range.rs From<LowerBoundedRange> for RangeFrom", "src/upper_bounded_range.rs From<UpperBoundedRange> for RangeTo, RangeToInclusive"]}
{"id": "C32", "title": "EmptyRange converts to empty std ranges", "statement": "EmptyRange converts to an empty std::ops::Range for every T, and to an empty RangeInclusive for every T.", "quantifier": "every element type with Default and Step, both build modes", "why_tests_cant": "the claim ranges over element types; the second half is false for unsigned integers (default is MIN)", "anchors": ["src/empty_range.rs From<EmptyRange> for Range, RangeInclusive"]}
{"id": "C33", "title": "BoundedRange iteration is exact", "statement": "into_iter() on a BoundedRange yields exactly the contained elements, each once, in strictly increasing order, and then None.", "quantifier": "every lawful Step type, every BoundedRange whose iteration does not need a successor of MAX or predecessor of MIN, both build modes", "why_tests_cant": "ranges of arbitrary size", "anchors": ["src/bounded_range.rs IntoIterator, BoundedRangeIter::next"]}
{"id": "C34", "title": "BoundedSet iteration is exact", "statement": "into_iter() on a reachable BoundedSet yields exactly the contained elements, each once, in strictly increasing order, and then None.", "quantifier": "every lawful Step type with at most usize::MAX steps per piece, every reachable BoundedSet not touching MIN/MAX, both build modes", "why_tests_cant": "any number of pieces of any size", "anchors": ["src/bounded_set.rs IntoIterator, BoundedSetIter::next"]}
{"id": "C35", "title": "LowerBoundedRange iteration is exact", "statement": "The iterator of a LowerBoundedRange yields, in increasing order and without gaps, the contained elements: its first k items are the k smallest contained elements, for every k for which they and a successor exist.", "quantifier": "every lawful Step type, every LowerBoundedRange, every k", "why_tests_cant": "unbounded k", "anchors": ["src/lower_bounded_range.rs LowerBoundedRangeIter"]}
{"id": "C36", "title": "LowerBoundedSet iteration is exact", "statement": "The iterator of a reachable LowerBoundedSet first yields the elements of its bounded pieces and then those of the half-line, strictly increasing: the first k items are the k smallest contained elements.", "quantifier": "every lawful Step type, every reachable LowerBoundedSet, every k", "why_tests_cant": "unbounded k and number of pieces", "anchors": ["src/lower_bounded_set.rs LowerBoundedSetIter"]}
{"id": "C37", "title": "Double-ended iteration", "statement": "Any interleaving of next() and next_back() on a BoundedRange or BoundedSet iterator behaves like popping the front and back of the sorted list of contained elements: no element is lost or yielded twice.", "quantifier": "every lawful Step type, every such range/set not touching MIN/MAX, every finite schedule of calls", "why_tests_cant": "all schedules", "anchors": ["src/bounded_range.rs BoundedRangeIter::next, next_back", "src/bounded_set.rs BoundedSetIter::next, next_back"]}
{"id": "C38", "title": "nth / nth_back equal skipping", "statement": "nth(n) and nth_back(n) return what n discarded next()/next_back() calls followed by one more would, and leave the iterator in an equivalent state (also past the end), as long as no overflow of the element type is needed.", "quantifier": "every lawful Step type, every iterator state, every n and every schedule", "why_tests_cant": "all n, all states", "anchors": ["src/bounded_range.rs nth, nth_back", "src/bounded_set.rs nth, nth_back", "src/lower_bounded_range.rs nth", "src/lower_bounded_set.rs nth"]}
{"id": "C39", "title": "size_hint, len and count are exact", "statement": "At every point of an iteration of a BoundedRange or BoundedSet, size_hint() is (k, Some(k)) and len() and count() are k, where k is the number of items still to come.", "quantifier": "every lawful Step type whose value count fits usize, every iterator state", "why_tests_cant": "every state of every schedule", "anchors": ["src/bounded_range.rs size_hint, count", "src/bounded_set.rs size_hint, count"]}
{"id": "C40", "title": "last, min and max", "statement": "last() and max() return the greatest, min() the least of the remaining elements, and None exactly when none remain, for BoundedRange and BoundedSet iterators; min() of a half-bounded iterator is its first element.", "quantifier": "every lawful Step type, every iterator state (away from overflow)", "why_tests_cant": "every state", "anchors": ["src/bounded_range.rs last, min, max", "src/bounded_set.rs last, min, max", "src/lower_bounded_range.rs min", "src/lower_bounded_set.rs min"]}
{"id": "C41", "title": "Iterators are fused", "statement": "Once next() or next_back() of a BoundedRange or BoundedSet iterator has returned None, every later next()/next_back() returns None.", "quantifier": "every Step type (lawful or not, any build mode), every iterator state, every later schedule", "why_tests_cant": "infinitely many later calls", "anchors": ["src/bounded_range.rs FusedIterator", "src/bounded_set.rs FusedIterator"]}
{"id": "C42", "title": "With overflow checks, iteration never yields a wrong value", "statement": "With overflow checks on, for integer types no wider than usize and for char, any schedule of next, next_back, nth, nth_back and len calls on a BoundedRange or BoundedSet iterator either panics or returns exactly what the sorted list of contained elements dictates - with no assumption on the endpoints.", "quantifier": "all schedules, all ranges and reachable sets, all such element types", "why_tests_cant": "all schedules, including ones that hit MIN/MAX", "anchors": ["src/bounded_range.rs BoundedRangeIter", "src/bounded_set.rs BoundedSetIter", "src/step.rs step_identical_methods"]}
{"id": "C43", "title": "Iteration covers the extreme values", "statement": "A range that includes T::MAX (or, iterating backwards, T::MIN) yields all its elements and ends; an empty range ending before T::MIN yields nothing.", "quantifier": "every integer type, every range, both build modes", "why_tests_cant": "this is false of the code: with overflow checks it panics, without them iteration of a..=MAX never ends and the empty range 0..0 of an unsigned type yields values", "anchors": ["src/bounded_range.rs BoundedRangeIter::next, next_back, IntoIterator", "src/step.rs step_identical_methods"]}
{"id": "C44", "title": "forward_checked / backward_checked are exact on integers", "statement": "For every integer type, forward_checked(x,n) is Some(x+n) when x+n is representable and None otherwise; backward_checked likewise with x-n - including n larger than the signed maximum.", "quantifier": "all unsigned and signed widths, both narrower and wider than usize, every pointer width, every x and every usize n", "why_tests_cant": "the input space is 2^w x 2^W for every w", "anchors": ["src/step.rs step_integer_impls"]}
{"id": "C45", "title": "steps_between is exact on integers", "statement": "steps_between(a,b) is Some(b-a) when a<=b and b-a fits usize, else None.", "quantifier": "all integer widths and signs, every pointer width, every a and b", "why_tests_cant": "input space", "anchors": ["src/step.rs step_integer_impls"]}
{"id": "C46", "title": "forward / backward overflow behaviour", "statement": "On integers forward(x,n) returns x+n when representable; otherwise it panics with overflow checks on and returns x+n wrapped to the type's width with them off (dually backward). char's forward/backward panic on overflow in every build.", "quantifier": "all integer widths, x, usize n, both build modes", "why_tests_cant": "input space and build modes", "anchors": ["src/step.rs step_identical_methods, Step::forward, Step::backward"]}
{"id": "C47", "title": "char stepping is exact and safe", "statement": "For char, forward_checked/backward_checked move exactly n positions in the sequence of Unicode scalar values (skipping surrogates), return None exactly when that leaves the sequence, and the code point passed to the unsafe conversion is always a valid scalar; steps_between counts scalar values.", "quantifier": "every pair of scalar values, every usize n, pointer width at least 32", "why_tests_cant": "about 1.1M x 2^64 inputs", "anchors": ["src/step.rs impl Step for char"]}
{"id": "C48", "title": "Step laws", "statement": "For every provided Step implementation: stepping by a then b equals stepping by a+b, backward undoes forward, forward moves strictly up for n>0, and steps_between(a, forward(a,n)) = n.", "quantifier": "all provided element types, all values, all counts that do not overflow", "why_tests_cant": "algebraic laws over all inputs", "anchors": ["src/step.rs trait Step"]}
{"id": "C49", "title": "Indexing by crate ranges selects exactly the contained positions", "statement": "v[r] for a slice or Vec and a crate range of usize returns, in order, exactly the elements whose index is contained in r, whenever it returns (guard: without overflow checks, no included upper or excluded lower bound at usize::MAX; see C54).", "quantifier": "every slice, every range, both build modes", "why_tests_cant": "all lengths and endpoints", "anchors": ["src/implementations/index/bounded_range.rs", "src/implementations/index/lower_bounded_range.rs", "src/implementations/index/upper_bounded_range.rs", "src/implementations/index/unbounded_range.rs", "src/implementations/index/empty_range.rs"]}
{"id": "C50", "title": "Indexing panics exactly when out of bounds", "statement": "v[r] returns exactly when the std range it converts to is in order and within the length; a non-empty range all of whose positions are within the slice never panics (apart from an overflowing exclusive/inclusive bound at usize::MAX).", "quantifier": "every slice, every range, both build modes", "why_tests_cant": "all lengths and endpoints", "anchors": ["src/implementations/index/*.rs"]}
{"id": "C51", "title": "IndexMut changes only the contained positions", "statement": "Writing through &mut v[r] changes only positions contained in r and never the length.", "quantifier": "every slice, every range, every in-place update of the sub-slice; without overflow checks, no included upper or excluded lower bound at usize::MAX (see C54)", "why_tests_cant": "all updates", "anchors": ["src/implementations/index/bounded_range.rs IndexMut", "src/implementations/index/lower_bounded_range.rs IndexMut", "src/implementations/index/upper_bounded_range.rs IndexMut", "src/implementations/index/unbounded_range.rs IndexMut"]}
{"id": "C52", "title": "String and CStr indexing", "statement": "Indexing str/String by a crate range returns the contained bytes and panics when an end is not a char boundary; CStr by a LowerBoundedRange returns the suffix including the terminator and panics past it; indexing by EmptyRange gives the empty string/slice and by UnboundedRange the whole, never panicking.", "quantifier": "every string, every range, both build modes; without overflow checks, no included upper or excluded lower bound at usize::MAX (see C54)", "why_tests_cant": "all contents and endpoints", "anchors": ["src/implementations/index/*.rs for String, str, CStr, CString, OsString"]}
{"id": "C53", "title": "Operations ignore std's exhausted flag", "statement": "A std RangeInclusive that has been iterated to its end contains nothing, but every operation of the crate treats it as the range its two bounds describe: is_empty, conversions, to_set, complement, intersection, union, disjoint and intersects give exactly the results they give for the same range before iteration. The answers therefore do not describe the exhausted range's own (empty) membership.", "quantifier": "every pair of operands of all fifteen types, exhausted RangeInclusives included", "why_tests_cant": "all operand pairs; the upstream tests never pass an exhausted range", "anchors": ["src/bounded_range.rs From<std::ops::RangeInclusive<T>>", "src/implementations/rangetools/range_inclusive.rs", "src/implementations/union/range_inclusive.rs", "src/implementations/intersection/range_inclusive.rs", "src/implementations/complement/range_inclusive.rs"]}
{"id": "C54", "title": "What wrapped indexing selects", "statement": "Without overflow checks, indexing a slice by a crate range uses the range's first and past-the-end positions reduced modulo 2^(usize bits): ..=usize::MAX selects the empty slice, and the range beginning after usize::MAX, which contains no position, selects and lets one overwrite the whole slice. With overflow checks these cases panic.", "quantifier": "every slice, every BoundedRange/LowerBoundedRange/UpperBoundedRange<usize>, every usize width, both build modes", "why_tests_cant": "depends on build mode and on every platform width", "anchors": ["src/implementations/index/bounded_range.rs", "src/implementations/index/lower_bounded_range.rs", "src/implementations/index/upper_bounded_range.rs", "src/step.rs forward"]}
{"id": "C55", "title": "Absorption laws", "statement": "a.union(a.intersection(b)) == a and a.intersection(a.union(b)) == a, structurally, even where intersection of two LowerBoundedSets loses elements.", "quantifier": "every normal value a of the four set types, every normal value b of the fifteen types", "why_tests_cant": "all pairs of piece lists; combines three operations", "anchors": ["src/implementations/union/*.rs", "src/implementations/intersection/*.rs"]}
{"id": "C56", "title": "Result types are bounded when they can be", "statement": "The type returned by union is bounded below (above) exactly when both operand types are, by intersection exactly when at least one is, by complement exactly when the operand is not; to_set keeps the sides. So results that can be iterated have a type that can be iterated.", "quantifier": "every operand of all fifteen types", "why_tests_cant": "all 225 type pairs and all values", "anchors": ["src/implementations/union/*.rs type Output", "src/implementations/intersection/*.rs type Output", "src/implementations/complement/*.rs type Output"]}
{"id": "C57", "title": "Operations repair broken sets", "statement": "The complement of any value is normal (non-empty, sorted, non-overlapping pieces) even if the operand is not; complementing twice gives a normal set of the same type with the same members; the intersection of two BoundedSets is normal whatever they are, and so is the union of a normal bounded value with any BoundedSet.", "quantifier": "every value, including sets that break the private invariant (e.g. deserialized ones)", "why_tests_cant": "all piece lists, including ones tests cannot construct", "anchors": ["src/implementations/complement/*.rs", "src/bounded_set.rs add_range", "src/implementations/intersection/bounded_set.rs"]}
{"id": "C58", "title": "Difference and subset idioms", "statement": "a.intersection(b.complement()) contains exactly the elements of a that are not in b; a.disjoint(b.complement()) implies that a is a subset of b, and over dense orders without endpoints is equivalent to it; those, if inhabited, are exactly the element types over which it is equivalent for all operands. Over every T it is equivalent when a is a std range with a lower bound and b a std range whose end, if any, is excluded, and when both are any values built by union, intersection and complement from half-open std ranges and a's type has a lower bound or the element type has no least element. Elsewhere, where the intersection with the complement is lossless, it fails of a subset exactly when that intersection is a value about which is_empty is wrong.", "quantifier": "every pair of operands of all fifteen types that are not exhausted RangeInclusives", "why_tests_cant": "all operand pairs and all elements", "anchors": ["src/implementations/complement/*.rs", "src/implementations/intersection/*.rs", "src/lib.rs disjoint"]}
{"id": "C59", "title": "Derived equality and hashing", "statement": "The derived == is an equivalence whenever the element type's is; when the element type's == is equality, == holds exactly between values of the same type with the same bounds and pieces; == values feed a hasher the same data and give the same results in every operation; with prefix-free element hashes different values of a type feed different data; a hasher is told one variant number and the element for every bound, a length for a list, a variant number for an enum, and nothing else; cmp of bounds is Equal exactly when they are ==.", "quantifier": "every value of the nine crate types, every element type, every == and hash on the elements", "why_tests_cant": "all values, element types and element equalities", "anchors": ["#[derive(PartialEq, Eq, Hash)] in src/bound.rs, src/bounded_range.rs, src/lower_bounded_range.rs, src/upper_bounded_range.rs, src/bounded_set.rs, src/lower_bounded_set.rs, src/upper_bounded_set.rs, src/unbounded_set.rs"]}
{"id": "C60", "title": "contains is the interval its type says", "statement": "contains(t) of each range holds exactly when t satisfies the inequalities its bounds write down (start <= t or start < t, t <= end or t < end; an exhausted RangeInclusive excludes its end); contains of a set holds exactly when one of its pieces contains t; and every element of a later piece of a normal set is greater than every element of an earlier one, so at most one piece contains t.", "quantifier": "all endpoints and elements of every linear order, all piece lists, all fifteen types", "why_tests_cant": "all bounds, piece lists and elements of every order", "anchors": ["src/bound.rs contains", "src/bounded_range.rs contains", "src/lower_bounded_range.rs contains", "src/upper_bounded_range.rs contains", "src/bounded_set.rs contains", "src/lower_bounded_set.rs contains", "src/upper_bounded_set.rs contains", "src/unbounded_set.rs contains"]}
{"id": "C61", "title": "Half-line iterators never end", "statement": "next and nth of the iterators of LowerBoundedRange and LowerBoundedSet never return None, and size_hint stays (usize::MAX, None). With overflow checks and a bounded element type a run of calls succeeds exactly while it asks for fewer elements than the value has, so every element except the type's greatest is delivered and then the iterator panics. Without overflow checks an integer half-line yields start+i wrapped, forever. The iterator of EmptyRange yields nothing in any of its methods.", "quantifier": "every half-line and every normal LowerBoundedSet, every lawful Step whose indices fit, every finite sequence of next and nth calls, both overflow settings", "why_tests_cant": "all values, all call sequences, runs past the end of the type", "anchors": ["src/lower_bounded_range.rs IntoIterator", "src/lower_bounded_set.rs IntoIterator", "src/empty_range.rs IntoIterator"]}
{"id": "C62", "title": "serde round trip", "statement": "Deserializing a serialized value gives it back whenever the element type's serialization does, also through a format that keeps the values of the fields without their names; different values of one type serialize differently; field order does not matter, unknown fields are ignored, a missing or repeated field is an error. The accepted data are exactly those of a grammar given as a relation, and the value returned is the one the relation assigns. Deserialization does not check the private invariant of sets.", "quantifier": "every value of the nine crate types, every element type and element encoding, every field list", "why_tests_cant": "all values, element types, encodings and field permutations", "anchors": ["cfg_attr(feature = \"serde\", derive(Deserialize, Serialize)) in src/bound.rs, src/bounded_range.rs, src/lower_bounded_range.rs, src/upper_bounded_range.rs, src/unbounded_range.rs, src/empty_range.rs, src/bounded_set.rs, src/lower_bounded_set.rs, src/upper_bounded_set.rs, src/unbounded_set.rs"]}
{"id": "C63", "title": "Iterating the value of an expression lists its solutions", "statement": "If an expression of unions, intersections, complements and conversions evaluates to a BoundedSet, iterating that set delivers exactly the elements for which the expression's Boolean formula holds, each once, in increasing order from the front and decreasing order from the back, under any interleaving of next, next_back, nth and nth_back.", "quantifier": "every lawful Step type whose distances fit usize, every expression over reachable leaves whose intersections are not of the two lossy kinds of C02 and whose formula excludes some element, every finite schedule; the front may be moved only if the type's greatest value is not a solution, the back only if its least is not", "why_tests_cant": "all expressions, all schedules, all element types", "anchors": ["src/bounded_set.rs IntoIterator", "src/lib.rs Rangetools", "src/implementations/"]}
{"id": "C64", "title": "Counts obey inclusion-exclusion", "statement": "count of a union plus count of the intersection equals the sum of the operands' counts; count of a without b plus count of their intersection equals count of a.", "quantifier": "every lawful Step type whose distances fit usize, every normal BoundedRange, BoundedSet or EmptyRange operands, overflow checks on, whenever the counts return", "why_tests_cant": "all pairs of values of all element types", "anchors": ["src/bounded_range.rs IntoIterator", "src/bounded_set.rs IntoIterator", "src/implementations/union/", "src/implementations/intersection/", "src/implementations/complement/"]}
{"id": "C65", "title": "The algebra only compares elements", "statement": "union, intersection, complement, to_inner, to_set and whole expressions commute with every map of the element type that keeps the outcome of each comparison, panics included; contains, is_empty, disjoint and intersects give the same answer on the mapped values. So results do not depend on how far apart elements are or on how they are represented. Strictly increasing maps of linear orders are such maps; weakly increasing ones do not suffice.", "quantifier": "every map that preserves <=, <, cmp and ==, between element types whose comparisons need not be lawful (only: a > b is b < a, and partial_cmp is Some(cmp)), every value of the fifteen types, including sets that break the private invariant and exhausted RangeInclusives", "why_tests_cant": "all functions between all ordered types and all values", "anchors": ["src/implementations/union/", "src/implementations/intersection/", "src/implementations/complement/", "src/implementations/rangetools/", "src/bounded_set.rs", "src/lower_bounded_set.rs", "src/upper_bounded_set.rs", "src/unbounded_set.rs"]}
{"id": "C66", "title": "Operations invent no endpoints", "statement": "Every endpoint written in the result of union or intersection is an endpoint of an operand, every endpoint of a complement is an endpoint of its operand, and every endpoint of an expression's value is an endpoint of one of its leaves.", "quantifier": "every element type, with comparisons that need not be lawful (only: a > b is b < a, and partial_cmp is Some(cmp)), every value of the fifteen types (normal or not), every expression", "why_tests_cant": "all values and all expression trees", "anchors": ["src/implementations/union/", "src/implementations/intersection/", "src/implementations/complement/"]}
{"id": "C67", "title": "Equal elements need not be identical", "statement": "For an element type whose Ord is lawful but whose equal elements can be told apart: union and complement have exactly the right members and intersection does except in the lossy case of C02; nothing panics; reachable sets satisfy the invariant; is_empty and disjoint do not overlook elements and disjoint and intersects are symmetric; == operands have the same members and == results; commutativity, associativity, idempotence, absorption and triple complement hold up to the crate's ==. They do not hold up to identity.", "quantifier": "every type with a total transitive <=, and <, cmp and == that agree with it; every value of the fifteen types (no exhausted RangeInclusive for membership, the private invariant for equations, set types for idempotence, absorption and triple complement), every expression", "why_tests_cant": "all lawful element types, including those where which of two equal endpoints is kept is visible", "anchors": ["src/bound.rs", "src/bounded_range.rs combine", "src/bounded_set.rs add_range", "src/implementations/union/", "src/implementations/intersection/", "src/implementations/complement/"]}
{"id": "C68", "title": "Results do not fragment", "statement": "The number of stored pieces grows at most linearly: a union has at most m + n pieces, an intersection at most m + n - 1 (0 when both operands have none), a complement at most n + 1, and an expression at most the pieces of its leaves plus the number of its complements. For all m, n >= 1 the bounds are attained.", "quantifier": "every two values of the fifteen types satisfying the private invariant (none needed for complement); every expression over such leaves; sharpness for all m, n >= 1", "why_tests_cant": "all piece counts, all set types and all expressions; the bound depends on touching pieces always being merged", "anchors": ["src/bounded_set.rs add_range", "src/lower_bounded_set.rs defragment", "src/upper_bounded_set.rs defragment", "src/unbounded_set.rs defragment", "src/implementations/intersection/", "src/implementations/complement/"]}
{"id": "C69", "title": "A union does not depend on order or bracketing", "statement": "Two union expressions of any shape over the same leaves in any order evaluate to the same value; if only the set of leaves is the same (some repeated), to_set of the results is the same.", "quantifier": "every two expressions built from union only, over leaves satisfying the private invariant, whose lists of leaves are permutations of one another (or have the same members)", "why_tests_cant": "all trees of all sizes and all permutations", "anchors": ["src/implementations/union/", "src/bounded_set.rs add_range", "src/lib.rs Rangetools::union"]}
{"id": "C70", "title": "Intersection by complement and union has no exceptions", "statement": "a.complement().union(b.complement()).complement() contains exactly the elements of both a and b, also for the pairs where intersection loses elements; written that way, every expression has exactly the right members. The detour is commutative and associative as values.", "quantifier": "every expression over the fifteen types (no exhausted RangeInclusive); commutativity and associativity for all values, invariant or not", "why_tests_cant": "all expressions of any depth and all values", "anchors": ["src/implementations/complement/", "src/implementations/union/", "src/implementations/intersection/lower_bounded_set.rs:47-61"]}
{"id": "C71", "title": "Larger operands give larger results", "statement": "If a is a subset of a' and b of b', then a.union(b) is a subset of a'.union(b'), a.intersection(b) of a'.intersection(b'), and a'.complement() of a.complement(); likewise for expressions, with leaves under an odd number of complements growing the other way.", "quantifier": "every two pairs of values of the fifteen types (no exhausted RangeInclusive); every two expressions of the same shape", "why_tests_cant": "all pairs of pairs of values, all expressions", "anchors": ["src/implementations/union/", "src/implementations/intersection/", "src/implementations/complement/"]}
{"id": "C72", "title": "The crate's iterators are those of std", "statement": "BoundedRange::from(a..b).into_iter() and a..b, BoundedRange::from(a..=b).into_iter() and a..=b, LowerBoundedRange::from(a..).into_iter() and a.. return the same results under every schedule of next, next_back, nth, nth_back, size_hint, len, count, min and max (next and nth for the last) that needs no value outside the element type; a for loop over a non-empty a..b needs none. At the ends of the type they differ: the crate panics, or starts again, where std ends.", "quantifier": "every lawful Step (every Step for a..), every range, every finite schedule", "why_tests_cant": "all element types, all ranges, all interleavings of calls", "anchors": ["src/bounded_range.rs:91-101", "src/bounded_range.rs:172-246", "src/lower_bounded_range.rs:51-58", "src/lower_bounded_range.rs:109-137"]}
{"id": "C73", "title": "The private invariant is exactly reachability", "statement": "A value of one of the fifteen types can be built through the public API if and only if its pieces are non-empty, in increasing order and pairwise without overlap (half-lines included). No stronger invariant holds: every such value is the result of some program.", "quantifier": "every value of the fifteen types over any linear order, of any number of pieces", "why_tests_cant": "all values, and the existence of a program for each", "anchors": ["src/bounded_set.rs:64-79", "src/lower_bounded_set.rs:50-71", "src/upper_bounded_set.rs:32-56", "src/unbounded_set.rs:49-69"]}
{"id": "C74", "title": "How deep add_range and defragment recurse", "statement": "BoundedSet::add_range(r) nests exactly one call more than the number of pieces that intersect r, PiecewiseUnboundedSet::defragment exactly one more than the number of pieces that intersect a half-line; never more than the number of pieces plus one, whatever the comparisons answer. There is no constant bound: for every n a program can build a set and a range whose union nests n + 1 calls.", "quantifier": "every set, every range, every n", "why_tests_cant": "all sets of any number of pieces; the stack of a test run bounds n", "anchors": ["src/bounded_set.rs:64-79", "src/unbounded_set.rs:49-69"]}
{"id": "C75", "title": "Element types with a broken order", "statement": "With an Ord that breaks its contract every expression still terminates, and the only panic possible is the assertion in BoundedRange::combine: no unwrap and no index fails. If elements that compare equal are identical and cmp is consistent under swapping, nothing panics at all, even without transitivity. If elements that compare equal can differ in how they compare with others, (1..3).union(0..2) can panic.", "quantifier": "all pure comparison functions on every type, every expression of union, intersection, complement and conversions", "why_tests_cant": "all comparison functions and all expressions", "anchors": ["src/bounded_range.rs:140-152", "src/bounded_set.rs:64-79", "src/bound.rs:72-100", "src/lower_bounded_set.rs:50-66", "src/unbounded_set.rs:49-69"]}
{"id": "C76", "title": "One line is the only cause of the intersection failures", "statement": "If the last line of LowerBoundedSet ∩ LowerBoundedSet were set.add_set(self.intersection(other.ranges)), as in the UpperBoundedSet counterpart, then intersection would have exactly the common members for all operands, every expression would evaluate to the set it denotes, and commutativity, associativity, distributivity, both De Morgan laws and monotone set difference would hold without exception; and the result would be the same value as today's for exactly the pairs on which today's is right.", "quantifier": "all operands of every type the crate accepts (RangeInclusive not exhausted), all expressions; identity of the two results for all operands whose sets keep the invariant", "why_tests_cant": "a statement about all expressions in two programs", "anchors": ["src/implementations/intersection/lower_bounded_set.rs:47-61", "src/implementations/intersection/upper_bounded_set.rs:73-85"]}
{"id": "C77", "title": "The exact meaning of every expression, lost elements included", "statement": "Draw every element as five consecutive spots: just before it, the cut before it, itself, the cut after it, just after it, and every range as the open interval between its bounds. Then union is union, complement is the exterior (for a BoundedRange: what lies strictly outside its bounds), to_set changes nothing but the type, and intersection is intersection, except that between two LowerBoundedSets it drops exactly what lies in the last stretch of the first and not in that of the second. Every expression evaluates to a value of the type and with the spots this meaning says; its members are the elements whose spot is covered; and two expressions evaluate to == values exactly when they mean the same.", "quantifier": "all expressions over all fifteen types and all operations, of any size, all linearly ordered element types; leaves keep the private invariant; equality for results that are not BoundedRange", "why_tests_cant": "a compositional meaning for unboundedly many expressions, with no exception for the ones the library gets wrong", "anchors": ["src/implementations/intersection/lower_bounded_set.rs:47-61", "src/implementations/union/lower_bounded_set.rs", "src/implementations/complement/bounded_range.rs:5-13", "src/bounded_set.rs"]}
{"id": "C78", "title": "How much work a union of sets does", "statement": "BoundedSet::add_range of a non-empty range makes exactly (pieces before) + 2 - (pieces after) calls of itself, and add_set of m non-empty ranges exactly (pieces before) + 2m - (pieces after): linear. The number of pieces its position searches look at is at most (n + m)(n + 3m), and that order is attained: if nothing meets, it is at least n * m, and for every n there are reachable sets of n pieces whose union looks at pieces n * n times or more.", "quantifier": "every set, every range, every n and m", "why_tests_cant": "exact counts for sets of any size and shape; a benchmark samples sizes and cannot show a bound", "anchors": ["src/bounded_set.rs:64-84"]}
{"id": "C79", "title": "Every pair of types gets the right impl", "statement": "For every pair of the fifteen types there is an impl of union and of intersection, and for every type one of complement, whose Output type is the one given by a small table (unbounded in the directions in which either operand is, respectively both are; a set unless both are ranges). Following the chain of forwarding impls to its end, each computes, with the same panics, what the dispatcher on a sum of all types computes, so that disjoint and intersects do too; and at its own type the union has exactly the members of the operands, the complement exactly the others, the intersection exactly the common ones unless both operands are LowerBoundedSets.", "quantifier": "all 225 pairs of types and all their values, all element types (agreement); all linear orders and all values with the exhausted flag clear (members)", "why_tests_cant": "over two hundred forwarding impls, some of which swap or convert their operands; each is right only if it is right for every value, and the forwarding must end", "anchors": ["src/lib.rs:85-223", "src/union.rs:7-14", "src/intersection.rs:7-14", "src/complement.rs:5-8", "src/implementations/union", "src/implementations/intersection", "src/implementations/complement", "src/implementations/rangetools"]}
{"id": "C80", "title": "What the types can represent", "statement": "The sets of elements that some value contains are exactly the Boolean combinations of half-lines (definable sets). BoundedSets represent exactly the definable sets between two elements or empty; LowerBoundedSets those with a floor that have everything from some point on; UpperBoundedSets those with a ceiling that have everything up to some point; UnboundedSets those with everything at both ends; BoundedRanges the gapless ones between two elements; LowerBoundedRanges and UpperBoundedRanges the definable closed-upwards ones with a floor that have everything from some point on, and the closed-downwards ones with a ceiling that have everything up to some point.", "quantifier": "every set of elements of every linearly ordered type, reachable values", "why_tests_cant": "says for every subset of an arbitrary type whether some value represents it; both directions quantify over infinitely many values", "anchors": ["src/lib.rs:85-223", "src/bounded_set.rs", "src/lower_bounded_set.rs", "src/upper_bounded_set.rs", "src/unbounded_set.rs"]}
{"id": "C81", "title": "Complement leaves no needless pieces", "statement": "Over a dense order without end points no value, of any type, has the members of a complement in fewer pieces than the complement itself, so complementing a set twice gives a normal set with the same members and the fewest pieces possible. Union does not: (0..1).union(1..2) keeps two pieces where 0..2 is one. Over the integers complement can even leave a piece without members.", "quantifier": "all normal values that are not an empty BoundedRange (once), all values (twice), all dense linear orders without end points; all competitors of all types", "why_tests_cant": "minimality among all values with the same members", "anchors": ["src/implementations/complement/bounded_set.rs", "src/implementations/complement/unbounded_set.rs", "src/bounded_set.rs:64-84"]}
{"id": "C82", "title": "Whole expressions at their types", "statement": "A Rust expression built from values of the fifteen types with to_inner, to_set, union, intersection and complement, evaluated through the impls rustc selects, never panics, has the type the tables predict, and has exactly the members the region semantics (C77) gives it. If the types show that no intersection is of two LowerBoundedSets, the members are those of the Boolean formula, with no condition on the values. Writing the remaining intersections a.intersection(b) as a.complement().union(b.complement()).complement(), which has the same type, makes every expression exact.", "quantifier": "all typed expressions of all sizes, all values with no exhausted RangeInclusive, all linear orders", "why_tests_cant": "ranges over all nestings of 225 impls, where each type depends on the types below it", "anchors": ["src/lib.rs:85-223", "src/implementations/union/", "src/implementations/intersection/", "src/implementations/complement/"]}
{"id": "C83", "title": "Left and right are treated alike, but for one impl", "statement": "Reversing the order of T turns lower bounds into upper bounds, LowerBounded types into UpperBounded types and reverses lists of pieces. contains, is_empty, to_set, complement and union commute with this mirror. intersection commutes with it if and only if neither the pair nor its mirror image is a lossy pair of LowerBoundedSets; so the UpperBoundedSet impl is right where its mirror image, the LowerBoundedSet impl, loses pieces. The same holds for whole expressions.", "quantifier": "all values satisfying the private invariant, all expressions, all linear orders", "why_tests_cant": "relates every impl over T to the opposite impl over the reversed order, for all values", "anchors": ["src/implementations/intersection/lower_bounded_set.rs:47-61", "src/implementations/intersection/upper_bounded_set.rs", "src/implementations/union/", "src/implementations/complement/"]}
{"id": "C84", "title": "Results are those of the textbook linear algorithms", "statement": "Seen as sorted lists of intervals between cuts, the result of union is that of merging the two lists by start and joining overlapping neighbours; the result of complement (except of an empty BoundedRange) is the list of gaps; and the result of intersection is that of walking along both lists if and only if the pair is not a lossy pair of LowerBoundedSets. The list and the type together determine the value, except that all empty BoundedRanges have the same (empty) list; so up to the bounds of an empty BoundedRange the three linear algorithms give the crate's results.", "quantifier": "all values satisfying the private invariant, all linear orders", "why_tests_cant": "equality of two different algorithms on all inputs of all sizes", "anchors": ["src/bounded_set.rs", "src/implementations/union/", "src/implementations/intersection/", "src/implementations/complement/"]}
{"id": "C85", "title": "How much work an intersection of bounded sets does", "statement": "The intersection of two BoundedSets is the list of the non-empty intersections of a piece of one with a piece of the other, in the order in which the loops meet them: add_set only ever appends. A result of k pieces costs k activations of add_range, which look at pieces k(k-1) times, and all |a|*|b| pairs are met; so there are at most n+m-1 activations and (n+m-1)(n+m-2) looks.", "quantifier": "all BoundedSets satisfying the private invariant, all linear orders", "why_tests_cant": "an exact count for all pairs of sets of all sizes", "anchors": ["src/implementations/intersection/bounded_set.rs:7-36", "src/bounded_set.rs:64-84"]}
{"id": "C86", "title": "What membership can tell apart", "statement": "Two values are called indistinguishable if, put into any expression of the five operations with any other values, they give results with the same members. With T nonempty this holds if and only if they have the same type and the same region (C77) away from a least element of T, up to BoundedRange and BoundedSet standing for each other when empty. Without a least element, two values that are not BoundedRanges are indistinguishable only if equal: so which pieces a set is cut into, although it does not change its members, is observable through the lossy intersection of LowerBoundedSets. In expressions in which no intersection is of a lossy pair, the members of the result depend on the members of the value alone.", "quantifier": "all values satisfying the private invariant, with no exhausted RangeInclusive, all one-hole (or many-hole) expressions, all linear orders", "why_tests_cant": "quantifies over all expressions around a value, in both directions", "anchors": ["src/implementations/intersection/lower_bounded_set.rs:47-61", "src/lib.rs", "src/implementations/union/", "src/implementations/complement/"]}
{"id": "C87", "title": "Debug output identifies the value", "statement": "What {:?} prints for a value determines both which of the nine types it has and the value, provided the element type's own output can be read from left to right up to a space, comma, closing parenthesis or closing bracket; it can also be told where the text ends, so nesting is readable. The same holds for the four iterator types. Integers satisfy the condition.", "quantifier": "all values of the nine types and the four iterator types (with or without the private invariant), all element types with readable output", "why_tests_cant": "injectivity over all pairs of values and all element formats", "anchors": ["#[derive(Debug)] in src/bound.rs, src/bounded_range.rs, src/lower_bounded_range.rs, src/upper_bounded_range.rs, src/unbounded_range.rs, src/empty_range.rs, src/bounded_set.rs, src/lower_bounded_set.rs, src/upper_bounded_set.rs, src/unbounded_set.rs"]}
{"id": "C88", "title": "Iterators after a caught panic", "statement": "If stepping out of the element type panics, then whatever sequence of next, next_back, nth and nth_back calls a program makes on an iterator of the crate, catching every panic and going on with the iterator as it was left, it never gets an element twice, out of order or from outside the collection. A next or next_back that panics leaves every remaining element in place and panics again when repeated. Of all calls together, panicking or not, no more elements are lost than nth and nth_back were asked to skip, and what a call loses lies before (nth_back: behind) everything it returns or leaves. When only the greatest value of the type is left, next panics but next_back still delivers it; so next, as often as there are elements, followed by next_back, reads every range and every normal BoundedSet completely and in order.", "quantifier": "all lawful checked Step types, all ranges, half-lines and normal sets that have an iterator, all finite schedules of calls with usize arguments; the last-value part: all values with a predecessor and nothing above, and all ranges and normal sets over a type with two values", "why_tests_cant": "all schedules with panics at arbitrary places, over all collections and Step implementations", "anchors": ["src/bounded_range.rs:172-246", "src/bounded_set.rs:117-214", "src/lower_bounded_range.rs:109-138", "src/lower_bounded_set.rs:115-141"]}
{"id": "C89", "title": "Programs and std adapters on the iterators", "statement": "A program that chooses each call on an iterator by the answers it has got so far ends with the same result as on the list of the elements. So for loops over the iterator itself and over rev(), skip(n), step_by(k), rev().step_by(k) and take(n) see exactly the elements that std's adapters promise, where no piece reaches an end of the element type. On a range, for loops over the iterator itself, rev() and skip(n) need a value beyond the end at which they work (skip: n more), and step_by(k) sees every k-th element exactly if the first value that it steps to beyond the range exists in the type; otherwise it panics.", "quantifier": "all lawful Step types, all ranges and normal sets (half-lines: as far as the program looks), all adaptive programs, all loop parameters that fit usize; with overflow checks: every program panics or ends as on the list, without a condition on the ends", "why_tests_cant": "the client is an arbitrary decision tree over answers, and the collections, element types and parameters are unbounded", "anchors": ["src/bounded_range.rs:172-246", "src/bounded_set.rs:117-214", "src/lower_bounded_range.rs:109-138", "src/lower_bounded_set.rs:115-141"]}
{"id": "C90", "title": "Pieces with more elements than usize::MAX", "statement": "The iterator of a set delivers exactly the elements of its pieces that have at most usize::MAX elements; larger pieces are passed over silently (with overflow checks, a piece with exactly usize::MAX + 1 elements makes it panic instead). A range's iterator delivers such elements but reports size 0. Without overflow checks, on integer types at least as wide as usize, a set's iterator also ends properly at the least and the greatest value of the type, where a range's iterator does not.", "quantifier": "all lawful Step types, all normal sets, all schedules of calls; the invisibility of pieces reporting length 0: all Step implementations; the last part: all integer types and platforms with wrapping arithmetic", "why_tests_cant": "sets with more than 2^64 elements cannot be enumerated, and the schedules and element types are unbounded", "anchors": ["src/bounded_range.rs:188-193", "src/bounded_set.rs:117-214", "src/lower_bounded_set.rs:115-141"]}
{"id": "C91", "title": "Iteration stays in order and in the collection under any Step that goes the right way", "statement": "If every step that returns goes in its direction (a single step strictly), then whatever else the Step implementation does - how far it steps, when it panics, what steps_between says - every schedule of calls on the iterator of a range, of a half-line or of a normal set, with its panics caught, is given elements of the collection in order and none twice. A set with a half-line needs besides that steps_between promises no step past the end. Both conditions are met by every lawful implementation that checks overflow, and without any one of the four directions the claim fails on a half-line or a one-element range.", "quantifier": "all element types, all Step implementations obeying the stated conditions, all ranges and normal sets, all schedules of next, next_back, nth and nth_back", "why_tests_cant": "users may implement Step in infinitely many ways; the claim is about all of them and all schedules", "anchors": ["src/step.rs:10-50", "src/bounded_range.rs:91-101", "src/bounded_range.rs:175-243", "src/bounded_set.rs:117-214", "src/lower_bounded_range.rs:51-135", "src/lower_bounded_set.rs:115-141"]}
{"id": "C92", "title": "A set that a program keeps changing: the last change of an element decides", "statement": "A program inserts with s = s.union(r) and removes with s = s.intersection(r.complement()). For any start value and any sequence of such changes with operands of any of the 15 types (removing no UpperBoundedSet), nothing panics and an element is in the result exactly if the last change about it was an insertion, or there was none and it was there at first. With bounded operands each of the four set types keeps its type, so this works in a loop. The invariant is kept and every one-range change adds at most one piece. Changes of the same sort or about different elements can be exchanged. Taking and removing the least element n times yields the n least elements in order and leaves exactly the others. But single removals leave debris: removing k increasing elements from an open range leaves k + 1 pieces even when no element is left, and is_empty then says no.", "quantifier": "all totally ordered element types, all start values, all finite sequences of insertions and removals with operands of any type; for the least element, all lawful Step implementations whose values fit usize and all sets that miss some value and have a value above each element", "why_tests_cant": "sequences of changes are unboundedly long and over infinitely many operands", "anchors": ["src/lib.rs Rangetools::union", "src/lib.rs Rangetools::intersection", "src/lib.rs Rangetools::complement", "src/implementations/union/*.rs RangeUnion::union", "src/implementations/intersection/*.rs RangeIntersection::intersection", "src/implementations/complement/*.rs RangeComplement::complement", "src/bounded_set.rs BoundedSet::into_iter"]}
{"id": "C93", "title": "The Step calls of the iterators, for implementations with side effects", "statement": "Each iterator method is modelled as a program that calls Step and the > of the elements and goes on according to each answer (a value or a panic), so that both may have side effects and answer differently each time. With a pure Step and order these are the methods of the other models. For every Step and > and every schedule of next, next_back, nth and nth_back with panics caught: the iterator of a range never calls steps_between and takes at most one step per next and two per nth; on a set one call asks each piece that it drops once and the piece that stays once, so a schedule of m calls on k pieces of which k' stay asks at most k - k' + m times; a loop to the end over k pieces with n elements asks exactly n + k times and takes exactly n steps, if > is never true where steps_between says Some; into_iter takes one step per excluded end. nth on a set with a half-line asks every remaining piece again at each call. If the steps that return go in the right direction and > never says false wrongly (and, for sets with a half-line, steps_between never promises steps past the end and > never says true wrongly), whatever the side effects, every schedule is given elements of the collection, in order and none twice.", "quantifier": "all element types (totally ordered ones for the order), all stateful Step implementations and comparisons, all states, all collections (normal sets for the order), all schedules of calls", "why_tests_cant": "stateful implementations, schedules and collections are infinitely many; a test sees one run of one of them", "anchors": ["src/bounded_range.rs BoundedRangeIter", "src/bounded_set.rs BoundedSetIter", "src/lower_bounded_range.rs LowerBoundedRangeIter", "src/lower_bounded_set.rs LowerBoundedSetIter", "src/bounded_range.rs BoundedRange::into_iter", "src/bounded_set.rs BoundedSet::into_iter"]}
{"id": "C94", "title": "Skipping over ranges of integers without overflow checks goes around the circle", "statement": "In a build without overflow checks: nth(n) on the iterator of a range of integers goes n steps around the circle of 2^bits values, whatever is left of the range, and answers with the value there unless that is after the end; the first nth(n) is wrong if and only if it passes MAX and lands on a value not after the end. A loop over step_by(k) visits the values at first, first + k, first + 2k, ... on the circle until one is after the end of the range. It ends if and only if some value after the end differs from the first value by a multiple of gcd(k, 2^bits). It sees every k-th element and ends, if and only if the first number beyond the range that it steps to is at most MAX or lands after the end. nth_back and rev().step_by(k) are the mirror images.", "quantifier": "all integer types, all platforms without overflow checks, all ranges (representable ones for the comparison with the elements), all n and k > 0 in usize, all lengths of the loop", "why_tests_cant": "the steps, ranges and types are too many to try, and that a loop never ends cannot be observed", "anchors": ["src/bounded_range.rs BoundedRangeIter::nth", "src/bounded_range.rs BoundedRangeIter::nth_back", "src/step.rs"]}
{"id": "C95", "title": "Comparisons with side effects that tell the truth", "statement": "Each set operation is modelled as a program that asks comparisons (<, <=, >, >=, ==, partial_cmp) one after the other and goes on according to each answer, so that comparisons may have side effects, answer differently each time, and panic. If every comparison that returns answers what a linear order says, then every operation (contains, is_empty, to_set, intersection, disjoint, intersects, union, complement) either ends with the panic of a comparison or gives what the pure model gives; if no comparison panics it gives that. So a union contains exactly the elements of either operand, and a complement the elements not in its operand, whatever else the comparisons do. Without any law, with pure comparisons, the programs compute what the pure model computes.", "quantifier": "all element types, all stateful comparisons, all states, all operands of all 15 types (all pairs of types), both ways in which std computes max and min", "why_tests_cant": "implementations of comparisons, states and operands are infinitely many; a test runs one of them", "anchors": ["src/bound.rs LowerBound", "src/bound.rs UpperBound", "src/bounded_range.rs BoundedRange", "src/bounded_set.rs BoundedSet", "src/lower_bounded_set.rs LowerBoundedSet", "src/upper_bounded_set.rs UpperBoundedSet", "src/unbounded_set.rs UnboundedSet", "src/implementations/union", "src/implementations/intersection", "src/implementations/complement"]}
{"id": "C96", "title": "Only endpoints of the operands are compared and returned", "statement": "Whatever the comparisons answer, also if they contradict each other or panic: every comparison that an operation makes is between endpoints of its operands (and, for contains, the element looked up), and every endpoint of the result is an endpoint of an operand. No element is made up.", "quantifier": "all element types, all stateful comparisons with any answers, all states, all operands of all 15 types", "why_tests_cant": "the answers form an infinite tree; a test follows one path", "anchors": ["src/bound.rs LowerBound", "src/bound.rs UpperBound", "src/bounded_range.rs BoundedRange", "src/bounded_set.rs BoundedSet", "src/lower_bounded_set.rs LowerBoundedSet", "src/upper_bounded_set.rs UpperBoundedSet", "src/unbounded_set.rs UnboundedSet", "src/implementations/union", "src/implementations/intersection", "src/implementations/complement"]}
{"id": "C97", "title": "The only panics of the set operations, for any comparisons", "statement": "Whatever the comparisons answer: contains, is_empty and to_set never panic unless a comparison does. Intersection, disjoint, intersects, union and complement can only panic with the assertion self.intersects(*other) of combine, or, if max and min go through cmp and some partial_cmp answers None, with unwrap on None. Indexing, insert and remove of the VecDeques and the other unwraps never fail. Both panics do occur.", "quantifier": "all element types, all stateful comparisons with any answers, all states, all operands of all 15 types", "why_tests_cant": "a test cannot try every sequence of answers", "anchors": ["src/bound.rs LowerBound", "src/bound.rs UpperBound", "src/bounded_range.rs BoundedRange", "src/bounded_set.rs BoundedSet", "src/lower_bounded_set.rs LowerBoundedSet", "src/upper_bounded_set.rs UpperBoundedSet", "src/unbounded_set.rs UnboundedSet", "src/implementations/union", "src/implementations/intersection", "src/implementations/complement"]}
{"id": "C98", "title": "How many comparisons the set operations make, for any answers", "statement": "Whatever the comparisons answer, and also if one of them panics: on a value of n bounded pieces contains makes at most 2n + 2 comparisons and is_empty at most n (both numbers are reached for every n), to_set at most one, and union at most (7k + 12)(3k + 6), where k is the number of bounded pieces of both operands. The result of a union has at most k bounded pieces, that of an intersection at most nm + 4n + 4m + 2. So a union always ends, after a quadratic number of comparisons.", "quantifier": "all element types, all stateful comparisons with any answers, all states, all operands of all 15 types", "why_tests_cant": "non-termination and worst cases over all answers cannot be observed by running", "anchors": ["src/bound.rs LowerBound", "src/bound.rs UpperBound", "src/bounded_range.rs BoundedRange", "src/bounded_set.rs BoundedSet", "src/lower_bounded_set.rs LowerBoundedSet", "src/upper_bounded_set.rs UpperBoundedSet", "src/unbounded_set.rs UnboundedSet", "src/implementations/union", "src/implementations/intersection", "src/implementations/complement"]}
{"id": "C99", "title": "A complement may grow exponentially if the comparisons lie", "statement": "The largest complements that any answers can lead to: a BoundedSet of n >= 1 pieces gets at most 2(4^(n-1) - 1)/3 bounded pieces, a LowerBoundedSet or UpperBoundedSet at most 2^n - 1, an UnboundedSet at most 2^n. Each of these numbers is reached from every set, for suitable answers.", "quantifier": "all element types, all stateful comparisons with any answers, all states, all sets, both ways in which std computes max and min", "why_tests_cant": "the worst case is reached by one sequence of answers among exponentially many, and for every n", "anchors": ["src/implementations/complement", "src/implementations/intersection", "src/unbounded_set.rs UnboundedSet", "src/bounded_set.rs BoundedSet"]}
{"id": "C100", "title": "How many comparisons an intersection makes, for any answers", "statement": "Whatever the comparisons answer, and also if one of them panics: an intersection of two values with n and m bounded pieces makes at most (7nm + 28n + 28m + 26)(7nm + 29n + 29m + 26) comparisons. The same number bounds disjoint and intersects, which go on to ask whether the result is empty. So all three always end.", "quantifier": "all element types, all stateful comparisons with any answers, all states, all pairs of operands of all 15 types, both ways in which std computes max and min", "why_tests_cant": "non-termination and worst cases over all answers cannot be observed by running", "anchors": ["src/bound.rs LowerBound", "src/bound.rs UpperBound", "src/bounded_range.rs BoundedRange", "src/bounded_set.rs BoundedSet", "src/lower_bounded_set.rs LowerBoundedSet", "src/upper_bounded_set.rs UpperBoundedSet", "src/unbounded_set.rs UnboundedSet", "src/implementations/union", "src/implementations/intersection", "src/implementations/complement"]}
{"id": "C101", "title": "A complement makes polynomially many comparisons if they obey an order, and only then", "statement": "If the comparisons answer what a linear order says, whatever else they do, the complement of a value with n bounded pieces makes at most n((28n + 26)(29n + 26) + 12) + 1 comparisons, also if one of them panics. Without that assumption there is no polynomial bound: from every BoundedSet of n pieces some answers lead to c comparisons with 3c + 2 >= 2 * 4^(n-2), and from every set with a half-line to at least 2^(n-1) - 1.", "quantifier": "all element types, all stateful comparisons, all states, all operands of all 15 types; for the second part all sets and both ways in which std computes max and min", "why_tests_cant": "the worst case over all answers and all n cannot be reached by running", "anchors": ["src/implementations/complement", "src/implementations/intersection", "src/unbounded_set.rs UnboundedSet", "src/bounded_set.rs BoundedSet"]}
{"id": "C102", "title": "In which order contains and is_empty compare, and when they stop", "statement": "Whatever the comparisons answer: contains compares the element with the ends of one piece after the other - first the half-line towards smaller elements, then the other half-line, then the bounded ranges in order, both ends of each - and stops only after a whole piece or when a comparison panics; an answer false comes after all of them. is_empty compares the ends of one range after the other, and an answer true comes after all of them. If the answers are those of a linear order and none panics, contains stops with exactly the first piece that contains the element, and is_empty with the first range that is not empty.", "quantifier": "all element types, all stateful comparisons with any answers, all states, all values of the nine crate types, all elements", "why_tests_cant": "all answers and all states cannot be tried", "anchors": ["src/bounded_range.rs BoundedRange::contains", "src/bounded_set.rs BoundedSet::contains", "src/lower_bounded_set.rs LowerBoundedSet::contains", "src/upper_bounded_set.rs UpperBoundedSet::contains", "src/unbounded_set.rs UnboundedSet::contains", "src/implementations/rangetools/bounded_set.rs is_empty"]}
{"id": "C103", "title": "disjoint and intersects are intersection followed by is_empty", "statement": "Whatever the comparisons do: disjoint makes exactly the comparisons of intersection and after them those of is_empty on the result, gives its answer and leaves the state it leaves; a panic of intersection, or of a comparison in it, ends disjoint in the same way. intersects makes the same comparisons, leaves the same state and answers the opposite.", "quantifier": "all element types, all stateful comparisons with any answers, all states, all pairs of operands of all 15 types", "why_tests_cant": "all comparisons and states cannot be tried", "anchors": ["src/lib.rs Rangetools::disjoint", "src/lib.rs Rangetools::intersects"]}
{"id": "C104", "title": "In which order == compares, and when it stops, whatever comparing does", "statement": "Whatever the == of the elements answers, also if it panics or changes state: the derived == of two values compares the elements at the same places with each other, in the order in which the fields are declared (the bounded ranges of a set in order, the start of each before its end), and makes no other comparison. It stops with false at the first difference of form - variants, numbers of ranges, an included end beside an excluded one - and at the first comparison that answers false, and with a panic at the first that panics; only after comparing all does it answer true. Sets with different numbers of bounded ranges are told apart without comparing any of these. If the == of the elements has no side effects the answer is that of C59.", "quantifier": "all element types, all stateful comparisons with any answers, all states, all pairs of values of the nine crate types", "why_tests_cant": "all answers and all states cannot be tried", "anchors": ["src/bound.rs Bound", "src/bounded_range.rs BoundedRange", "src/bounded_set.rs BoundedSet", "src/lower_bounded_set.rs LowerBoundedSet", "src/upper_bounded_set.rs UpperBoundedSet", "src/unbounded_set.rs UnboundedSet"]}
{"id": "C105", "title": "The comparisons the iterators make, whatever comparing does", "statement": "Whatever Step and the > of the elements answer, also if they panic or change state: next and next_back on a range first ask once whether current > last and compare nothing else; nth and nth_back step first and then do the same. A schedule of calls on a range, panics caught, compares at most once in each call, and exactly once if none panics. One call on a set compares at most once, and, if it does not panic, exactly once if a piece is left and not at all otherwise. A half-line never compares. Only the comparison ends a range: if > never answers true no call answers None, and if it never answers false no call gives an element. The two conditions on > in C93 are needed: with a > that says false wrongly a range gives an element outside it, and with one that says true wrongly once a set with a half-line gives its elements out of order.", "quantifier": "all element types, all stateful Step implementations and comparisons with any answers, all states, all iterators, all schedules of calls", "why_tests_cant": "stateful implementations, schedules and collections are infinitely many; a test sees one run of one of them", "anchors": ["src/bounded_range.rs BoundedRangeIter", "src/bounded_set.rs BoundedSetIter", "src/lower_bounded_range.rs LowerBoundedRangeIter", "src/lower_bounded_set.rs LowerBoundedSetIter"]}
{"id": "C106", "title": "Pretty Debug output identifies the value and has a fixed layout", "statement": "What {:#?} prints for a value determines both which of the nine types it has and the value, under the same condition on the element type's output as for {:?}, even if elements print spaces and line breaks of their own; it tells apart exactly what {:?} tells apart. The same holds for the four iterator types. If elements print on one line, the text is given line by line: every line is indented by four spaces for each level of nesting, a bound takes five lines, a range twelve, a half-line seven, and a set twelve for each of its ranges and a constant.", "quantifier": "all values of the nine types and the four iterator types (with or without the private invariant), all element types with readable output (for the layout: output on one line)", "why_tests_cant": "injectivity over all pairs of values and all element formats; the layout of sets of any size", "anchors": ["#[derive(Debug)] in src/bound.rs, src/bounded_range.rs, src/lower_bounded_range.rs, src/upper_bounded_range.rs, src/unbounded_range.rs, src/empty_range.rs, src/bounded_set.rs, src/lower_bounded_set.rs, src/upper_bounded_set.rs, src/unbounded_set.rs"]}
{"id": "C107", "title": "Conversions to std ranges call Step exactly where a bound has the wrong kind, start first", "statement": "Converting a BoundedRange to Range calls forward(start, 1) if the start is excluded, and then, if that returned, forward(end, 1) if the end is included; converting to RangeInclusive calls backward(end, 1) instead, if the end is excluded. The half-lines call at most one step in the same way, and an EmptyRange converted to RangeInclusive always calls backward(default, 1). Nothing else is called, ends with the right kind are passed through, a panic of a call is the outcome and no later call is made, and this holds for a Step with side effects. A std range taken into the crate and back makes no call and is the same range (a used-up RangeInclusive comes back unused). into_iter makes the same calls as the conversion to RangeInclusive and runs over the same ends.", "quantifier": "all ranges, all element types, all Step implementations with any shared state, side effects and panics", "why_tests_cant": "the exact sequence of calls of arbitrary stateful implementations", "anchors": ["src/bounded_range.rs:51-102", "src/lower_bounded_range.rs:33-59", "src/upper_bounded_range.rs:40-62", "src/empty_range.rs:31-42"]}
{"id": "C108", "title": "count, last, min and max: exactly which calls they make", "statement": "Whatever Step and > do: count of a range's iterator asks for one distance and of a set's for one per piece, from the front, and (if it returns) is the sum of the answers plus one each; last of a range's iterator makes one comparison; min and max compare once and, if something is left, take a step whose result is unused but whose panic is not caught; min of a half-line's iterator takes one step. last of a set's iterator asks the pieces from the back until one reports elements and then walks that piece from its front, alternating comparison and step, until > says true; so with a lawful Step it takes as many steps as the piece has elements, instead of the single comparison that last of the piece's iterator would need.", "quantifier": "all iterators in any state, all element types, all Step implementations and comparisons with any shared state, side effects and panics; for the cost: every lawful Step and every set whose pieces end below the top of the type", "why_tests_cant": "the exact calls under arbitrary stateful implementations, and the cost for pieces of any length", "anchors": ["src/bounded_range.rs:195-221", "src/bounded_set.rs:140-180", "src/lower_bounded_range.rs:130-135", "src/lower_bounded_set.rs:136-138"]}
{"id": "C109", "title": "Which comparisons ordering bounds and intersecting ranges make, in which order", "statement": "Comparisons with side effects that answer what a linear order says are asked exactly the questions of a fixed list, in its order, and a beginning of it if one of them panics; no other list has this property. Ordering two bounds of the same kind takes one partial_cmp; of different kinds, == first and partial_cmp only if that says no (for any answers). An intersection of two ranges compares the starts and then the ends, with the receiver's first; of a range with a half-line one pair; of opposite half-lines nothing; disjoint then asks whether the common part is empty, with > if both ends are included and >= otherwise. contains of a range asks about both ends, the start first, with >=, >, <= or < according to the kind of the bound.", "quantifier": "all element types with a linear order, both ways std computes max and min, all operands; all comparisons that answer what the order says, whatever else they do (side effects, panics)", "why_tests_cant": "the exact sequence of comparison calls on all operands, whatever the calls do besides answering", "anchors": ["src/bound.rs:72-100", "src/bound.rs:171-201", "src/implementations/rangetools/bounded_range.rs:4-11", "src/implementations/intersection/bounded_range.rs:6-60", "src/bounded_range.rs:128-138", "src/lib.rs:160-185"]}
{"id": "C110", "title": "Which comparisons unions and intersections of bounded sets make, in which order", "statement": "Adding an empty range asks once whether it is empty. Adding a range that meets no range of the set asks every range in order whether it meets it, and then compares the starts up to the first one behind it. Adding one that meets some asks up to the first, merges the two (asking again whether each is empty and whether they meet, then starts and ends), and adds the result to the rest from the beginning. A union adds the ranges of the right operand one by one in order. The union of two nonempty ranges is a list in closed form of at most 20 questions, and 20 occurs. Intersecting a set with a range first intersects all ranges and then asks of every result whether it is empty; two sets, range by range of the receiver.", "quantifier": "all element types with a linear order, both ways std computes max and min, all operands; all comparisons that answer what the order says, whatever else they do (side effects, panics)", "why_tests_cant": "the exact sequence of comparison calls on all operands, whatever the calls do besides answering", "anchors": ["src/bounded_set.rs:64-84", "src/bounded_range.rs:140-152", "src/implementations/intersection/bounded_set.rs:7-86", "src/implementations/union/bounded_set.rs"]}
{"id": "C111", "title": "Which comparisons unions with half-lines make, in which order", "statement": "Half-lines of the same direction are compared once; of opposite directions one question tells whether they overlap. A nonempty range and a half-line: three times whether the range is empty, whether they meet, and if so the two ends, whichever is the receiver. A set with one half-line is put in order again by asking its ranges whether they are empty up to the first that is not, then whether the nearest range meets the half-line, merging and starting over; a set with two half-lines asks all its ranges about the one going down, then all about the one going up, starting over after each merge, and finally whether the half-lines meet. Unions of sets add the half-line first and then the ranges in order; a union of a set going up with one going down asks whether the half-lines meet, then adds the ranges of the set going up, then the others, whichever is the receiver.", "quantifier": "all element types with a linear order, both ways std computes max and min, all operands; all comparisons that answer what the order says, whatever else they do (side effects, panics)", "why_tests_cant": "the exact sequence of comparison calls on all operands, whatever the calls do besides answering", "anchors": ["src/lower_bounded_set.rs:50-81", "src/upper_bounded_set.rs:32-61", "src/unbounded_set.rs:49-69", "src/unbounded_set.rs:107-196", "src/implementations/union/lower_bounded_set.rs", "src/implementations/union/upper_bounded_set.rs"]}
{"id": "C112", "title": "Which comparisons intersections of sets and complements make, in which order", "statement": "The complement of a range asks one question, whether the half-lines it leaves overlap; of a half-line none. The complement of a set goes through its ranges in order, from the complement of its half-lines, and intersects with the complement of each. An intersection of a set with half-lines takes the half-line first, then all ranges, then adds the second to the first; with an unbounded set the parts are taken in a fixed order. For operands of two different types the questions and their order do not depend on which is the receiver; for two of the same type they do. std ranges ask exactly what the crate types they are converted to ask.", "quantifier": "all element types with a linear order, both ways std computes max and min, all operands; all comparisons that answer what the order says, whatever else they do (side effects, panics)", "why_tests_cant": "the exact sequence of comparison calls on all operands, whatever the calls do besides answering", "anchors": ["src/implementations/intersection/bounded_set.rs:54-141", "src/implementations/intersection/lower_bounded_set.rs", "src/implementations/intersection/upper_bounded_set.rs", "src/implementations/intersection/unbounded_set.rs:83-108", "src/implementations/complement/bounded_set.rs:3-14", "src/implementations/complement/unbounded_set.rs:3-24"]}
{"id": "C113", "title": "Iteration is offered exactly where it is possible, and delivers the least solutions", "statement": "A type implements IntoIterator exactly when it is bounded below, and that is exactly when every value of the type over the integers has an increasing sequence of all its elements. A union can be iterated over exactly when both operands can, an intersection exactly when one can, a complement exactly when the operand cannot. Iterating over the value of any expression of such a type delivers the solutions of the Boolean formula in increasing order: any list of the least solutions is what the first calls of next deliver, and None for ever once there are no more.", "quantifier": "all fifteen types and all pairs of them; all element types with a lawful Step that fit into usize, all expressions without a lossy intersection (C02), excluded bounds with a neighbour in the type and a BoundedSet result that does not hold the whole type, all lists of least solutions without the greatest value of the type", "why_tests_cant": "tests iterate over a few results; that no result type lacks or wrongly has an iterator, and that the items of every composite expression are its solutions, ranges over all expressions and types", "anchors": ["README.md:31-45", "src/lib.rs:31-50", "src/bounded_range.rs:85-102", "src/bounded_set.rs:32-43", "src/empty_range.rs:44-50", "src/lower_bounded_range.rs:45-59", "src/lower_bounded_set.rs:35-47"]}
{"id": "C114", "title": "A flag, an emptiness test and not asking for lengths are all that iteration lacks", "statement": "Replace the state of BoundedRangeIter by std's RangeInclusive (the same two values and a flag), let into_iter of an empty range step nowhere, and let the set iterator recognise spent pieces without their length. Then every bounded range and every set of pieces that follow one another, of every type, answers every schedule of calls as the list of its elements does: no room above or below, no representable ends, no bound on the length of the pieces is needed. Wherever the crate's iterators afford a schedule, the answers are the same as before.", "quantifier": "all element types with a lawful Step, all ranges, all lists of pieces, all schedules of next, next_back, nth, nth_back, size_hint, len, count, min and max", "why_tests_cant": "that a change cures every failure and alters no other answer ranges over all ranges, sets and schedules", "anchors": ["src/bounded_range.rs:91-101", "src/bounded_range.rs:172-246", "src/bounded_set.rs:117-214"]}
{"id": "C115", "title": "Iterating over sets that break the private invariant", "statement": "A deserialized set may have pieces in any order, overlapping or empty. Its iterator behaves under every schedule of calls like the concatenation of the pieces' elements, followed for a LowerBoundedSet by its half-line: nothing is missed or invented, each element is yielded once for each piece it is in, len counts these repetitions and min is merely the first. The iteration is right (increasing, each element once) exactly if every element of a piece is less than every element of a later piece, and free of repetitions exactly if no two pieces share an element. Complementing twice first always makes it right.", "quantifier": "all element types with a lawful Step, all lists of pieces whose ends exist in the type, all schedules that stay inside the type", "why_tests_cant": "tests cannot build such sets through the API; all piece lists and schedules", "anchors": ["src/bounded_set.rs IntoIterator, BoundedSetIter", "src/lower_bounded_set.rs IntoIterator, LowerBoundedSetIter", "cfg_attr(feature = \"serde\", derive(Deserialize)) in src/bounded_set.rs"]}
{"id": "C116", "title": "Which operations repair sets that break the private invariant", "statement": "For every pair of operand types a table says whether a broken left or right operand can make a union or an intersection break the invariant. With the operands the table names normal, the result is always normal; and for every entry there is a broken operand whose damage survives, so no entry can be left out. In particular the intersection of two sets neither of which is an UnboundedSet is always normal, because the pieces that are only clipped at first are added again afterwards; so is the union of a LowerBoundedSet and an UpperBoundedSet. Intersecting any set with itself repairs it: the result is normal, of the same type and has the same members, also for LowerBoundedSet.", "quantifier": "all fifteen operand types on either side, all values however broken, all element types (witnesses over the integers)", "why_tests_cant": "tests cannot build such sets through the API; all broken piece lists", "anchors": ["src/implementations/intersection/*.rs", "src/implementations/union/*.rs", "add_range in src/bounded_set.rs", "defragment in src/lower_bounded_set.rs"]}
{"id": "C117", "title": "For which operand types the laws always hold", "statement": "For the laws that fail because intersection of two LowerBoundedSets forgets members, tables over the types of the operands say where they can fail: membership and order of the operands of intersection (only two LowerBoundedSets), the difference a.intersection(b.complement()) (only LowerBoundedSet and UpperBoundedSet), associativity of intersection (16 of the 729 triples of types), and both distributive laws for sets. For all other types the law holds for all normal values, and for every entry of a table there are normal values of those types for which it fails. Associativity also holds for two LowerBoundedSets and a half-line or UnboundedRange in any order, although members are lost on both sides.", "quantifier": "all operand types, all normal values, all element types (witnesses over the integers)", "why_tests_cant": "all values of the types outside the tables", "anchors": ["src/implementations/intersection/*.rs", "src/implementations/union/*.rs", "src/lower_bounded_set.rs"]}
{"id": "C118", "title": "Three ways to write the symmetric difference", "statement": "a.union(b).intersection(a.complement().union(b.complement())) always has exactly the elements of one of a and b only, and its type is bounded on a side iff both or neither of the operands are. a.union(b).intersection(a.intersection(b).complement()) never misses such an element, and has extra ones iff a.intersection(b) forgets a member, which of all types happens only for two LowerBoundedSets. a.intersection(b.complement()).union(b.intersection(a.complement())) never has extra elements, and misses some iff one of the two differences does, which happens only for a LowerBoundedSet and an UpperBoundedSet.", "quantifier": "all values of all types, including fresh ranges; all element types", "why_tests_cant": "unboundedly many values; only few values of a few types fail", "anchors": ["src/implementations/intersection/*.rs", "src/implementations/union/*.rs", "src/implementations/complement/*.rs"]}
{"id": "C119", "title": "What subset tests written with == find out", "statement": "For normal sets of any of the four types, a.union(b) == b, b.union(a) == b and a.intersection(b) == a each hold iff every piece of a lies between the bounds of a single piece of b. b.intersection(a) == a holds iff in addition no members are lost. Then all elements of a are in b; the converse is false, as pieces 0..3 and 3..5 of b stay apart and 2..4 is in neither. Passing the test is a partial order on the normal sets of all types together. On dense types without end points the tests decide, for every a, whether the elements of a are in b iff no piece of b begins where another one ends; complements never have such pieces.", "quantifier": "all normal sets of all four types, all linearly ordered element types", "why_tests_cant": "unboundedly many pieces and bounds", "anchors": ["src/implementations/intersection/*.rs", "src/implementations/union/*.rs", "src/bounded_set.rs"]}
{"id": "C120", "title": "Which identities between formulas hold is decidable", "statement": "Take two formulas of union, intersection and complement over variables that stand for sets of given types, such that no intersection is of two LowerBoundedSets (always so for BoundedSets and UnboundedSets, and without intersections). They have equal values (==, and the same type) for all normal sets of these types iff they agree in an algebra of five values: what is covered around a single cut (nothing, one side, the other, both sides without the cut, everything). Their values have the same members for all normal sets of these types iff they are equivalent in propositional logic. Both are decided by trying finitely many choices, and do not depend on the types. So distributivity, absorption, not(a or b) = not a and not b, and not not not a = not a are laws of values, but not not a = a, not(a and b) = not a or not b and a or not a = everything are laws of members only. With an intersection of two LowerBoundedSets even laws of values can fail for members.", "quantifier": "all formulas with any number of variables, all choices of the four set types for the variables, all normal sets, all linearly ordered element types; completeness by sets of integers", "why_tests_cant": "infinitely many identities, each about unboundedly many values", "anchors": ["src/implementations/intersection/*.rs", "src/implementations/union/*.rs", "src/implementations/complement/*.rs"]}
{"id": "C121", "title": "How many elements are moved inside the VecDeque", "statement": "When a range is added to a BoundedSet whose pieces A end before it, B meet it and C begin after it, the pieces of B are all removed at the same place, and the joined range is inserted there. If remove and insert shift the shorter side, this moves exactly min(|A|,|C|) + the sum over j < |B| of min(|A|, j + |C|) elements. Pieces that come in order into one gap move the sum of min(|A|+j, |C|) elements; so appending moves nothing, and the intersection of two BoundedSets moves nothing by insertion and swaps at most one element for each piece of its result. On any sets, however broken, the loop of that intersection moves exactly as many elements as adding the non-empty meetings of the pieces to an empty set one after the other. Any union of n and m pieces moves at most (n+2m)(n+m)/2 elements, and for every n there is a union of 2n and n pieces that moves n*n. UnboundedSet::defragment takes pieces below off the front, which moves nothing, and takes k pieces above out behind b others, which moves the sum over j < k of min(b, j).", "quantifier": "every BoundedSet satisfying the private invariant, every non-empty range, all linear orders; the bound on one add_range and the count for the loop of the intersection also for broken sets and any implementation of the comparison traits", "why_tests_cant": "the counts are sums over lists of any length", "anchors": ["src/bounded_set.rs:64-84", "src/unbounded_set.rs:49-69", "src/implementations/intersection/bounded_set.rs:8-36"]}
{"id": "C122", "title": "Which identities between formulas hold, LowerBoundedSets included", "statement": "For two formulas of unions, intersections and complements and any choice of the four set types for the variables, a search decides whether they have equal values for all normal sets of these types, and another whether the values have the same elements. The search goes along the line from above to below and remembers of every part of the formulas whether it covers the present place and whether it covers everything from there on, which is what the intersection of two LowerBoundedSets depends on. Formulas that fail differ for some normal sets of integers. Trying all types decides whether an identity holds for all normal sets. Inclusions are decided in the same way: e is contained in f iff e ∪ f has the members of f. Among the laws found: a ∪ (a ∩ b) = a and a ∩ (a ∪ b) = a hold for all types, and (a ∩ b) ∪ (b ∩ a) has exactly the elements of both for all types, although a ∩ b and b ∩ a may each lack some.", "quantifier": "all pairs of formulas, all types of the variables, all normal sets, all linear orders; completeness over the integers", "why_tests_cant": "there are infinitely many formulas, and for each infinitely many sets to try", "anchors": ["src/implementations/intersection/lower_bounded_set.rs:46-60", "src/implementations/intersection/*.rs", "src/implementations/union/*.rs", "src/implementations/complement/*.rs"]}
{"id": "C123", "title": "Which identities between expressions hold for which of the nine types", "statement": "For two expressions of to_inner, to_set, union, intersection and complement over variables, and any choice of the nine types for the variables, a search decides whether they have equal values, of the same type, for all normal values of these types, and another whether the values have the same elements. Values that fail are found among those with integers as elements. Trying all types decides whether an identity holds for all normal values of whatever types; inclusions, and emptiness by comparison with an EmptyRange variable, are decided in the same way. Among the laws found: to_set before or after a union gives equal values; absorption keeps the elements for all types; a.to_set() ∩ b.to_set() has the elements of a ∩ b except where a is a LowerBoundedRange and b a LowerBoundedSet; intersections commute, as values, except those of two LowerBoundedSets.", "quantifier": "all pairs of expressions, all nine types of each variable, all normal values (single ranges with bounds in any order), all linear orders; completeness over the integers", "why_tests_cant": "there are infinitely many expressions, for each 9 to the power of the number of variables choices of types, and for each infinitely many values to try", "anchors": ["src/implementations/intersection/*.rs", "src/implementations/union/*.rs", "src/implementations/complement/*.rs", "src/implementations/rangetools/*.rs"]}
{"id": "C124", "title": "Which sentences about expressions hold for which of the nine types", "statement": "For any statement made of == and is_empty (so also of disjoint and intersects) between expressions of to_inner, to_set, union, intersection and complement, with not and and (so also or, if, if and only if), and any choice of the nine types for the variables, a search decides whether it is true of all normal values of these types. Sentences that fail are false of some values with integers as elements. Trying all types decides whether a sentence is true of all normal values of whatever types. Among the laws found: converting two values to sets does not change whether they are disjoint; a value and its complement are never both empty; the union of a value with its complement is never empty.", "quantifier": "all sentences, all nine types of each variable, all normal values (single ranges with bounds in any order), all nonempty linear orders; completeness over the integers", "why_tests_cant": "there are infinitely many sentences, for each 9 to the power of the number of variables choices of types, and for each infinitely many values to try", "anchors": ["src/implementations/intersection/*.rs", "src/implementations/union/*.rs", "src/implementations/complement/*.rs", "src/implementations/rangetools/*.rs", "src/lib.rs:158-185"]}
{"id": "C125", "title": "Debug output with format flags", "statement": "A width, a fill, an alignment, + and 0 in the format string change the texts of the elements only. The texts printed for ranges and sets of integers, plain and pretty, still tell all values apart, provided that the fill is not a digit, nor -, nor + together with the + flag. With other fills they need not: {:1>2?} prints the same for 3.. and 13.., {:->3?} for 3.. and -3... Every element takes the width asked for, or more if its number is longer: zeros after the sign with 0, and otherwise fill where the alignment says, with the odd one after the number if it is centred.", "quantifier": "all widths, fills, alignments and flags, all ranges and sets of integers", "why_tests_cant": "tests look at a few format strings and values; no two values that print the same may exist at all", "anchors": ["#[derive(Debug)] in src/bound.rs, src/bounded_range.rs, src/lower_bounded_range.rs, src/upper_bounded_range.rs, src/unbounded_range.rs, src/empty_range.rs, src/bounded_set.rs, src/lower_bounded_set.rs, src/upper_bounded_set.rs, src/unbounded_set.rs"]}
{"id": "C126", "title": "Which sentences about expressions and elements hold for which of the nine types", "statement": "For any statement made of ==, is_empty, contains of an element and comparisons of elements, with not and and, about expressions of to_inner, to_set, union, intersection and complement over variables of the nine types, a search decides whether it is true of all normal values of these types and all elements. Sentences that fail are false of some values and elements that are integers, so what is true of all integers is true of all ordered elements. Among the laws found: if the intersection of a LowerBoundedSet with the complement of another is empty, all its members are in the other; the types all of whose values have with a member all greater elements are EmptyRange, UnboundedRange and LowerBoundedRange.", "quantifier": "all sentences, any number of variables and elements, all nine types of each variable, all normal values (ranges in any order of bounds, RangeInclusive not exhausted), all linear orders; completeness over the integers", "why_tests_cant": "there are infinitely many sentences, and for each infinitely many values and elements to try", "anchors": ["src/lib.rs:158-185", "src/implementations/rangetools/*.rs", "src/implementations/intersection/*.rs", "src/implementations/union/*.rs", "src/implementations/complement/*.rs"]}
{"id": "C127", "title": "Debug output in hexadecimal tells values apart", "statement": "With x or X in the format string, with or without #, and any width, alignment, + and 0, and any fill that is neither a hexadecimal digit nor a + that numbers begin with, different ranges and sets of integers of any number of bits print different texts. The text of an integer is fill, + if asked for, 0x with #, zeros, the digits of the number in two's complement in the case asked for and without leading zeros, and fill; its length and the place of the fill are what the flags say.", "quantifier": "all flags, all numbers of bits, all values of the nine types, any type name", "why_tests_cant": "all flags, integers and values", "anchors": ["#[derive(Debug)] in src/bound.rs, src/bounded_range.rs, src/lower_bounded_range.rs, src/upper_bounded_range.rs, src/unbounded_range.rs, src/empty_range.rs, src/bounded_set.rs, src/lower_bounded_set.rs, src/upper_bounded_set.rs, src/unbounded_set.rs"]}
{"id": "C128", "title": "Debug output of ranges of characters, strings, pairs, options and vectors", "statement": "Different ranges and sets of characters, or of strings, print different texts, plain and pretty, whichever characters count as printable; so do those of pairs, options and vectors of elements that print readably, for plain vectors provided that no element prints nothing or begins with a closing bracket. The text of a character or a string is on one line. Printable characters other than the backslash and the quote in use stand for themselves; five characters and the quote have short forms; the others are written as their number in hexadecimal without leading zeros.", "quantifier": "all tables of printable characters, all characters, strings, pairs, options and vectors, all values of the nine types, any type name", "why_tests_cant": "all characters, strings and values", "anchors": ["#[derive(Debug)] in src/bound.rs, src/bounded_range.rs, src/lower_bounded_range.rs, src/upper_bounded_range.rs, src/unbounded_range.rs, src/empty_range.rs, src/bounded_set.rs, src/lower_bounded_set.rs, src/upper_bounded_set.rs, src/unbounded_set.rs"]}
{"id": "C129", "title": "Implementing Step through codes", "statement": "Take a type of the user's whose values have codes in a type with a lawful Step, and let its Step ask about the codes: steps_between compares codes, forward_checked and backward_checked step from the code and decode the result, forward and backward are the provided methods. The implementation is lawful if the codes are ordered like the values and leave no gaps, and then stepping out of the type panics and ranges give the values they contain. If it is lawful for any numbering of the values, and the codes are close enough for usize, then the codes are ordered like the values and leave no gaps.", "quantifier": "all types, orders, codes and decoders, all lawful Step implementations for the codes, all platforms", "why_tests_cant": "all types and implementations", "anchors": ["src/step.rs:10-50"]}
