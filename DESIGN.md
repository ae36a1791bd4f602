# rangetools in Lean 4: design

## What is verified

The crate at `/repo` (rsnively/rangetools): six `std::ops` range types, five crate range types
(`BoundedRange`, `LowerBoundedRange`, `UpperBoundedRange`, `UnboundedRange`, `EmptyRange`), four crate
set types (`BoundedSet`, `LowerBoundedSet`, `UpperBoundedSet`, `UnboundedSet`), their union,
intersection, complement, emptiness, membership, conversions, iterators, the `Step` trait with its
implementations, and indexing of slices and strings by crate ranges. Properties are in
`properties.jsonl` (C01 ...); this file says how each is modelled and proved.

## Layout

* `lean/Verif/Model/*.lean` - the model: one Lean definition per Rust function, each with a comment
  citing file and lines. Total and computable. No proofs beyond termination and `Option.get`.
* `lean/Verif/Spec/*.lean` - small specification vocabulary, independent of the model's helpers.
* `lean/Verif/Proofs/*.lean` - helper lemmas.
* `lean/Verif/Props/*.lean` - the property theorems, with a concrete example beside each:
  `Algebra` C01-C16; `Region` C11, C13, C71, C77; `Sharp` C14, C32, C43, C58; `Derived` C17, C59; `Emptiness` C17-C23; `StdUpper` C22; `Misjudged` C19, C21; `DenseOnly` C17; `DenseIff` C25, C58; `WrongPairs` C21; `SubsetStd` C58; `OpenEnds` C22, C58; `OpenMembers` C17;
  `Bounds` C24-C29; `Convert` C30-C32; `Iter` C33-C40; `IterLimits` C41-C43; `Step` C44-C48; `Index` C49-C52; `Edge`
  C53-C54; `Lattice` C55-C58; `Dispatch` C60, C79; `Members` C60; `HalfLine` C61; `Serde` C62; `Counting` C63-C64;
  `Natural` C65-C66; `Lawful` C67; `Size` C68; `Trees` C69; `Detour` C70; `Mono` C71; `StdIter` C72; `Reach` C73;
  `Depth` C74; `Wild` C75; `Repair` C76; `Cost` C78; `Express` C80; `Fewest` C81; `Typed` C82; `Mirror` C83; `Sweep`
  C84; `InterCost` C85; `Observe` C86; `Debug` C87; `Unwind` C88; `Client` C89; `Big` C90; `Climb` C91; `History` C92;
  `Calls` C93, C105; `Circle` C94; `Asks` C95-C99; `AsksCost` C100-C103; `AsksEq` C104; `Pretty` C106; `CallsConvert`
  C107; `CallsConsume` C108; `AsksTrace` C109-C110; `AsksTraceSets` C111-C112; `AnyIter` C113; `RepairIter` C114;
  `BrokenIter` C115; `Damage` C116; `TypeLaws` C117; `SymDiff` C118; `Within` C119; `Identities` C120; `Moves` C121;
  `Scan` C122; `Terms` C123; `Sentences` C124; `Flags` C125; `Elements` C126; `Hex` C127; `Text` C128; `Via` C129.
* `lean/Verif/Tests/*.lean` - the crate's own 547 unit tests and its doc examples, transcribed and evaluated on the
  model by the kernel. These are tests of the transcription, not proofs of any property. All pass.
* `seeded/LOG.jsonl` - one line per wrong program the theorems were tried against; see "Wrong programs" below.

## Modelling decisions

* **Panics**: `Res a = ok a | panic msg`. `assert!`, `unwrap`, `expect`, `VecDeque` indexing and
  overflow checks are explicit `Res` computations; nothing is silently defaulted.
* **`&mut self`**: the function returns the new value. The value after a panic is not modelled, except for the iterators in
  `Model/Unwind.lean` (C88), where every method also returns the iterator a panic leaves behind.
* **`VecDeque`** is `List`. `insert`, index, `remove`, `front`, `back`, `pop_*`, `retain` are defined on lists.
* **Element type**: the set algebra is modelled over any type with `<=`, `<`, `cmp` and `==`, with no laws. Built into
  the model: `a > b` is `b < a`, `a >= b` is `b <= a`, and `partial_cmp` is `Some(cmp)`. Most theorems take a Lean
  `LinearOrder T`: the four agree, the order is total, and elements that compare equal are equal. C67 carries the main
  ones to lawful `Ord` types whose equal elements can be told apart (`LawfulElem`), by passing to the quotient with
  C65; C65 and C66 need no laws. `Copy` is invisible. C26 uses a general partial comparison instead.
* **Comparisons as calls**: in `Model/Asks.lean` the set operations are written a second time, as programs that ask
  comparisons and go on according to the answers, in the order of the Rust code. There `<`, `<=`, `>`, `>=`, `==` and
  `partial_cmp` are six unrelated questions, and an answer may depend on a state, differ each time, or be a panic.
  `Spec/Asks.lean` runs such a program; C95 compares it with the pure model, C96 - C100 and C102 assume nothing about the answers.
  A run logs the pairs compared; `Spec/AsksTrace.lean` also records which operator was asked, and C109 - C112 give the list
  of questions, in order, for answers that tell the truth about a linear order.
  `Model/AsksEq.lean` has the derived `==` in the same way (C104): variants first, then the fields as declared, with `&&`;
  `VecDeque::eq` compares the lengths and then the elements in order.
  The evaluation order of Rust (left to right, `&&` and `||` short-circuit, `match` guards in order) is transcribed by hand.
* **Max/min**: `Ord::max` returns the second argument on ties, `Ord::min` the first, as in std. Older versions of std
  decide by `cmp`, newer ones by `other < self`; the two differ only for unlawful orders (C75). `Model/Asks.lean` takes
  the way as a parameter (`MaxVia`), and C95 - C103 and C109 - C112 hold for both.
* **Static dispatch** by associated types (`Inner`, `Set`, `Output`) becomes a sum type `Any T` of all 15
  types (`Model/Any.lean`), with total dispatch functions that follow the impl chosen by rustc for each of the 225
  pairs. The impls themselves are also modelled, one Lean instance per Rust `impl` (`Model/Traits.lean`,
  `Model/TraitImpls.lean`: 15 `Rangetools`, 80 union, 119 intersection, 15 complement), generated from the text of
  /repo and in an order in which each forwards only to earlier ones, so forwarding ends. Lean's instance search
  (`Spec/Ty.lean`) then plays the part of rustc's, and C79 shows that both models agree. Like Rust's, the Lean traits
  take the `Set` or `Inner` type of the right operand as a parameter, so no two impls overlap. The generic bounds
  `Copy + Ord` are dropped where Lean does not need them.
* **Build modes**: `Platform` carries `usizeBits` and `overflowChecks`; the model of `Step::forward` and of
  `usize` arithmetic consults it.
* **Iterators**: a state and a function returning `Res (Option item x state)`. Provided methods that the crate
  overrides are modelled; std default methods only where the crate (or rustc's method resolution) uses them.
  Which types have `into_iter` at all is the table `Any.intoIter` (`Model/AnyIter.lean`, `none`: does not compile).
* **Derives**: `==` and `Hash` (`Model/Derive.lean`) and serde (`Model/Serde.lean`) are written down from the
  attributes: the derive macros themselves are not modelled. `Hash` is a list of the values fed to the hasher. serde
  formats are not modelled, only serde's data model.
* **Indexing**: a slice is a `List`; `IndexMut` is a lens (`List -> (List -> List) -> Res List`); `str` is a list of
  bytes with the UTF-8 char-boundary test; `CStr` a byte list ending in its only NUL.

## Proof idea for the set algebra

A *cut* is a point between elements: `(a, before)` or `(a, after)`, ordered lexicographically, with bottom and top added.
Every range or set is a list of cut intervals. Its meaning is a set of *probes*: for each cut `x`, `after x`, `before x` and
`at x` (strictly inside one piece at `x`). Union and intersection are exactly set union and intersection on probes
(they keep touching pieces apart, which `at` sees and membership does not). Element `t` is contained iff
`after (t, before)` holds. A *canonical* list (pieces non-empty, ordered, non-overlapping) is determined by its probes,
so every identity of Boolean-style set operations that holds for probes holds for `==` on reachable values.
Membership theorems need no canonicity; `==` theorems assume the private invariant, which is proved for all
reachable values (C06).

## Per property

| id | model and proof |
|----|-----------------|
| C01-C03 | `Any.union/inter/complement` for all 225 pairs; probe homomorphism; no invariant assumed |
| C04 | the same theorems show the `Res` is `ok`; termination is by Lean's acceptance of the definitions |
| C05 | inductive `Expr`, `eval`; induction on the tree |
| C06 | invariant stated directly on pieces via `is_empty`/bound order; preserved by every operation; `Reachable` inductive |
| C07-C13 | canonical uniqueness |
| C14, C15 | complement on probes: negates before/after, `at x` = neither before nor after |
| C16 | membership from C01-C03 |
| C17 | `==` soundness trivial direction; dense orders: before/after probes determined by membership; witness for the failure |
| C18-C23 | cut inequalities; dense/no-endpoint type classes for existence; `starts included` semantic argument for C22; witnesses for failures |
| C24-C28 | case analysis on bounds |
| C29 | dispatch + From lemmas |
| C30-C32 | `Step` structure; lawful steps: strictly monotone index into the integers with convex image |
| C33-C43 | iterator states refine the sorted list of contained elements; arbitrary schedules by induction |
| C44-C48 | integers as bounded Nat/Int with `as` casts modelled by reduction mod 2^w; char by scalar-value index |
| C49-C52 | list lemmas |
| C53 | the `exhausted` flag of std's `RangeInclusive`, which the crate cannot see |
| C54 | indexing without overflow checks at `usize::MAX` |
| C55-C58 | probes again; C57 drops the invariant from the operands |
| C59 | structural induction; element `==` and hash are parameters |
| C60 | case analysis; ties `contains` to the element order without going through probes |
| C61 | an `LFull` state lists what is left up to the type's greatest value; calls pop from it |
| C62 | structural, over an arbitrary element encoding; the grammar of accepted data is the relation of `Spec/Serde.lean` |
| C63, C64 | C05, C06 and the iteration theorems combined; `Finset` cardinalities |
| C65 | each function of the model commutes with the map (`Proofs/Natural.lean`), dispatch last |
| C66 | C65 for the inclusion of the set of the operands' endpoints |
| C67 | C65 for the map onto classes of equal elements, which form a linear order |
| C68 | a canonical list of pieces is no longer than any list holding all its starting points; starting points of the result are endpoints of the operands |
| C69 | union is commutative and associative up to identity of values (C07, C08), so every tree equals a left fold over its leaves |
| C70 | C05 needs its condition at intersections only; the laws by the probe sets, on which three complements are one |
| C71 | from C01, C02, C03, C05 |
| C72 | std's iterators (Spec/StdIter) refine the same list as the crate's (C37) |
| C73 | C06 one way; the other way builds the value piece by piece with unions, using C16 (same members, same pieces) |
| C74 | Model/Depth counts nested activations; induction over the pieces; a merged range meets the later pieces that either part meets |
| C75 | `Res.PanicsOnly` carried through every operation of the model with only operations on `Res`; `max`/`min` on bounds commute |
| C76 | the repaired function (`Spec/Repair.lean`, not code of the crate) on probes; then as C02, C05, C10-C14 without the side condition |
| C77 | `Spec/Region.lean` gives every expression a meaning as a set of spots on a line (five spots per element: before, cut, element, cut, after); spots correspond to probes, so each operation is read off its probe theorem; full abstraction because probes determine canonical piece lists |
| C78 | Model/Depth counts activations and elements looked at by `position`; every activation but the last removes a piece, the last inserts one |
| C79 | per impl, unfold the forwarding to its target; then cases on both types |
| C80 | induction over the definition of definable; for the types, cut a value down with an intersection and pad it with a union, then read off the type from C56 |
| C81 | pieces of a complement never touch; so one element in each, a non-member between any two, and an interval of a competitor holds only one of them |
| C82 | induction over typed expressions with C79; the meaning from C05 and C77 |
| C83 | `Inner.mirror : Inner T → Inner Tᵒᵈ`; both sides have mirrored regions (C77), and regions determine values |
| C84 | both results are canonical lists with the same probes, and such lists are unique |
| C85 | the meets come in order and do not overlap, so each lands at the end (`C85_append`); induction over both loops |
| C86 | one way: regions that agree are kept alike by every operation (`Region.Same`); other way: for each spot a context that moves it to an element |
| C87 | texts as lists of characters; readability passes through `debug_tuple`, `debug_struct` and `debug_list` |
| C88 | a model of unwinding; a move leaves a sorted part of what was left before it; what it loses is counted by positions (Proofs/Lost), and reading to the end loses nothing because all arguments are 0 |
| C89 | programs as decision trees; they cannot leave the list refinement of C37 |
| C90 | pieces that report length 0 are invisible (a bisimulation that needs no law of Step); wrapping leads to the whole type, which reports length 0 |
| C91 | one move keeps what is left sorted and disjoint from what was delivered; needs only the direction of a step, so C88_delivered_* are special cases |
| C92 | C01-C03 for one change, then induction along the history; the type by C79; removals by uniqueness of canonical piece lists |
| C93 | programs with explicit calls (Calls), their paths under allowed answers, one lemma per method, induction along the schedule |
| C94 | landing points on the circle (Spec/Circle), closed form of the loop by induction on the landings, Bezout for when it ends |
| C95 | programs that compare (Model/Asks), their runs (Spec/Asks), and equality of the pure run with the other model, function by function |
| C96 | a weakest precondition over all answers, carried through every function (Proofs/AsksWp, AsksAll) |
| C97 | the same weakest precondition, with the allowed panics as a parameter |
| C98 | the same weakest precondition, with a counter of the comparisons |
| C99 | upper bound by the weakest precondition; a path of answers that reaches it by a dual predicate (Proofs/AsksPath) |
| C100 | a budget in units of the cost of one insertion, of which every operation leaves one for each piece of its result (Proofs/AsksCost) |
| C101 | the budget of C100 for each step of the fold, and C68 for the size of each partial result; long runs by a predicate on paths (Proofs/AsksLawful) |
| C102 | a search through the pieces, with the list of pairs compared as its specification (Spec/AsksOrder, Proofs/AsksOrder) |
| C103 | the run of one program after another (exec_bind) |
| C104 | a value written as a list of marks, and two lists read side by side (Spec/AsksEq) |
| C105 | paths through programs that call Step and > (Proofs/Calls) |
| C106 | padding can be undone, and pads a block of lines to a deeper block (Proofs/Pretty) |
| C107 | case analysis on the bounds, running the programs |
| C108 | paths of the programs (Proofs/CallsConsume) |
| C109 | a recording world (Spec/AsksTrace), and the questions under the pure order (Proofs/AsksTrace) |
| C110 | trails of searches, folds and maps (Proofs/AsksTrace) |
| C111 | trails composed along the programs (Proofs/AsksTraceSets) |
| C112 | trails composed along the programs (Proofs/AsksTraceSets) |
| C113 | least element left in an iterator, one step at a time for all eight iterators (Proofs/AnyIter) |
| C114 | pieces as std ranges, one call at a time (Proofs/RepairIter) |
| C115 | the list of C37 without its order, then counting (Props/BrokenIter) |
| C116 | add_range puts what it adds in order with respect to everything in front (Proofs/Damage), so re-adding every piece sorts any list (Props/Damage) |
| C117 | the partial laws C02, C10, C11, C13, C58 give everything but six lossy triples, which follow from the regions of C77 (Props/TypeLaws) |
| C118 | the third form never intersects two LowerBoundedSets, by the types of its operands; the others from C02, C58 and C117 (Props/SymDiff) |
| C119 | a piece covered by a canonical list lies in one interval of it (Props/Within) |
| C120 | probes around a cut take five forms, the operations act on them one cut at a time, and five BoundedSets show all of them (Props/Identities) |
| C121 | add_range removes and inserts at one place; exact count of shifted elements, quadratic worst case attained (Props/Moves) |
| C122 | the same with lossy intersections: a search over what a scan from above to below must remember (Spec/Scan, Props/Scan) |
| C123 | The same for variables of all nine types, to_inner and to_set included (Spec/Terms, Props/Terms) |
| C124 | The same for all statements of `==` and `is_empty` with not and and, not only identities (Spec/Sentences, Props/Sentences) |
| C125 | Width, fill, alignment, `+` and `0` in Debug output (Model/Flags, Props/Flags) |
| C126 | The same with `contains` of elements and their order (Spec/Sentences, Props/Elements) |
| C127 | C87 and C106 with the texts of Model/Flags as those of the elements; digits read back by a separate function (Props/Hex) |
| C128 | C87 and C106 with the texts of Model/Text as those of the elements: the escapes are a prefix-free code (Props/Text) |
| C129 | the laws carried over along the codes; conversely steps_between gives the order and forward_checked the missing values (Props/Via). The implementation through codes (`Spec/Via.lean`) is client code, not code of the crate |

## Claims that are false of the code

Each has a proved negation with a concrete witness; the true part is proved separately.

* C02, C05, C10, C11, C13, C14, C58, C67, C71: **`LowerBoundedSet` intersected with `LowerBoundedSet` loses elements.**
  `src/implementations/intersection/lower_bounded_set.rs:47-61` forms `self & half-line(other)` and
  `pieces(self) & other`, and forgets `half-line(self) & pieces(other)`. The result is right exactly when no bounded
  piece of the second operand reaches into the half-line of the first outside the half-line of the second
  (`Any.Lossless`; `C02_inter_lbs_correct_iff` and `C02_lossless_exact` show that the condition is sharp). Nothing is
  ever added (`C02_inter_subset`). Commutativity, associativity, distributivity, De Morgan, set difference and
  monotonicity fail with it. Going through `complement` and `union` instead is always right (C70).
  Changing the last line to `set.add_set(self.intersection(other.ranges))` repairs all of it (C76).
* C17: `==` does not follow from same members (touching pieces stay apart); `(3..3).complement()` is
  `Piecewise(..3, 3..)` and not `Unbounded`.
* C19/C21: over discrete or bounded element types `is_empty`/`disjoint` can be false for member-less values.
  `C19_wrong_iff` and `C21_wrong_iff` say of exactly which. Nothing built from half-open std ranges alone is among them, unless
  it has no lower bound and the element type has a least element (`C22_isEmpty_half_open`, `C22_half_open_types`).
* C32: `EmptyRange<u32> -> RangeInclusive` panics (checked) or yields `0..=MAX` (unchecked); for char it always panics.
  It works exactly where `Default::default()` has a predecessor (`C32_inclusive_iff`).
* C31 (unchecked): `..=255u8` becomes `RangeTo` `..0`.
* C39: `u128` ranges with more than `usize::MAX` elements report length 0 and a `BoundedSet` of them yields nothing;
  `0..=u64::MAX` overflows in `steps + 1`.
* C41: with an unlawful `Step` a `BoundedSetIter` called at alternating ends can return `None` and then `Some`.
* C42 (unchecked): `(0u8..10).nth(256)` of a crate range is `Some(0)`.
* C43: `a..=MAX` panics before yielding MAX, or never ends; `0..0` of an unsigned type panics or yields every value.
  `C43_forward_iff`, `C43_backward_iff` give the exact set of ranges that work. C72 compares with std, whose ranges end properly in these cases.
* C53: the crate ignores `RangeInclusive`'s `exhausted` flag, so an exhausted `3..=3` has its element back after any
  operation, while `contains` and the inherent `is_empty` of std see the flag. (The trait's `is_empty` does not see it;
  a method call resolves to the inherent one.)
* C54: without overflow checks `Included(usize::MAX)` as an end gives an empty slice, and `Excluded(usize::MAX)` as a
  start wraps to 0, so that `IndexMut` hands out the whole slice.
* C61: half-line iterators never yield the greatest value of the type: they panic (checked) or wrap and never end.
* C88: an `nth` or `nth_back` that panics has already skipped elements; a program that catches the panic does not get them.
  A panicking `next` at the greatest value loses nothing, and `next_back` of a bounded range still delivers that value.
* C89: `range.into_iter().step_by(k)` panics if the first value that it steps to beyond the range is not in the type; std's ranges
  end properly. `C89_range_step_by` gives the exact condition.
* C90: a `BoundedSet` piece with more than `usize::MAX` elements is silently passed over by the set's iterator. By the same
  accident, in release builds the set iterators of types at least as wide as `usize` end properly at `MAX`, unlike those of ranges.
* C67: up to identity instead of `==`, commutativity of union fails when equal elements can be told apart: the result keeps
  one endpoint from each operand (`min` keeps its first argument on a tie, `max` its second).
* C74: `add_range` and `PiecewiseUnboundedSet::defragment` call themselves once for each piece they absorb (the other two
  `defragment`s loop), so a union that absorbs enough pieces can exhaust the stack. The model has no stack; that a
  real stack is finite is not a theorem here.
* C78: a union of two sets of `n` pieces can look at pieces `n * n` times, because `add_set` searches from the front
  for every piece although both sides are sorted. Not wrong, but not linear.
* C75: an `Ord` in which equal elements are not interchangeable makes `combine`'s assertion fail: `self.intersects(p)`
  asked one way round is true and the other way round false.
* C62: deserialization does not check the invariant of the set types.
* C93, C108: `nth` of `LowerBoundedSetIter` asks all remaining pieces for their length at every call, and `last` of
  `BoundedSetIter` walks through the last piece instead of taking its end (`i.last()` has an `&mut` receiver and so
  resolves to the provided method). Not wrong, but slow.
* C94: in release builds `(0..=250u8).into_iter().step_by(8)` never ends.
* C99, C101: comparisons that contradict each other can make the complement of `n` ranges exponentially large.
* C115: the iterator of a deserialized set with overlapping pieces yields elements out of order and repeatedly.
* C118, C119, C120: `a.union(b) == b` is not the subset test, one of three natural ways to write a symmetric difference
  loses elements and another has too many, and `!!a == a`, `!(a & b) == !a | !b` and `a | !a == ..` hold for members only.

### Quantifiers narrowed after a counterexample

The first statements of these properties were too wide and were narrowed when a proof attempt or a test on the model
failed: C01, C02, C03, C05, C15, C16, C29, C30 (exhausted `RangeInclusive` excluded), C19, C21 (dense orders), C49, C51, C52
(guard at `usize::MAX` without overflow checks). Where a claim is a natural promise of the code rather than a slip in
the statement, it was kept wide and is marked `partial` in the manifest.

## Wrong programs

Theorems are tried against edited programs in a scratch copy. An edit replaces one fragment of one model
definition. First, decidable checkers of the claims run on the edited model over sample values; a checker that fails
gives the claim broken and a witness. Then the whole project is elaborated as one file with the edit, where a
failing proof becomes `sorryAx`, and the property theorems that depend on it are listed (`theorems_failed`; this
includes theorems that merely use a lemma that failed). A broken claim whose theorems all survive is a weak
theorem and is tightened (`theorems_tightened`). An edit that breaks no theorem is either equivalent or reveals an
uncovered definition; the `note` says which.

## Trusted base

* The Lean 4.33 kernel, and Mathlib as installed.
* Axioms: every theorem in the manifest depends on `propext`, `Classical.choice` and `Quot.sound` at most.
  Those that need fewer: 
  - propext, Quot.sound: `C19_incomplete`, `C19_gap_int`, `C27_flipped_bound`, `C41_set_fused_partial`, `C44_limits`, `C49_unbounded_empty`, `C51_unbounded`, `C60_sets`, `C62_positional`, `C62_unknown_field`, `C62_exactly_once`, `C83_twice`, `C88_agree`, `C88_recover`, `C90_invisible`, `C91_range`, `C91_set`, `C91_half_line`, `C91_lower_set`, `C91_forward_needed`, `C91_backward_needed`, `C91_promises_needed`, `C92_exchange`, `C93_agree`, `C93_into_iter`, `C93_order_range`, `C93_order_set`, `C93_order_half_line`, `C93_order_lower_set`, `C97_panics_occur`, `C103_disjoint_intersects`, `C104_order`, `C104_compared`, `C104_true`, `C104_refl`, `C104_lengths`, `C104_pure`, `C105_end`, `C105_lies`, `C108_agree`, `C108_fuel`, `C109_recording`, `C109_poses`, `C109_bounds`, `C112_flipped`, `C112_std`, `C120_sameValues`, `C120_sameMembers`, `C120_values_members`, `C125_length`, `C129_needed`.
  - propext: `C26_lowerBound`, `C26_upperBound`, `C27_flipped_complement`, `C29_toSet_idempotent`, `C30_members`, `C32_range`, `C41_range_fused`, `C41_set_next_fused`, `C41_set_next_back_fused`, `C41_set_counterexample`, `C56_toSet_type`, `C59_hash_length`, `C59_hash_injective`, `C60_new`, `C60_ranges`, `C60_std`, `C60_one_piece`, `C61_range_never_none`, `C61_set_never_none`, `C65_conversions`, `C65_needs_strict`, `C79_tools`, `C88_next_unchanged`, `C98_attained`, `C107_agree`, `C109_order_any`, `C113_offered`, `C125_no_flags`, `C125_only_width`, `C128_printable`, `C128_printable_char`, `C128_pair`.
  - Quot.sound: `C72_range_from`.
  - none: `C28_map_functor`, `C30_round_trip`, `C30_exhausted_counterexample`, `C61_empty`, `C79_contains`, `C107_range`, `C107_range_inclusive`, `C107_one_end`, `C107_round_trip`, `C107_into_iter`, `C108_range_ends`, `C108_half_line_min`, `C109_contains`, `C120_safe`.
  No other axiom, no `sorry`, no `native_decide`, no `bv_decide`.
* That the model transcribes the Rust faithfully (each definition cites its source lines), rustc's method and impl
  resolution as described above (for the set operations: that it finds, among the impls of Model/TraitImpls, the same as
  Lean's instance search, which C79 compares with the dispatcher), and the std behaviour listed there: `Ord::max/min`, `VecDeque`, `Option`, iterator
  default methods, `usize` and integer arithmetic in both build modes, `char` as scalar values, slice, `str` and `CStr`
  indexing by std ranges, UTF-8, the derive macros, the calls made by a `for` loop over `Rev`, `Skip`, `StepBy` and `Take` (Spec/Client), and the iterators of `Range`, `RangeInclusive` and `RangeFrom`
  (C72 only).
* Not modelled: precision and `{:x?}` of elements that are not integers (other format flags: C106, C125, C127), `Clone`, `Copy`, `Default` and the derived order of the two one-value types (all trivial), serde formats and error values, allocation failure and capacity overflow, performance (except the counts of C74, C78, C85, C93, C108 and C121: nested calls, calls, elements looked at by
  `position`, calls of `Step`, and elements moved by `insert`, `remove` and `retain`, not the growth of a buffer),
  user `Ord` implementations that are not lawful total orders (except C26, C65, C66, C74's bound, and C75, where comparisons are still pure, `partial_cmp` is `Some(cmp)` and `a >= b` is read as `b <= a`; and C93, C95 - C105 and C108, where comparisons are arbitrary code, but `Ord::max`, `min` and `clamp` are not overridden), a hand-written `Clone` of a `Copy` type, `Step` implementations with side effects outside the methods of Model/Calls, Model/CallsConvert and Model/CallsConsume (there C93, C107, C108; pure ones that panic in `steps_between` or obey almost no law: C41, C91).
