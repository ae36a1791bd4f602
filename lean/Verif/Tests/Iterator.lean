import Verif.Tests.Harness

/-!
# Upstream iterator tests

Transcribed from the crate's own unit tests.  These are tests of the model, not proofs of a property.
-/

set_option linter.unusedVariables false

namespace Rangetools.Tests

/-- `next_included_included`, /repo/src/test/iterator/bounded_range.rs:3-12. -/
example : passes (do
  let r ← into .br ((Any.rangeInclusive ⟨n 0, n 3, false⟩))
  let it ← intoIter (r)
  let (o, it) ← next it
  check (decide (o = some (n 0)))
  let (o, it) ← next it
  check (decide (o = some (n 1)))
  let (o, it) ← next it
  check (decide (o = some (n 2)))
  let (o, it) ← next it
  check (decide (o = some (n 3)))
  let (o, it) ← next it
  check (decide (o = none))) := by decide +kernel

/-- `next_included_excluded`, /repo/src/test/iterator/bounded_range.rs:14-22. -/
example : passes (do
  let r ← into .br ((Any.range ⟨n 0, n 3⟩))
  let it ← intoIter (r)
  let (o, it) ← next it
  check (decide (o = some (n 0)))
  let (o, it) ← next it
  check (decide (o = some (n 1)))
  let (o, it) ← next it
  check (decide (o = some (n 2)))
  let (o, it) ← next it
  check (decide (o = none))) := by decide +kernel

/-- `next_excluded_included`, /repo/src/test/iterator/bounded_range.rs:24-31. -/
example : passes (do
  let r : Any I32 := Any.inner (.br ⟨LowerBound.excluded (n 3), UpperBound.included (n 5)⟩)
  let it ← intoIter (r)
  let (o, it) ← next it
  check (decide (o = some (n 4)))
  let (o, it) ← next it
  check (decide (o = some (n 5)))
  let (o, it) ← next it
  check (decide (o = none))) := by decide +kernel

/-- `next_excluded_excluded`, /repo/src/test/iterator/bounded_range.rs:33-39. -/
example : passes (do
  let r : Any I32 := Any.inner (.br ⟨LowerBound.excluded (n 3), UpperBound.excluded (n 5)⟩)
  let it ← intoIter (r)
  let (o, it) ← next it
  check (decide (o = some (n 4)))
  let (o, it) ← next it
  check (decide (o = none))) := by decide +kernel

/-- `size_hint`, /repo/src/test/iterator/bounded_range.rs:40-56. -/
example : passes (do
  let r1 : Any I32 := Any.inner (.br ⟨LowerBound.excluded (n 5), UpperBound.excluded (n 10)⟩)
  check (decide ((← sizeHint ((← intoIter (r1)))) = (4, some (4))))
  let r2 : Any I32 := Any.inner (.br ⟨LowerBound.included (n 5), UpperBound.excluded (n 10)⟩)
  check (decide ((← sizeHint ((← intoIter (r2)))) = (5, some (5))))
  let r3 : Any I32 := Any.inner (.br ⟨LowerBound.excluded (n 5), UpperBound.included (n 10)⟩)
  check (decide ((← sizeHint ((← intoIter (r3)))) = (5, some (5))))
  let r4 : Any I32 := Any.inner (.br ⟨LowerBound.included (n 5), UpperBound.included (n 10)⟩)
  check (decide ((← sizeHint ((← intoIter (r4)))) = (6, some (6))))
  let r5 ← inter ((Any.range ⟨n 0, n 10⟩)) (Any.range ⟨n 10, n 20⟩)
  hasType r5 .br
  check (decide ((← sizeHint ((← intoIter (r5)))) = (0, some (0))))) := by decide +kernel

/-- `count`, /repo/src/test/iterator/bounded_range.rs:58-74. -/
example : passes (do
  let r1 : Any I32 := Any.inner (.br ⟨LowerBound.excluded (n 5), UpperBound.excluded (n 10)⟩)
  check (decide ((← count ((← intoIter (r1)))) = 4))
  let r2 : Any I32 := Any.inner (.br ⟨LowerBound.included (n 5), UpperBound.excluded (n 10)⟩)
  check (decide ((← count ((← intoIter (r2)))) = 5))
  let r3 : Any I32 := Any.inner (.br ⟨LowerBound.excluded (n 5), UpperBound.included (n 10)⟩)
  check (decide ((← count ((← intoIter (r3)))) = 5))
  let r4 : Any I32 := Any.inner (.br ⟨LowerBound.included (n 5), UpperBound.included (n 10)⟩)
  check (decide ((← count ((← intoIter (r4)))) = 6))
  let r5 ← inter ((Any.range ⟨n 0, n 10⟩)) (Any.range ⟨n 10, n 20⟩)
  hasType r5 .br
  check (decide ((← count ((← intoIter (r5)))) = 0))) := by decide +kernel

/-- `last`, /repo/src/test/iterator/bounded_range.rs:76-92. -/
example : passes (do
  let r1 : Any I32 := Any.inner (.br ⟨LowerBound.excluded (n 5), UpperBound.excluded (n 10)⟩)
  check (decide ((← lastItem ((← intoIter (r1)))) = some (n 9)))
  let r2 : Any I32 := Any.inner (.br ⟨LowerBound.included (n 5), UpperBound.excluded (n 10)⟩)
  check (decide ((← lastItem ((← intoIter (r2)))) = some (n 9)))
  let r3 : Any I32 := Any.inner (.br ⟨LowerBound.excluded (n 5), UpperBound.included (n 10)⟩)
  check (decide ((← lastItem ((← intoIter (r3)))) = some (n 10)))
  let r4 : Any I32 := Any.inner (.br ⟨LowerBound.included (n 5), UpperBound.included (n 10)⟩)
  check (decide ((← lastItem ((← intoIter (r4)))) = some (n 10)))
  let r5 ← inter ((Any.range ⟨n 0, n 10⟩)) (Any.range ⟨n 10, n 20⟩)
  hasType r5 .br
  check (decide ((← lastItem ((← intoIter (r5)))) = none))) := by decide +kernel

/-- `nth`, /repo/src/test/iterator/bounded_range.rs:94-110. -/
example : passes (do
  let r1 : Any I32 := Any.inner (.br ⟨LowerBound.excluded (n 5), UpperBound.excluded (n 10)⟩)
  let (o, _) ← nth 1 ((← intoIter (r1)))
  check (decide (o = some (n 7)))
  let r2 : Any I32 := Any.inner (.br ⟨LowerBound.included (n 5), UpperBound.excluded (n 10)⟩)
  let (o, _) ← nth 1 ((← intoIter (r2)))
  check (decide (o = some (n 6)))
  let r3 : Any I32 := Any.inner (.br ⟨LowerBound.excluded (n 5), UpperBound.included (n 10)⟩)
  let (o, _) ← nth 10 ((← intoIter (r3)))
  check (decide (o = none))
  let r4 : Any I32 := Any.inner (.br ⟨LowerBound.included (n 5), UpperBound.included (n 10)⟩)
  let (o, _) ← nth 10 ((← intoIter (r4)))
  check (decide (o = none))
  let r5 ← inter ((Any.range ⟨n 0, n 10⟩)) (Any.range ⟨n 10, n 20⟩)
  hasType r5 .br
  let (o, _) ← nth 0 ((← intoIter (r5)))
  check (decide (o = none))) := by decide +kernel

/-- `min`, /repo/src/test/iterator/bounded_range.rs:112-128. -/
example : passes (do
  let r1 : Any I32 := Any.inner (.br ⟨LowerBound.excluded (n 5), UpperBound.excluded (n 10)⟩)
  check (decide ((← minItem ((← intoIter (r1)))) = some (n 6)))
  let r2 : Any I32 := Any.inner (.br ⟨LowerBound.included (n 5), UpperBound.excluded (n 10)⟩)
  check (decide ((← minItem ((← intoIter (r2)))) = some (n 5)))
  let r3 : Any I32 := Any.inner (.br ⟨LowerBound.excluded (n 5), UpperBound.included (n 10)⟩)
  check (decide ((← minItem ((← intoIter (r3)))) = some (n 6)))
  let r4 : Any I32 := Any.inner (.br ⟨LowerBound.included (n 5), UpperBound.included (n 10)⟩)
  check (decide ((← minItem ((← intoIter (r4)))) = some (n 5)))
  let r5 ← inter ((Any.range ⟨n 0, n 10⟩)) (Any.range ⟨n 10, n 20⟩)
  hasType r5 .br
  check (decide ((← minItem ((← intoIter (r5)))) = none))) := by decide +kernel

/-- `max`, /repo/src/test/iterator/bounded_range.rs:130-146. -/
example : passes (do
  let r1 : Any I32 := Any.inner (.br ⟨LowerBound.excluded (n 5), UpperBound.excluded (n 10)⟩)
  check (decide ((← maxItem ((← intoIter (r1)))) = some (n 9)))
  let r2 : Any I32 := Any.inner (.br ⟨LowerBound.included (n 5), UpperBound.excluded (n 10)⟩)
  check (decide ((← maxItem ((← intoIter (r2)))) = some (n 9)))
  let r3 : Any I32 := Any.inner (.br ⟨LowerBound.excluded (n 5), UpperBound.included (n 10)⟩)
  check (decide ((← maxItem ((← intoIter (r3)))) = some (n 10)))
  let r4 : Any I32 := Any.inner (.br ⟨LowerBound.included (n 5), UpperBound.included (n 10)⟩)
  check (decide ((← maxItem ((← intoIter (r4)))) = some (n 10)))
  let r5 ← inter ((Any.range ⟨n 0, n 10⟩)) (Any.range ⟨n 10, n 20⟩)
  hasType r5 .br
  check (decide ((← maxItem ((← intoIter (r5)))) = none))) := by decide +kernel

/-- `next_back`, /repo/src/test/iterator/bounded_range.rs:148-176. -/
example : passes (do
  let r1 : Any I32 := Any.inner (.br ⟨LowerBound.excluded (n 5), UpperBound.excluded (n 7)⟩)
  let i1 ← intoIter (r1)
  let (o, i1) ← nextBack i1
  check (decide (o = some (n 6)))
  let (o, i1) ← nextBack i1
  check (decide (o = none))
  let r2 : Any I32 := Any.inner (.br ⟨LowerBound.included (n 5), UpperBound.excluded (n 7)⟩)
  let i2 ← intoIter (r2)
  let (o, i2) ← nextBack i2
  check (decide (o = some (n 6)))
  let (o, i2) ← nextBack i2
  check (decide (o = some (n 5)))
  let (o, i2) ← nextBack i2
  check (decide (o = none))
  let r3 : Any I32 := Any.inner (.br ⟨LowerBound.excluded (n 5), UpperBound.included (n 7)⟩)
  let i3 ← intoIter (r3)
  let (o, i3) ← nextBack i3
  check (decide (o = some (n 7)))
  let (o, i3) ← nextBack i3
  check (decide (o = some (n 6)))
  let (o, i3) ← nextBack i3
  check (decide (o = none))
  let r4 : Any I32 := Any.inner (.br ⟨LowerBound.included (n 5), UpperBound.included (n 7)⟩)
  let i4 ← intoIter (r4)
  let (o, i4) ← nextBack i4
  check (decide (o = some (n 7)))
  let (o, i4) ← nextBack i4
  check (decide (o = some (n 6)))
  let (o, i4) ← nextBack i4
  check (decide (o = some (n 5)))
  let (o, i4) ← nextBack i4
  check (decide (o = none))
  let r5 ← inter ((Any.range ⟨n 0, n 10⟩)) (Any.range ⟨n 10, n 20⟩)
  hasType r5 .br
  let (o, _) ← nextBack ((← intoIter (r5)))
  check (decide (o = none))) := by decide +kernel

/-- `nth_back`, /repo/src/test/iterator/bounded_range.rs:178-194. -/
example : passes (do
  let r1 : Any I32 := Any.inner (.br ⟨LowerBound.excluded (n 5), UpperBound.excluded (n 10)⟩)
  let (o, _) ← nthBack 1 ((← intoIter (r1)))
  check (decide (o = some (n 8)))
  let r2 : Any I32 := Any.inner (.br ⟨LowerBound.included (n 5), UpperBound.excluded (n 10)⟩)
  let (o, _) ← nthBack 2 ((← intoIter (r2)))
  check (decide (o = some (n 7)))
  let r3 : Any I32 := Any.inner (.br ⟨LowerBound.excluded (n 5), UpperBound.included (n 10)⟩)
  let (o, _) ← nthBack 10 ((← intoIter (r3)))
  check (decide (o = none))
  let r4 : Any I32 := Any.inner (.br ⟨LowerBound.included (n 5), UpperBound.included (n 10)⟩)
  let (o, _) ← nthBack 10 ((← intoIter (r4)))
  check (decide (o = none))
  let r5 ← inter ((Any.range ⟨n 0, n 10⟩)) (Any.range ⟨n 10, n 20⟩)
  hasType r5 .br
  let (o, _) ← nthBack 0 ((← intoIter (r5)))
  check (decide (o = none))) := by decide +kernel

/-- `next`, /repo/src/test/iterator/bounded_set.rs:3-14. -/
example : passes (do
  let s1 ← union ((Any.range ⟨n 0, n 1⟩)) (Any.range ⟨n 3, n 4⟩)
  hasType s1 .bs
  let i1 ← intoIter (s1)
  let (o, i1) ← next i1
  check (decide (o = some (n 0)))
  let (o, i1) ← next i1
  check (decide (o = some (n 3)))
  let (o, i1) ← next i1
  check (decide (o = none))
  let s2 : Any I32 := Any.inner (.bs .empty)
  hasType s2 .bs
  let i2 ← intoIter (s2)
  let (o, i2) ← next i2
  check (decide (o = none))) := by decide +kernel

/-- `size_hint`, /repo/src/test/iterator/bounded_set.rs:16-23. -/
example : passes (do
  let s1 ← union ((Any.range ⟨n 0, n 1⟩)) (Any.range ⟨n 3, n 4⟩)
  hasType s1 .bs
  check (decide ((← sizeHint ((← intoIter (s1)))) = (2, some (2))))
  let s2 : Any I32 := Any.inner (.bs .empty)
  hasType s2 .bs
  check (decide ((← sizeHint ((← intoIter (s2)))) = (0, some (0))))) := by decide +kernel

/-- `count`, /repo/src/test/iterator/bounded_set.rs:25-32. -/
example : passes (do
  let s1 ← union ((Any.range ⟨n 0, n 1⟩)) (Any.range ⟨n 3, n 4⟩)
  hasType s1 .bs
  check (decide ((← count ((← intoIter (s1)))) = 2))
  let s2 : Any I32 := Any.inner (.bs .empty)
  hasType s2 .bs
  check (decide ((← count ((← intoIter (s2)))) = 0))) := by decide +kernel

/-- `last`, /repo/src/test/iterator/bounded_set.rs:34-41. -/
example : passes (do
  let s1 ← union ((Any.range ⟨n 0, n 1⟩)) (Any.range ⟨n 3, n 4⟩)
  hasType s1 .bs
  check (decide ((← lastItem ((← intoIter (s1)))) = some (n 3)))
  let s2 : Any I32 := Any.inner (.bs .empty)
  hasType s2 .bs
  check (decide ((← lastItem ((← intoIter (s2)))) = none))) := by decide +kernel

/-- `nth`, /repo/src/test/iterator/bounded_set.rs:43-50. -/
example : passes (do
  let s1 ← union ((Any.range ⟨n 0, n 1⟩)) (Any.range ⟨n 3, n 4⟩)
  hasType s1 .bs
  let (o, _) ← nth 1 ((← intoIter (s1)))
  check (decide (o = some (n 3)))
  let s2 : Any I32 := Any.inner (.bs .empty)
  hasType s2 .bs
  let (o, _) ← nth 1 ((← intoIter (s2)))
  check (decide (o = none))) := by decide +kernel

/-- `min`, /repo/src/test/iterator/bounded_set.rs:52-59. -/
example : passes (do
  let s1 ← union ((Any.range ⟨n 0, n 1⟩)) (Any.range ⟨n 3, n 4⟩)
  hasType s1 .bs
  check (decide ((← minItem ((← intoIter (s1)))) = some (n 0)))
  let s2 : Any I32 := Any.inner (.bs .empty)
  hasType s2 .bs
  check (decide ((← minItem ((← intoIter (s2)))) = none))) := by decide +kernel

/-- `max`, /repo/src/test/iterator/bounded_set.rs:61-68. -/
example : passes (do
  let s1 ← union ((Any.range ⟨n 0, n 1⟩)) (Any.range ⟨n 3, n 4⟩)
  hasType s1 .bs
  check (decide ((← maxItem ((← intoIter (s1)))) = some (n 3)))
  let s2 : Any I32 := Any.inner (.bs .empty)
  hasType s2 .bs
  check (decide ((← maxItem ((← intoIter (s2)))) = none))) := by decide +kernel

/-- `next_back`, /repo/src/test/iterator/bounded_set.rs:70-81. -/
example : passes (do
  let s1 ← union ((Any.range ⟨n 0, n 1⟩)) (Any.range ⟨n 3, n 4⟩)
  hasType s1 .bs
  let i1 ← intoIter (s1)
  let (o, i1) ← nextBack i1
  check (decide (o = some (n 3)))
  let (o, i1) ← nextBack i1
  check (decide (o = some (n 0)))
  let (o, i1) ← nextBack i1
  check (decide (o = none))
  let s2 : Any I32 := Any.inner (.bs .empty)
  hasType s2 .bs
  let i2 ← intoIter (s2)
  let (o, i2) ← nextBack i2
  check (decide (o = none))) := by decide +kernel

/-- `nth_back`, /repo/src/test/iterator/bounded_set.rs:83-90. -/
example : passes (do
  let s1 ← union ((Any.range ⟨n 0, n 1⟩)) (Any.range ⟨n 3, n 4⟩)
  hasType s1 .bs
  let (o, _) ← nthBack 1 ((← intoIter (s1)))
  check (decide (o = some (n 0)))
  let s2 : Any I32 := Any.inner (.bs .empty)
  hasType s2 .bs
  let (o, _) ← nthBack 1 ((← intoIter (s2)))
  check (decide (o = none))) := by decide +kernel

/-- `next`, /repo/src/test/iterator/empty_range.rs:3-7. -/
example : passes (do
  let r : Any I32 := Any.inner .er
  let (o, _) ← next ((← intoIter (r)))
  check (decide (o = none))) := by decide +kernel

/-- `size_hint`, /repo/src/test/iterator/empty_range.rs:9-13. -/
example : passes (do
  let r : Any I32 := Any.inner .er
  check (decide ((← sizeHint ((← intoIter (r)))) = (0, some (0))))) := by decide +kernel

/-- `count`, /repo/src/test/iterator/empty_range.rs:15-19. -/
example : passes (do
  let r : Any I32 := Any.inner .er
  check (decide ((← count ((← intoIter (r)))) = 0))) := by decide +kernel

/-- `last`, /repo/src/test/iterator/empty_range.rs:21-25. -/
example : passes (do
  let r : Any I32 := Any.inner .er
  check (decide ((← lastItem ((← intoIter (r)))) = none))) := by decide +kernel

/-- `nth`, /repo/src/test/iterator/empty_range.rs:27-31. -/
example : passes (do
  let r : Any I32 := Any.inner .er
  let (o, _) ← nth 1 ((← intoIter (r)))
  check (decide (o = none))) := by decide +kernel

/-- `next_back`, /repo/src/test/iterator/empty_range.rs:33-37. -/
example : passes (do
  let r : Any I32 := Any.inner .er
  let (o, _) ← nextBack ((← intoIter (r)))
  check (decide (o = none))) := by decide +kernel

/-- `nth_back`, /repo/src/test/iterator/empty_range.rs:39-43. -/
example : passes (do
  let r : Any I32 := Any.inner .er
  let (o, _) ← nthBack 2 ((← intoIter (r)))
  check (decide (o = none))) := by decide +kernel

/-- `next`, /repo/src/test/iterator/lower_bounded_range.rs:3-16. -/
example : passes (do
  let r1 : Any I32 := Any.inner (.lbr ⟨LowerBound.excluded (n 2)⟩)
  let i1 ← intoIter (r1)
  let (o, i1) ← next i1
  check (decide (o = some (n 3)))
  let (o, i1) ← next i1
  check (decide (o = some (n 4)))
  let (o, i1) ← next i1
  check (decide (o = some (n 5)))
  let r2 : Any I32 := Any.inner (.lbr ⟨LowerBound.included (n 2)⟩)
  let i2 ← intoIter (r2)
  let (o, i2) ← next i2
  check (decide (o = some (n 2)))
  let (o, i2) ← next i2
  check (decide (o = some (n 3)))
  let (o, i2) ← next i2
  check (decide (o = some (n 4)))) := by decide +kernel

/-- `size_hint`, /repo/src/test/iterator/lower_bounded_range.rs:18-26. -/
example : passes (do
  let hint : Nat × Option Nat := (p.usizeCount - 1, none)
  let r1 : Any I32 := Any.inner (.lbr ⟨LowerBound.excluded (n 2)⟩)
  check (decide ((← sizeHint ((← intoIter (r1)))) = hint))
  let r2 : Any I32 := Any.inner (.lbr ⟨LowerBound.included (n 2)⟩)
  check (decide ((← sizeHint ((← intoIter (r2)))) = hint))) := by decide +kernel

/-- `nth`, /repo/src/test/iterator/lower_bounded_range.rs:28-41. -/
example : passes (do
  let r1 : Any I32 := Any.inner (.lbr ⟨LowerBound.excluded (n 2)⟩)
  let i1 ← intoIter (r1)
  let (o, i1) ← nth 1 i1
  check (decide (o = some (n 4)))
  let (o, i1) ← nth 2 i1
  check (decide (o = some (n 7)))
  let (o, i1) ← nth 3 i1
  check (decide (o = some (n 11)))
  let r2 : Any I32 := Any.inner (.lbr ⟨LowerBound.included (n 2)⟩)
  let i2 ← intoIter (r2)
  let (o, i2) ← nth 1 i2
  check (decide (o = some (n 3)))
  let (o, i2) ← nth 2 i2
  check (decide (o = some (n 6)))
  let (o, i2) ← nth 3 i2
  check (decide (o = some (n 10)))) := by decide +kernel

/-- `min`, /repo/src/test/iterator/lower_bounded_range.rs:43-50. -/
example : passes (do
  let r1 : Any I32 := Any.inner (.lbr ⟨LowerBound.excluded (n 2)⟩)
  check (decide ((← minItem ((← intoIter (r1)))) = some (n 3)))
  let r2 : Any I32 := Any.inner (.lbr ⟨LowerBound.included (n 2)⟩)
  check (decide ((← minItem ((← intoIter (r2)))) = some (n 2)))) := by decide +kernel

/-- `next`, /repo/src/test/iterator/lower_bounded_set.rs:3-14. -/
example : passes (do
  let s1 ← union ((Any.rangeFrom ⟨n 4⟩)) (Any.inner (.bs .empty))
  hasType s1 .lbs
  let i1 ← intoIter (s1)
  let (o, i1) ← next i1
  check (decide (o = some (n 4)))
  let (o, i1) ← next i1
  check (decide (o = some (n 5)))
  let s2 ← union ((Any.range ⟨n 1, n 2⟩)) (Any.rangeFrom ⟨n 4⟩)
  hasType s2 .lbs
  let i2 ← intoIter (s2)
  let (o, i2) ← next i2
  check (decide (o = some (n 1)))
  let (o, i2) ← next i2
  check (decide (o = some (n 4)))) := by decide +kernel

/-- `size_hint`, /repo/src/test/iterator/lower_bounded_set.rs:16-24. -/
example : passes (do
  let hint : Nat × Option Nat := (p.usizeCount - 1, none)
  let s1 ← union ((Any.rangeFrom ⟨n 4⟩)) (Any.inner (.bs .empty))
  hasType s1 .lbs
  check (decide ((← sizeHint ((← intoIter (s1)))) = hint))
  let s2 ← union ((Any.range ⟨n 1, n 2⟩)) (Any.rangeFrom ⟨n 4⟩)
  hasType s2 .lbs
  check (decide ((← sizeHint ((← intoIter (s2)))) = hint))) := by decide +kernel

/-- `nth`, /repo/src/test/iterator/lower_bounded_set.rs:26-37. -/
example : passes (do
  let s1 ← union ((Any.rangeFrom ⟨n 4⟩)) (Any.inner (.bs .empty))
  hasType s1 .lbs
  let i1 ← intoIter (s1)
  let (o, i1) ← nth 1 i1
  check (decide (o = some (n 5)))
  let (o, i1) ← nth 2 i1
  check (decide (o = some (n 8)))
  let s2 ← union ((Any.range ⟨n 1, n 2⟩)) (Any.rangeFrom ⟨n 4⟩)
  hasType s2 .lbs
  let i2 ← intoIter (s2)
  let (o, i2) ← nth 1 i2
  check (decide (o = some (n 4)))
  let (o, i2) ← nth 2 i2
  check (decide (o = some (n 7)))) := by decide +kernel

/-- `min`, /repo/src/test/iterator/lower_bounded_set.rs:39-46. -/
example : passes (do
  let s1 ← union ((Any.rangeFrom ⟨n 4⟩)) (Any.inner (.bs .empty))
  hasType s1 .lbs
  check (decide ((← minItem ((← intoIter (s1)))) = some (n 4)))
  let s2 ← union ((Any.range ⟨n 1, n 2⟩)) (Any.rangeFrom ⟨n 4⟩)
  hasType s2 .lbs
  check (decide ((← minItem ((← intoIter (s2)))) = some (n 1)))) := by decide +kernel

end Rangetools.Tests
