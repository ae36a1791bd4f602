import Verif.Tests.Harness

/-!
# Upstream union tests (2)

Transcribed from the crate's own unit tests.  These are tests of the model, not proofs of a property.
-/

set_option linter.unusedVariables false

namespace Rangetools.Tests

/-- `range`, /repo/src/test/union/range_full.rs:3-15. -/
example : passes (do
  let r : Any I32 := Any.rangeFull
  let u ← union (r) (Any.range ⟨n 3, n 5⟩)
  check ((u).contains (n 0))
  check ((u).contains (n 1))
  check ((u).contains (n 2))
  check ((u).contains (n 5))
  check ((u).contains (n 10))
  check ((u).contains (n 100))
  check ((u).contains (n 1000))
  check (!(u).isEmpty)) := by decide +kernel

/-- `range_from`, /repo/src/test/union/range_full.rs:17-29. -/
example : passes (do
  let r : Any I32 := Any.rangeFull
  let u ← union (r) (Any.rangeFrom ⟨n 3⟩)
  check ((u).contains (n 0))
  check ((u).contains (n 1))
  check ((u).contains (n 2))
  check ((u).contains (n 5))
  check ((u).contains (n 10))
  check ((u).contains (n 100))
  check ((u).contains (n 1000))
  check (!(u).isEmpty)) := by decide +kernel

/-- `range_full`, /repo/src/test/union/range_full.rs:31-43. -/
example : passes (do
  let r : Any I32 := Any.rangeFull
  let u ← union (r) (Any.rangeFull)
  check ((u).contains (n 0))
  check ((u).contains (n 1))
  check ((u).contains (n 2))
  check ((u).contains (n 5))
  check ((u).contains (n 10))
  check ((u).contains (n 100))
  check ((u).contains (n 1000))
  check (!(u).isEmpty)) := by decide +kernel

/-- `range_inclusive`, /repo/src/test/union/range_full.rs:45-57. -/
example : passes (do
  let r : Any I32 := Any.rangeFull
  let u ← union (r) (Any.rangeInclusive ⟨n 3, n 5, false⟩)
  check ((u).contains (n 0))
  check ((u).contains (n 1))
  check ((u).contains (n 2))
  check ((u).contains (n 5))
  check ((u).contains (n 10))
  check ((u).contains (n 100))
  check ((u).contains (n 1000))
  check (!(u).isEmpty)) := by decide +kernel

/-- `range_to`, /repo/src/test/union/range_full.rs:59-71. -/
example : passes (do
  let r : Any I32 := Any.rangeFull
  let u ← union (r) (Any.rangeTo ⟨n 5⟩)
  check ((u).contains (n 0))
  check ((u).contains (n 1))
  check ((u).contains (n 2))
  check ((u).contains (n 5))
  check ((u).contains (n 10))
  check ((u).contains (n 100))
  check ((u).contains (n 1000))
  check (!(u).isEmpty)) := by decide +kernel

/-- `range_to_inclusive`, /repo/src/test/union/range_full.rs:73-85. -/
example : passes (do
  let r : Any I32 := Any.rangeFull
  let u ← union (r) (Any.rangeToInclusive ⟨n 5⟩)
  check ((u).contains (n 0))
  check ((u).contains (n 1))
  check ((u).contains (n 2))
  check ((u).contains (n 5))
  check ((u).contains (n 10))
  check ((u).contains (n 100))
  check ((u).contains (n 1000))
  check (!(u).isEmpty)) := by decide +kernel

/-- `bounded_range`, /repo/src/test/union/range_full.rs:87-100. -/
example : passes (do
  let r : Any I32 := Any.rangeFull
  let r2 ← inter ((Any.range ⟨n 1, n 10⟩)) (Any.range ⟨n 5, n 7⟩)
  let u ← union (r) (r2)
  check ((u).contains (n 0))
  check ((u).contains (n 1))
  check ((u).contains (n 2))
  check ((u).contains (n 5))
  check ((u).contains (n 10))
  check ((u).contains (n 100))
  check ((u).contains (n 1000))
  check (!(u).isEmpty)) := by decide +kernel

/-- `lower_bounded_range`, /repo/src/test/union/range_full.rs:102-115. -/
example : passes (do
  let r : Any I32 := Any.rangeFull
  let r2 ← inter ((Any.rangeFrom ⟨n 4⟩)) (Any.rangeFrom ⟨n 5⟩)
  let u ← union (r) (r2)
  check ((u).contains (n 0))
  check ((u).contains (n 1))
  check ((u).contains (n 2))
  check ((u).contains (n 5))
  check ((u).contains (n 10))
  check ((u).contains (n 100))
  check ((u).contains (n 1000))
  check (!(u).isEmpty)) := by decide +kernel

/-- `upper_bounded_range`, /repo/src/test/union/range_full.rs:117-130. -/
example : passes (do
  let r : Any I32 := Any.rangeFull
  let r2 ← inter ((Any.rangeTo ⟨n 4⟩)) (Any.rangeTo ⟨n 5⟩)
  let u ← union (r) (r2)
  check ((u).contains (n 0))
  check ((u).contains (n 1))
  check ((u).contains (n 2))
  check ((u).contains (n 5))
  check ((u).contains (n 10))
  check ((u).contains (n 100))
  check ((u).contains (n 1000))
  check (!(u).isEmpty)) := by decide +kernel

/-- `unbounded_range`, /repo/src/test/union/range_full.rs:132-145. -/
example : passes (do
  let r : Any I32 := Any.rangeFull
  let r2 ← inter ((Any.rangeFull)) (Any.rangeFull)
  let u ← union (r) (r2)
  check ((u).contains (n 0))
  check ((u).contains (n 1))
  check ((u).contains (n 2))
  check ((u).contains (n 5))
  check ((u).contains (n 10))
  check ((u).contains (n 100))
  check ((u).contains (n 1000))
  check (!(u).isEmpty)) := by decide +kernel

/-- `empty_range`, /repo/src/test/union/range_full.rs:147-152. -/
example : passes (do
  let r : Any I32 := Any.rangeFull
  let u ← union (r) (Any.inner .er)
  check (decide (r = u))) := by decide +kernel

/-- `bounded_set`, /repo/src/test/union/range_full.rs:154-167. -/
example : passes (do
  let r : Any I32 := Any.rangeFull
  let s ← union ((Any.range ⟨n 1, n 5⟩)) (Any.range ⟨n 10, n 12⟩)
  let u ← union (r) (s)
  check ((u).contains (n 0))
  check ((u).contains (n 1))
  check ((u).contains (n 2))
  check ((u).contains (n 5))
  check ((u).contains (n 10))
  check ((u).contains (n 100))
  check ((u).contains (n 1000))
  check (!(u).isEmpty)) := by decide +kernel

/-- `lower_bounded_set`, /repo/src/test/union/range_full.rs:169-182. -/
example : passes (do
  let r : Any I32 := Any.rangeFull
  let s ← union ((Any.rangeTo ⟨n 5⟩)) (Any.range ⟨n 10, n 12⟩)
  let u ← union (r) (s)
  check ((u).contains (n 0))
  check ((u).contains (n 1))
  check ((u).contains (n 2))
  check ((u).contains (n 5))
  check ((u).contains (n 10))
  check ((u).contains (n 100))
  check ((u).contains (n 1000))
  check (!(u).isEmpty)) := by decide +kernel

/-- `upper_bounded_set`, /repo/src/test/union/range_full.rs:184-197. -/
example : passes (do
  let r : Any I32 := Any.rangeFull
  let s ← union ((Any.range ⟨n 1, n 5⟩)) (Any.rangeFrom ⟨n 10⟩)
  let u ← union (r) (s)
  check ((u).contains (n 0))
  check ((u).contains (n 1))
  check ((u).contains (n 2))
  check ((u).contains (n 5))
  check ((u).contains (n 10))
  check ((u).contains (n 100))
  check ((u).contains (n 1000))
  check (!(u).isEmpty)) := by decide +kernel

/-- `unbounded_set`, /repo/src/test/union/range_full.rs:199-212. -/
example : passes (do
  let r : Any I32 := Any.rangeFull
  let s ← union ((Any.rangeTo ⟨n 5⟩)) (Any.rangeFrom ⟨n 10⟩)
  let u ← union (r) (s)
  check ((u).contains (n 0))
  check ((u).contains (n 1))
  check ((u).contains (n 2))
  check ((u).contains (n 5))
  check ((u).contains (n 10))
  check ((u).contains (n 100))
  check ((u).contains (n 1000))
  check (!(u).isEmpty)) := by decide +kernel

/-- `range`, /repo/src/test/union/range_inclusive.rs:3-21. -/
example : passes (do
  let u ← union ((Any.rangeInclusive ⟨n 0, n 2, false⟩)) (Any.range ⟨n 5, n 7⟩)
  check (decide ((← collect ((← intoIter (u)))) = [n 0, n 1, n 2, n 5, n 6]))
  check ((u).contains (n 0))
  check ((u).contains (n 1))
  check ((u).contains (n 2))
  check (!(u).contains (n 3))
  check (!(u).contains (n 4))
  check ((u).contains (n 5))
  check ((u).contains (n 6))
  check (!(u).contains (n 7))
  check (!(u).contains (n 8))
  check (!(u).isEmpty)
  check (((← union ((Any.rangeInclusive ⟨n 1, n 0, false⟩)) (Any.range ⟨n 1, n 1⟩))).isEmpty)) := by decide +kernel

/-- `range_from`, /repo/src/test/union/range_inclusive.rs:23-38. -/
example : passes (do
  let u ← union ((Any.rangeInclusive ⟨n 1, n 2, false⟩)) (Any.rangeFrom ⟨n 2⟩)
  check (decide ((← collectTake 3 ((← intoIter (u)))) = [n 1, n 2, n 3]))
  check (!(u).contains (n 0))
  check ((u).contains (n 1))
  check ((u).contains (n 2))
  check ((u).contains (n 3))
  check ((u).contains (n 4))
  check ((u).contains (n 5))
  check ((u).contains (n 6))
  check (!(u).isEmpty)) := by decide +kernel

/-- `range_full`, /repo/src/test/union/range_inclusive.rs:40-53. -/
example : passes (do
  let u ← union ((Any.rangeInclusive ⟨n 1, n 2, false⟩)) (Any.rangeFull)
  check ((u).contains (n 0))
  check ((u).contains (n 1))
  check ((u).contains (n 2))
  check ((u).contains (n 3))
  check ((u).contains (n 4))
  check ((u).contains (n 5))
  check ((u).contains (n 6))
  check ((u).contains (n 7))
  check ((u).contains (n 8))
  check (!(u).isEmpty)) := by decide +kernel

/-- `range_inclusive`, /repo/src/test/union/range_inclusive.rs:55-73. -/
example : passes (do
  let u ← union ((Any.rangeInclusive ⟨n 1, n 2, false⟩)) (Any.rangeInclusive ⟨n 5, n 7, false⟩)
  check (decide ((← collect ((← intoIter (u)))) = [n 1, n 2, n 5, n 6, n 7]))
  check (!(u).contains (n 0))
  check ((u).contains (n 1))
  check ((u).contains (n 2))
  check (!(u).contains (n 3))
  check (!(u).contains (n 4))
  check ((u).contains (n 5))
  check ((u).contains (n 6))
  check ((u).contains (n 7))
  check (!(u).contains (n 8))
  check (!(u).isEmpty)
  check (((← union ((Any.rangeInclusive ⟨n 1, n 0, false⟩)) (Any.rangeInclusive ⟨n 1, n 0, false⟩))).isEmpty)) := by decide +kernel

/-- `range_to`, /repo/src/test/union/range_inclusive.rs:75-88. -/
example : passes (do
  let u ← union ((Any.rangeInclusive ⟨n 1, n 2, false⟩)) (Any.rangeTo ⟨n 2⟩)
  check ((u).contains (n 0))
  check ((u).contains (n 1))
  check ((u).contains (n 2))
  check (!(u).contains (n 3))
  check (!(u).contains (n 4))
  check (!(u).contains (n 5))
  check (!(u).contains (n 6))
  check (!(u).contains (n 7))
  check (!(u).contains (n 8))
  check (!(u).isEmpty)) := by decide +kernel

/-- `range_to_inclusive`, /repo/src/test/union/range_inclusive.rs:90-103. -/
example : passes (do
  let u ← union ((Any.rangeInclusive ⟨n 1, n 2, false⟩)) (Any.rangeToInclusive ⟨n 4⟩)
  check ((u).contains (n 0))
  check ((u).contains (n 1))
  check ((u).contains (n 2))
  check ((u).contains (n 3))
  check ((u).contains (n 4))
  check (!(u).contains (n 5))
  check (!(u).contains (n 6))
  check (!(u).contains (n 7))
  check (!(u).contains (n 8))
  check (!(u).isEmpty)) := by decide +kernel

/-- `bounded_range`, /repo/src/test/union/range_inclusive.rs:105-122. -/
example : passes (do
  let r ← inter ((Any.range ⟨n 5, n 7⟩)) (Any.rangeFull)
  let u ← union ((Any.rangeInclusive ⟨n 1, n 2, false⟩)) (r)
  check (decide ((← collect ((← intoIter (u)))) = [n 1, n 2, n 5, n 6]))
  check (!(u).contains (n 0))
  check ((u).contains (n 1))
  check ((u).contains (n 2))
  check (!(u).contains (n 3))
  check (!(u).contains (n 4))
  check ((u).contains (n 5))
  check ((u).contains (n 6))
  check (!(u).contains (n 7))
  check (!(u).contains (n 8))
  check (!(u).isEmpty)
  let r ← inter ((Any.range ⟨n 1, n 1⟩)) (Any.rangeFull)
  check (((← union ((Any.rangeInclusive ⟨n 1, n 0, false⟩)) (r))).isEmpty)) := by decide +kernel

/-- `lower_bounded_range`, /repo/src/test/union/range_inclusive.rs:124-140. -/
example : passes (do
  let r ← inter ((Any.rangeFull)) (Any.rangeFrom ⟨n 2⟩)
  let u ← union ((Any.rangeInclusive ⟨n 1, n 2, false⟩)) (r)
  check (decide ((← collectTake 5 ((← intoIter (u)))) = [n 1, n 2, n 3, n 4, n 5]))
  check (!(u).contains (n 0))
  check ((u).contains (n 1))
  check ((u).contains (n 2))
  check ((u).contains (n 3))
  check ((u).contains (n 4))
  check ((u).contains (n 5))
  check ((u).contains (n 6))
  check (!(u).isEmpty)) := by decide +kernel

/-- `upper_bounded_range`, /repo/src/test/union/range_inclusive.rs:142-156. -/
example : passes (do
  let r ← inter ((Any.rangeTo ⟨n 1⟩)) (Any.rangeFull)
  let u ← union ((Any.rangeInclusive ⟨n 1, n 2, false⟩)) (r)
  check ((u).contains (n 0))
  check ((u).contains (n 1))
  check ((u).contains (n 2))
  check (!(u).contains (n 3))
  check (!(u).contains (n 4))
  check (!(u).contains (n 5))
  check (!(u).contains (n 6))
  check (!(u).contains (n 7))
  check (!(u).contains (n 8))
  check (!(u).isEmpty)) := by decide +kernel

/-- `unbounded_range`, /repo/src/test/union/range_inclusive.rs:158-171. -/
example : passes (do
  let ur ← inter ((Any.rangeFull)) (Any.rangeFull)
  let u ← union ((Any.rangeInclusive ⟨n 1, n 2, false⟩)) (ur)
  check ((u).contains (n 0))
  check ((u).contains (n 1))
  check ((u).contains (n 2))
  check ((u).contains (n 3))
  check ((u).contains (n 4))
  check ((u).contains (n 5))
  check ((u).contains (n 6))
  check (!(u).isEmpty)
  check (!((← union ((Any.range ⟨n 1, n 1⟩)) (ur))).isEmpty)) := by decide +kernel

/-- `empty_range`, /repo/src/test/union/range_inclusive.rs:173-178. -/
example : passes (do
  let r : Any I32 := Any.rangeInclusive ⟨n 1, n 2, false⟩
  let u ← union (r) (Any.inner .er)
  check (decide (r = u))) := by decide +kernel

/-- `bounded_set`, /repo/src/test/union/range_inclusive.rs:180-200. -/
example : passes (do
  let s ← union ((Any.range ⟨n 5, n 7⟩)) (Any.range ⟨n 2, n 4⟩)
  let u ← union ((Any.rangeInclusive ⟨n 1, n 2, false⟩)) (s)
  check (decide ((← collect ((← intoIter (u)))) = [n 1, n 2, n 3, n 5, n 6]))
  check (!(u).contains (n 0))
  check ((u).contains (n 1))
  check ((u).contains (n 2))
  check ((u).contains (n 3))
  check (!(u).contains (n 4))
  check ((u).contains (n 5))
  check ((u).contains (n 6))
  check (!(u).contains (n 7))
  check (!(u).contains (n 8))
  check (!(u).isEmpty)
  let s ← union ((Any.range ⟨n 1, n 1⟩)) (Any.range ⟨n 2, n 2⟩)
  check (((← union ((Any.range ⟨n 0, n 0⟩)) (s))).isEmpty)) := by decide +kernel

/-- `lower_bounded_set`, /repo/src/test/union/range_inclusive.rs:202-218. -/
example : passes (do
  let s ← union ((Any.range ⟨n 2, n 3⟩)) (Any.rangeFrom ⟨n 5⟩)
  let u ← union ((Any.rangeInclusive ⟨n 1, n 2, false⟩)) (s)
  check (decide ((← collectTake 5 ((← intoIter (u)))) = [n 1, n 2, n 5, n 6, n 7]))
  check (!(u).contains (n 0))
  check ((u).contains (n 1))
  check ((u).contains (n 2))
  check (!(u).contains (n 3))
  check (!(u).contains (n 4))
  check ((u).contains (n 5))
  check ((u).contains (n 6))
  check (!(u).isEmpty)) := by decide +kernel

/-- `upper_bounded_set`, /repo/src/test/union/range_inclusive.rs:220-234. -/
example : passes (do
  let s ← union ((Any.rangeTo ⟨n 1⟩)) (Any.range ⟨n 4, n 5⟩)
  let u ← union ((Any.rangeInclusive ⟨n 1, n 2, false⟩)) (s)
  check ((u).contains (n 0))
  check ((u).contains (n 1))
  check ((u).contains (n 2))
  check (!(u).contains (n 3))
  check ((u).contains (n 4))
  check (!(u).contains (n 5))
  check (!(u).contains (n 6))
  check (!(u).contains (n 7))
  check (!(u).contains (n 8))
  check (!(u).isEmpty)) := by decide +kernel

/-- `unbounded_set`, /repo/src/test/union/range_inclusive.rs:236-248. -/
example : passes (do
  let s ← union ((Any.rangeTo ⟨n 2⟩)) (Any.rangeFrom ⟨n 5⟩)
  let u ← union ((Any.rangeInclusive ⟨n 1, n 2, false⟩)) (s)
  check ((u).contains (n 0))
  check ((u).contains (n 1))
  check ((u).contains (n 2))
  check (!(u).contains (n 3))
  check (!(u).contains (n 4))
  check ((u).contains (n 5))
  check ((u).contains (n 6))
  check (!(u).isEmpty)) := by decide +kernel

/-- `range`, /repo/src/test/union/range_to.rs:3-15. -/
example : passes (do
  let r : Any I32 := Any.rangeTo ⟨n 3⟩
  let u ← union (r) (Any.range ⟨n 2, n 4⟩)
  check ((u).contains (n 0))
  check ((u).contains (n 1))
  check ((u).contains (n 2))
  check ((u).contains (n 3))
  check (!(u).contains (n 4))
  check (!(u).contains (n 5))
  check (!(u).contains (n 6))
  check (!(u).isEmpty)) := by decide +kernel

/-- `range_from`, /repo/src/test/union/range_to.rs:17-29. -/
example : passes (do
  let r : Any I32 := Any.rangeTo ⟨n 3⟩
  let u ← union (r) (Any.rangeFrom ⟨n 4⟩)
  check ((u).contains (n 0))
  check ((u).contains (n 1))
  check ((u).contains (n 2))
  check (!(u).contains (n 3))
  check ((u).contains (n 4))
  check ((u).contains (n 5))
  check ((u).contains (n 6))
  check (!(u).isEmpty)) := by decide +kernel

/-- `range_full`, /repo/src/test/union/range_to.rs:31-43. -/
example : passes (do
  let r : Any I32 := Any.rangeTo ⟨n 3⟩
  let u ← union (r) (Any.rangeFull)
  check ((u).contains (n 0))
  check ((u).contains (n 1))
  check ((u).contains (n 2))
  check ((u).contains (n 3))
  check ((u).contains (n 4))
  check ((u).contains (n 5))
  check ((u).contains (n 6))
  check (!(u).isEmpty)) := by decide +kernel

/-- `range_inclusive`, /repo/src/test/union/range_to.rs:45-57. -/
example : passes (do
  let r : Any I32 := Any.rangeTo ⟨n 3⟩
  let u ← union (r) (Any.rangeInclusive ⟨n 2, n 4, false⟩)
  check ((u).contains (n 0))
  check ((u).contains (n 1))
  check ((u).contains (n 2))
  check ((u).contains (n 3))
  check ((u).contains (n 4))
  check (!(u).contains (n 5))
  check (!(u).contains (n 6))
  check (!(u).isEmpty)) := by decide +kernel

/-- `range_to`, /repo/src/test/union/range_to.rs:59-71. -/
example : passes (do
  let r : Any I32 := Any.rangeTo ⟨n 3⟩
  let u ← union (r) (Any.rangeTo ⟨n 4⟩)
  check ((u).contains (n 0))
  check ((u).contains (n 1))
  check ((u).contains (n 2))
  check ((u).contains (n 3))
  check (!(u).contains (n 4))
  check (!(u).contains (n 5))
  check (!(u).contains (n 6))
  check (!(u).isEmpty)) := by decide +kernel

/-- `range_to_inclusive`, /repo/src/test/union/range_to.rs:73-85. -/
example : passes (do
  let r : Any I32 := Any.rangeTo ⟨n 3⟩
  let u ← union (r) (Any.rangeToInclusive ⟨n 4⟩)
  check ((u).contains (n 0))
  check ((u).contains (n 1))
  check ((u).contains (n 2))
  check ((u).contains (n 3))
  check ((u).contains (n 4))
  check (!(u).contains (n 5))
  check (!(u).contains (n 6))
  check (!(u).isEmpty)) := by decide +kernel

/-- `bounded_range`, /repo/src/test/union/range_to.rs:87-100. -/
example : passes (do
  let r : Any I32 := Any.rangeTo ⟨n 3⟩
  let r2 ← toInner' ((Any.range ⟨n 2, n 4⟩))
  let u ← union (r) (r2)
  check ((u).contains (n 0))
  check ((u).contains (n 1))
  check ((u).contains (n 2))
  check ((u).contains (n 3))
  check (!(u).contains (n 4))
  check (!(u).contains (n 5))
  check (!(u).contains (n 6))
  check (!(u).isEmpty)) := by decide +kernel

/-- `lower_bounded_range`, /repo/src/test/union/range_to.rs:102-115. -/
example : passes (do
  let r : Any I32 := Any.rangeTo ⟨n 3⟩
  let r2 ← toInner' ((Any.rangeFrom ⟨n 4⟩))
  let u ← union (r) (r2)
  check ((u).contains (n 0))
  check ((u).contains (n 1))
  check ((u).contains (n 2))
  check (!(u).contains (n 3))
  check ((u).contains (n 4))
  check ((u).contains (n 5))
  check ((u).contains (n 6))
  check (!(u).isEmpty)) := by decide +kernel

/-- `upper_bounded_range`, /repo/src/test/union/range_to.rs:117-130. -/
example : passes (do
  let r : Any I32 := Any.rangeTo ⟨n 3⟩
  let r2 ← toInner' ((Any.rangeTo ⟨n 4⟩))
  let u ← union (r) (r2)
  check ((u).contains (n 0))
  check ((u).contains (n 1))
  check ((u).contains (n 2))
  check ((u).contains (n 3))
  check (!(u).contains (n 4))
  check (!(u).contains (n 5))
  check (!(u).contains (n 6))
  check (!(u).isEmpty)) := by decide +kernel

/-- `unbounded_range`, /repo/src/test/union/range_to.rs:132-145. -/
example : passes (do
  let r : Any I32 := Any.rangeTo ⟨n 3⟩
  let r2 ← inter ((Any.rangeFull)) (Any.rangeFull)
  let u ← union (r) (r2)
  check ((u).contains (n 0))
  check ((u).contains (n 1))
  check ((u).contains (n 2))
  check ((u).contains (n 3))
  check ((u).contains (n 4))
  check ((u).contains (n 5))
  check ((u).contains (n 6))
  check (!(u).isEmpty)) := by decide +kernel

/-- `empty_range`, /repo/src/test/union/range_to.rs:147-152. -/
example : passes (do
  let r : Any I32 := Any.rangeTo ⟨n 4⟩
  let u ← union (r) (Any.inner .er)
  check (decide (r = u))) := by decide +kernel

/-- `bounded_set`, /repo/src/test/union/range_to.rs:154-167. -/
example : passes (do
  let r : Any I32 := Any.rangeTo ⟨n 3⟩
  let s ← union ((Any.range ⟨n 2, n 3⟩)) (Any.range ⟨n 3, n 4⟩)
  let u ← union (r) (s)
  check ((u).contains (n 0))
  check ((u).contains (n 1))
  check ((u).contains (n 2))
  check ((u).contains (n 3))
  check (!(u).contains (n 4))
  check (!(u).contains (n 5))
  check (!(u).contains (n 6))
  check (!(u).isEmpty)) := by decide +kernel

/-- `lower_bounded_set`, /repo/src/test/union/range_to.rs:169-182. -/
example : passes (do
  let r : Any I32 := Any.rangeTo ⟨n 3⟩
  let s ← union ((Any.range ⟨n 4, n 5⟩)) (Any.rangeFrom ⟨n 5⟩)
  let u ← union (r) (s)
  check ((u).contains (n 0))
  check ((u).contains (n 1))
  check ((u).contains (n 2))
  check (!(u).contains (n 3))
  check ((u).contains (n 4))
  check ((u).contains (n 5))
  check ((u).contains (n 6))
  check (!(u).isEmpty)) := by decide +kernel

/-- `upper_bounded_set`, /repo/src/test/union/range_to.rs:184-197. -/
example : passes (do
  let r : Any I32 := Any.rangeTo ⟨n 3⟩
  let s ← union ((Any.rangeTo ⟨n 3⟩)) (Any.range ⟨n 3, n 4⟩)
  let u ← union (r) (s)
  check ((u).contains (n 0))
  check ((u).contains (n 1))
  check ((u).contains (n 2))
  check ((u).contains (n 3))
  check (!(u).contains (n 4))
  check (!(u).contains (n 5))
  check (!(u).contains (n 6))
  check (!(u).isEmpty)) := by decide +kernel

/-- `unbounded_set`, /repo/src/test/union/range_to.rs:199-212. -/
example : passes (do
  let r : Any I32 := Any.rangeTo ⟨n 3⟩
  let s ← union ((Any.rangeTo ⟨n 2⟩)) (Any.rangeFrom ⟨n 5⟩)
  let u ← union (r) (s)
  check ((u).contains (n 0))
  check ((u).contains (n 1))
  check ((u).contains (n 2))
  check (!(u).contains (n 3))
  check (!(u).contains (n 4))
  check ((u).contains (n 5))
  check ((u).contains (n 6))
  check (!(u).isEmpty)) := by decide +kernel

/-- `range`, /repo/src/test/union/range_to_inclusive.rs:3-15. -/
example : passes (do
  let r : Any I32 := Any.rangeToInclusive ⟨n 2⟩
  let u ← union (r) (Any.range ⟨n 2, n 4⟩)
  check ((u).contains (n 0))
  check ((u).contains (n 1))
  check ((u).contains (n 2))
  check ((u).contains (n 3))
  check (!(u).contains (n 4))
  check (!(u).contains (n 5))
  check (!(u).contains (n 6))
  check (!(u).isEmpty)) := by decide +kernel

/-- `range_from`, /repo/src/test/union/range_to_inclusive.rs:17-29. -/
example : passes (do
  let r : Any I32 := Any.rangeToInclusive ⟨n 2⟩
  let u ← union (r) (Any.rangeFrom ⟨n 4⟩)
  check ((u).contains (n 0))
  check ((u).contains (n 1))
  check ((u).contains (n 2))
  check (!(u).contains (n 3))
  check ((u).contains (n 4))
  check ((u).contains (n 5))
  check ((u).contains (n 6))
  check (!(u).isEmpty)) := by decide +kernel

/-- `range_full`, /repo/src/test/union/range_to_inclusive.rs:31-43. -/
example : passes (do
  let r : Any I32 := Any.rangeToInclusive ⟨n 2⟩
  let u ← union (r) (Any.rangeFull)
  check ((u).contains (n 0))
  check ((u).contains (n 1))
  check ((u).contains (n 2))
  check ((u).contains (n 3))
  check ((u).contains (n 4))
  check ((u).contains (n 5))
  check ((u).contains (n 6))
  check (!(u).isEmpty)) := by decide +kernel

/-- `range_inclusive`, /repo/src/test/union/range_to_inclusive.rs:45-57. -/
example : passes (do
  let r : Any I32 := Any.rangeToInclusive ⟨n 2⟩
  let u ← union (r) (Any.rangeInclusive ⟨n 2, n 4, false⟩)
  check ((u).contains (n 0))
  check ((u).contains (n 1))
  check ((u).contains (n 2))
  check ((u).contains (n 3))
  check ((u).contains (n 4))
  check (!(u).contains (n 5))
  check (!(u).contains (n 6))
  check (!(u).isEmpty)) := by decide +kernel

/-- `range_to`, /repo/src/test/union/range_to_inclusive.rs:59-71. -/
example : passes (do
  let r : Any I32 := Any.rangeToInclusive ⟨n 2⟩
  let u ← union (r) (Any.rangeTo ⟨n 4⟩)
  check ((u).contains (n 0))
  check ((u).contains (n 1))
  check ((u).contains (n 2))
  check ((u).contains (n 3))
  check (!(u).contains (n 4))
  check (!(u).contains (n 5))
  check (!(u).contains (n 6))
  check (!(u).isEmpty)) := by decide +kernel

/-- `range_to_inclusive`, /repo/src/test/union/range_to_inclusive.rs:73-85. -/
example : passes (do
  let r : Any I32 := Any.rangeToInclusive ⟨n 2⟩
  let u ← union (r) (Any.rangeToInclusive ⟨n 4⟩)
  check ((u).contains (n 0))
  check ((u).contains (n 1))
  check ((u).contains (n 2))
  check ((u).contains (n 3))
  check ((u).contains (n 4))
  check (!(u).contains (n 5))
  check (!(u).contains (n 6))
  check (!(u).isEmpty)) := by decide +kernel

/-- `bounded_range`, /repo/src/test/union/range_to_inclusive.rs:87-100. -/
example : passes (do
  let r : Any I32 := Any.rangeToInclusive ⟨n 2⟩
  let r2 ← toInner' ((Any.range ⟨n 2, n 4⟩))
  let u ← union (r) (r2)
  check ((u).contains (n 0))
  check ((u).contains (n 1))
  check ((u).contains (n 2))
  check ((u).contains (n 3))
  check (!(u).contains (n 4))
  check (!(u).contains (n 5))
  check (!(u).contains (n 6))
  check (!(u).isEmpty)) := by decide +kernel

/-- `lower_bounded_range`, /repo/src/test/union/range_to_inclusive.rs:102-115. -/
example : passes (do
  let r : Any I32 := Any.rangeToInclusive ⟨n 2⟩
  let r2 ← toInner' ((Any.rangeFrom ⟨n 4⟩))
  let u ← union (r) (r2)
  check ((u).contains (n 0))
  check ((u).contains (n 1))
  check ((u).contains (n 2))
  check (!(u).contains (n 3))
  check ((u).contains (n 4))
  check ((u).contains (n 5))
  check ((u).contains (n 6))
  check (!(u).isEmpty)) := by decide +kernel

/-- `upper_bounded_range`, /repo/src/test/union/range_to_inclusive.rs:117-130. -/
example : passes (do
  let r : Any I32 := Any.rangeToInclusive ⟨n 2⟩
  let r2 ← toInner' ((Any.rangeTo ⟨n 4⟩))
  let u ← union (r) (r2)
  check ((u).contains (n 0))
  check ((u).contains (n 1))
  check ((u).contains (n 2))
  check ((u).contains (n 3))
  check (!(u).contains (n 4))
  check (!(u).contains (n 5))
  check (!(u).contains (n 6))
  check (!(u).isEmpty)) := by decide +kernel

/-- `unbounded_range`, /repo/src/test/union/range_to_inclusive.rs:132-145. -/
example : passes (do
  let r : Any I32 := Any.rangeToInclusive ⟨n 2⟩
  let r2 ← inter ((Any.rangeFull)) (Any.rangeFull)
  let u ← union (r) (r2)
  check ((u).contains (n 0))
  check ((u).contains (n 1))
  check ((u).contains (n 2))
  check ((u).contains (n 3))
  check ((u).contains (n 4))
  check ((u).contains (n 5))
  check ((u).contains (n 6))
  check (!(u).isEmpty)) := by decide +kernel

/-- `empty_range`, /repo/src/test/union/range_to_inclusive.rs:147-152. -/
example : passes (do
  let r : Any I32 := Any.rangeToInclusive ⟨n 4⟩
  let u ← union (r) (Any.inner .er)
  check (decide (r = u))) := by decide +kernel

/-- `bounded_set`, /repo/src/test/union/range_to_inclusive.rs:154-167. -/
example : passes (do
  let r : Any I32 := Any.rangeToInclusive ⟨n 2⟩
  let s ← union ((Any.range ⟨n 2, n 3⟩)) (Any.range ⟨n 3, n 4⟩)
  let u ← union (r) (s)
  check ((u).contains (n 0))
  check ((u).contains (n 1))
  check ((u).contains (n 2))
  check ((u).contains (n 3))
  check (!(u).contains (n 4))
  check (!(u).contains (n 5))
  check (!(u).contains (n 6))
  check (!(u).isEmpty)) := by decide +kernel

/-- `lower_bounded_set`, /repo/src/test/union/range_to_inclusive.rs:169-182. -/
example : passes (do
  let r : Any I32 := Any.rangeToInclusive ⟨n 2⟩
  let s ← union ((Any.range ⟨n 4, n 5⟩)) (Any.rangeFrom ⟨n 5⟩)
  let u ← union (r) (s)
  check ((u).contains (n 0))
  check ((u).contains (n 1))
  check ((u).contains (n 2))
  check (!(u).contains (n 3))
  check ((u).contains (n 4))
  check ((u).contains (n 5))
  check ((u).contains (n 6))
  check (!(u).isEmpty)) := by decide +kernel

/-- `upper_bounded_set`, /repo/src/test/union/range_to_inclusive.rs:184-197. -/
example : passes (do
  let r : Any I32 := Any.rangeToInclusive ⟨n 2⟩
  let s ← union ((Any.rangeTo ⟨n 3⟩)) (Any.range ⟨n 3, n 4⟩)
  let u ← union (r) (s)
  check ((u).contains (n 0))
  check ((u).contains (n 1))
  check ((u).contains (n 2))
  check ((u).contains (n 3))
  check (!(u).contains (n 4))
  check (!(u).contains (n 5))
  check (!(u).contains (n 6))
  check (!(u).isEmpty)) := by decide +kernel

/-- `unbounded_set`, /repo/src/test/union/range_to_inclusive.rs:199-212. -/
example : passes (do
  let r : Any I32 := Any.rangeToInclusive ⟨n 2⟩
  let s ← union ((Any.rangeTo ⟨n 2⟩)) (Any.rangeFrom ⟨n 5⟩)
  let u ← union (r) (s)
  check ((u).contains (n 0))
  check ((u).contains (n 1))
  check ((u).contains (n 2))
  check (!(u).contains (n 3))
  check (!(u).contains (n 4))
  check ((u).contains (n 5))
  check ((u).contains (n 6))
  check (!(u).isEmpty)) := by decide +kernel

/-- `range`, /repo/src/test/union/unbounded_range.rs:3-15. -/
example : passes (do
  let r ← toInner' ((Any.rangeFull))
  let u ← union (r) (Any.range ⟨n 3, n 5⟩)
  check ((u).contains (n 0))
  check ((u).contains (n 1))
  check ((u).contains (n 2))
  check ((u).contains (n 5))
  check ((u).contains (n 10))
  check ((u).contains (n 100))
  check ((u).contains (n 1000))
  check (!(u).isEmpty)) := by decide +kernel

/-- `range_from`, /repo/src/test/union/unbounded_range.rs:17-29. -/
example : passes (do
  let r ← toInner' ((Any.rangeFull))
  let u ← union (r) (Any.rangeFrom ⟨n 3⟩)
  check ((u).contains (n 0))
  check ((u).contains (n 1))
  check ((u).contains (n 2))
  check ((u).contains (n 5))
  check ((u).contains (n 10))
  check ((u).contains (n 100))
  check ((u).contains (n 1000))
  check (!(u).isEmpty)) := by decide +kernel

/-- `range_full`, /repo/src/test/union/unbounded_range.rs:31-43. -/
example : passes (do
  let r ← toInner' ((Any.rangeFull))
  let u ← union (r) (Any.rangeFull)
  check ((u).contains (n 0))
  check ((u).contains (n 1))
  check ((u).contains (n 2))
  check ((u).contains (n 5))
  check ((u).contains (n 10))
  check ((u).contains (n 100))
  check ((u).contains (n 1000))
  check (!(u).isEmpty)) := by decide +kernel

/-- `range_inclusive`, /repo/src/test/union/unbounded_range.rs:45-57. -/
example : passes (do
  let r ← toInner' ((Any.rangeFull))
  let u ← union (r) (Any.rangeInclusive ⟨n 3, n 5, false⟩)
  check ((u).contains (n 0))
  check ((u).contains (n 1))
  check ((u).contains (n 2))
  check ((u).contains (n 5))
  check ((u).contains (n 10))
  check ((u).contains (n 100))
  check ((u).contains (n 1000))
  check (!(u).isEmpty)) := by decide +kernel

/-- `range_to`, /repo/src/test/union/unbounded_range.rs:59-71. -/
example : passes (do
  let r ← toInner' ((Any.rangeFull))
  let u ← union (r) (Any.rangeTo ⟨n 5⟩)
  check ((u).contains (n 0))
  check ((u).contains (n 1))
  check ((u).contains (n 2))
  check ((u).contains (n 5))
  check ((u).contains (n 10))
  check ((u).contains (n 100))
  check ((u).contains (n 1000))
  check (!(u).isEmpty)) := by decide +kernel

/-- `range_to_inclusive`, /repo/src/test/union/unbounded_range.rs:73-85. -/
example : passes (do
  let r ← toInner' ((Any.rangeFull))
  let u ← union (r) (Any.rangeToInclusive ⟨n 5⟩)
  check ((u).contains (n 0))
  check ((u).contains (n 1))
  check ((u).contains (n 2))
  check ((u).contains (n 5))
  check ((u).contains (n 10))
  check ((u).contains (n 100))
  check ((u).contains (n 1000))
  check (!(u).isEmpty)) := by decide +kernel

/-- `bounded_range`, /repo/src/test/union/unbounded_range.rs:87-100. -/
example : passes (do
  let r ← toInner' ((Any.rangeFull))
  let r2 ← inter ((Any.range ⟨n 1, n 10⟩)) (Any.range ⟨n 5, n 7⟩)
  let u ← union (r) (r2)
  check ((u).contains (n 0))
  check ((u).contains (n 1))
  check ((u).contains (n 2))
  check ((u).contains (n 5))
  check ((u).contains (n 10))
  check ((u).contains (n 100))
  check ((u).contains (n 1000))
  check (!(u).isEmpty)) := by decide +kernel

/-- `lower_bounded_range`, /repo/src/test/union/unbounded_range.rs:102-115. -/
example : passes (do
  let r ← toInner' ((Any.rangeFull))
  let r2 ← inter ((Any.rangeFrom ⟨n 4⟩)) (Any.rangeFrom ⟨n 5⟩)
  let u ← union (r) (r2)
  check ((u).contains (n 0))
  check ((u).contains (n 1))
  check ((u).contains (n 2))
  check ((u).contains (n 5))
  check ((u).contains (n 10))
  check ((u).contains (n 100))
  check ((u).contains (n 1000))
  check (!(u).isEmpty)) := by decide +kernel

/-- `upper_bounded_range`, /repo/src/test/union/unbounded_range.rs:117-130. -/
example : passes (do
  let r ← toInner' ((Any.rangeFull))
  let r2 ← inter ((Any.rangeTo ⟨n 4⟩)) (Any.rangeTo ⟨n 5⟩)
  let u ← union (r) (r2)
  check ((u).contains (n 0))
  check ((u).contains (n 1))
  check ((u).contains (n 2))
  check ((u).contains (n 5))
  check ((u).contains (n 10))
  check ((u).contains (n 100))
  check ((u).contains (n 1000))
  check (!(u).isEmpty)) := by decide +kernel

/-- `unbounded_range`, /repo/src/test/union/unbounded_range.rs:132-145. -/
example : passes (do
  let r ← toInner' ((Any.rangeFull))
  let r2 ← inter ((Any.rangeFull)) (Any.rangeFull)
  let u ← union (r) (r2)
  check ((u).contains (n 0))
  check ((u).contains (n 1))
  check ((u).contains (n 2))
  check ((u).contains (n 5))
  check ((u).contains (n 10))
  check ((u).contains (n 100))
  check ((u).contains (n 1000))
  check (!(u).isEmpty)) := by decide +kernel

/-- `empty_range`, /repo/src/test/union/unbounded_range.rs:147-152. -/
example : passes (do
  let r ← inter ((Any.rangeFull)) (Any.rangeFull)
  let u ← union (r) (Any.inner .er)
  check (decide (r = u))) := by decide +kernel

/-- `bounded_set`, /repo/src/test/union/unbounded_range.rs:154-167. -/
example : passes (do
  let r ← toInner' ((Any.rangeFull))
  let s ← union ((Any.range ⟨n 1, n 5⟩)) (Any.range ⟨n 10, n 12⟩)
  let u ← union (r) (s)
  check ((u).contains (n 0))
  check ((u).contains (n 1))
  check ((u).contains (n 2))
  check ((u).contains (n 5))
  check ((u).contains (n 10))
  check ((u).contains (n 100))
  check ((u).contains (n 1000))
  check (!(u).isEmpty)) := by decide +kernel

/-- `lower_bounded_set`, /repo/src/test/union/unbounded_range.rs:169-182. -/
example : passes (do
  let r ← toInner' ((Any.rangeFull))
  let s ← union ((Any.rangeTo ⟨n 5⟩)) (Any.range ⟨n 10, n 12⟩)
  let u ← union (r) (s)
  check ((u).contains (n 0))
  check ((u).contains (n 1))
  check ((u).contains (n 2))
  check ((u).contains (n 5))
  check ((u).contains (n 10))
  check ((u).contains (n 100))
  check ((u).contains (n 1000))
  check (!(u).isEmpty)) := by decide +kernel

/-- `upper_bounded_set`, /repo/src/test/union/unbounded_range.rs:184-197. -/
example : passes (do
  let r ← toInner' ((Any.rangeFull))
  let s ← union ((Any.range ⟨n 1, n 5⟩)) (Any.rangeFrom ⟨n 10⟩)
  let u ← union (r) (s)
  check ((u).contains (n 0))
  check ((u).contains (n 1))
  check ((u).contains (n 2))
  check ((u).contains (n 5))
  check ((u).contains (n 10))
  check ((u).contains (n 100))
  check ((u).contains (n 1000))
  check (!(u).isEmpty)) := by decide +kernel

/-- `unbounded_set`, /repo/src/test/union/unbounded_range.rs:199-212. -/
example : passes (do
  let r ← toInner' ((Any.rangeFull))
  let s ← union ((Any.rangeTo ⟨n 5⟩)) (Any.rangeFrom ⟨n 10⟩)
  let u ← union (r) (s)
  check ((u).contains (n 0))
  check ((u).contains (n 1))
  check ((u).contains (n 2))
  check ((u).contains (n 5))
  check ((u).contains (n 10))
  check ((u).contains (n 100))
  check ((u).contains (n 1000))
  check (!(u).isEmpty)) := by decide +kernel

/-- `range`, /repo/src/test/union/unbounded_set.rs:3-15. -/
example : passes (do
  let s ← union ((← union ((Any.rangeTo ⟨n 2⟩)) (Any.range ⟨n 3, n 4⟩))) (Any.rangeFrom ⟨n 5⟩)
  let u ← union (s) (Any.range ⟨n 2, n 4⟩)
  check ((u).contains (n 0))
  check ((u).contains (n 1))
  check ((u).contains (n 2))
  check ((u).contains (n 3))
  check (!(u).contains (n 4))
  check ((u).contains (n 5))
  check ((u).contains (n 6))
  check (!(u).isEmpty)) := by decide +kernel

/-- `range_from`, /repo/src/test/union/unbounded_set.rs:17-29. -/
example : passes (do
  let s ← union ((← union ((Any.rangeTo ⟨n 2⟩)) (Any.range ⟨n 3, n 4⟩))) (Any.rangeFrom ⟨n 5⟩)
  let u ← union (s) (Any.rangeFrom ⟨n 4⟩)
  check ((u).contains (n 0))
  check ((u).contains (n 1))
  check (!(u).contains (n 2))
  check ((u).contains (n 3))
  check ((u).contains (n 4))
  check ((u).contains (n 5))
  check ((u).contains (n 6))
  check (!(u).isEmpty)) := by decide +kernel

/-- `range_full`, /repo/src/test/union/unbounded_set.rs:31-43. -/
example : passes (do
  let s ← union ((← union ((Any.rangeTo ⟨n 2⟩)) (Any.range ⟨n 3, n 4⟩))) (Any.rangeFrom ⟨n 5⟩)
  let u ← union (s) (Any.rangeFull)
  check ((u).contains (n 0))
  check ((u).contains (n 1))
  check ((u).contains (n 2))
  check ((u).contains (n 3))
  check ((u).contains (n 4))
  check ((u).contains (n 5))
  check ((u).contains (n 6))
  check (!(u).isEmpty)) := by decide +kernel

/-- `range_inclusive`, /repo/src/test/union/unbounded_set.rs:45-57. -/
example : passes (do
  let s ← union ((← union ((Any.rangeTo ⟨n 2⟩)) (Any.range ⟨n 3, n 4⟩))) (Any.rangeFrom ⟨n 5⟩)
  let u ← union (s) (Any.rangeInclusive ⟨n 2, n 3, false⟩)
  check ((u).contains (n 0))
  check ((u).contains (n 1))
  check ((u).contains (n 2))
  check ((u).contains (n 3))
  check (!(u).contains (n 4))
  check ((u).contains (n 5))
  check ((u).contains (n 6))
  check (!(u).isEmpty)) := by decide +kernel

/-- `range_to`, /repo/src/test/union/unbounded_set.rs:59-71. -/
example : passes (do
  let s ← union ((← union ((Any.rangeTo ⟨n 2⟩)) (Any.range ⟨n 3, n 4⟩))) (Any.rangeFrom ⟨n 5⟩)
  let u ← union (s) (Any.rangeTo ⟨n 4⟩)
  check ((u).contains (n 0))
  check ((u).contains (n 1))
  check ((u).contains (n 2))
  check ((u).contains (n 3))
  check (!(u).contains (n 4))
  check ((u).contains (n 5))
  check ((u).contains (n 6))
  check (!(u).isEmpty)) := by decide +kernel

/-- `range_to_inclusive`, /repo/src/test/union/unbounded_set.rs:73-85. -/
example : passes (do
  let s ← union ((← union ((Any.rangeTo ⟨n 2⟩)) (Any.range ⟨n 3, n 4⟩))) (Any.rangeFrom ⟨n 5⟩)
  let u ← union (s) (Any.rangeToInclusive ⟨n 3⟩)
  check ((u).contains (n 0))
  check ((u).contains (n 1))
  check ((u).contains (n 2))
  check ((u).contains (n 3))
  check (!(u).contains (n 4))
  check ((u).contains (n 5))
  check ((u).contains (n 6))
  check (!(u).isEmpty)) := by decide +kernel

/-- `bounded_range`, /repo/src/test/union/unbounded_set.rs:87-100. -/
example : passes (do
  let s ← union ((← union ((Any.rangeTo ⟨n 2⟩)) (Any.range ⟨n 3, n 4⟩))) (Any.rangeFrom ⟨n 5⟩)
  let r ← inter ((Any.range ⟨n 2, n 5⟩)) (Any.range ⟨n 2, n 3⟩)
  let u ← union (s) (r)
  check ((u).contains (n 0))
  check ((u).contains (n 1))
  check ((u).contains (n 2))
  check ((u).contains (n 3))
  check (!(u).contains (n 4))
  check ((u).contains (n 5))
  check ((u).contains (n 6))
  check (!(u).isEmpty)) := by decide +kernel

/-- `lower_bounded_range`, /repo/src/test/union/unbounded_set.rs:102-115. -/
example : passes (do
  let s ← union ((← union ((Any.rangeTo ⟨n 2⟩)) (Any.range ⟨n 3, n 4⟩))) (Any.rangeFrom ⟨n 5⟩)
  let r ← inter ((Any.rangeFrom ⟨n 4⟩)) (Any.rangeFrom ⟨n 3⟩)
  let u ← union (s) (r)
  check ((u).contains (n 0))
  check ((u).contains (n 1))
  check (!(u).contains (n 2))
  check ((u).contains (n 3))
  check ((u).contains (n 4))
  check ((u).contains (n 5))
  check ((u).contains (n 6))
  check (!(u).isEmpty)) := by decide +kernel

/-- `upper_bounded_range`, /repo/src/test/union/unbounded_set.rs:117-130. -/
example : passes (do
  let s ← union ((← union ((Any.rangeTo ⟨n 2⟩)) (Any.range ⟨n 3, n 4⟩))) (Any.rangeFrom ⟨n 5⟩)
  let r ← inter ((Any.rangeTo ⟨n 4⟩)) (Any.rangeTo ⟨n 5⟩)
  let u ← union (s) (r)
  check ((u).contains (n 0))
  check ((u).contains (n 1))
  check ((u).contains (n 2))
  check ((u).contains (n 3))
  check (!(u).contains (n 4))
  check ((u).contains (n 5))
  check ((u).contains (n 6))
  check (!(u).isEmpty)) := by decide +kernel

/-- `unbounded_range`, /repo/src/test/union/unbounded_set.rs:132-144. -/
example : passes (do
  let s ← union ((← union ((Any.rangeTo ⟨n 2⟩)) (Any.range ⟨n 3, n 4⟩))) (Any.rangeFrom ⟨n 5⟩)
  let u ← union (s) ((← toInner' ((Any.rangeFull))))
  check ((u).contains (n 0))
  check ((u).contains (n 1))
  check ((u).contains (n 2))
  check ((u).contains (n 3))
  check ((u).contains (n 4))
  check ((u).contains (n 5))
  check ((u).contains (n 6))
  check (!(u).isEmpty)) := by decide +kernel

/-- `empty_range`, /repo/src/test/union/unbounded_set.rs:146-151. -/
example : passes (do
  let s ← union ((Any.rangeTo ⟨n 3⟩)) (Any.rangeFrom ⟨n 4⟩)
  let u ← union (s) (Any.inner .er)
  check (decide (s = u))) := by decide +kernel

/-- `bounded_set`, /repo/src/test/union/unbounded_set.rs:153-166. -/
example : passes (do
  let s ← union ((← union ((Any.rangeTo ⟨n 2⟩)) (Any.range ⟨n 3, n 4⟩))) (Any.rangeFrom ⟨n 5⟩)
  let s2 ← union ((Any.range ⟨n 2, n 3⟩)) (Any.range ⟨n 3, n 4⟩)
  let u ← union (s) (s2)
  check ((u).contains (n 0))
  check ((u).contains (n 1))
  check ((u).contains (n 2))
  check ((u).contains (n 3))
  check (!(u).contains (n 4))
  check ((u).contains (n 5))
  check ((u).contains (n 6))
  check (!(u).isEmpty)) := by decide +kernel

/-- `lower_bounded_set`, /repo/src/test/union/unbounded_set.rs:168-181. -/
example : passes (do
  let s ← union ((← union ((Any.rangeTo ⟨n 2⟩)) (Any.range ⟨n 3, n 4⟩))) (Any.rangeFrom ⟨n 5⟩)
  let s2 ← union ((Any.rangeFrom ⟨n 4⟩)) (Any.range ⟨n 1, n 2⟩)
  let u ← union (s) (s2)
  check ((u).contains (n 0))
  check ((u).contains (n 1))
  check (!(u).contains (n 2))
  check ((u).contains (n 3))
  check ((u).contains (n 4))
  check ((u).contains (n 5))
  check ((u).contains (n 6))
  check (!(u).isEmpty)) := by decide +kernel

/-- `upper_bounded_set`, /repo/src/test/union/unbounded_set.rs:183-196. -/
example : passes (do
  let s ← union ((← union ((Any.rangeTo ⟨n 2⟩)) (Any.range ⟨n 3, n 4⟩))) (Any.rangeFrom ⟨n 5⟩)
  let s2 ← union ((Any.rangeTo ⟨n 4⟩)) (Any.range ⟨n 5, n 10⟩)
  let u ← union (s) (s2)
  check ((u).contains (n 0))
  check ((u).contains (n 1))
  check ((u).contains (n 2))
  check ((u).contains (n 3))
  check (!(u).contains (n 4))
  check ((u).contains (n 5))
  check ((u).contains (n 6))
  check (!(u).isEmpty)) := by decide +kernel

/-- `unbounded_set`, /repo/src/test/union/unbounded_set.rs:198-211. -/
example : passes (do
  let s ← union ((← union ((Any.rangeTo ⟨n 2⟩)) (Any.range ⟨n 3, n 4⟩))) (Any.rangeFrom ⟨n 5⟩)
  let s2 ← union ((← union ((Any.rangeTo ⟨n 1⟩)) (Any.range ⟨n 2, n 3⟩))) (Any.rangeFrom ⟨n 6⟩)
  let u ← union (s) (s2)
  check ((u).contains (n 0))
  check ((u).contains (n 1))
  check ((u).contains (n 2))
  check ((u).contains (n 3))
  check (!(u).contains (n 4))
  check ((u).contains (n 5))
  check ((u).contains (n 6))
  check (!(u).isEmpty)) := by decide +kernel

/-- `range`, /repo/src/test/union/upper_bounded_range.rs:3-15. -/
example : passes (do
  let r ← toInner' ((Any.rangeTo ⟨n 3⟩))
  let u ← union (r) (Any.range ⟨n 2, n 4⟩)
  check ((u).contains (n 0))
  check ((u).contains (n 1))
  check ((u).contains (n 2))
  check ((u).contains (n 3))
  check (!(u).contains (n 4))
  check (!(u).contains (n 5))
  check (!(u).contains (n 6))
  check (!(u).isEmpty)) := by decide +kernel

/-- `range_from`, /repo/src/test/union/upper_bounded_range.rs:17-29. -/
example : passes (do
  let r ← toInner' ((Any.rangeTo ⟨n 3⟩))
  let u ← union (r) (Any.rangeFrom ⟨n 4⟩)
  check ((u).contains (n 0))
  check ((u).contains (n 1))
  check ((u).contains (n 2))
  check (!(u).contains (n 3))
  check ((u).contains (n 4))
  check ((u).contains (n 5))
  check ((u).contains (n 6))
  check (!(u).isEmpty)) := by decide +kernel

/-- `range_full`, /repo/src/test/union/upper_bounded_range.rs:31-43. -/
example : passes (do
  let r ← toInner' ((Any.rangeTo ⟨n 3⟩))
  let u ← union (r) (Any.rangeFull)
  check ((u).contains (n 0))
  check ((u).contains (n 1))
  check ((u).contains (n 2))
  check ((u).contains (n 3))
  check ((u).contains (n 4))
  check ((u).contains (n 5))
  check ((u).contains (n 6))
  check (!(u).isEmpty)) := by decide +kernel

/-- `range_inclusive`, /repo/src/test/union/upper_bounded_range.rs:45-57. -/
example : passes (do
  let r ← toInner' ((Any.rangeTo ⟨n 3⟩))
  let u ← union (r) (Any.rangeInclusive ⟨n 2, n 4, false⟩)
  check ((u).contains (n 0))
  check ((u).contains (n 1))
  check ((u).contains (n 2))
  check ((u).contains (n 3))
  check ((u).contains (n 4))
  check (!(u).contains (n 5))
  check (!(u).contains (n 6))
  check (!(u).isEmpty)) := by decide +kernel

/-- `range_to`, /repo/src/test/union/upper_bounded_range.rs:59-71. -/
example : passes (do
  let r ← toInner' ((Any.rangeTo ⟨n 3⟩))
  let u ← union (r) (Any.rangeTo ⟨n 4⟩)
  check ((u).contains (n 0))
  check ((u).contains (n 1))
  check ((u).contains (n 2))
  check ((u).contains (n 3))
  check (!(u).contains (n 4))
  check (!(u).contains (n 5))
  check (!(u).contains (n 6))
  check (!(u).isEmpty)) := by decide +kernel

/-- `range_to_inclusive`, /repo/src/test/union/upper_bounded_range.rs:73-85. -/
example : passes (do
  let r ← toInner' ((Any.rangeTo ⟨n 3⟩))
  let u ← union (r) (Any.rangeToInclusive ⟨n 4⟩)
  check ((u).contains (n 0))
  check ((u).contains (n 1))
  check ((u).contains (n 2))
  check ((u).contains (n 3))
  check ((u).contains (n 4))
  check (!(u).contains (n 5))
  check (!(u).contains (n 6))
  check (!(u).isEmpty)) := by decide +kernel

/-- `bounded_range`, /repo/src/test/union/upper_bounded_range.rs:87-100. -/
example : passes (do
  let r ← toInner' ((Any.rangeTo ⟨n 3⟩))
  let r2 ← toInner' ((Any.range ⟨n 2, n 4⟩))
  let u ← union (r) (r2)
  check ((u).contains (n 0))
  check ((u).contains (n 1))
  check ((u).contains (n 2))
  check ((u).contains (n 3))
  check (!(u).contains (n 4))
  check (!(u).contains (n 5))
  check (!(u).contains (n 6))
  check (!(u).isEmpty)) := by decide +kernel

/-- `lower_bounded_range`, /repo/src/test/union/upper_bounded_range.rs:102-115. -/
example : passes (do
  let r ← toInner' ((Any.rangeTo ⟨n 3⟩))
  let r2 ← toInner' ((Any.rangeFrom ⟨n 4⟩))
  let u ← union (r) (r2)
  check ((u).contains (n 0))
  check ((u).contains (n 1))
  check ((u).contains (n 2))
  check (!(u).contains (n 3))
  check ((u).contains (n 4))
  check ((u).contains (n 5))
  check ((u).contains (n 6))
  check (!(u).isEmpty)) := by decide +kernel

/-- `upper_bounded_range`, /repo/src/test/union/upper_bounded_range.rs:117-130. -/
example : passes (do
  let r ← toInner' ((Any.rangeTo ⟨n 3⟩))
  let r2 ← toInner' ((Any.rangeTo ⟨n 4⟩))
  let u ← union (r) (r2)
  check ((u).contains (n 0))
  check ((u).contains (n 1))
  check ((u).contains (n 2))
  check ((u).contains (n 3))
  check (!(u).contains (n 4))
  check (!(u).contains (n 5))
  check (!(u).contains (n 6))
  check (!(u).isEmpty)) := by decide +kernel

/-- `unbounded_range`, /repo/src/test/union/upper_bounded_range.rs:132-145. -/
example : passes (do
  let r ← toInner' ((Any.rangeTo ⟨n 3⟩))
  let r2 ← inter ((Any.rangeFull)) (Any.rangeFull)
  let u ← union (r) (r2)
  check ((u).contains (n 0))
  check ((u).contains (n 1))
  check ((u).contains (n 2))
  check ((u).contains (n 3))
  check ((u).contains (n 4))
  check ((u).contains (n 5))
  check ((u).contains (n 6))
  check (!(u).isEmpty)) := by decide +kernel

/-- `empty_range`, /repo/src/test/union/upper_bounded_range.rs:147-152. -/
example : passes (do
  let r ← toInner' ((Any.rangeTo ⟨n 3⟩))
  let u ← union (r) (Any.inner .er)
  check (decide (r = u))) := by decide +kernel

/-- `bounded_set`, /repo/src/test/union/upper_bounded_range.rs:154-167. -/
example : passes (do
  let r ← toInner' ((Any.rangeTo ⟨n 3⟩))
  let s ← union ((Any.range ⟨n 2, n 3⟩)) (Any.range ⟨n 3, n 4⟩)
  let u ← union (r) (s)
  check ((u).contains (n 0))
  check ((u).contains (n 1))
  check ((u).contains (n 2))
  check ((u).contains (n 3))
  check (!(u).contains (n 4))
  check (!(u).contains (n 5))
  check (!(u).contains (n 6))
  check (!(u).isEmpty)) := by decide +kernel

/-- `lower_bounded_set`, /repo/src/test/union/upper_bounded_range.rs:169-182. -/
example : passes (do
  let r ← toInner' ((Any.rangeTo ⟨n 3⟩))
  let s ← union ((Any.range ⟨n 4, n 5⟩)) (Any.rangeFrom ⟨n 5⟩)
  let u ← union (r) (s)
  check ((u).contains (n 0))
  check ((u).contains (n 1))
  check ((u).contains (n 2))
  check (!(u).contains (n 3))
  check ((u).contains (n 4))
  check ((u).contains (n 5))
  check ((u).contains (n 6))
  check (!(u).isEmpty)) := by decide +kernel

/-- `upper_bounded_set`, /repo/src/test/union/upper_bounded_range.rs:184-197. -/
example : passes (do
  let r ← toInner' ((Any.rangeTo ⟨n 3⟩))
  let s ← union ((Any.rangeTo ⟨n 3⟩)) (Any.range ⟨n 3, n 4⟩)
  let u ← union (r) (s)
  check ((u).contains (n 0))
  check ((u).contains (n 1))
  check ((u).contains (n 2))
  check ((u).contains (n 3))
  check (!(u).contains (n 4))
  check (!(u).contains (n 5))
  check (!(u).contains (n 6))
  check (!(u).isEmpty)) := by decide +kernel

/-- `unbounded_set`, /repo/src/test/union/upper_bounded_range.rs:199-212. -/
example : passes (do
  let r ← toInner' ((Any.rangeTo ⟨n 3⟩))
  let s ← union ((Any.rangeTo ⟨n 2⟩)) (Any.rangeFrom ⟨n 5⟩)
  let u ← union (r) (s)
  check ((u).contains (n 0))
  check ((u).contains (n 1))
  check ((u).contains (n 2))
  check (!(u).contains (n 3))
  check (!(u).contains (n 4))
  check ((u).contains (n 5))
  check ((u).contains (n 6))
  check (!(u).isEmpty)) := by decide +kernel

/-- `range`, /repo/src/test/union/upper_bounded_set.rs:3-15. -/
example : passes (do
  let s ← union ((Any.rangeTo ⟨n 2⟩)) (Any.range ⟨n 2, n 3⟩)
  let u ← union (s) (Any.range ⟨n 2, n 4⟩)
  check ((u).contains (n 0))
  check ((u).contains (n 1))
  check ((u).contains (n 2))
  check ((u).contains (n 3))
  check (!(u).contains (n 4))
  check (!(u).contains (n 5))
  check (!(u).contains (n 6))
  check (!(u).isEmpty)) := by decide +kernel

/-- `range_from`, /repo/src/test/union/upper_bounded_set.rs:17-29. -/
example : passes (do
  let s ← union ((Any.rangeTo ⟨n 2⟩)) (Any.range ⟨n 2, n 3⟩)
  let u ← union (s) (Any.rangeFrom ⟨n 4⟩)
  check ((u).contains (n 0))
  check ((u).contains (n 1))
  check ((u).contains (n 2))
  check (!(u).contains (n 3))
  check ((u).contains (n 4))
  check ((u).contains (n 5))
  check ((u).contains (n 6))
  check (!(u).isEmpty)) := by decide +kernel

/-- `range_full`, /repo/src/test/union/upper_bounded_set.rs:31-43. -/
example : passes (do
  let s ← union ((Any.rangeTo ⟨n 2⟩)) (Any.range ⟨n 2, n 3⟩)
  let u ← union (s) (Any.rangeFull)
  check ((u).contains (n 0))
  check ((u).contains (n 1))
  check ((u).contains (n 2))
  check ((u).contains (n 3))
  check ((u).contains (n 4))
  check ((u).contains (n 5))
  check ((u).contains (n 6))
  check (!(u).isEmpty)) := by decide +kernel

/-- `range_inclusive`, /repo/src/test/union/upper_bounded_set.rs:45-57. -/
example : passes (do
  let s ← union ((Any.rangeTo ⟨n 2⟩)) (Any.range ⟨n 2, n 3⟩)
  let u ← union (s) (Any.rangeInclusive ⟨n 2, n 4, false⟩)
  check ((u).contains (n 0))
  check ((u).contains (n 1))
  check ((u).contains (n 2))
  check ((u).contains (n 3))
  check ((u).contains (n 4))
  check (!(u).contains (n 5))
  check (!(u).contains (n 6))
  check (!(u).isEmpty)) := by decide +kernel

/-- `range_to`, /repo/src/test/union/upper_bounded_set.rs:59-71. -/
example : passes (do
  let s ← union ((Any.rangeTo ⟨n 2⟩)) (Any.range ⟨n 2, n 3⟩)
  let u ← union (s) (Any.rangeTo ⟨n 4⟩)
  check ((u).contains (n 0))
  check ((u).contains (n 1))
  check ((u).contains (n 2))
  check ((u).contains (n 3))
  check (!(u).contains (n 4))
  check (!(u).contains (n 5))
  check (!(u).contains (n 6))
  check (!(u).isEmpty)) := by decide +kernel

/-- `range_to_inclusive`, /repo/src/test/union/upper_bounded_set.rs:73-85. -/
example : passes (do
  let s ← union ((Any.rangeTo ⟨n 2⟩)) (Any.range ⟨n 2, n 3⟩)
  let u ← union (s) (Any.rangeToInclusive ⟨n 4⟩)
  check ((u).contains (n 0))
  check ((u).contains (n 1))
  check ((u).contains (n 2))
  check ((u).contains (n 3))
  check ((u).contains (n 4))
  check (!(u).contains (n 5))
  check (!(u).contains (n 6))
  check (!(u).isEmpty)) := by decide +kernel

/-- `bounded_range`, /repo/src/test/union/upper_bounded_set.rs:87-100. -/
example : passes (do
  let s ← union ((Any.rangeTo ⟨n 2⟩)) (Any.range ⟨n 2, n 3⟩)
  let r ← toInner' ((Any.range ⟨n 2, n 4⟩))
  let u ← union (s) (r)
  check ((u).contains (n 0))
  check ((u).contains (n 1))
  check ((u).contains (n 2))
  check ((u).contains (n 3))
  check (!(u).contains (n 4))
  check (!(u).contains (n 5))
  check (!(u).contains (n 6))
  check (!(u).isEmpty)) := by decide +kernel

/-- `lower_bounded_range`, /repo/src/test/union/upper_bounded_set.rs:102-115. -/
example : passes (do
  let s ← union ((Any.rangeTo ⟨n 2⟩)) (Any.range ⟨n 2, n 3⟩)
  let r ← toInner' ((Any.rangeFrom ⟨n 4⟩))
  let u ← union (s) (r)
  check ((u).contains (n 0))
  check ((u).contains (n 1))
  check ((u).contains (n 2))
  check (!(u).contains (n 3))
  check ((u).contains (n 4))
  check ((u).contains (n 5))
  check ((u).contains (n 6))
  check (!(u).isEmpty)) := by decide +kernel

/-- `upper_bounded_range`, /repo/src/test/union/upper_bounded_set.rs:117-130. -/
example : passes (do
  let s ← union ((Any.rangeTo ⟨n 2⟩)) (Any.range ⟨n 2, n 3⟩)
  let r ← toInner' ((Any.rangeTo ⟨n 4⟩))
  let u ← union (s) (r)
  check ((u).contains (n 0))
  check ((u).contains (n 1))
  check ((u).contains (n 2))
  check ((u).contains (n 3))
  check (!(u).contains (n 4))
  check (!(u).contains (n 5))
  check (!(u).contains (n 6))
  check (!(u).isEmpty)) := by decide +kernel

/-- `unbounded_range`, /repo/src/test/union/upper_bounded_set.rs:132-145. -/
example : passes (do
  let s ← union ((Any.rangeTo ⟨n 2⟩)) (Any.range ⟨n 2, n 3⟩)
  let r ← inter ((Any.rangeFull)) (Any.rangeFull)
  let u ← union (s) (r)
  check ((u).contains (n 0))
  check ((u).contains (n 1))
  check ((u).contains (n 2))
  check ((u).contains (n 3))
  check ((u).contains (n 4))
  check ((u).contains (n 5))
  check ((u).contains (n 6))
  check (!(u).isEmpty)) := by decide +kernel

/-- `empty_range`, /repo/src/test/union/upper_bounded_set.rs:147-152. -/
example : passes (do
  let s ← union ((Any.rangeTo ⟨n 3⟩)) (Any.range ⟨n 4, n 5⟩)
  let u ← union (s) (Any.inner .er)
  check (decide (s = u))) := by decide +kernel

/-- `bounded_set`, /repo/src/test/union/upper_bounded_set.rs:154-167. -/
example : passes (do
  let s ← union ((Any.rangeTo ⟨n 2⟩)) (Any.range ⟨n 2, n 3⟩)
  let s2 ← union ((Any.range ⟨n 2, n 3⟩)) (Any.range ⟨n 3, n 4⟩)
  let u ← union (s) (s2)
  check ((u).contains (n 0))
  check ((u).contains (n 1))
  check ((u).contains (n 2))
  check ((u).contains (n 3))
  check (!(u).contains (n 4))
  check (!(u).contains (n 5))
  check (!(u).contains (n 6))
  check (!(u).isEmpty)) := by decide +kernel

/-- `lower_bounded_set`, /repo/src/test/union/upper_bounded_set.rs:169-182. -/
example : passes (do
  let s ← union ((Any.rangeTo ⟨n 2⟩)) (Any.range ⟨n 2, n 3⟩)
  let s2 ← union ((Any.range ⟨n 4, n 5⟩)) (Any.rangeFrom ⟨n 5⟩)
  let u ← union (s) (s2)
  check ((u).contains (n 0))
  check ((u).contains (n 1))
  check ((u).contains (n 2))
  check (!(u).contains (n 3))
  check ((u).contains (n 4))
  check ((u).contains (n 5))
  check ((u).contains (n 6))
  check (!(u).isEmpty)) := by decide +kernel

/-- `upper_bounded_set`, /repo/src/test/union/upper_bounded_set.rs:184-197. -/
example : passes (do
  let s ← union ((Any.rangeTo ⟨n 2⟩)) (Any.range ⟨n 2, n 3⟩)
  let s2 ← union ((Any.rangeTo ⟨n 3⟩)) (Any.range ⟨n 3, n 4⟩)
  let u ← union (s) (s2)
  check ((u).contains (n 0))
  check ((u).contains (n 1))
  check ((u).contains (n 2))
  check ((u).contains (n 3))
  check (!(u).contains (n 4))
  check (!(u).contains (n 5))
  check (!(u).contains (n 6))
  check (!(u).isEmpty)) := by decide +kernel

/-- `unbounded_set`, /repo/src/test/union/upper_bounded_set.rs:199-212. -/
example : passes (do
  let s ← union ((Any.rangeTo ⟨n 2⟩)) (Any.range ⟨n 2, n 3⟩)
  let s2 ← union ((Any.rangeTo ⟨n 2⟩)) (Any.rangeFrom ⟨n 5⟩)
  let u ← union (s) (s2)
  check ((u).contains (n 0))
  check ((u).contains (n 1))
  check ((u).contains (n 2))
  check (!(u).contains (n 3))
  check (!(u).contains (n 4))
  check ((u).contains (n 5))
  check ((u).contains (n 6))
  check (!(u).isEmpty)) := by decide +kernel

end Rangetools.Tests
