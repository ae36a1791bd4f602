import Verif.Tests.Harness

/-!
# Upstream intersection tests (2)

Transcribed from the crate's own unit tests.  These are tests of the model, not proofs of a property.
-/

set_option linter.unusedVariables false

namespace Rangetools.Tests

/-- `range`, /repo/src/test/intersection/range_full.rs:3-14. -/
example : passes (do
  let i ← inter ((Any.rangeFull)) (Any.range ⟨n 1, n 3⟩)
  check (decide ((← collect ((← intoIter (i)))) = [n 1, n 2]))
  check (!(i).contains (n 0))
  check ((i).contains (n 1))
  check ((i).contains (n 2))
  check (!(i).contains (n 3))
  check (!(i).contains (n 4))
  check (!(i).isEmpty)
  check (((← inter ((Any.rangeFull)) (Any.range ⟨n 1, n 1⟩))).isEmpty)) := by decide +kernel

/-- `range_from`, /repo/src/test/intersection/range_full.rs:16-25. -/
example : passes (do
  let i ← inter ((Any.rangeFull)) (Any.rangeFrom ⟨n 3⟩)
  check (!(i).contains (n 0))
  check (!(i).contains (n 1))
  check (!(i).contains (n 2))
  check ((i).contains (n 3))
  check ((i).contains (n 4))
  check (!(i).isEmpty)) := by decide +kernel

/-- `range_full`, /repo/src/test/intersection/range_full.rs:27-34. -/
example : passes (do
  let i ← inter ((Any.rangeFull)) (Any.rangeFull)
  check ((i).contains (n 0))
  check ((i).contains (n 100))
  check ((i).contains (n 1000))
  check (!(i).isEmpty)) := by decide +kernel

/-- `range_inclusive`, /repo/src/test/intersection/range_full.rs:36-47. -/
example : passes (do
  let i ← inter ((Any.rangeFull)) (Any.rangeInclusive ⟨n 1, n 3, false⟩)
  check (decide ((← collect ((← intoIter (i)))) = [n 1, n 2, n 3]))
  check (!(i).contains (n 0))
  check ((i).contains (n 1))
  check ((i).contains (n 2))
  check ((i).contains (n 3))
  check (!(i).contains (n 4))
  check (!(i).isEmpty)
  check (((← inter ((Any.rangeFull)) (Any.rangeInclusive ⟨n 1, n 0, false⟩))).isEmpty)) := by decide +kernel

/-- `range_to`, /repo/src/test/intersection/range_full.rs:49-58. -/
example : passes (do
  let i ← inter ((Any.rangeFull)) (Any.rangeTo ⟨n 3⟩)
  check ((i).contains (n 0))
  check ((i).contains (n 1))
  check ((i).contains (n 2))
  check (!(i).contains (n 3))
  check (!(i).contains (n 4))
  check (!(i).isEmpty)) := by decide +kernel

/-- `range_to_inclusive`, /repo/src/test/intersection/range_full.rs:60-69. -/
example : passes (do
  let i ← inter ((Any.rangeFull)) (Any.rangeToInclusive ⟨n 3⟩)
  check ((i).contains (n 0))
  check ((i).contains (n 1))
  check ((i).contains (n 2))
  check ((i).contains (n 3))
  check (!(i).contains (n 4))
  check (!(i).isEmpty)) := by decide +kernel

/-- `bounded_range`, /repo/src/test/intersection/range_full.rs:71-84. -/
example : passes (do
  let r ← inter ((Any.range ⟨n 1, n 3⟩)) (Any.rangeFull)
  let i ← inter ((Any.rangeFull)) (r)
  check (decide ((← collect ((← intoIter (i)))) = [n 1, n 2]))
  check (!(i).contains (n 0))
  check ((i).contains (n 1))
  check ((i).contains (n 2))
  check (!(i).contains (n 3))
  check (!(i).contains (n 4))
  check (!(i).isEmpty)
  let r2 ← inter ((Any.range ⟨n 1, n 3⟩)) (Any.range ⟨n 5, n 10⟩)
  check (((← inter ((Any.rangeFull)) (r2))).isEmpty)) := by decide +kernel

/-- `lower_bounded_range`, /repo/src/test/intersection/range_full.rs:86-97. -/
example : passes (do
  let r ← inter ((Any.rangeFrom ⟨n 3⟩)) (Any.rangeFull)
  let i ← inter ((Any.rangeFull)) (r)
  check (decide ((← collectTake 3 ((← intoIter (i)))) = [n 3, n 4, n 5]))
  check (!(i).contains (n 0))
  check (!(i).contains (n 1))
  check (!(i).contains (n 2))
  check ((i).contains (n 3))
  check ((i).contains (n 4))
  check (!(i).isEmpty)) := by decide +kernel

/-- `upper_bounded_range`, /repo/src/test/intersection/range_full.rs:98-108. -/
example : passes (do
  let r ← inter ((Any.rangeTo ⟨n 3⟩)) (Any.rangeFull)
  let i ← inter ((Any.rangeFull)) (r)
  check ((i).contains (n 0))
  check ((i).contains (n 1))
  check ((i).contains (n 2))
  check (!(i).contains (n 3))
  check (!(i).contains (n 4))
  check (!(i).isEmpty)) := by decide +kernel

/-- `unbounded_range`, /repo/src/test/intersection/range_full.rs:109-119. -/
example : passes (do
  let r ← inter ((Any.rangeFull)) (Any.rangeFull)
  let i ← inter ((Any.rangeFull)) (r)
  check ((i).contains (n 0))
  check ((i).contains (n 1))
  check ((i).contains (n 2))
  check ((i).contains (n 3))
  check ((i).contains (n 4))
  check (!(i).isEmpty)) := by decide +kernel

/-- `empty_range`, /repo/src/test/intersection/range_full.rs:121-128. -/
example : passes (do
  let r1 : Any I32 := Any.rangeFull
  let r2 : Any I32 := Any.inner .er
  let i ← inter (r1) (r2)
  check ((i).isEmpty)
  check (decide ((← collect ((← intoIter (i)))) = []))) := by decide +kernel

/-- `bounded_set`, /repo/src/test/intersection/range_full.rs:130-143. -/
example : passes (do
  let r ← union ((Any.range ⟨n 1, n 2⟩)) (Any.range ⟨n 3, n 4⟩)
  let i ← inter ((Any.rangeFull)) (r)
  check (decide ((← collect ((← intoIter (i)))) = [n 1, n 3]))
  check (!(i).contains (n 0))
  check ((i).contains (n 1))
  check (!(i).contains (n 2))
  check ((i).contains (n 3))
  check (!(i).contains (n 4))
  check (!(i).isEmpty)
  let r2 ← union ((Any.range ⟨n 1, n 1⟩)) (Any.range ⟨n 5, n 5⟩)
  check (((← inter ((Any.rangeFull)) (r2))).isEmpty)) := by decide +kernel

/-- `lower_bounded_set`, /repo/src/test/intersection/range_full.rs:145-159. -/
example : passes (do
  let s ← union ((Any.rangeFrom ⟨n 3⟩)) (Any.range ⟨n 0, n 2⟩)
  let i ← inter ((Any.rangeFull)) (s)
  check (decide ((← collectTake 3 ((← intoIter (i)))) = [n 0, n 1, n 3]))
  check ((i).contains (n 0))
  check ((i).contains (n 1))
  check (!(i).contains (n 2))
  check ((i).contains (n 3))
  check ((i).contains (n 4))
  check (!(i).isEmpty)) := by decide +kernel

/-- `upper_bounded_set`, /repo/src/test/intersection/range_full.rs:161-172. -/
example : passes (do
  let s ← union ((Any.rangeTo ⟨n 3⟩)) (Any.range ⟨n 4, n 5⟩)
  let i ← inter ((Any.rangeFull)) (s)
  check ((i).contains (n 0))
  check ((i).contains (n 1))
  check ((i).contains (n 2))
  check (!(i).contains (n 3))
  check ((i).contains (n 4))
  check (!(i).contains (n 5))
  check (!(i).isEmpty)) := by decide +kernel

/-- `unbounded_set`, /repo/src/test/intersection/range_full.rs:174-185. -/
example : passes (do
  let s ← union ((← union ((Any.range ⟨n 2, n 3⟩)) (Any.rangeTo ⟨n 1⟩))) (Any.rangeFrom ⟨n 4⟩)
  let i ← inter ((Any.rangeFull)) (s)
  check ((i).contains (n 0))
  check (!(i).contains (n 1))
  check ((i).contains (n 2))
  check (!(i).contains (n 3))
  check ((i).contains (n 4))
  check ((i).contains (n 5))
  check (!(i).isEmpty)) := by decide +kernel

/-- `range`, /repo/src/test/intersection/range_inclusive.rs:3-16. -/
example : passes (do
  let i ← inter ((Any.rangeInclusive ⟨n 0, n 3, false⟩)) (Any.range ⟨n 2, n 5⟩)
  check (decide ((← collect ((← intoIter (i)))) = [n 2, n 3]))
  check (!(i).contains (n 0))
  check (!(i).contains (n 1))
  check ((i).contains (n 2))
  check ((i).contains (n 3))
  check (!(i).contains (n 4))
  check (!(i).contains (n 5))
  check (!(i).contains (n 6))
  check (!(i).isEmpty)
  check (((← inter ((Any.rangeInclusive ⟨n 0, n 3, false⟩)) (Any.range ⟨n 10, n 20⟩))).isEmpty)) := by decide +kernel

/-- `range_from`, /repo/src/test/intersection/range_inclusive.rs:18-31. -/
example : passes (do
  let i ← inter ((Any.rangeInclusive ⟨n 0, n 3, false⟩)) (Any.rangeFrom ⟨n 2⟩)
  check (decide ((← collect ((← intoIter (i)))) = [n 2, n 3]))
  check (!(i).contains (n 0))
  check (!(i).contains (n 1))
  check ((i).contains (n 2))
  check ((i).contains (n 3))
  check (!(i).contains (n 4))
  check (!(i).contains (n 5))
  check (!(i).contains (n 6))
  check (!(i).isEmpty)
  check (((← inter ((Any.rangeInclusive ⟨n 0, n 3, false⟩)) (Any.rangeFrom ⟨n 10⟩))).isEmpty)) := by decide +kernel

/-- `range_full`, /repo/src/test/intersection/range_inclusive.rs:33-45. -/
example : passes (do
  let i ← inter ((Any.rangeInclusive ⟨n 0, n 3, false⟩)) (Any.rangeFull)
  check (decide ((← collect ((← intoIter (i)))) = [n 0, n 1, n 2, n 3]))
  check (!(i).contains (n (-1)))
  check ((i).contains (n 0))
  check ((i).contains (n 1))
  check ((i).contains (n 2))
  check ((i).contains (n 3))
  check (!(i).contains (n 4))
  check (!(i).isEmpty)
  check (((← inter ((Any.rangeInclusive ⟨n 2, n 1, false⟩)) (Any.rangeFull))).isEmpty)) := by decide +kernel

/-- `range_inclusive`, /repo/src/test/intersection/range_inclusive.rs:47-60. -/
example : passes (do
  let i ← inter ((Any.rangeInclusive ⟨n 0, n 3, false⟩)) (Any.rangeInclusive ⟨n 1, n 2, false⟩)
  check (decide ((← collect ((← intoIter (i)))) = [n 1, n 2]))
  check (!(i).contains (n 0))
  check ((i).contains (n 1))
  check ((i).contains (n 2))
  check (!(i).contains (n 3))
  check (!(i).contains (n 4))
  check (!(i).contains (n 5))
  check (!(i).contains (n 6))
  check (!(i).isEmpty)
  check (((← inter ((Any.rangeInclusive ⟨n 0, n 3, false⟩)) (Any.rangeInclusive ⟨n 10, n 20, false⟩))).isEmpty)) := by decide +kernel

/-- `range_to`, /repo/src/test/intersection/range_inclusive.rs:62-73. -/
example : passes (do
  let i ← inter ((Any.rangeInclusive ⟨n 1, n 3, false⟩)) (Any.rangeTo ⟨n 2⟩)
  check (decide ((← collect ((← intoIter (i)))) = [n 1]))
  check (!(i).contains (n 0))
  check ((i).contains (n 1))
  check (!(i).contains (n 2))
  check (!(i).contains (n 3))
  check (!(i).contains (n 4))
  check (!(i).isEmpty)
  check (((← inter ((Any.rangeInclusive ⟨n 3, n 5, false⟩)) (Any.rangeTo ⟨n 2⟩))).isEmpty)) := by decide +kernel

/-- `range_to_inclusive`, /repo/src/test/intersection/range_inclusive.rs:75-86. -/
example : passes (do
  let i ← inter ((Any.rangeInclusive ⟨n 1, n 3, false⟩)) (Any.rangeToInclusive ⟨n 2⟩)
  check (decide ((← collect ((← intoIter (i)))) = [n 1, n 2]))
  check (!(i).contains (n 0))
  check ((i).contains (n 1))
  check ((i).contains (n 2))
  check (!(i).contains (n 3))
  check (!(i).contains (n 4))
  check (!(i).isEmpty)
  check (((← inter ((Any.rangeInclusive ⟨n 3, n 5, false⟩)) (Any.rangeToInclusive ⟨n 2⟩))).isEmpty)) := by decide +kernel

/-- `bounded_range`, /repo/src/test/intersection/range_inclusive.rs:88-102. -/
example : passes (do
  let br ← inter ((Any.range ⟨n 2, n 5⟩)) (Any.rangeFull)
  let i ← inter ((Any.rangeInclusive ⟨n 0, n 3, false⟩)) (br)
  check (decide ((← collect ((← intoIter (i)))) = [n 2, n 3]))
  check (!(i).contains (n 0))
  check (!(i).contains (n 1))
  check ((i).contains (n 2))
  check ((i).contains (n 3))
  check (!(i).contains (n 4))
  check (!(i).contains (n 5))
  check (!(i).contains (n 6))
  check (!(i).isEmpty)
  check (((← inter ((Any.rangeInclusive ⟨n 10, n 20, false⟩)) (br))).isEmpty)) := by decide +kernel

/-- `lower_bounded_range`, /repo/src/test/intersection/range_inclusive.rs:104-118. -/
example : passes (do
  let br ← inter ((Any.rangeFrom ⟨n 2⟩)) (Any.rangeFull)
  let i ← inter ((Any.rangeInclusive ⟨n 0, n 3, false⟩)) (br)
  check (decide ((← collect ((← intoIter (i)))) = [n 2, n 3]))
  check (!(i).contains (n 0))
  check (!(i).contains (n 1))
  check ((i).contains (n 2))
  check ((i).contains (n 3))
  check (!(i).contains (n 4))
  check (!(i).contains (n 5))
  check (!(i).contains (n 6))
  check (!(i).isEmpty)
  check (((← inter ((Any.rangeInclusive ⟨n 0, n 1, false⟩)) (br))).isEmpty)) := by decide +kernel

/-- `upper_bounded_range`, /repo/src/test/intersection/range_inclusive.rs:120-132. -/
example : passes (do
  let br ← inter ((Any.rangeTo ⟨n 2⟩)) (Any.rangeFull)
  let i ← inter ((Any.rangeInclusive ⟨n 1, n 3, false⟩)) (br)
  check (decide ((← collect ((← intoIter (i)))) = [n 1]))
  check (!(i).contains (n 0))
  check ((i).contains (n 1))
  check (!(i).contains (n 2))
  check (!(i).contains (n 3))
  check (!(i).contains (n 4))
  check (!(i).isEmpty)
  check (((← inter ((Any.rangeInclusive ⟨n 3, n 5, false⟩)) (br))).isEmpty)) := by decide +kernel

/-- `unbounded_range`, /repo/src/test/intersection/range_inclusive.rs:134-147. -/
example : passes (do
  let r ← inter ((Any.rangeFull)) (Any.rangeFull)
  let i ← inter ((Any.rangeInclusive ⟨n 0, n 3, false⟩)) (r)
  check (decide ((← collect ((← intoIter (i)))) = [n 0, n 1, n 2, n 3]))
  check (!(i).contains (n (-1)))
  check ((i).contains (n 0))
  check ((i).contains (n 1))
  check ((i).contains (n 2))
  check ((i).contains (n 3))
  check (!(i).contains (n 4))
  check (!(i).isEmpty)
  check (((← inter ((Any.rangeInclusive ⟨n 2, n 1, false⟩)) (r))).isEmpty)) := by decide +kernel

/-- `empty_range`, /repo/src/test/intersection/range_inclusive.rs:149-156. -/
example : passes (do
  let r1 : Any I32 := Any.rangeInclusive ⟨n 0, n 3, false⟩
  let r2 : Any I32 := Any.inner .er
  let i ← inter (r1) (r2)
  check ((i).isEmpty)
  check (decide ((← collect ((← intoIter (i)))) = []))) := by decide +kernel

/-- `bounded_set`, /repo/src/test/intersection/range_inclusive.rs:158-172. -/
example : passes (do
  let s ← union ((Any.range ⟨n 1, n 3⟩)) (Any.range ⟨n 4, n 6⟩)
  let i ← inter ((Any.rangeInclusive ⟨n 2, n 5, false⟩)) (s)
  check (decide ((← collect ((← intoIter (i)))) = [n 2, n 4, n 5]))
  check (!(i).contains (n 0))
  check (!(i).contains (n 1))
  check ((i).contains (n 2))
  check (!(i).contains (n 3))
  check ((i).contains (n 4))
  check ((i).contains (n 5))
  check (!(i).contains (n 6))
  check (!(i).isEmpty)
  check (((← inter ((Any.rangeInclusive ⟨n 10, n 15, false⟩)) (s))).isEmpty)) := by decide +kernel

/-- `lower_bounded_set`, /repo/src/test/intersection/range_inclusive.rs:174-188. -/
example : passes (do
  let s ← union ((Any.range ⟨n 1, n 2⟩)) (Any.rangeFrom ⟨n 3⟩)
  let i ← inter ((Any.rangeInclusive ⟨n 1, n 4, false⟩)) (s)
  check (decide ((← collect ((← intoIter (i)))) = [n 1, n 3, n 4]))
  check (!(i).contains (n 0))
  check ((i).contains (n 1))
  check (!(i).contains (n 2))
  check ((i).contains (n 3))
  check ((i).contains (n 4))
  check (!(i).contains (n 5))
  check (!(i).contains (n 6))
  check (!(i).isEmpty)
  check (((← inter ((Any.rangeInclusive ⟨n 0, n 0, false⟩)) (s))).isEmpty)) := by decide +kernel

/-- `upper_bounded_set`, /repo/src/test/intersection/range_inclusive.rs:190-204. -/
example : passes (do
  let s ← union ((Any.rangeTo ⟨n 2⟩)) (Any.range ⟨n 3, n 5⟩)
  let i ← inter ((Any.rangeInclusive ⟨n 1, n 3, false⟩)) (s)
  check (decide ((← collect ((← intoIter (i)))) = [n 1, n 3]))
  check (!(i).contains (n 0))
  check ((i).contains (n 1))
  check (!(i).contains (n 2))
  check ((i).contains (n 3))
  check (!(i).contains (n 4))
  check (!(i).contains (n 5))
  check (!(i).contains (n 6))
  check (!(i).isEmpty)
  check (((← inter ((Any.rangeInclusive ⟨n 5, n 5, false⟩)) (s))).isEmpty)) := by decide +kernel

/-- `unbounded_set`, /repo/src/test/intersection/range_inclusive.rs:206-220. -/
example : passes (do
  let s ← union ((← union ((Any.rangeTo ⟨n 2⟩)) (Any.range ⟨n 3, n 4⟩))) (Any.rangeFrom ⟨n 5⟩)
  let i ← inter ((Any.rangeInclusive ⟨n 1, n 5, false⟩)) (s)
  check (decide ((← collect ((← intoIter (i)))) = [n 1, n 3, n 5]))
  check (!(i).contains (n 0))
  check ((i).contains (n 1))
  check (!(i).contains (n 2))
  check ((i).contains (n 3))
  check (!(i).contains (n 4))
  check ((i).contains (n 5))
  check (!(i).contains (n 6))
  check (!(i).isEmpty)
  check (((← inter ((Any.rangeInclusive ⟨n 2, n 2, false⟩)) (s))).isEmpty)) := by decide +kernel

/-- `range`, /repo/src/test/intersection/range_to.rs:3-15. -/
example : passes (do
  let i ← inter ((Any.rangeTo ⟨n 3⟩)) (Any.range ⟨n 2, n 4⟩)
  check (decide ((← collect ((← intoIter (i)))) = [n 2]))
  check (!(i).contains (n 0))
  check (!(i).contains (n 1))
  check ((i).contains (n 2))
  check (!(i).contains (n 3))
  check (!(i).contains (n 4))
  check (!(i).contains (n 5))
  check (!(i).isEmpty)
  check (((← inter ((Any.rangeTo ⟨n 3⟩)) (Any.range ⟨n 5, n 10⟩))).isEmpty)) := by decide +kernel

/-- `range_from`, /repo/src/test/intersection/range_to.rs:17-29. -/
example : passes (do
  let i ← inter ((Any.rangeTo ⟨n 3⟩)) (Any.rangeFrom ⟨n 2⟩)
  check (decide ((← collect ((← intoIter (i)))) = [n 2]))
  check (!(i).contains (n 0))
  check (!(i).contains (n 1))
  check ((i).contains (n 2))
  check (!(i).contains (n 3))
  check (!(i).contains (n 4))
  check (!(i).contains (n 5))
  check (!(i).isEmpty)
  check (((← inter ((Any.rangeTo ⟨n 3⟩)) (Any.rangeFrom ⟨n 5⟩))).isEmpty)) := by decide +kernel

/-- `range_full`, /repo/src/test/intersection/range_to.rs:31-41. -/
example : passes (do
  let i ← inter ((Any.rangeTo ⟨n 3⟩)) (Any.rangeFull)
  check ((i).contains (n 0))
  check ((i).contains (n 1))
  check ((i).contains (n 2))
  check (!(i).contains (n 3))
  check (!(i).contains (n 4))
  check (!(i).contains (n 5))
  check (!(i).isEmpty)) := by decide +kernel

/-- `range_inclusive`, /repo/src/test/intersection/range_to.rs:43-55. -/
example : passes (do
  let i ← inter ((Any.rangeTo ⟨n 3⟩)) (Any.rangeInclusive ⟨n 2, n 4, false⟩)
  check (decide ((← collect ((← intoIter (i)))) = [n 2]))
  check (!(i).contains (n 0))
  check (!(i).contains (n 1))
  check ((i).contains (n 2))
  check (!(i).contains (n 3))
  check (!(i).contains (n 4))
  check (!(i).contains (n 5))
  check (!(i).isEmpty)
  check (((← inter ((Any.rangeTo ⟨n 3⟩)) (Any.rangeInclusive ⟨n 5, n 10, false⟩))).isEmpty)) := by decide +kernel

/-- `range_to`, /repo/src/test/intersection/range_to.rs:57-67. -/
example : passes (do
  let i ← inter ((Any.rangeTo ⟨n 3⟩)) (Any.rangeTo ⟨n 2⟩)
  check ((i).contains (n 0))
  check ((i).contains (n 1))
  check (!(i).contains (n 2))
  check (!(i).contains (n 3))
  check (!(i).contains (n 4))
  check (!(i).contains (n 5))
  check (!(i).isEmpty)) := by decide +kernel

/-- `range_to_inclusive`, /repo/src/test/intersection/range_to.rs:69-79. -/
example : passes (do
  let i ← inter ((Any.rangeTo ⟨n 3⟩)) (Any.rangeToInclusive ⟨n 2⟩)
  check ((i).contains (n 0))
  check ((i).contains (n 1))
  check ((i).contains (n 2))
  check (!(i).contains (n 3))
  check (!(i).contains (n 4))
  check (!(i).contains (n 5))
  check (!(i).isEmpty)) := by decide +kernel

/-- `bounded_range`, /repo/src/test/intersection/range_to.rs:81-95. -/
example : passes (do
  let r ← inter ((Any.range ⟨n 2, n 4⟩)) (Any.rangeFull)
  let i ← inter ((Any.rangeTo ⟨n 3⟩)) (r)
  check (decide ((← collect ((← intoIter (i)))) = [n 2]))
  check (!(i).contains (n 0))
  check (!(i).contains (n 1))
  check ((i).contains (n 2))
  check (!(i).contains (n 3))
  check (!(i).contains (n 4))
  check (!(i).contains (n 5))
  check (!(i).isEmpty)
  let r2 ← inter ((Any.range ⟨n 5, n 10⟩)) (Any.rangeFull)
  check (((← inter ((Any.rangeTo ⟨n 3⟩)) (r2))).isEmpty)) := by decide +kernel

/-- `lower_bounded_range`, /repo/src/test/intersection/range_to.rs:97-111. -/
example : passes (do
  let r ← inter ((Any.rangeFrom ⟨n 2⟩)) (Any.rangeFull)
  let i ← inter ((Any.rangeTo ⟨n 3⟩)) (r)
  check (decide ((← collect ((← intoIter (i)))) = [n 2]))
  check (!(i).contains (n 0))
  check (!(i).contains (n 1))
  check ((i).contains (n 2))
  check (!(i).contains (n 3))
  check (!(i).contains (n 4))
  check (!(i).contains (n 5))
  check (!(i).isEmpty)
  let r2 ← inter ((Any.rangeFrom ⟨n 5⟩)) (Any.rangeFull)
  check (((← inter ((Any.rangeTo ⟨n 3⟩)) (r2))).isEmpty)) := by decide +kernel

/-- `upper_bounded_range`, /repo/src/test/intersection/range_to.rs:113-124. -/
example : passes (do
  let r ← inter ((Any.rangeTo ⟨n 2⟩)) (Any.rangeFull)
  let i ← inter ((Any.rangeTo ⟨n 3⟩)) (r)
  check ((i).contains (n 0))
  check ((i).contains (n 1))
  check (!(i).contains (n 2))
  check (!(i).contains (n 3))
  check (!(i).contains (n 4))
  check (!(i).contains (n 5))
  check (!(i).isEmpty)) := by decide +kernel

/-- `unbounded_range`, /repo/src/test/intersection/range_to.rs:126-137. -/
example : passes (do
  let r ← inter ((Any.rangeFull)) (Any.rangeFull)
  let i ← inter ((Any.rangeTo ⟨n 3⟩)) (r)
  check ((i).contains (n 0))
  check ((i).contains (n 1))
  check ((i).contains (n 2))
  check (!(i).contains (n 3))
  check (!(i).contains (n 4))
  check (!(i).contains (n 5))
  check (!(i).isEmpty)) := by decide +kernel

/-- `empty_range`, /repo/src/test/intersection/range_to.rs:139-146. -/
example : passes (do
  let r1 : Any I32 := Any.rangeTo ⟨n 3⟩
  let r2 : Any I32 := Any.inner .er
  let i ← inter (r1) (r2)
  check ((i).isEmpty)
  check (decide ((← collect ((← intoIter (i)))) = []))) := by decide +kernel

/-- `bounded_set`, /repo/src/test/intersection/range_to.rs:148-163. -/
example : passes (do
  let r : Any I32 := Any.rangeTo ⟨n 3⟩
  let s ← union ((Any.range ⟨n 1, n 2⟩)) (Any.range ⟨n 3, n 4⟩)
  let i ← inter (r) (s)
  check (decide ((← collect ((← intoIter (i)))) = [n 1]))
  check (!(i).contains (n 0))
  check ((i).contains (n 1))
  check (!(i).contains (n 2))
  check (!(i).contains (n 3))
  check (!(i).contains (n 4))
  check (!(i).contains (n 5))
  check (!(i).isEmpty)
  let s2 ← union ((Any.range ⟨n 3, n 4⟩)) (Any.range ⟨n 5, n 6⟩)
  check (((← inter (r) (s2))).isEmpty)) := by decide +kernel

/-- `lower_bounded_set`, /repo/src/test/intersection/range_to.rs:165-180. -/
example : passes (do
  let r : Any I32 := Any.rangeTo ⟨n 3⟩
  let s ← union ((Any.range ⟨n 0, n 1⟩)) (Any.rangeFrom ⟨n 2⟩)
  let i ← inter (r) (s)
  check (decide ((← collect ((← intoIter (i)))) = [n 0, n 2]))
  check ((i).contains (n 0))
  check (!(i).contains (n 1))
  check ((i).contains (n 2))
  check (!(i).contains (n 3))
  check (!(i).contains (n 4))
  check (!(i).contains (n 5))
  check (!(i).isEmpty)
  let s2 ← toSet' ((Any.rangeFrom ⟨n 5⟩))
  check (((← inter (r) (s2))).isEmpty)) := by decide +kernel

/-- `upper_bounded_set`, /repo/src/test/intersection/range_to.rs:182-194. -/
example : passes (do
  let r : Any I32 := Any.rangeTo ⟨n 3⟩
  let s ← union ((Any.rangeTo ⟨n 2⟩)) (Any.range ⟨n 3, n 4⟩)
  let i ← inter (r) (s)
  check ((i).contains (n 0))
  check ((i).contains (n 1))
  check (!(i).contains (n 2))
  check (!(i).contains (n 3))
  check (!(i).contains (n 4))
  check (!(i).contains (n 5))
  check (!(i).isEmpty)) := by decide +kernel

/-- `unbounded_set`, /repo/src/test/intersection/range_to.rs:196-208. -/
example : passes (do
  let r : Any I32 := Any.rangeTo ⟨n 3⟩
  let s ← union ((Any.rangeTo ⟨n 1⟩)) (Any.rangeFrom ⟨n 2⟩)
  let i ← inter (r) (s)
  check ((i).contains (n 0))
  check (!(i).contains (n 1))
  check ((i).contains (n 2))
  check (!(i).contains (n 3))
  check (!(i).contains (n 4))
  check (!(i).contains (n 5))
  check (!(i).isEmpty)) := by decide +kernel

/-- `range`, /repo/src/test/intersection/range_to_inclusive.rs:3-15. -/
example : passes (do
  let i ← inter ((Any.rangeToInclusive ⟨n 3⟩)) (Any.range ⟨n 2, n 4⟩)
  check (decide ((← collect ((← intoIter (i)))) = [n 2, n 3]))
  check (!(i).contains (n 0))
  check (!(i).contains (n 1))
  check ((i).contains (n 2))
  check ((i).contains (n 3))
  check (!(i).contains (n 4))
  check (!(i).contains (n 5))
  check (!(i).isEmpty)
  check (((← inter ((Any.rangeToInclusive ⟨n 3⟩)) (Any.range ⟨n 5, n 10⟩))).isEmpty)) := by decide +kernel

/-- `range_from`, /repo/src/test/intersection/range_to_inclusive.rs:17-29. -/
example : passes (do
  let i ← inter ((Any.rangeToInclusive ⟨n 3⟩)) (Any.rangeFrom ⟨n 2⟩)
  check (decide ((← collect ((← intoIter (i)))) = [n 2, n 3]))
  check (!(i).contains (n 0))
  check (!(i).contains (n 1))
  check ((i).contains (n 2))
  check ((i).contains (n 3))
  check (!(i).contains (n 4))
  check (!(i).contains (n 5))
  check (!(i).isEmpty)
  check (((← inter ((Any.rangeToInclusive ⟨n 3⟩)) (Any.rangeFrom ⟨n 5⟩))).isEmpty)) := by decide +kernel

/-- `range_full`, /repo/src/test/intersection/range_to_inclusive.rs:31-41. -/
example : passes (do
  let i ← inter ((Any.rangeToInclusive ⟨n 3⟩)) (Any.rangeFull)
  check ((i).contains (n 0))
  check ((i).contains (n 1))
  check ((i).contains (n 2))
  check ((i).contains (n 3))
  check (!(i).contains (n 4))
  check (!(i).contains (n 5))
  check (!(i).isEmpty)) := by decide +kernel

/-- `range_inclusive`, /repo/src/test/intersection/range_to_inclusive.rs:43-55. -/
example : passes (do
  let i ← inter ((Any.rangeToInclusive ⟨n 3⟩)) (Any.rangeInclusive ⟨n 2, n 4, false⟩)
  check (decide ((← collect ((← intoIter (i)))) = [n 2, n 3]))
  check (!(i).contains (n 0))
  check (!(i).contains (n 1))
  check ((i).contains (n 2))
  check ((i).contains (n 3))
  check (!(i).contains (n 4))
  check (!(i).contains (n 5))
  check (!(i).isEmpty)
  check (((← inter ((Any.rangeToInclusive ⟨n 3⟩)) (Any.rangeInclusive ⟨n 5, n 10, false⟩))).isEmpty)) := by decide +kernel

/-- `range_to`, /repo/src/test/intersection/range_to_inclusive.rs:57-67. -/
example : passes (do
  let i ← inter ((Any.rangeToInclusive ⟨n 3⟩)) (Any.rangeTo ⟨n 2⟩)
  check ((i).contains (n 0))
  check ((i).contains (n 1))
  check (!(i).contains (n 2))
  check (!(i).contains (n 3))
  check (!(i).contains (n 4))
  check (!(i).contains (n 5))
  check (!(i).isEmpty)) := by decide +kernel

/-- `range_to_inclusive`, /repo/src/test/intersection/range_to_inclusive.rs:69-79. -/
example : passes (do
  let i ← inter ((Any.rangeToInclusive ⟨n 3⟩)) (Any.rangeToInclusive ⟨n 2⟩)
  check ((i).contains (n 0))
  check ((i).contains (n 1))
  check ((i).contains (n 2))
  check (!(i).contains (n 3))
  check (!(i).contains (n 4))
  check (!(i).contains (n 5))
  check (!(i).isEmpty)) := by decide +kernel

/-- `bounded_range`, /repo/src/test/intersection/range_to_inclusive.rs:81-95. -/
example : passes (do
  let r ← inter ((Any.range ⟨n 2, n 4⟩)) (Any.rangeFull)
  let i ← inter ((Any.rangeToInclusive ⟨n 3⟩)) (r)
  check (decide ((← collect ((← intoIter (i)))) = [n 2, n 3]))
  check (!(i).contains (n 0))
  check (!(i).contains (n 1))
  check ((i).contains (n 2))
  check ((i).contains (n 3))
  check (!(i).contains (n 4))
  check (!(i).contains (n 5))
  check (!(i).isEmpty)
  let r2 ← inter ((Any.range ⟨n 5, n 10⟩)) (Any.rangeFull)
  check (((← inter ((Any.rangeToInclusive ⟨n 3⟩)) (r2))).isEmpty)) := by decide +kernel

/-- `lower_bounded_range`, /repo/src/test/intersection/range_to_inclusive.rs:97-111. -/
example : passes (do
  let r ← inter ((Any.rangeFrom ⟨n 2⟩)) (Any.rangeFull)
  let i ← inter ((Any.rangeToInclusive ⟨n 3⟩)) (r)
  check (decide ((← collect ((← intoIter (i)))) = [n 2, n 3]))
  check (!(i).contains (n 0))
  check (!(i).contains (n 1))
  check ((i).contains (n 2))
  check ((i).contains (n 3))
  check (!(i).contains (n 4))
  check (!(i).contains (n 5))
  check (!(i).isEmpty)
  let r2 ← inter ((Any.rangeFrom ⟨n 5⟩)) (Any.rangeFull)
  check (((← inter ((Any.rangeToInclusive ⟨n 3⟩)) (r2))).isEmpty)) := by decide +kernel

/-- `upper_bounded_range`, /repo/src/test/intersection/range_to_inclusive.rs:113-124. -/
example : passes (do
  let r ← inter ((Any.rangeTo ⟨n 2⟩)) (Any.rangeFull)
  let i ← inter ((Any.rangeToInclusive ⟨n 3⟩)) (r)
  check ((i).contains (n 0))
  check ((i).contains (n 1))
  check (!(i).contains (n 2))
  check (!(i).contains (n 3))
  check (!(i).contains (n 4))
  check (!(i).contains (n 5))
  check (!(i).isEmpty)) := by decide +kernel

/-- `unbounded_range`, /repo/src/test/intersection/range_to_inclusive.rs:126-137. -/
example : passes (do
  let r ← inter ((Any.rangeFull)) (Any.rangeFull)
  let i ← inter ((Any.rangeToInclusive ⟨n 3⟩)) (r)
  check ((i).contains (n 0))
  check ((i).contains (n 1))
  check ((i).contains (n 2))
  check ((i).contains (n 3))
  check (!(i).contains (n 4))
  check (!(i).contains (n 5))
  check (!(i).isEmpty)) := by decide +kernel

/-- `empty_range`, /repo/src/test/intersection/range_to_inclusive.rs:139-146. -/
example : passes (do
  let r1 : Any I32 := Any.rangeToInclusive ⟨n 3⟩
  let r2 : Any I32 := Any.inner .er
  let i ← inter (r1) (r2)
  check ((i).isEmpty)
  check (decide ((← collect ((← intoIter (i)))) = []))) := by decide +kernel

/-- `bounded_set`, /repo/src/test/intersection/range_to_inclusive.rs:148-163. -/
example : passes (do
  let r : Any I32 := Any.rangeToInclusive ⟨n 2⟩
  let s ← union ((Any.range ⟨n 1, n 2⟩)) (Any.range ⟨n 3, n 4⟩)
  let i ← inter (r) (s)
  check (decide ((← collect ((← intoIter (i)))) = [n 1]))
  check (!(i).contains (n 0))
  check ((i).contains (n 1))
  check (!(i).contains (n 2))
  check (!(i).contains (n 3))
  check (!(i).contains (n 4))
  check (!(i).contains (n 5))
  check (!(i).isEmpty)
  let s2 ← union ((Any.range ⟨n 3, n 4⟩)) (Any.range ⟨n 5, n 6⟩)
  check (((← inter (r) (s2))).isEmpty)) := by decide +kernel

/-- `lower_bounded_set`, /repo/src/test/intersection/range_to_inclusive.rs:165-180. -/
example : passes (do
  let r : Any I32 := Any.rangeToInclusive ⟨n 2⟩
  let s ← union ((Any.range ⟨n 0, n 1⟩)) (Any.rangeFrom ⟨n 2⟩)
  let i ← inter (r) (s)
  check (decide ((← collect ((← intoIter (i)))) = [n 0, n 2]))
  check ((i).contains (n 0))
  check (!(i).contains (n 1))
  check ((i).contains (n 2))
  check (!(i).contains (n 3))
  check (!(i).contains (n 4))
  check (!(i).contains (n 5))
  check (!(i).isEmpty)
  let s2 ← toSet' ((Any.rangeFrom ⟨n 5⟩))
  check (((← inter (r) (s2))).isEmpty)) := by decide +kernel

/-- `upper_bounded_set`, /repo/src/test/intersection/range_to_inclusive.rs:182-194. -/
example : passes (do
  let r : Any I32 := Any.rangeToInclusive ⟨n 2⟩
  let s ← union ((Any.rangeTo ⟨n 2⟩)) (Any.range ⟨n 3, n 4⟩)
  let i ← inter (r) (s)
  check ((i).contains (n 0))
  check ((i).contains (n 1))
  check (!(i).contains (n 2))
  check (!(i).contains (n 3))
  check (!(i).contains (n 4))
  check (!(i).contains (n 5))
  check (!(i).isEmpty)) := by decide +kernel

/-- `unbounded_set`, /repo/src/test/intersection/range_to_inclusive.rs:196-208. -/
example : passes (do
  let r : Any I32 := Any.rangeToInclusive ⟨n 2⟩
  let s ← union ((Any.rangeTo ⟨n 1⟩)) (Any.rangeFrom ⟨n 2⟩)
  let i ← inter (r) (s)
  check ((i).contains (n 0))
  check (!(i).contains (n 1))
  check ((i).contains (n 2))
  check (!(i).contains (n 3))
  check (!(i).contains (n 4))
  check (!(i).contains (n 5))
  check (!(i).isEmpty)) := by decide +kernel

/-- `range`, /repo/src/test/intersection/unbounded_range.rs:3-15. -/
example : passes (do
  let r ← inter ((Any.rangeFull)) (Any.rangeFull)
  let i ← inter (r) (Any.range ⟨n 1, n 3⟩)
  check (decide ((← collect ((← intoIter (i)))) = [n 1, n 2]))
  check (!(i).contains (n 0))
  check ((i).contains (n 1))
  check ((i).contains (n 2))
  check (!(i).contains (n 3))
  check (!(i).contains (n 4))
  check (!(i).isEmpty)
  check (((← inter (r) (Any.range ⟨n 1, n 1⟩))).isEmpty)) := by decide +kernel

/-- `range_from`, /repo/src/test/intersection/unbounded_range.rs:17-27. -/
example : passes (do
  let r ← inter ((Any.rangeFull)) (Any.rangeFull)
  let i ← inter (r) (Any.rangeFrom ⟨n 3⟩)
  check (!(i).contains (n 0))
  check (!(i).contains (n 1))
  check (!(i).contains (n 2))
  check ((i).contains (n 3))
  check ((i).contains (n 4))
  check (!(i).isEmpty)) := by decide +kernel

/-- `range_full`, /repo/src/test/intersection/unbounded_range.rs:29-37. -/
example : passes (do
  let r ← inter ((Any.rangeFull)) (Any.rangeFull)
  let i ← inter (r) (Any.rangeFull)
  check ((i).contains (n 0))
  check ((i).contains (n 100))
  check ((i).contains (n 1000))
  check (!(i).isEmpty)) := by decide +kernel

/-- `range_inclusive`, /repo/src/test/intersection/unbounded_range.rs:39-51. -/
example : passes (do
  let r ← inter ((Any.rangeFull)) (Any.rangeFull)
  let i ← inter (r) (Any.rangeInclusive ⟨n 1, n 3, false⟩)
  check (decide ((← collect ((← intoIter (i)))) = [n 1, n 2, n 3]))
  check (!(i).contains (n 0))
  check ((i).contains (n 1))
  check ((i).contains (n 2))
  check ((i).contains (n 3))
  check (!(i).contains (n 4))
  check (!(i).isEmpty)
  check (((← inter (r) (Any.rangeInclusive ⟨n 1, n 0, false⟩))).isEmpty)) := by decide +kernel

/-- `range_to`, /repo/src/test/intersection/unbounded_range.rs:53-63. -/
example : passes (do
  let r ← inter ((Any.rangeFull)) (Any.rangeFull)
  let i ← inter (r) (Any.rangeTo ⟨n 3⟩)
  check ((i).contains (n 0))
  check ((i).contains (n 1))
  check ((i).contains (n 2))
  check (!(i).contains (n 3))
  check (!(i).contains (n 4))
  check (!(i).isEmpty)) := by decide +kernel

/-- `range_to_inclusive`, /repo/src/test/intersection/unbounded_range.rs:65-75. -/
example : passes (do
  let r ← inter ((Any.rangeFull)) (Any.rangeFull)
  let i ← inter (r) (Any.rangeToInclusive ⟨n 3⟩)
  check ((i).contains (n 0))
  check ((i).contains (n 1))
  check ((i).contains (n 2))
  check ((i).contains (n 3))
  check (!(i).contains (n 4))
  check (!(i).isEmpty)) := by decide +kernel

/-- `bounded_range`, /repo/src/test/intersection/unbounded_range.rs:77-91. -/
example : passes (do
  let r1 ← inter ((Any.rangeFull)) (Any.rangeFull)
  let r2 ← inter ((Any.range ⟨n 1, n 3⟩)) (Any.rangeFull)
  let i ← inter (r1) (r2)
  check (decide ((← collect ((← intoIter (i)))) = [n 1, n 2]))
  check (!(i).contains (n 0))
  check ((i).contains (n 1))
  check ((i).contains (n 2))
  check (!(i).contains (n 3))
  check (!(i).contains (n 4))
  check (!(i).isEmpty)
  let r3 ← inter ((Any.range ⟨n 1, n 3⟩)) (Any.range ⟨n 5, n 10⟩)
  check (((← inter (r1) (r3))).isEmpty)) := by decide +kernel

/-- `lower_bounded_range`, /repo/src/test/intersection/unbounded_range.rs:93-105. -/
example : passes (do
  let r1 ← inter ((Any.rangeFull)) (Any.rangeFull)
  let r2 ← inter ((Any.rangeFrom ⟨n 3⟩)) (Any.rangeFull)
  let i ← inter (r1) (r2)
  check (decide ((← collectTake 3 ((← intoIter (i)))) = [n 3, n 4, n 5]))
  check (!(i).contains (n 0))
  check (!(i).contains (n 1))
  check (!(i).contains (n 2))
  check ((i).contains (n 3))
  check ((i).contains (n 4))
  check (!(i).isEmpty)) := by decide +kernel

/-- `upper_bounded_range`, /repo/src/test/intersection/unbounded_range.rs:106-117. -/
example : passes (do
  let r1 ← inter ((Any.rangeFull)) (Any.rangeFull)
  let r2 ← inter ((Any.rangeTo ⟨n 3⟩)) (Any.rangeFull)
  let i ← inter (r1) (r2)
  check ((i).contains (n 0))
  check ((i).contains (n 1))
  check ((i).contains (n 2))
  check (!(i).contains (n 3))
  check (!(i).contains (n 4))
  check (!(i).isEmpty)) := by decide +kernel

/-- `unbounded_range`, /repo/src/test/intersection/unbounded_range.rs:118-129. -/
example : passes (do
  let r1 ← inter ((Any.rangeFull)) (Any.rangeFull)
  let r2 ← inter ((Any.rangeFull)) (Any.rangeFull)
  let i ← inter (r1) (r2)
  check ((i).contains (n 0))
  check ((i).contains (n 1))
  check ((i).contains (n 2))
  check ((i).contains (n 3))
  check ((i).contains (n 4))
  check (!(i).isEmpty)) := by decide +kernel

/-- `empty_range`, /repo/src/test/intersection/unbounded_range.rs:131-138. -/
example : passes (do
  let r1 ← inter ((Any.rangeFull)) (Any.rangeFull)
  let r2 : Any I32 := Any.inner .er
  let i ← inter (r1) (r2)
  check ((i).isEmpty)
  check (decide ((← collect ((← intoIter (i)))) = []))) := by decide +kernel

/-- `bounded_set`, /repo/src/test/intersection/unbounded_range.rs:140-158. -/
example : passes (do
  let r ← toInner' ((Any.rangeFull))
  let s ← union ((Any.range ⟨n 1, n 3⟩)) (Any.range ⟨n 4, n 6⟩)
  let i ← inter (r) (s)
  check (decide ((← collect ((← intoIter (i)))) = [n 1, n 2, n 4, n 5]))
  check (!(i).contains (n 0))
  check ((i).contains (n 1))
  check ((i).contains (n 2))
  check (!(i).contains (n 3))
  check ((i).contains (n 4))
  check ((i).contains (n 5))
  check (!(i).contains (n 6))
  check (!(i).contains (n 7))
  check (!(i).contains (n 8))
  check (!(i).isEmpty)
  let empty_set ← union ((Any.range ⟨n 1, n 1⟩)) (Any.range ⟨n 2, n 2⟩)
  check (((← inter (r) (empty_set))).isEmpty)) := by decide +kernel

/-- `lower_bounded_set`, /repo/src/test/intersection/unbounded_range.rs:160-175. -/
example : passes (do
  let r ← toInner' ((Any.rangeFull))
  let s ← union ((Any.rangeFrom ⟨n 3⟩)) (Any.range ⟨n 0, n 2⟩)
  let i ← inter (r) (s)
  check (decide ((← collectTake 3 ((← intoIter (i)))) = [n 0, n 1, n 3]))
  check ((i).contains (n 0))
  check ((i).contains (n 1))
  check (!(i).contains (n 2))
  check ((i).contains (n 3))
  check ((i).contains (n 4))
  check (!(i).isEmpty)) := by decide +kernel

/-- `upper_bounded_set`, /repo/src/test/intersection/unbounded_range.rs:177-189. -/
example : passes (do
  let r ← toInner' ((Any.rangeFull))
  let s ← union ((Any.rangeTo ⟨n 3⟩)) (Any.range ⟨n 4, n 5⟩)
  let i ← inter (r) (s)
  check ((i).contains (n 0))
  check ((i).contains (n 1))
  check ((i).contains (n 2))
  check (!(i).contains (n 3))
  check ((i).contains (n 4))
  check (!(i).contains (n 5))
  check (!(i).isEmpty)) := by decide +kernel

/-- `unbounded_set`, /repo/src/test/intersection/unbounded_range.rs:191-203. -/
example : passes (do
  let r ← toInner' ((Any.rangeFull))
  let s ← union ((← union ((Any.range ⟨n 2, n 3⟩)) (Any.rangeTo ⟨n 1⟩))) (Any.rangeFrom ⟨n 4⟩)
  let i ← inter (r) (s)
  check ((i).contains (n 0))
  check (!(i).contains (n 1))
  check ((i).contains (n 2))
  check (!(i).contains (n 3))
  check ((i).contains (n 4))
  check ((i).contains (n 5))
  check (!(i).isEmpty)) := by decide +kernel

/-- `range`, /repo/src/test/intersection/unbounded_set.rs:3-18. -/
example : passes (do
  let s ← union ((← union ((Any.rangeTo ⟨n 2⟩)) (Any.range ⟨n 3, n 4⟩))) (Any.rangeFrom ⟨n 5⟩)
  let i ← inter (s) (Any.range ⟨n 1, n 6⟩)
  check (decide ((← collect ((← intoIter (i)))) = [n 1, n 3, n 5]))
  check (!(i).contains (n 0))
  check ((i).contains (n 1))
  check (!(i).contains (n 2))
  check ((i).contains (n 3))
  check (!(i).contains (n 4))
  check ((i).contains (n 5))
  check (!(i).contains (n 6))
  check (!(i).contains (n 7))
  check (!(i).isEmpty)
  check (((← inter (s) (Any.range ⟨n 2, n 3⟩))).isEmpty)) := by decide +kernel

/-- `range_from`, /repo/src/test/intersection/unbounded_set.rs:20-37. -/
example : passes (do
  let s ← union ((← union ((Any.rangeTo ⟨n 2⟩)) (Any.range ⟨n 3, n 4⟩))) (Any.rangeFrom ⟨n 5⟩)
  let i ← inter (s) (Any.rangeFrom ⟨n 3⟩)
  check (decide ((← collectTake 3 ((← intoIter (i)))) = [n 3, n 5, n 6]))
  check (!(i).contains (n 0))
  check (!(i).contains (n 1))
  check (!(i).contains (n 2))
  check ((i).contains (n 3))
  check (!(i).contains (n 4))
  check ((i).contains (n 5))
  check ((i).contains (n 6))
  check ((i).contains (n 7))
  check (!(i).isEmpty)) := by decide +kernel

/-- `range_full`, /repo/src/test/intersection/unbounded_set.rs:39-52. -/
example : passes (do
  let s ← union ((← union ((Any.rangeTo ⟨n 2⟩)) (Any.range ⟨n 3, n 4⟩))) (Any.rangeFrom ⟨n 5⟩)
  let i ← inter (s) (Any.rangeFull)
  check ((i).contains (n 0))
  check ((i).contains (n 1))
  check (!(i).contains (n 2))
  check ((i).contains (n 3))
  check (!(i).contains (n 4))
  check ((i).contains (n 5))
  check ((i).contains (n 6))
  check ((i).contains (n 7))
  check (!(i).isEmpty)) := by decide +kernel

/-- `range_inclusive`, /repo/src/test/intersection/unbounded_set.rs:54-69. -/
example : passes (do
  let s ← union ((← union ((Any.rangeTo ⟨n 2⟩)) (Any.range ⟨n 3, n 4⟩))) (Any.rangeFrom ⟨n 5⟩)
  let i ← inter (s) (Any.rangeInclusive ⟨n 1, n 6, false⟩)
  check (decide ((← collect ((← intoIter (i)))) = [n 1, n 3, n 5, n 6]))
  check (!(i).contains (n 0))
  check ((i).contains (n 1))
  check (!(i).contains (n 2))
  check ((i).contains (n 3))
  check (!(i).contains (n 4))
  check ((i).contains (n 5))
  check ((i).contains (n 6))
  check (!(i).contains (n 7))
  check (!(i).isEmpty)
  check (((← inter (s) (Any.rangeInclusive ⟨n 2, n 2, false⟩))).isEmpty)) := by decide +kernel

/-- `range_to`, /repo/src/test/intersection/unbounded_set.rs:71-84. -/
example : passes (do
  let s ← union ((← union ((Any.rangeTo ⟨n 2⟩)) (Any.range ⟨n 3, n 4⟩))) (Any.rangeFrom ⟨n 5⟩)
  let i ← inter (s) (Any.rangeTo ⟨n 6⟩)
  check ((i).contains (n 0))
  check ((i).contains (n 1))
  check (!(i).contains (n 2))
  check ((i).contains (n 3))
  check (!(i).contains (n 4))
  check ((i).contains (n 5))
  check (!(i).contains (n 6))
  check (!(i).contains (n 7))
  check (!(i).isEmpty)) := by decide +kernel

/-- `range_to_inclusive`, /repo/src/test/intersection/unbounded_set.rs:86-99. -/
example : passes (do
  let s ← union ((← union ((Any.rangeTo ⟨n 2⟩)) (Any.range ⟨n 3, n 4⟩))) (Any.rangeFrom ⟨n 5⟩)
  let i ← inter (s) (Any.rangeToInclusive ⟨n 5⟩)
  check ((i).contains (n 0))
  check ((i).contains (n 1))
  check (!(i).contains (n 2))
  check ((i).contains (n 3))
  check (!(i).contains (n 4))
  check ((i).contains (n 5))
  check (!(i).contains (n 6))
  check (!(i).contains (n 7))
  check (!(i).isEmpty)) := by decide +kernel

/-- `bounded_range`, /repo/src/test/intersection/unbounded_set.rs:101-118. -/
example : passes (do
  let s ← union ((← union ((Any.rangeTo ⟨n 2⟩)) (Any.range ⟨n 3, n 4⟩))) (Any.rangeFrom ⟨n 5⟩)
  let r ← inter ((Any.rangeInclusive ⟨n 1, n 3, false⟩)) (Any.range ⟨n 2, n 5⟩)
  let i ← inter (s) (r)
  check (decide ((← collect ((← intoIter (i)))) = [n 3]))
  check (!(i).contains (n 0))
  check (!(i).contains (n 1))
  check (!(i).contains (n 2))
  check ((i).contains (n 3))
  check (!(i).contains (n 4))
  check (!(i).contains (n 5))
  check (!(i).contains (n 6))
  check (!(i).contains (n 7))
  check (!(i).isEmpty)
  let r ← inter ((Any.range ⟨n 2, n 3⟩)) (Any.rangeFull)
  check (((← inter (s) (r))).isEmpty)) := by decide +kernel

/-- `lower_bounded_range`, /repo/src/test/intersection/unbounded_set.rs:120-138. -/
example : passes (do
  let s ← union ((← union ((Any.rangeTo ⟨n 2⟩)) (Any.range ⟨n 3, n 4⟩))) (Any.rangeFrom ⟨n 5⟩)
  let r ← toInner' ((Any.rangeFrom ⟨n 3⟩))
  let i ← inter (s) (r)
  check (decide ((← collectTake 3 ((← intoIter (i)))) = [n 3, n 5, n 6]))
  check (!(i).contains (n 0))
  check (!(i).contains (n 1))
  check (!(i).contains (n 2))
  check ((i).contains (n 3))
  check (!(i).contains (n 4))
  check ((i).contains (n 5))
  check ((i).contains (n 6))
  check ((i).contains (n 7))
  check (!(i).isEmpty)) := by decide +kernel

/-- `upper_bounded_range`, /repo/src/test/intersection/unbounded_set.rs:140-154. -/
example : passes (do
  let s ← union ((← union ((Any.rangeTo ⟨n 2⟩)) (Any.range ⟨n 3, n 4⟩))) (Any.rangeFrom ⟨n 5⟩)
  let r ← toInner' ((Any.rangeTo ⟨n 6⟩))
  let i ← inter (s) (r)
  check ((i).contains (n 0))
  check ((i).contains (n 1))
  check (!(i).contains (n 2))
  check ((i).contains (n 3))
  check (!(i).contains (n 4))
  check ((i).contains (n 5))
  check (!(i).contains (n 6))
  check (!(i).contains (n 7))
  check (!(i).isEmpty)) := by decide +kernel

/-- `unbounded_range`, /repo/src/test/intersection/unbounded_set.rs:156-170. -/
example : passes (do
  let s ← union ((← union ((Any.rangeTo ⟨n 2⟩)) (Any.range ⟨n 3, n 4⟩))) (Any.rangeFrom ⟨n 5⟩)
  let r ← toInner' ((Any.rangeFull))
  let i ← inter (s) (r)
  check ((i).contains (n 0))
  check ((i).contains (n 1))
  check (!(i).contains (n 2))
  check ((i).contains (n 3))
  check (!(i).contains (n 4))
  check ((i).contains (n 5))
  check ((i).contains (n 6))
  check ((i).contains (n 7))
  check (!(i).isEmpty)) := by decide +kernel

/-- `empty_range`, /repo/src/test/intersection/unbounded_set.rs:172-179. -/
example : passes (do
  let s ← union ((← union ((Any.rangeTo ⟨n 2⟩)) (Any.range ⟨n 3, n 4⟩))) (Any.rangeFrom ⟨n 5⟩)
  let r : Any I32 := Any.inner .er
  let i ← inter (s) (r)
  check ((i).isEmpty)
  check (decide ((← collect ((← intoIter (i)))) = []))) := by decide +kernel

/-- `bounded_set`, /repo/src/test/intersection/unbounded_set.rs:181-198. -/
example : passes (do
  let s1 ← union ((← union ((Any.rangeTo ⟨n 2⟩)) (Any.range ⟨n 3, n 4⟩))) (Any.rangeFrom ⟨n 5⟩)
  let s2 ← union ((Any.range ⟨n 1, n 3⟩)) (Any.rangeInclusive ⟨n 4, n 5, false⟩)
  let i ← inter (s1) (s2)
  check (decide ((← collect ((← intoIter (i)))) = [n 1, n 5]))
  check (!(i).contains (n 0))
  check ((i).contains (n 1))
  check (!(i).contains (n 2))
  check (!(i).contains (n 3))
  check (!(i).contains (n 4))
  check ((i).contains (n 5))
  check (!(i).contains (n 6))
  check (!(i).contains (n 7))
  check (!(i).isEmpty)
  let s2 ← union ((Any.range ⟨n 2, n 3⟩)) (Any.range ⟨n 4, n 5⟩)
  check (((← inter (s1) (s2))).isEmpty)) := by decide +kernel

/-- `lower_bounded_set`, /repo/src/test/intersection/unbounded_set.rs:200-218. -/
example : passes (do
  let s ← union ((← union ((Any.rangeTo ⟨n 2⟩)) (Any.range ⟨n 3, n 4⟩))) (Any.rangeFrom ⟨n 5⟩)
  let s2 ← union ((Any.rangeFrom ⟨n 3⟩)) (Any.range ⟨n 5, n 6⟩)
  let i ← inter (s) (s2)
  check (decide ((← collectTake 3 ((← intoIter (i)))) = [n 3, n 5, n 6]))
  check (!(i).contains (n 0))
  check (!(i).contains (n 1))
  check (!(i).contains (n 2))
  check ((i).contains (n 3))
  check (!(i).contains (n 4))
  check ((i).contains (n 5))
  check ((i).contains (n 6))
  check ((i).contains (n 7))
  check (!(i).isEmpty)) := by decide +kernel

/-- `upper_bounded_set`, /repo/src/test/intersection/unbounded_set.rs:220-234. -/
example : passes (do
  let s ← union ((← union ((Any.rangeTo ⟨n 2⟩)) (Any.range ⟨n 3, n 4⟩))) (Any.rangeFrom ⟨n 5⟩)
  let s2 ← union ((Any.rangeTo ⟨n 6⟩)) (Any.range ⟨n 7, n 8⟩)
  let i ← inter (s) (s2)
  check ((i).contains (n 0))
  check ((i).contains (n 1))
  check (!(i).contains (n 2))
  check ((i).contains (n 3))
  check (!(i).contains (n 4))
  check ((i).contains (n 5))
  check (!(i).contains (n 6))
  check ((i).contains (n 7))
  check (!(i).isEmpty)) := by decide +kernel

/-- `unbounded_set`, /repo/src/test/intersection/unbounded_set.rs:236-250. -/
example : passes (do
  let s ← union ((← union ((Any.rangeTo ⟨n 2⟩)) (Any.range ⟨n 3, n 4⟩))) (Any.rangeFrom ⟨n 5⟩)
  let s2 ← union ((Any.rangeTo ⟨n 4⟩)) (Any.rangeFrom ⟨n 7⟩)
  let i ← inter (s) (s2)
  check ((i).contains (n 0))
  check ((i).contains (n 1))
  check (!(i).contains (n 2))
  check ((i).contains (n 3))
  check (!(i).contains (n 4))
  check (!(i).contains (n 5))
  check (!(i).contains (n 6))
  check ((i).contains (n 7))
  check (!(i).isEmpty)) := by decide +kernel

/-- `range`, /repo/src/test/intersection/upper_bounded_range.rs:3-16. -/
example : passes (do
  let r ← inter ((Any.rangeTo ⟨n 3⟩)) (Any.rangeFull)
  let i ← inter (r) (Any.range ⟨n 2, n 4⟩)
  check (decide ((← collect ((← intoIter (i)))) = [n 2]))
  check (!(i).contains (n 0))
  check (!(i).contains (n 1))
  check ((i).contains (n 2))
  check (!(i).contains (n 3))
  check (!(i).contains (n 4))
  check (!(i).contains (n 5))
  check (!(i).isEmpty)
  check (((← inter (r) (Any.range ⟨n 5, n 10⟩))).isEmpty)) := by decide +kernel

/-- `range_from`, /repo/src/test/intersection/upper_bounded_range.rs:18-31. -/
example : passes (do
  let r ← inter ((Any.rangeTo ⟨n 3⟩)) (Any.rangeFull)
  let i ← inter (r) (Any.rangeFrom ⟨n 2⟩)
  check (decide ((← collect ((← intoIter (i)))) = [n 2]))
  check (!(i).contains (n 0))
  check (!(i).contains (n 1))
  check ((i).contains (n 2))
  check (!(i).contains (n 3))
  check (!(i).contains (n 4))
  check (!(i).contains (n 5))
  check (!(i).isEmpty)
  check (((← inter (r) (Any.rangeFrom ⟨n 5⟩))).isEmpty)) := by decide +kernel

/-- `range_full`, /repo/src/test/intersection/upper_bounded_range.rs:33-44. -/
example : passes (do
  let r ← inter ((Any.rangeTo ⟨n 3⟩)) (Any.rangeFull)
  let i ← inter (r) (Any.rangeFull)
  check ((i).contains (n 0))
  check ((i).contains (n 1))
  check ((i).contains (n 2))
  check (!(i).contains (n 3))
  check (!(i).contains (n 4))
  check (!(i).contains (n 5))
  check (!(i).isEmpty)) := by decide +kernel

/-- `range_inclusive`, /repo/src/test/intersection/upper_bounded_range.rs:46-59. -/
example : passes (do
  let r ← inter ((Any.rangeTo ⟨n 3⟩)) (Any.rangeFull)
  let i ← inter (r) (Any.rangeInclusive ⟨n 2, n 4, false⟩)
  check (decide ((← collect ((← intoIter (i)))) = [n 2]))
  check (!(i).contains (n 0))
  check (!(i).contains (n 1))
  check ((i).contains (n 2))
  check (!(i).contains (n 3))
  check (!(i).contains (n 4))
  check (!(i).contains (n 5))
  check (!(i).isEmpty)
  check (((← inter (r) (Any.rangeInclusive ⟨n 5, n 10, false⟩))).isEmpty)) := by decide +kernel

/-- `range_to`, /repo/src/test/intersection/upper_bounded_range.rs:61-72. -/
example : passes (do
  let r ← inter ((Any.rangeTo ⟨n 3⟩)) (Any.rangeFull)
  let i ← inter (r) (Any.rangeTo ⟨n 2⟩)
  check ((i).contains (n 0))
  check ((i).contains (n 1))
  check (!(i).contains (n 2))
  check (!(i).contains (n 3))
  check (!(i).contains (n 4))
  check (!(i).contains (n 5))
  check (!(i).isEmpty)) := by decide +kernel

/-- `range_to_inclusive`, /repo/src/test/intersection/upper_bounded_range.rs:74-85. -/
example : passes (do
  let r ← inter ((Any.rangeTo ⟨n 3⟩)) (Any.rangeFull)
  let i ← inter (r) (Any.rangeToInclusive ⟨n 2⟩)
  check ((i).contains (n 0))
  check ((i).contains (n 1))
  check ((i).contains (n 2))
  check (!(i).contains (n 3))
  check (!(i).contains (n 4))
  check (!(i).contains (n 5))
  check (!(i).isEmpty)) := by decide +kernel

/-- `bounded_range`, /repo/src/test/intersection/upper_bounded_range.rs:87-102. -/
example : passes (do
  let r1 ← inter ((Any.rangeTo ⟨n 3⟩)) (Any.rangeFull)
  let r2 ← inter ((Any.range ⟨n 2, n 4⟩)) (Any.rangeFull)
  let i ← inter (r1) (r2)
  check (decide ((← collect ((← intoIter (i)))) = [n 2]))
  check (!(i).contains (n 0))
  check (!(i).contains (n 1))
  check ((i).contains (n 2))
  check (!(i).contains (n 3))
  check (!(i).contains (n 4))
  check (!(i).contains (n 5))
  check (!(i).isEmpty)
  let r3 ← inter ((Any.range ⟨n 5, n 10⟩)) (Any.rangeFull)
  check (((← inter (r1) (r3))).isEmpty)) := by decide +kernel

/-- `lower_bounded_range`, /repo/src/test/intersection/upper_bounded_range.rs:104-119. -/
example : passes (do
  let r1 ← inter ((Any.rangeTo ⟨n 3⟩)) (Any.rangeFull)
  let r2 ← inter ((Any.rangeFrom ⟨n 2⟩)) (Any.rangeFull)
  let i ← inter (r1) (r2)
  check (decide ((← collect ((← intoIter (i)))) = [n 2]))
  check (!(i).contains (n 0))
  check (!(i).contains (n 1))
  check ((i).contains (n 2))
  check (!(i).contains (n 3))
  check (!(i).contains (n 4))
  check (!(i).contains (n 5))
  check (!(i).isEmpty)
  let r3 ← inter ((Any.rangeFrom ⟨n 5⟩)) (Any.rangeFull)
  check (((← inter (r1) (r3))).isEmpty)) := by decide +kernel

/-- `upper_bounded_range`, /repo/src/test/intersection/upper_bounded_range.rs:121-133. -/
example : passes (do
  let r1 ← inter ((Any.rangeTo ⟨n 3⟩)) (Any.rangeFull)
  let r2 ← inter ((Any.rangeTo ⟨n 2⟩)) (Any.rangeFull)
  let i ← inter (r1) (r2)
  check ((i).contains (n 0))
  check ((i).contains (n 1))
  check (!(i).contains (n 2))
  check (!(i).contains (n 3))
  check (!(i).contains (n 4))
  check (!(i).contains (n 5))
  check (!(i).isEmpty)) := by decide +kernel

/-- `unbounded_range`, /repo/src/test/intersection/upper_bounded_range.rs:135-147. -/
example : passes (do
  let r1 ← inter ((Any.rangeTo ⟨n 3⟩)) (Any.rangeFull)
  let r2 ← inter ((Any.rangeFull)) (Any.rangeFull)
  let i ← inter (r1) (r2)
  check ((i).contains (n 0))
  check ((i).contains (n 1))
  check ((i).contains (n 2))
  check (!(i).contains (n 3))
  check (!(i).contains (n 4))
  check (!(i).contains (n 5))
  check (!(i).isEmpty)) := by decide +kernel

/-- `empty_range`, /repo/src/test/intersection/upper_bounded_range.rs:149-156. -/
example : passes (do
  let r1 ← inter ((Any.rangeTo ⟨n 3⟩)) (Any.rangeFull)
  let r2 : Any I32 := Any.inner .er
  let i ← inter (r1) (r2)
  check ((i).isEmpty)
  check (decide ((← collect ((← intoIter (i)))) = []))) := by decide +kernel

/-- `bounded_set`, /repo/src/test/intersection/upper_bounded_range.rs:158-173. -/
example : passes (do
  let r ← toInner' ((Any.rangeTo ⟨n 3⟩))
  let s ← union ((Any.range ⟨n 1, n 2⟩)) (Any.range ⟨n 3, n 4⟩)
  let i ← inter (r) (s)
  check (decide ((← collect ((← intoIter (i)))) = [n 1]))
  check (!(i).contains (n 0))
  check ((i).contains (n 1))
  check (!(i).contains (n 2))
  check (!(i).contains (n 3))
  check (!(i).contains (n 4))
  check (!(i).contains (n 5))
  check (!(i).isEmpty)
  let s2 ← union ((Any.range ⟨n 3, n 4⟩)) (Any.range ⟨n 5, n 6⟩)
  check (((← inter (r) (s2))).isEmpty)) := by decide +kernel

/-- `lower_bounded_set`, /repo/src/test/intersection/upper_bounded_range.rs:175-190. -/
example : passes (do
  let r ← toInner' ((Any.rangeTo ⟨n 3⟩))
  let s ← union ((Any.range ⟨n 0, n 1⟩)) (Any.rangeFrom ⟨n 2⟩)
  let i ← inter (r) (s)
  check (decide ((← collect ((← intoIter (i)))) = [n 0, n 2]))
  check ((i).contains (n 0))
  check (!(i).contains (n 1))
  check ((i).contains (n 2))
  check (!(i).contains (n 3))
  check (!(i).contains (n 4))
  check (!(i).contains (n 5))
  check (!(i).isEmpty)
  let s2 ← toSet' ((Any.rangeFrom ⟨n 5⟩))
  check (((← inter (r) (s2))).isEmpty)) := by decide +kernel

/-- `upper_bounded_set`, /repo/src/test/intersection/upper_bounded_range.rs:192-204. -/
example : passes (do
  let r ← toInner' ((Any.rangeTo ⟨n 3⟩))
  let s ← union ((Any.rangeTo ⟨n 2⟩)) (Any.range ⟨n 3, n 4⟩)
  let i ← inter (r) (s)
  check ((i).contains (n 0))
  check ((i).contains (n 1))
  check (!(i).contains (n 2))
  check (!(i).contains (n 3))
  check (!(i).contains (n 4))
  check (!(i).contains (n 5))
  check (!(i).isEmpty)) := by decide +kernel

/-- `unbounded_set`, /repo/src/test/intersection/upper_bounded_range.rs:206-218. -/
example : passes (do
  let r ← toInner' ((Any.rangeTo ⟨n 3⟩))
  let s ← union ((Any.rangeTo ⟨n 1⟩)) (Any.rangeFrom ⟨n 2⟩)
  let i ← inter (r) (s)
  check ((i).contains (n 0))
  check (!(i).contains (n 1))
  check ((i).contains (n 2))
  check (!(i).contains (n 3))
  check (!(i).contains (n 4))
  check (!(i).contains (n 5))
  check (!(i).isEmpty)) := by decide +kernel

/-- `range`, /repo/src/test/intersection/upper_bounded_set.rs:3-19. -/
example : passes (do
  let s ← union ((Any.rangeTo ⟨n 3⟩)) (Any.range ⟨n 5, n 7⟩)
  let i ← inter (s) (Any.range ⟨n 2, n 6⟩)
  check (decide ((← collect ((← intoIter (i)))) = [n 2, n 5]))
  check (!(i).contains (n 0))
  check (!(i).contains (n 1))
  check ((i).contains (n 2))
  check (!(i).contains (n 3))
  check (!(i).contains (n 4))
  check ((i).contains (n 5))
  check (!(i).contains (n 6))
  check (!(i).contains (n 7))
  check (!(i).contains (n 8))
  check (!(i).isEmpty)
  check (((← inter (s) (Any.range ⟨n 10, n 20⟩))).isEmpty)) := by decide +kernel

/-- `range_from`, /repo/src/test/intersection/upper_bounded_set.rs:21-37. -/
example : passes (do
  let s ← union ((Any.rangeTo ⟨n 3⟩)) (Any.range ⟨n 5, n 7⟩)
  let i ← inter (s) (Any.rangeFrom ⟨n 2⟩)
  check (decide ((← collect ((← intoIter (i)))) = [n 2, n 5, n 6]))
  check (!(i).contains (n 0))
  check (!(i).contains (n 1))
  check ((i).contains (n 2))
  check (!(i).contains (n 3))
  check (!(i).contains (n 4))
  check ((i).contains (n 5))
  check ((i).contains (n 6))
  check (!(i).contains (n 7))
  check (!(i).contains (n 8))
  check (!(i).isEmpty)
  check (((← inter (s) (Any.rangeFrom ⟨n 10⟩))).isEmpty)) := by decide +kernel

/-- `range_full`, /repo/src/test/intersection/upper_bounded_set.rs:39-53. -/
example : passes (do
  let s ← union ((Any.rangeTo ⟨n 3⟩)) (Any.range ⟨n 5, n 7⟩)
  let i ← inter (s) (Any.rangeFull)
  check ((i).contains (n 0))
  check ((i).contains (n 1))
  check ((i).contains (n 2))
  check (!(i).contains (n 3))
  check (!(i).contains (n 4))
  check ((i).contains (n 5))
  check ((i).contains (n 6))
  check (!(i).contains (n 7))
  check (!(i).contains (n 8))
  check (!(i).isEmpty)) := by decide +kernel

/-- `range_inclusive`, /repo/src/test/intersection/upper_bounded_set.rs:55-71. -/
example : passes (do
  let s ← union ((Any.rangeTo ⟨n 3⟩)) (Any.range ⟨n 5, n 7⟩)
  let i ← inter (s) (Any.rangeInclusive ⟨n 2, n 6, false⟩)
  check (decide ((← collect ((← intoIter (i)))) = [n 2, n 5, n 6]))
  check (!(i).contains (n 0))
  check (!(i).contains (n 1))
  check ((i).contains (n 2))
  check (!(i).contains (n 3))
  check (!(i).contains (n 4))
  check ((i).contains (n 5))
  check ((i).contains (n 6))
  check (!(i).contains (n 7))
  check (!(i).contains (n 8))
  check (!(i).isEmpty)
  check (((← inter (s) (Any.rangeInclusive ⟨n 10, n 20, false⟩))).isEmpty)) := by decide +kernel

/-- `range_to`, /repo/src/test/intersection/upper_bounded_set.rs:73-87. -/
example : passes (do
  let s ← union ((Any.rangeTo ⟨n 3⟩)) (Any.range ⟨n 5, n 7⟩)
  let i ← inter (s) (Any.rangeTo ⟨n 6⟩)
  check ((i).contains (n 0))
  check ((i).contains (n 1))
  check ((i).contains (n 2))
  check (!(i).contains (n 3))
  check (!(i).contains (n 4))
  check ((i).contains (n 5))
  check (!(i).contains (n 6))
  check (!(i).contains (n 7))
  check (!(i).contains (n 8))
  check (!(i).isEmpty)) := by decide +kernel

/-- `range_to_inclusive`, /repo/src/test/intersection/upper_bounded_set.rs:89-103. -/
example : passes (do
  let s ← union ((Any.rangeTo ⟨n 3⟩)) (Any.range ⟨n 5, n 7⟩)
  let i ← inter (s) (Any.rangeToInclusive ⟨n 6⟩)
  check ((i).contains (n 0))
  check ((i).contains (n 1))
  check ((i).contains (n 2))
  check (!(i).contains (n 3))
  check (!(i).contains (n 4))
  check ((i).contains (n 5))
  check ((i).contains (n 6))
  check (!(i).contains (n 7))
  check (!(i).contains (n 8))
  check (!(i).isEmpty)) := by decide +kernel

/-- `bounded_range`, /repo/src/test/intersection/upper_bounded_set.rs:105-123. -/
example : passes (do
  let s ← union ((Any.rangeTo ⟨n 3⟩)) (Any.range ⟨n 5, n 7⟩)
  let r ← inter ((Any.rangeInclusive ⟨n 2, n 6, false⟩)) (Any.rangeFull)
  let i ← inter (s) (r)
  check (decide ((← collect ((← intoIter (i)))) = [n 2, n 5, n 6]))
  check (!(i).contains (n 0))
  check (!(i).contains (n 1))
  check ((i).contains (n 2))
  check (!(i).contains (n 3))
  check (!(i).contains (n 4))
  check ((i).contains (n 5))
  check ((i).contains (n 6))
  check (!(i).contains (n 7))
  check (!(i).contains (n 8))
  check (!(i).isEmpty)
  let r ← toInner' ((Any.range ⟨n 10, n 20⟩))
  check (((← inter (s) (r))).isEmpty)) := by decide +kernel

/-- `lower_bounded_range`, /repo/src/test/intersection/upper_bounded_set.rs:125-143. -/
example : passes (do
  let s ← union ((Any.rangeTo ⟨n 3⟩)) (Any.range ⟨n 5, n 7⟩)
  let r ← inter ((Any.rangeFrom ⟨n 2⟩)) (Any.rangeFull)
  let i ← inter (s) (r)
  check (decide ((← collect ((← intoIter (i)))) = [n 2, n 5, n 6]))
  check (!(i).contains (n 0))
  check (!(i).contains (n 1))
  check ((i).contains (n 2))
  check (!(i).contains (n 3))
  check (!(i).contains (n 4))
  check ((i).contains (n 5))
  check ((i).contains (n 6))
  check (!(i).contains (n 7))
  check (!(i).contains (n 8))
  check (!(i).isEmpty)
  let r ← inter ((Any.rangeFrom ⟨n 10⟩)) (Any.rangeFull)
  check (((← inter (s) (r))).isEmpty)) := by decide +kernel

/-- `upper_bounded_range`, /repo/src/test/intersection/upper_bounded_set.rs:145-160. -/
example : passes (do
  let s ← union ((Any.rangeTo ⟨n 3⟩)) (Any.range ⟨n 5, n 7⟩)
  let r ← inter ((Any.rangeTo ⟨n 6⟩)) (Any.rangeFull)
  let i ← inter (s) (r)
  check ((i).contains (n 0))
  check ((i).contains (n 1))
  check ((i).contains (n 2))
  check (!(i).contains (n 3))
  check (!(i).contains (n 4))
  check ((i).contains (n 5))
  check (!(i).contains (n 6))
  check (!(i).contains (n 7))
  check (!(i).contains (n 8))
  check (!(i).isEmpty)) := by decide +kernel

/-- `unbounded_range`, /repo/src/test/intersection/upper_bounded_set.rs:162-177. -/
example : passes (do
  let s ← union ((Any.rangeTo ⟨n 3⟩)) (Any.range ⟨n 5, n 7⟩)
  let r ← toInner' ((Any.rangeFull))
  let i ← inter (s) (r)
  check ((i).contains (n 0))
  check ((i).contains (n 1))
  check ((i).contains (n 2))
  check (!(i).contains (n 3))
  check (!(i).contains (n 4))
  check ((i).contains (n 5))
  check ((i).contains (n 6))
  check (!(i).contains (n 7))
  check (!(i).contains (n 8))
  check (!(i).isEmpty)) := by decide +kernel

/-- `empty_range`, /repo/src/test/intersection/upper_bounded_set.rs:179-186. -/
example : passes (do
  let s ← union ((Any.rangeTo ⟨n 3⟩)) (Any.range ⟨n 5, n 7⟩)
  let r : Any I32 := Any.inner .er
  let i ← inter (s) (r)
  check ((i).isEmpty)
  check (decide ((← collect ((← intoIter (i)))) = []))) := by decide +kernel

/-- `bounded_set`, /repo/src/test/intersection/upper_bounded_set.rs:188-206. -/
example : passes (do
  let s1 ← union ((Any.rangeTo ⟨n 3⟩)) (Any.range ⟨n 5, n 7⟩)
  let s2 ← union ((Any.range ⟨n 2, n 5⟩)) (Any.range ⟨n 6, n 9⟩)
  let i ← inter (s1) (s2)
  check (decide ((← collect ((← intoIter (i)))) = [n 2, n 6]))
  check (!(i).contains (n 0))
  check (!(i).contains (n 1))
  check ((i).contains (n 2))
  check (!(i).contains (n 3))
  check (!(i).contains (n 4))
  check (!(i).contains (n 5))
  check ((i).contains (n 6))
  check (!(i).contains (n 7))
  check (!(i).contains (n 8))
  check (!(i).isEmpty)
  let s2 ← union ((Any.range ⟨n 10, n 20⟩)) (Any.range ⟨n 30, n 40⟩)
  check (((← inter (s1) (s2))).isEmpty)) := by decide +kernel

/-- `lower_bounded_set`, /repo/src/test/intersection/upper_bounded_set.rs:208-226. -/
example : passes (do
  let s ← union ((Any.rangeTo ⟨n 3⟩)) (Any.range ⟨n 5, n 7⟩)
  let s2 ← union ((Any.range ⟨n 2, n 5⟩)) (Any.rangeFrom ⟨n 6⟩)
  let i ← inter (s) (s2)
  check (decide ((← collect ((← intoIter (i)))) = [n 2, n 6]))
  check (!(i).contains (n 0))
  check (!(i).contains (n 1))
  check ((i).contains (n 2))
  check (!(i).contains (n 3))
  check (!(i).contains (n 4))
  check (!(i).contains (n 5))
  check ((i).contains (n 6))
  check (!(i).contains (n 7))
  check (!(i).contains (n 8))
  check (!(i).isEmpty)
  let s2 ← union ((Any.rangeFrom ⟨n 10⟩)) (Any.range ⟨n 7, n 8⟩)
  check (((← inter (s) (s2))).isEmpty)) := by decide +kernel

/-- `upper_bounded_set`, /repo/src/test/intersection/upper_bounded_set.rs:228-243. -/
example : passes (do
  let s ← union ((Any.rangeTo ⟨n 3⟩)) (Any.range ⟨n 5, n 7⟩)
  let s2 ← union ((Any.rangeTo ⟨n 2⟩)) (Any.range ⟨n 4, n 6⟩)
  let i ← inter (s) (s2)
  check ((i).contains (n 0))
  check ((i).contains (n 1))
  check (!(i).contains (n 2))
  check (!(i).contains (n 3))
  check (!(i).contains (n 4))
  check ((i).contains (n 5))
  check (!(i).contains (n 6))
  check (!(i).contains (n 7))
  check (!(i).contains (n 8))
  check (!(i).isEmpty)) := by decide +kernel

/-- `unbounded_set`, /repo/src/test/intersection/upper_bounded_set.rs:245-260. -/
example : passes (do
  let s ← union ((Any.rangeTo ⟨n 3⟩)) (Any.range ⟨n 5, n 7⟩)
  let s2 ← union ((← union ((Any.rangeTo ⟨n 2⟩)) (Any.range ⟨n 4, n 6⟩))) (Any.rangeFrom ⟨n 8⟩)
  let i ← inter (s) (s2)
  check ((i).contains (n 0))
  check ((i).contains (n 1))
  check (!(i).contains (n 2))
  check (!(i).contains (n 3))
  check (!(i).contains (n 4))
  check ((i).contains (n 5))
  check (!(i).contains (n 6))
  check (!(i).contains (n 7))
  check (!(i).contains (n 8))
  check (!(i).isEmpty)) := by decide +kernel

end Rangetools.Tests
