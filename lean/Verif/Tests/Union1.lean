import Verif.Tests.Harness

/-!
# Upstream union tests (1)

Transcribed from the crate's own unit tests.  These are tests of the model, not proofs of a property.
-/

set_option linter.unusedVariables false

namespace Rangetools.Tests

/-- `range`, /repo/src/test/union/bounded_range.rs:3-20. -/
example : passes (do
  let r ← inter ((Any.range ⟨n 1, n 3⟩)) (Any.rangeFull)
  let u ← union (r) (Any.range ⟨n 5, n 7⟩)
  check (decide ((← collect ((← intoIter (u)))) = [n 1, n 2, n 5, n 6]))
  check (!(u).contains (n 0))
  check ((u).contains (n 1))
  check ((u).contains (n 2))
  check (!(u).contains (n 3))
  check (!(u).contains (n 4))
  check ((u).contains (n 5))
  check ((u).contains (n 6))
  check (!(u).contains (n 7))
  check (!(u).contains (n 8))
  check (!(u).isEmpty)
  let r2 ← inter ((Any.range ⟨n 1, n 1⟩)) (Any.rangeFull)
  check (((← union (r2) (Any.range ⟨n 1, n 1⟩))).isEmpty)) := by decide +kernel

/-- `range_from`, /repo/src/test/union/bounded_range.rs:22-38. -/
example : passes (do
  let r ← toInner' ((Any.range ⟨n 1, n 5⟩))
  let u ← union (r) (Any.rangeFrom ⟨n 2⟩)
  check (decide ((← collectTake 3 ((← intoIter (u)))) = [n 1, n 2, n 3]))
  check (!(u).contains (n 0))
  check ((u).contains (n 1))
  check ((u).contains (n 2))
  check ((u).contains (n 3))
  check ((u).contains (n 4))
  check ((u).contains (n 5))
  check ((u).contains (n 6))
  check (!(u).isEmpty)) := by decide +kernel

/-- `range_full`, /repo/src/test/union/bounded_range.rs:40-54. -/
example : passes (do
  let r ← inter ((Any.range ⟨n 1, n 3⟩)) (Any.range ⟨n 4, n 5⟩)
  let u ← union (r) (Any.rangeFull)
  check ((u).contains (n 0))
  check ((u).contains (n 1))
  check ((u).contains (n 2))
  check ((u).contains (n 3))
  check ((u).contains (n 4))
  check ((u).contains (n 5))
  check ((u).contains (n 6))
  check (!(u).isEmpty)
  let empty_range ← inter ((Any.range ⟨n 1, n 3⟩)) (Any.range ⟨n 4, n 5⟩)
  check (!((← union (empty_range) (Any.rangeFull))).isEmpty)) := by decide +kernel

/-- `range_inclusive`, /repo/src/test/union/bounded_range.rs:56-76. -/
example : passes (do
  let r ← inter ((Any.range ⟨n 1, n 3⟩)) (Any.rangeFull)
  let u ← union (r) (Any.rangeInclusive ⟨n 5, n 7, false⟩)
  check (decide ((← collect ((← intoIter (u)))) = [n 1, n 2, n 5, n 6, n 7]))
  check (!(u).contains (n 0))
  check ((u).contains (n 1))
  check ((u).contains (n 2))
  check (!(u).contains (n 3))
  check (!(u).contains (n 4))
  check ((u).contains (n 5))
  check ((u).contains (n 6))
  check ((u).contains (n 7))
  check (!(u).contains (n 8))
  check (!(u).isEmpty)
  let r2 ← inter ((Any.range ⟨n 1, n 1⟩)) (Any.rangeFull)
  check (((← union (r2) (Any.rangeInclusive ⟨n 1, n 0, false⟩))).isEmpty)) := by decide +kernel

/-- `range_to`, /repo/src/test/union/bounded_range.rs:78-92. -/
example : passes (do
  let r ← inter ((Any.range ⟨n 1, n 3⟩)) (Any.rangeFull)
  let u ← union (r) (Any.rangeTo ⟨n 2⟩)
  check ((u).contains (n 0))
  check ((u).contains (n 1))
  check ((u).contains (n 2))
  check (!(u).contains (n 3))
  check (!(u).contains (n 4))
  check (!(u).contains (n 5))
  check (!(u).contains (n 6))
  check (!(u).contains (n 7))
  check (!(u).contains (n 8))
  check (!(u).isEmpty)) := by decide +kernel

/-- `range_to_inclusive`, /repo/src/test/union/bounded_range.rs:94-108. -/
example : passes (do
  let r ← inter ((Any.range ⟨n 1, n 3⟩)) (Any.rangeFull)
  let u ← union (r) (Any.rangeToInclusive ⟨n 4⟩)
  check ((u).contains (n 0))
  check ((u).contains (n 1))
  check ((u).contains (n 2))
  check ((u).contains (n 3))
  check ((u).contains (n 4))
  check (!(u).contains (n 5))
  check (!(u).contains (n 6))
  check (!(u).contains (n 7))
  check (!(u).contains (n 8))
  check (!(u).isEmpty)) := by decide +kernel

/-- `bounded_range`, /repo/src/test/union/bounded_range.rs:110-128. -/
example : passes (do
  let r1 ← inter ((Any.range ⟨n 1, n 3⟩)) (Any.rangeFull)
  let r2 ← inter ((Any.range ⟨n 5, n 7⟩)) (Any.rangeFull)
  let u ← union (r1) (r2)
  check (decide ((← collect ((← intoIter (u)))) = [n 1, n 2, n 5, n 6]))
  check (!(u).contains (n 0))
  check ((u).contains (n 1))
  check ((u).contains (n 2))
  check (!(u).contains (n 3))
  check (!(u).contains (n 4))
  check ((u).contains (n 5))
  check ((u).contains (n 6))
  check (!(u).contains (n 7))
  check (!(u).contains (n 8))
  check (!(u).isEmpty)
  let r3 ← inter ((Any.range ⟨n 1, n 1⟩)) (Any.rangeFull)
  check (((← union (r3) (Any.range ⟨n 1, n 1⟩))).isEmpty)) := by decide +kernel

/-- `lower_bounded_range`, /repo/src/test/union/bounded_range.rs:130-147. -/
example : passes (do
  let r1 ← toInner' ((Any.range ⟨n 1, n 5⟩))
  let r2 ← inter ((Any.rangeFull)) (Any.rangeFrom ⟨n 2⟩)
  let u ← union (r1) (r2)
  check (decide ((← collectTake 5 ((← intoIter (u)))) = [n 1, n 2, n 3, n 4, n 5]))
  check (!(u).contains (n 0))
  check ((u).contains (n 1))
  check ((u).contains (n 2))
  check ((u).contains (n 3))
  check ((u).contains (n 4))
  check ((u).contains (n 5))
  check ((u).contains (n 6))
  check (!(u).isEmpty)) := by decide +kernel

/-- `upper_bounded_range`, /repo/src/test/union/bounded_range.rs:149-164. -/
example : passes (do
  let r1 ← inter ((Any.range ⟨n 1, n 3⟩)) (Any.rangeFull)
  let r2 ← inter ((Any.rangeTo ⟨n 1⟩)) (Any.rangeFull)
  let u ← union (r1) (r2)
  check ((u).contains (n 0))
  check ((u).contains (n 1))
  check ((u).contains (n 2))
  check (!(u).contains (n 3))
  check (!(u).contains (n 4))
  check (!(u).contains (n 5))
  check (!(u).contains (n 6))
  check (!(u).contains (n 7))
  check (!(u).contains (n 8))
  check (!(u).isEmpty)) := by decide +kernel

/-- `unbounded_range`, /repo/src/test/union/bounded_range.rs:166-181. -/
example : passes (do
  let r ← inter ((Any.range ⟨n 1, n 3⟩)) (Any.rangeFull)
  let ur ← inter ((Any.rangeFull)) (Any.rangeFull)
  let u ← union (r) (ur)
  check ((u).contains (n 0))
  check ((u).contains (n 1))
  check ((u).contains (n 2))
  check ((u).contains (n 3))
  check ((u).contains (n 4))
  check ((u).contains (n 5))
  check ((u).contains (n 6))
  check (!(u).isEmpty)
  let empty_range ← inter ((Any.range ⟨n 1, n 3⟩)) (Any.range ⟨n 4, n 5⟩)
  check (!((← union (empty_range) (ur))).isEmpty)) := by decide +kernel

/-- `empty_range`, /repo/src/test/union/bounded_range.rs:183-188. -/
example : passes (do
  let r ← inter ((Any.range ⟨n 1, n 3⟩)) (Any.rangeFull)
  let u ← union (r) (Any.inner .er)
  check (decide (r = u))) := by decide +kernel

/-- `bounded_set`, /repo/src/test/union/bounded_range.rs:190-212. -/
example : passes (do
  let r ← inter ((Any.range ⟨n 1, n 3⟩)) (Any.rangeFull)
  let s ← union ((Any.range ⟨n 5, n 7⟩)) (Any.range ⟨n 2, n 4⟩)
  let u ← union (r) (s)
  check (decide ((← collect ((← intoIter (u)))) = [n 1, n 2, n 3, n 5, n 6]))
  check (!(u).contains (n 0))
  check ((u).contains (n 1))
  check ((u).contains (n 2))
  check ((u).contains (n 3))
  check (!(u).contains (n 4))
  check ((u).contains (n 5))
  check ((u).contains (n 6))
  check (!(u).contains (n 7))
  check (!(u).contains (n 8))
  check (!(u).isEmpty)
  let empty_set ← union ((Any.range ⟨n 1, n 1⟩)) (Any.range ⟨n 2, n 2⟩)
  let empty_range ← inter ((Any.range ⟨n 1, n 3⟩)) (Any.range ⟨n 4, n 5⟩)
  check (((← union (empty_range) (empty_set))).isEmpty)) := by decide +kernel

/-- `lower_bounded_set`, /repo/src/test/union/bounded_range.rs:214-231. -/
example : passes (do
  let r ← toInner' ((Any.range ⟨n 1, n 5⟩))
  let s ← union ((Any.range ⟨n 2, n 3⟩)) (Any.rangeFrom ⟨n 5⟩)
  let u ← union (r) (s)
  check (decide ((← collectTake 5 ((← intoIter (u)))) = [n 1, n 2, n 3, n 4, n 5]))
  check (!(u).contains (n 0))
  check ((u).contains (n 1))
  check ((u).contains (n 2))
  check ((u).contains (n 3))
  check ((u).contains (n 4))
  check ((u).contains (n 5))
  check ((u).contains (n 6))
  check (!(u).isEmpty)) := by decide +kernel

/-- `upper_bounded_set`, /repo/src/test/union/bounded_range.rs:233-248. -/
example : passes (do
  let r ← inter ((Any.range ⟨n 1, n 3⟩)) (Any.rangeFull)
  let s ← union ((Any.rangeTo ⟨n 1⟩)) (Any.range ⟨n 4, n 5⟩)
  let u ← union (r) (s)
  check ((u).contains (n 0))
  check ((u).contains (n 1))
  check ((u).contains (n 2))
  check (!(u).contains (n 3))
  check ((u).contains (n 4))
  check (!(u).contains (n 5))
  check (!(u).contains (n 6))
  check (!(u).contains (n 7))
  check (!(u).contains (n 8))
  check (!(u).isEmpty)) := by decide +kernel

/-- `unbounded_set`, /repo/src/test/union/bounded_range.rs:250-263. -/
example : passes (do
  let r ← inter ((Any.range ⟨n 1, n 3⟩)) (Any.rangeFull)
  let s ← union ((Any.rangeTo ⟨n 2⟩)) (Any.rangeFrom ⟨n 5⟩)
  let u ← union (r) (s)
  check ((u).contains (n 0))
  check ((u).contains (n 1))
  check ((u).contains (n 2))
  check (!(u).contains (n 3))
  check (!(u).contains (n 4))
  check ((u).contains (n 5))
  check ((u).contains (n 6))
  check (!(u).isEmpty)) := by decide +kernel

/-- `range`, /repo/src/test/union/bounded_set.rs:3-17. -/
example : passes (do
  let s ← union ((Any.range ⟨n 1, n 3⟩)) (Any.range ⟨n 4, n 5⟩)
  let u ← union (s) (Any.range ⟨n 4, n 6⟩)
  check (decide ((← collect ((← intoIter (u)))) = [n 1, n 2, n 4, n 5]))
  check (!(u).contains (n 0))
  check ((u).contains (n 1))
  check ((u).contains (n 2))
  check (!(u).contains (n 3))
  check ((u).contains (n 4))
  check ((u).contains (n 5))
  check (!(u).contains (n 6))
  check (!(u).isEmpty)
  check (((← union (((← union ((Any.range ⟨n 1, n 1⟩)) (Any.range ⟨n 2, n 2⟩)))) (Any.range ⟨n 0, n 0⟩))).isEmpty)) := by decide +kernel

/-- `range_from`, /repo/src/test/union/bounded_set.rs:19-35. -/
example : passes (do
  let s ← union ((Any.range ⟨n 1, n 3⟩)) (Any.range ⟨n 4, n 5⟩)
  let u ← union (s) (Any.rangeFrom ⟨n 3⟩)
  check (decide ((← collectTake 5 ((← intoIter (u)))) = [n 1, n 2, n 3, n 4, n 5]))
  check (!(u).contains (n 0))
  check ((u).contains (n 1))
  check ((u).contains (n 2))
  check ((u).contains (n 3))
  check ((u).contains (n 4))
  check ((u).contains (n 5))
  check ((u).contains (n 6))
  check (!(u).isEmpty)) := by decide +kernel

/-- `range_full`, /repo/src/test/union/bounded_set.rs:37-49. -/
example : passes (do
  let s ← union ((Any.range ⟨n 1, n 3⟩)) (Any.range ⟨n 4, n 5⟩)
  let u ← union (s) (Any.rangeFull)
  check ((u).contains (n 0))
  check ((u).contains (n 1))
  check ((u).contains (n 2))
  check ((u).contains (n 3))
  check ((u).contains (n 4))
  check ((u).contains (n 5))
  check ((u).contains (n 6))
  check (!(u).isEmpty)) := by decide +kernel

/-- `range_inclusive`, /repo/src/test/union/bounded_set.rs:51-68. -/
example : passes (do
  let s ← union ((Any.range ⟨n 1, n 3⟩)) (Any.range ⟨n 4, n 5⟩)
  let u ← union (s) (Any.rangeInclusive ⟨n 4, n 6, false⟩)
  check (decide ((← collect ((← intoIter (u)))) = [n 1, n 2, n 4, n 5, n 6]))
  check (!(u).contains (n 0))
  check ((u).contains (n 1))
  check ((u).contains (n 2))
  check (!(u).contains (n 3))
  check ((u).contains (n 4))
  check ((u).contains (n 5))
  check ((u).contains (n 6))
  check (!(u).isEmpty)
  check (((← union (((← union ((Any.range ⟨n 1, n 1⟩)) (Any.range ⟨n 2, n 2⟩)))) (Any.rangeInclusive ⟨n 1, n 0, false⟩))).isEmpty)) := by decide +kernel

/-- `range_to`, /repo/src/test/union/bounded_set.rs:70-82. -/
example : passes (do
  let s ← union ((Any.range ⟨n 1, n 3⟩)) (Any.range ⟨n 4, n 5⟩)
  let u ← union (s) (Any.rangeTo ⟨n 2⟩)
  check ((u).contains (n 0))
  check ((u).contains (n 1))
  check ((u).contains (n 2))
  check (!(u).contains (n 3))
  check ((u).contains (n 4))
  check (!(u).contains (n 5))
  check (!(u).contains (n 6))
  check (!(u).isEmpty)) := by decide +kernel

/-- `range_to_inclusive`, /repo/src/test/union/bounded_set.rs:84-96. -/
example : passes (do
  let s ← union ((Any.range ⟨n 1, n 3⟩)) (Any.range ⟨n 4, n 5⟩)
  let u ← union (s) (Any.rangeToInclusive ⟨n 3⟩)
  check ((u).contains (n 0))
  check ((u).contains (n 1))
  check ((u).contains (n 2))
  check ((u).contains (n 3))
  check ((u).contains (n 4))
  check (!(u).contains (n 5))
  check (!(u).contains (n 6))
  check (!(u).isEmpty)) := by decide +kernel

/-- `bounded_range`, /repo/src/test/union/bounded_set.rs:98-114. -/
example : passes (do
  let s ← union ((Any.range ⟨n 1, n 3⟩)) (Any.range ⟨n 4, n 5⟩)
  let r ← inter ((Any.range ⟨n 4, n 6⟩)) (Any.rangeFull)
  let u ← union (s) (r)
  check (decide ((← collect ((← intoIter (u)))) = [n 1, n 2, n 4, n 5]))
  check (!(u).contains (n 0))
  check ((u).contains (n 1))
  check ((u).contains (n 2))
  check (!(u).contains (n 3))
  check ((u).contains (n 4))
  check ((u).contains (n 5))
  check (!(u).contains (n 6))
  check (!(u).isEmpty)
  let empty_range ← inter ((Any.range ⟨n 0, n 0⟩)) (Any.rangeFull)
  check (((← union (((← union ((Any.range ⟨n 1, n 1⟩)) (Any.range ⟨n 2, n 2⟩)))) (empty_range))).isEmpty)) := by decide +kernel

/-- `lower_bounded_range`, /repo/src/test/union/bounded_set.rs:116-133. -/
example : passes (do
  let s ← union ((Any.range ⟨n 1, n 3⟩)) (Any.range ⟨n 4, n 5⟩)
  let r ← inter ((Any.rangeFrom ⟨n 3⟩)) (Any.rangeFull)
  let u ← union (s) (r)
  check (decide ((← collectTake 5 ((← intoIter (u)))) = [n 1, n 2, n 3, n 4, n 5]))
  check (!(u).contains (n 0))
  check ((u).contains (n 1))
  check ((u).contains (n 2))
  check ((u).contains (n 3))
  check ((u).contains (n 4))
  check ((u).contains (n 5))
  check ((u).contains (n 6))
  check (!(u).isEmpty)) := by decide +kernel

/-- `upper_bounded_range`, /repo/src/test/union/bounded_set.rs:135-148. -/
example : passes (do
  let s ← union ((Any.range ⟨n 1, n 3⟩)) (Any.range ⟨n 4, n 5⟩)
  let r ← inter ((Any.rangeTo ⟨n 2⟩)) (Any.rangeFull)
  let u ← union (s) (r)
  check ((u).contains (n 0))
  check ((u).contains (n 1))
  check ((u).contains (n 2))
  check (!(u).contains (n 3))
  check ((u).contains (n 4))
  check (!(u).contains (n 5))
  check (!(u).contains (n 6))
  check (!(u).isEmpty)) := by decide +kernel

/-- `unbounded_range`, /repo/src/test/union/bounded_set.rs:150-163. -/
example : passes (do
  let s ← union ((Any.range ⟨n 1, n 3⟩)) (Any.range ⟨n 4, n 5⟩)
  let r ← toInner' ((Any.rangeFull))
  let u ← union (s) (r)
  check ((u).contains (n 0))
  check ((u).contains (n 1))
  check ((u).contains (n 2))
  check ((u).contains (n 3))
  check ((u).contains (n 4))
  check ((u).contains (n 5))
  check ((u).contains (n 6))
  check (!(u).isEmpty)) := by decide +kernel

/-- `empty_range`, /repo/src/test/union/bounded_set.rs:165-170. -/
example : passes (do
  let s ← union ((Any.range ⟨n 1, n 3⟩)) (Any.range ⟨n 4, n 5⟩)
  let u ← union (s) (Any.inner .er)
  check (decide (s = u))) := by decide +kernel

/-- `bounded_set`, /repo/src/test/union/bounded_set.rs:172-191. -/
example : passes (do
  let s1 ← union ((Any.range ⟨n 1, n 3⟩)) (Any.range ⟨n 4, n 5⟩)
  let s2 ← union ((Any.range ⟨n 2, n 4⟩)) (Any.range ⟨n 5, n 6⟩)
  let u ← union (s1) (s2)
  check (decide ((← collect ((← intoIter (u)))) = [n 1, n 2, n 3, n 4, n 5]))
  check (!(u).contains (n 0))
  check ((u).contains (n 1))
  check ((u).contains (n 2))
  check ((u).contains (n 3))
  check ((u).contains (n 4))
  check ((u).contains (n 5))
  check (!(u).contains (n 6))
  check (!(u).isEmpty)
  let empty_set ← union ((Any.range ⟨n 0, n 0⟩)) (Any.range ⟨n 1, n 1⟩)
  check (((← union (empty_set) (empty_set))).isEmpty)) := by decide +kernel

/-- `lower_bounded_set`, /repo/src/test/union/bounded_set.rs:193-210. -/
example : passes (do
  let s ← union ((Any.range ⟨n 1, n 3⟩)) (Any.range ⟨n 4, n 5⟩)
  let s2 ← union ((Any.range ⟨n 0, n 2⟩)) (Any.rangeFrom ⟨n 5⟩)
  let u ← union (s) (s2)
  check (decide ((← collectTake 5 ((← intoIter (u)))) = [n 0, n 1, n 2, n 4, n 5]))
  check ((u).contains (n 0))
  check ((u).contains (n 1))
  check ((u).contains (n 2))
  check (!(u).contains (n 3))
  check ((u).contains (n 4))
  check ((u).contains (n 5))
  check ((u).contains (n 6))
  check (!(u).isEmpty)) := by decide +kernel

/-- `upper_bounded_set`, /repo/src/test/union/bounded_set.rs:212-225. -/
example : passes (do
  let s ← union ((Any.range ⟨n 1, n 3⟩)) (Any.range ⟨n 4, n 5⟩)
  let s2 ← union ((Any.rangeTo ⟨n 2⟩)) (Any.range ⟨n 5, n 6⟩)
  let u ← union (s) (s2)
  check ((u).contains (n 0))
  check ((u).contains (n 1))
  check ((u).contains (n 2))
  check (!(u).contains (n 3))
  check ((u).contains (n 4))
  check ((u).contains (n 5))
  check (!(u).contains (n 6))
  check (!(u).isEmpty)) := by decide +kernel

/-- `unbounded_set`, /repo/src/test/union/bounded_set.rs:227-240. -/
example : passes (do
  let s ← union ((Any.range ⟨n 1, n 3⟩)) (Any.range ⟨n 4, n 5⟩)
  let s2 ← union ((Any.rangeTo ⟨n 2⟩)) (Any.rangeFrom ⟨n 6⟩)
  let u ← union (s) (s2)
  check ((u).contains (n 0))
  check ((u).contains (n 1))
  check ((u).contains (n 2))
  check (!(u).contains (n 3))
  check ((u).contains (n 4))
  check (!(u).contains (n 5))
  check ((u).contains (n 6))
  check (!(u).isEmpty)) := by decide +kernel

/-- `range`, /repo/src/test/union/empty_range.rs:3-8. -/
example : passes (do
  let r : Any I32 := Any.range ⟨n 1, n 3⟩
  let u ← union (Any.inner .er) (r)
  check (decide (r = u))) := by decide +kernel

/-- `range_from`, /repo/src/test/union/empty_range.rs:10-15. -/
example : passes (do
  let r : Any I32 := Any.rangeFrom ⟨n 1⟩
  let u ← union (Any.inner .er) (r)
  check (decide (r = u))) := by decide +kernel

/-- `range_full`, /repo/src/test/union/empty_range.rs:17-22. -/
example : passes (do
  let r : Any I32 := Any.rangeFull
  let u ← union (Any.inner .er) (r)
  check (decide (r = u))) := by decide +kernel

/-- `range_inclusive`, /repo/src/test/union/empty_range.rs:24-29. -/
example : passes (do
  let r : Any I32 := Any.rangeInclusive ⟨n 1, n 3, false⟩
  let u ← union (Any.inner .er) (r)
  check (decide (r = u))) := by decide +kernel

/-- `range_to`, /repo/src/test/union/empty_range.rs:31-36. -/
example : passes (do
  let r : Any I32 := Any.rangeTo ⟨n 3⟩
  let u ← union (Any.inner .er) (r)
  check (decide (r = u))) := by decide +kernel

/-- `range_to_inclusive`, /repo/src/test/union/empty_range.rs:38-43. -/
example : passes (do
  let r : Any I32 := Any.rangeToInclusive ⟨n 3⟩
  let u ← union (Any.inner .er) (r)
  check (decide (r = u))) := by decide +kernel

/-- `bounded_range`, /repo/src/test/union/empty_range.rs:45-50. -/
example : passes (do
  let r ← toInner' ((Any.range ⟨n 1, n 3⟩))
  let u ← union (Any.inner .er) (r)
  check (decide (r = u))) := by decide +kernel

/-- `lower_bounded_range`, /repo/src/test/union/empty_range.rs:52-57. -/
example : passes (do
  let r ← toInner' ((Any.rangeFrom ⟨n 1⟩))
  let u ← union (Any.inner .er) (r)
  check (decide (r = u))) := by decide +kernel

/-- `upper_bounded_range`, /repo/src/test/union/empty_range.rs:59-64. -/
example : passes (do
  let r ← toInner' ((Any.range ⟨n 1, n 3⟩))
  let u ← union (Any.inner .er) (r)
  check (decide (r = u))) := by decide +kernel

/-- `unbounded_range`, /repo/src/test/union/empty_range.rs:66-71. -/
example : passes (do
  let r ← toInner' ((Any.rangeFull))
  let u ← union (Any.inner .er) (r)
  check (decide (r = u))) := by decide +kernel

/-- `empty_range`, /repo/src/test/union/empty_range.rs:73-78. -/
example : passes (do
  let r : Any I32 := Any.inner .er
  let u ← union (Any.inner .er) (r)
  check (decide (r = u))) := by decide +kernel

/-- `bounded_set`, /repo/src/test/union/empty_range.rs:80-85. -/
example : passes (do
  let s ← union ((Any.range ⟨n 1, n 3⟩)) (Any.rangeInclusive ⟨n 2, n 5, false⟩)
  let u ← union (Any.inner .er) (s)
  check (decide (s = u))) := by decide +kernel

/-- `lower_bounded_set`, /repo/src/test/union/empty_range.rs:87-92. -/
example : passes (do
  let s ← union ((Any.range ⟨n 1, n 3⟩)) (Any.rangeFrom ⟨n 2⟩)
  let u ← union (Any.inner .er) (s)
  check (decide (s = u))) := by decide +kernel

/-- `upper_bounded_set`, /repo/src/test/union/empty_range.rs:94-99. -/
example : passes (do
  let s ← union ((Any.rangeTo ⟨n 3⟩)) (Any.rangeInclusive ⟨n 2, n 5, false⟩)
  let u ← union (Any.inner .er) (s)
  check (decide (s = u))) := by decide +kernel

/-- `unbounded_set`, /repo/src/test/union/empty_range.rs:101-106. -/
example : passes (do
  let s ← union ((Any.rangeTo ⟨n 3⟩)) (Any.rangeFrom ⟨n 2⟩)
  let u ← union (Any.inner .er) (s)
  check (decide (s = u))) := by decide +kernel

/-- `range`, /repo/src/test/union/lower_bounded_range.rs:3-19. -/
example : passes (do
  let r ← toInner' ((Any.rangeFrom ⟨n 3⟩))
  let u ← union (r) (Any.range ⟨n 2, n 4⟩)
  check (decide ((← collectTake 5 ((← intoIter (u)))) = [n 2, n 3, n 4, n 5, n 6]))
  check (!(u).contains (n 0))
  check (!(u).contains (n 1))
  check ((u).contains (n 2))
  check ((u).contains (n 3))
  check ((u).contains (n 4))
  check ((u).contains (n 5))
  check ((u).contains (n 6))
  check (!(u).isEmpty)) := by decide +kernel

/-- `range_from`, /repo/src/test/union/lower_bounded_range.rs:21-37. -/
example : passes (do
  let r ← toInner' ((Any.rangeFrom ⟨n 3⟩))
  let u ← union (r) (Any.rangeFrom ⟨n 4⟩)
  check (decide ((← collectTake 5 ((← intoIter (u)))) = [n 3, n 4, n 5, n 6, n 7]))
  check (!(u).contains (n 0))
  check (!(u).contains (n 1))
  check (!(u).contains (n 2))
  check ((u).contains (n 3))
  check ((u).contains (n 4))
  check ((u).contains (n 5))
  check ((u).contains (n 6))
  check (!(u).isEmpty)) := by decide +kernel

/-- `range_full`, /repo/src/test/union/lower_bounded_range.rs:39-51. -/
example : passes (do
  let r ← toInner' ((Any.rangeFrom ⟨n 3⟩))
  let u ← union (r) (Any.rangeFull)
  check ((u).contains (n 0))
  check ((u).contains (n 1))
  check ((u).contains (n 2))
  check ((u).contains (n 3))
  check ((u).contains (n 4))
  check ((u).contains (n 5))
  check ((u).contains (n 6))
  check (!(u).isEmpty)) := by decide +kernel

/-- `range_inclusive`, /repo/src/test/union/lower_bounded_range.rs:53-69. -/
example : passes (do
  let r ← toInner' ((Any.rangeFrom ⟨n 3⟩))
  let u ← union (r) (Any.rangeInclusive ⟨n 1, n 2, false⟩)
  check (decide ((← collectTake 5 ((← intoIter (u)))) = [n 1, n 2, n 3, n 4, n 5]))
  check (!(u).contains (n 0))
  check ((u).contains (n 1))
  check ((u).contains (n 2))
  check ((u).contains (n 3))
  check ((u).contains (n 4))
  check ((u).contains (n 5))
  check ((u).contains (n 6))
  check (!(u).isEmpty)) := by decide +kernel

/-- `range_to`, /repo/src/test/union/lower_bounded_range.rs:71-92. -/
example : passes (do
  let r ← toInner' ((Any.rangeFrom ⟨n 3⟩))
  let u ← union (r) (Any.rangeTo ⟨n 2⟩)
  check ((u).contains (n 0))
  check ((u).contains (n 1))
  check (!(u).contains (n 2))
  check ((u).contains (n 3))
  check ((u).contains (n 4))
  check ((u).contains (n 5))
  check ((u).contains (n 6))
  check (!(u).isEmpty)
  let full ← union (r) (Any.rangeTo ⟨n 4⟩)
  check (!(full).isEmpty)
  check ((full).contains (n 0))
  check ((full).contains (n 1))
  check ((full).contains (n 2))
  check ((full).contains (n 3))
  check ((full).contains (n 4))
  check ((full).contains (n 5))) := by decide +kernel

/-- `range_to_inclusive`, /repo/src/test/union/lower_bounded_range.rs:94-115. -/
example : passes (do
  let r ← toInner' ((Any.rangeFrom ⟨n 3⟩))
  let u ← union (r) (Any.rangeToInclusive ⟨n 1⟩)
  check ((u).contains (n 0))
  check ((u).contains (n 1))
  check (!(u).contains (n 2))
  check ((u).contains (n 3))
  check ((u).contains (n 4))
  check ((u).contains (n 5))
  check ((u).contains (n 6))
  check (!(u).isEmpty)
  let full ← union (r) (Any.rangeToInclusive ⟨n 4⟩)
  check (!(full).isEmpty)
  check ((full).contains (n 0))
  check ((full).contains (n 1))
  check ((full).contains (n 2))
  check ((full).contains (n 3))
  check ((full).contains (n 4))
  check ((full).contains (n 5))) := by decide +kernel

/-- `bounded_range`, /repo/src/test/union/lower_bounded_range.rs:117-134. -/
example : passes (do
  let r ← toInner' ((Any.rangeFrom ⟨n 3⟩))
  let r2 ← inter ((Any.range ⟨n 2, n 4⟩)) (Any.rangeFull)
  let u ← union (r) (r2)
  check (decide ((← collectTake 5 ((← intoIter (u)))) = [n 2, n 3, n 4, n 5, n 6]))
  check (!(u).contains (n 0))
  check (!(u).contains (n 1))
  check ((u).contains (n 2))
  check ((u).contains (n 3))
  check ((u).contains (n 4))
  check ((u).contains (n 5))
  check ((u).contains (n 6))
  check (!(u).isEmpty)) := by decide +kernel

/-- `lower_bounded_range`, /repo/src/test/union/lower_bounded_range.rs:136-153. -/
example : passes (do
  let r ← toInner' ((Any.rangeFrom ⟨n 3⟩))
  let r2 ← inter ((Any.rangeFrom ⟨n 4⟩)) (Any.rangeFull)
  let u ← union (r) (r2)
  check (decide ((← collectTake 5 ((← intoIter (u)))) = [n 3, n 4, n 5, n 6, n 7]))
  check (!(u).contains (n 0))
  check (!(u).contains (n 1))
  check (!(u).contains (n 2))
  check ((u).contains (n 3))
  check ((u).contains (n 4))
  check ((u).contains (n 5))
  check ((u).contains (n 6))
  check (!(u).isEmpty)) := by decide +kernel

/-- `upper_bounded_range`, /repo/src/test/union/lower_bounded_range.rs:155-178. -/
example : passes (do
  let r ← toInner' ((Any.rangeFrom ⟨n 3⟩))
  let r2 ← inter ((Any.rangeTo ⟨n 2⟩)) (Any.rangeFull)
  let u ← union (r) (r2)
  check ((u).contains (n 0))
  check ((u).contains (n 1))
  check (!(u).contains (n 2))
  check ((u).contains (n 3))
  check ((u).contains (n 4))
  check ((u).contains (n 5))
  check ((u).contains (n 6))
  check (!(u).isEmpty)
  let r3 ← inter ((Any.rangeTo ⟨n 4⟩)) (Any.rangeFull)
  let full ← union (r) (r3)
  check (!(full).isEmpty)
  check ((full).contains (n 0))
  check ((full).contains (n 1))
  check ((full).contains (n 2))
  check ((full).contains (n 3))
  check ((full).contains (n 4))
  check ((full).contains (n 5))) := by decide +kernel

/-- `unbounded_range`, /repo/src/test/union/lower_bounded_range.rs:180-193. -/
example : passes (do
  let r ← toInner' ((Any.rangeFrom ⟨n 3⟩))
  let r2 ← inter ((Any.rangeFull)) (Any.rangeFull)
  let u ← union (r) (r2)
  check ((u).contains (n 0))
  check ((u).contains (n 1))
  check ((u).contains (n 2))
  check ((u).contains (n 3))
  check ((u).contains (n 4))
  check ((u).contains (n 5))
  check ((u).contains (n 6))
  check (!(u).isEmpty)) := by decide +kernel

/-- `empty_range`, /repo/src/test/union/lower_bounded_range.rs:195-200. -/
example : passes (do
  let r ← toInner' ((Any.rangeFrom ⟨n 3⟩))
  let u ← union (r) (Any.inner .er)
  check (decide (r = u))) := by decide +kernel

/-- `bounded_set`, /repo/src/test/union/lower_bounded_range.rs:202-219. -/
example : passes (do
  let r ← toInner' ((Any.rangeFrom ⟨n 3⟩))
  let s ← union ((Any.range ⟨n 2, n 4⟩)) (Any.range ⟨n 4, n 5⟩)
  let u ← union (r) (s)
  check (decide ((← collectTake 5 ((← intoIter (u)))) = [n 2, n 3, n 4, n 5, n 6]))
  check (!(u).contains (n 0))
  check (!(u).contains (n 1))
  check ((u).contains (n 2))
  check ((u).contains (n 3))
  check ((u).contains (n 4))
  check ((u).contains (n 5))
  check ((u).contains (n 6))
  check (!(u).isEmpty)) := by decide +kernel

/-- `lower_bounded_set`, /repo/src/test/union/lower_bounded_range.rs:221-238. -/
example : passes (do
  let r ← toInner' ((Any.rangeFrom ⟨n 3⟩))
  let s ← union ((Any.range ⟨n 2, n 3⟩)) (Any.rangeFrom ⟨n 4⟩)
  let u ← union (r) (s)
  check (decide ((← collectTake 5 ((← intoIter (u)))) = [n 2, n 3, n 4, n 5, n 6]))
  check (!(u).contains (n 0))
  check (!(u).contains (n 1))
  check ((u).contains (n 2))
  check ((u).contains (n 3))
  check ((u).contains (n 4))
  check ((u).contains (n 5))
  check ((u).contains (n 6))
  check (!(u).isEmpty)) := by decide +kernel

/-- `upper_bounded_set`, /repo/src/test/union/lower_bounded_range.rs:240-263. -/
example : passes (do
  let r ← toInner' ((Any.rangeFrom ⟨n 4⟩))
  let s ← union ((Any.rangeTo ⟨n 1⟩)) (Any.range ⟨n 2, n 3⟩)
  let u ← union (r) (s)
  check ((u).contains (n 0))
  check (!(u).contains (n 1))
  check ((u).contains (n 2))
  check (!(u).contains (n 3))
  check ((u).contains (n 4))
  check ((u).contains (n 5))
  check ((u).contains (n 6))
  check (!(u).isEmpty)
  let s ← union ((Any.rangeTo ⟨n 4⟩)) (Any.range ⟨n 5, n 6⟩)
  let full ← union (r) (s)
  check (!(full).isEmpty)
  check ((full).contains (n 0))
  check ((full).contains (n 1))
  check ((full).contains (n 2))
  check ((full).contains (n 3))
  check ((full).contains (n 4))
  check ((full).contains (n 5))) := by decide +kernel

/-- `unbounded_set`, /repo/src/test/union/lower_bounded_range.rs:265-278. -/
example : passes (do
  let r ← toInner' ((Any.rangeFrom ⟨n 3⟩))
  let s ← union ((Any.rangeTo ⟨n 1⟩)) (Any.rangeFrom ⟨n 4⟩)
  let u ← union (r) (s)
  check ((u).contains (n 0))
  check (!(u).contains (n 1))
  check (!(u).contains (n 2))
  check ((u).contains (n 3))
  check ((u).contains (n 4))
  check ((u).contains (n 5))
  check ((u).contains (n 6))
  check (!(u).isEmpty)) := by decide +kernel

/-- `range`, /repo/src/test/union/lower_bounded_set.rs:3-19. -/
example : passes (do
  let s ← union ((Any.range ⟨n 3, n 4⟩)) (Any.rangeFrom ⟨n 4⟩)
  let u ← union (s) (Any.range ⟨n 2, n 4⟩)
  check (decide ((← collectTake 5 ((← intoIter (u)))) = [n 2, n 3, n 4, n 5, n 6]))
  check (!(u).contains (n 0))
  check (!(u).contains (n 1))
  check ((u).contains (n 2))
  check ((u).contains (n 3))
  check ((u).contains (n 4))
  check ((u).contains (n 5))
  check ((u).contains (n 6))
  check (!(u).isEmpty)) := by decide +kernel

/-- `range_from`, /repo/src/test/union/lower_bounded_set.rs:21-37. -/
example : passes (do
  let s ← union ((Any.range ⟨n 3, n 4⟩)) (Any.rangeFrom ⟨n 4⟩)
  let u ← union (s) (Any.rangeFrom ⟨n 4⟩)
  check (decide ((← collectTake 5 ((← intoIter (u)))) = [n 3, n 4, n 5, n 6, n 7]))
  check (!(u).contains (n 0))
  check (!(u).contains (n 1))
  check (!(u).contains (n 2))
  check ((u).contains (n 3))
  check ((u).contains (n 4))
  check ((u).contains (n 5))
  check ((u).contains (n 6))
  check (!(u).isEmpty)) := by decide +kernel

/-- `range_full`, /repo/src/test/union/lower_bounded_set.rs:39-51. -/
example : passes (do
  let s ← union ((Any.range ⟨n 3, n 4⟩)) (Any.rangeFrom ⟨n 4⟩)
  let u ← union (s) (Any.rangeFull)
  check ((u).contains (n 0))
  check ((u).contains (n 1))
  check ((u).contains (n 2))
  check ((u).contains (n 3))
  check ((u).contains (n 4))
  check ((u).contains (n 5))
  check ((u).contains (n 6))
  check (!(u).isEmpty)) := by decide +kernel

/-- `range_inclusive`, /repo/src/test/union/lower_bounded_set.rs:53-69. -/
example : passes (do
  let s ← union ((Any.range ⟨n 3, n 4⟩)) (Any.rangeFrom ⟨n 4⟩)
  let u ← union (s) (Any.rangeInclusive ⟨n 1, n 2, false⟩)
  check (decide ((← collectTake 5 ((← intoIter (u)))) = [n 1, n 2, n 3, n 4, n 5]))
  check (!(u).contains (n 0))
  check ((u).contains (n 1))
  check ((u).contains (n 2))
  check ((u).contains (n 3))
  check ((u).contains (n 4))
  check ((u).contains (n 5))
  check ((u).contains (n 6))
  check (!(u).isEmpty)) := by decide +kernel

/-- `range_to`, /repo/src/test/union/lower_bounded_set.rs:71-92. -/
example : passes (do
  let s ← union ((Any.range ⟨n 3, n 4⟩)) (Any.rangeFrom ⟨n 4⟩)
  let u ← union (s) (Any.rangeTo ⟨n 2⟩)
  check ((u).contains (n 0))
  check ((u).contains (n 1))
  check (!(u).contains (n 2))
  check ((u).contains (n 3))
  check ((u).contains (n 4))
  check ((u).contains (n 5))
  check ((u).contains (n 6))
  check (!(u).isEmpty)
  let full ← union (s) (Any.rangeTo ⟨n 4⟩)
  check (!(full).isEmpty)
  check ((full).contains (n 0))
  check ((full).contains (n 1))
  check ((full).contains (n 2))
  check ((full).contains (n 3))
  check ((full).contains (n 4))
  check ((full).contains (n 5))) := by decide +kernel

/-- `range_to_inclusive`, /repo/src/test/union/lower_bounded_set.rs:94-115. -/
example : passes (do
  let s ← union ((Any.range ⟨n 3, n 4⟩)) (Any.rangeFrom ⟨n 4⟩)
  let u ← union (s) (Any.rangeToInclusive ⟨n 1⟩)
  check ((u).contains (n 0))
  check ((u).contains (n 1))
  check (!(u).contains (n 2))
  check ((u).contains (n 3))
  check ((u).contains (n 4))
  check ((u).contains (n 5))
  check ((u).contains (n 6))
  check (!(u).isEmpty)
  let full ← union (s) (Any.rangeToInclusive ⟨n 4⟩)
  check (!(full).isEmpty)
  check ((full).contains (n 0))
  check ((full).contains (n 1))
  check ((full).contains (n 2))
  check ((full).contains (n 3))
  check ((full).contains (n 4))
  check ((full).contains (n 5))) := by decide +kernel

/-- `bounded_range`, /repo/src/test/union/lower_bounded_set.rs:117-134. -/
example : passes (do
  let s ← union ((Any.range ⟨n 3, n 4⟩)) (Any.rangeFrom ⟨n 4⟩)
  let r ← inter ((Any.range ⟨n 2, n 4⟩)) (Any.rangeFull)
  let u ← union (s) (r)
  check (decide ((← collectTake 5 ((← intoIter (u)))) = [n 2, n 3, n 4, n 5, n 6]))
  check (!(u).contains (n 0))
  check (!(u).contains (n 1))
  check ((u).contains (n 2))
  check ((u).contains (n 3))
  check ((u).contains (n 4))
  check ((u).contains (n 5))
  check ((u).contains (n 6))
  check (!(u).isEmpty)) := by decide +kernel

/-- `lower_bounded_range`, /repo/src/test/union/lower_bounded_set.rs:136-153. -/
example : passes (do
  let s ← union ((Any.range ⟨n 3, n 4⟩)) (Any.rangeFrom ⟨n 4⟩)
  let r ← inter ((Any.rangeFrom ⟨n 4⟩)) (Any.rangeFull)
  let u ← union (s) (r)
  check (decide ((← collectTake 5 ((← intoIter (u)))) = [n 3, n 4, n 5, n 6, n 7]))
  check (!(u).contains (n 0))
  check (!(u).contains (n 1))
  check (!(u).contains (n 2))
  check ((u).contains (n 3))
  check ((u).contains (n 4))
  check ((u).contains (n 5))
  check ((u).contains (n 6))
  check (!(u).isEmpty)) := by decide +kernel

/-- `upper_bounded_range`, /repo/src/test/union/lower_bounded_set.rs:155-178. -/
example : passes (do
  let s ← union ((Any.range ⟨n 3, n 4⟩)) (Any.rangeFrom ⟨n 4⟩)
  let r ← inter ((Any.rangeTo ⟨n 2⟩)) (Any.rangeFull)
  let u ← union (s) (r)
  check ((u).contains (n 0))
  check ((u).contains (n 1))
  check (!(u).contains (n 2))
  check ((u).contains (n 3))
  check ((u).contains (n 4))
  check ((u).contains (n 5))
  check ((u).contains (n 6))
  check (!(u).isEmpty)
  let r ← inter ((Any.rangeTo ⟨n 4⟩)) (Any.rangeFull)
  let full ← union (s) (r)
  check (!(full).isEmpty)
  check ((full).contains (n 0))
  check ((full).contains (n 1))
  check ((full).contains (n 2))
  check ((full).contains (n 3))
  check ((full).contains (n 4))
  check ((full).contains (n 5))) := by decide +kernel

/-- `unbounded_range`, /repo/src/test/union/lower_bounded_set.rs:180-193. -/
example : passes (do
  let s ← union ((Any.range ⟨n 3, n 4⟩)) (Any.rangeFrom ⟨n 4⟩)
  let r ← inter ((Any.rangeFull)) (Any.rangeFull)
  let u ← union (s) (r)
  check ((u).contains (n 0))
  check ((u).contains (n 1))
  check ((u).contains (n 2))
  check ((u).contains (n 3))
  check ((u).contains (n 4))
  check ((u).contains (n 5))
  check ((u).contains (n 6))
  check (!(u).isEmpty)) := by decide +kernel

/-- `empty_range`, /repo/src/test/union/lower_bounded_set.rs:195-200. -/
example : passes (do
  let s ← union ((Any.range ⟨n 1, n 3⟩)) (Any.rangeFrom ⟨n 4⟩)
  let u ← union (s) (Any.inner .er)
  check (decide (s = u))) := by decide +kernel

/-- `bounded_set`, /repo/src/test/union/lower_bounded_set.rs:202-219. -/
example : passes (do
  let s ← union ((Any.range ⟨n 3, n 4⟩)) (Any.rangeFrom ⟨n 4⟩)
  let s2 ← union ((Any.range ⟨n 2, n 4⟩)) (Any.range ⟨n 4, n 5⟩)
  let u ← union (s) (s2)
  check (decide ((← collectTake 5 ((← intoIter (u)))) = [n 2, n 3, n 4, n 5, n 6]))
  check (!(u).contains (n 0))
  check (!(u).contains (n 1))
  check ((u).contains (n 2))
  check ((u).contains (n 3))
  check ((u).contains (n 4))
  check ((u).contains (n 5))
  check ((u).contains (n 6))
  check (!(u).isEmpty)) := by decide +kernel

/-- `lower_bounded_set`, /repo/src/test/union/lower_bounded_set.rs:221-238. -/
example : passes (do
  let s ← union ((Any.range ⟨n 3, n 4⟩)) (Any.rangeFrom ⟨n 4⟩)
  let s2 ← union ((Any.range ⟨n 2, n 3⟩)) (Any.rangeFrom ⟨n 4⟩)
  let u ← union (s) (s2)
  check (decide ((← collectTake 5 ((← intoIter (u)))) = [n 2, n 3, n 4, n 5, n 6]))
  check (!(u).contains (n 0))
  check (!(u).contains (n 1))
  check ((u).contains (n 2))
  check ((u).contains (n 3))
  check ((u).contains (n 4))
  check ((u).contains (n 5))
  check ((u).contains (n 6))
  check (!(u).isEmpty)) := by decide +kernel

/-- `upper_bounded_set`, /repo/src/test/union/lower_bounded_set.rs:240-263. -/
example : passes (do
  let s ← union ((Any.range ⟨n 4, n 5⟩)) (Any.rangeFrom ⟨n 5⟩)
  let s2 ← union ((Any.rangeTo ⟨n 1⟩)) (Any.range ⟨n 2, n 3⟩)
  let u ← union (s) (s2)
  check ((u).contains (n 0))
  check (!(u).contains (n 1))
  check ((u).contains (n 2))
  check (!(u).contains (n 3))
  check ((u).contains (n 4))
  check ((u).contains (n 5))
  check ((u).contains (n 6))
  check (!(u).isEmpty)
  let s2 ← union ((Any.rangeTo ⟨n 4⟩)) (Any.range ⟨n 5, n 6⟩)
  let full ← union (s) (s2)
  check (!(full).isEmpty)
  check ((full).contains (n 0))
  check ((full).contains (n 1))
  check ((full).contains (n 2))
  check ((full).contains (n 3))
  check ((full).contains (n 4))
  check ((full).contains (n 5))) := by decide +kernel

/-- `unbounded_set`, /repo/src/test/union/lower_bounded_set.rs:265-278. -/
example : passes (do
  let s ← union ((Any.range ⟨n 3, n 4⟩)) (Any.rangeFrom ⟨n 4⟩)
  let s2 ← union ((Any.rangeTo ⟨n 1⟩)) (Any.rangeFrom ⟨n 4⟩)
  let u ← union (s) (s2)
  check ((u).contains (n 0))
  check (!(u).contains (n 1))
  check (!(u).contains (n 2))
  check ((u).contains (n 3))
  check ((u).contains (n 4))
  check ((u).contains (n 5))
  check ((u).contains (n 6))
  check (!(u).isEmpty)) := by decide +kernel

/-- `range`, /repo/src/test/union/range.rs:3-21. -/
example : passes (do
  let u ← union ((Any.range ⟨n 0, n 3⟩)) (Any.range ⟨n 5, n 7⟩)
  check (decide ((← collect ((← intoIter (u)))) = [n 0, n 1, n 2, n 5, n 6]))
  check ((u).contains (n 0))
  check ((u).contains (n 1))
  check ((u).contains (n 2))
  check (!(u).contains (n 3))
  check (!(u).contains (n 4))
  check ((u).contains (n 5))
  check ((u).contains (n 6))
  check (!(u).contains (n 7))
  check (!(u).contains (n 8))
  check (!(u).isEmpty)
  check (((← union ((Any.range ⟨n 0, n 0⟩)) (Any.range ⟨n 1, n 1⟩))).isEmpty)) := by decide +kernel

/-- `range_from`, /repo/src/test/union/range.rs:23-38. -/
example : passes (do
  let u ← union ((Any.range ⟨n 1, n 3⟩)) (Any.rangeFrom ⟨n 2⟩)
  check (decide ((← collectTake 3 ((← intoIter (u)))) = [n 1, n 2, n 3]))
  check (!(u).contains (n 0))
  check ((u).contains (n 1))
  check ((u).contains (n 2))
  check ((u).contains (n 3))
  check ((u).contains (n 4))
  check ((u).contains (n 5))
  check ((u).contains (n 6))
  check (!(u).isEmpty)) := by decide +kernel

/-- `range_full`, /repo/src/test/union/range.rs:40-53. -/
example : passes (do
  let u ← union ((Any.range ⟨n 1, n 3⟩)) (Any.rangeFull)
  check ((u).contains (n 0))
  check ((u).contains (n 1))
  check ((u).contains (n 2))
  check ((u).contains (n 3))
  check ((u).contains (n 4))
  check ((u).contains (n 5))
  check ((u).contains (n 6))
  check ((u).contains (n 7))
  check ((u).contains (n 8))
  check (!(u).isEmpty)) := by decide +kernel

/-- `range_inclusive`, /repo/src/test/union/range.rs:55-74. -/
example : passes (do
  let u ← union ((Any.range ⟨n 1, n 3⟩)) (Any.rangeInclusive ⟨n 5, n 7, false⟩)
  check (decide ((← collect ((← intoIter (u)))) = [n 1, n 2, n 5, n 6, n 7]))
  check (!(u).contains (n 0))
  check ((u).contains (n 1))
  check ((u).contains (n 2))
  check (!(u).contains (n 3))
  check (!(u).contains (n 4))
  check ((u).contains (n 5))
  check ((u).contains (n 6))
  check ((u).contains (n 7))
  check (!(u).contains (n 8))
  check (!(u).isEmpty)
  let r2 ← inter ((Any.range ⟨n 1, n 1⟩)) (Any.rangeFull)
  check (((← union (r2) (Any.rangeInclusive ⟨n 1, n 0, false⟩))).isEmpty)) := by decide +kernel

/-- `range_to`, /repo/src/test/union/range.rs:76-89. -/
example : passes (do
  let u ← union ((Any.range ⟨n 1, n 3⟩)) (Any.rangeTo ⟨n 2⟩)
  check ((u).contains (n 0))
  check ((u).contains (n 1))
  check ((u).contains (n 2))
  check (!(u).contains (n 3))
  check (!(u).contains (n 4))
  check (!(u).contains (n 5))
  check (!(u).contains (n 6))
  check (!(u).contains (n 7))
  check (!(u).contains (n 8))
  check (!(u).isEmpty)) := by decide +kernel

/-- `range_to_inclusive`, /repo/src/test/union/range.rs:91-104. -/
example : passes (do
  let u ← union ((Any.range ⟨n 1, n 3⟩)) (Any.rangeToInclusive ⟨n 4⟩)
  check ((u).contains (n 0))
  check ((u).contains (n 1))
  check ((u).contains (n 2))
  check ((u).contains (n 3))
  check ((u).contains (n 4))
  check (!(u).contains (n 5))
  check (!(u).contains (n 6))
  check (!(u).contains (n 7))
  check (!(u).contains (n 8))
  check (!(u).isEmpty)) := by decide +kernel

/-- `bounded_range`, /repo/src/test/union/range.rs:106-123. -/
example : passes (do
  let r ← inter ((Any.range ⟨n 5, n 7⟩)) (Any.rangeFull)
  let u ← union ((Any.range ⟨n 1, n 3⟩)) (r)
  check (decide ((← collect ((← intoIter (u)))) = [n 1, n 2, n 5, n 6]))
  check (!(u).contains (n 0))
  check ((u).contains (n 1))
  check ((u).contains (n 2))
  check (!(u).contains (n 3))
  check (!(u).contains (n 4))
  check ((u).contains (n 5))
  check ((u).contains (n 6))
  check (!(u).contains (n 7))
  check (!(u).contains (n 8))
  check (!(u).isEmpty)
  let r ← inter ((Any.range ⟨n 1, n 1⟩)) (Any.rangeFull)
  check (((← union ((Any.range ⟨n 1, n 1⟩)) (r))).isEmpty)) := by decide +kernel

/-- `lower_bounded_range`, /repo/src/test/union/range.rs:125-141. -/
example : passes (do
  let r ← inter ((Any.rangeFull)) (Any.rangeFrom ⟨n 2⟩)
  let u ← union ((Any.range ⟨n 1, n 3⟩)) (r)
  check (decide ((← collectTake 5 ((← intoIter (u)))) = [n 1, n 2, n 3, n 4, n 5]))
  check (!(u).contains (n 0))
  check ((u).contains (n 1))
  check ((u).contains (n 2))
  check ((u).contains (n 3))
  check ((u).contains (n 4))
  check ((u).contains (n 5))
  check ((u).contains (n 6))
  check (!(u).isEmpty)) := by decide +kernel

/-- `upper_bounded_range`, /repo/src/test/union/range.rs:143-157. -/
example : passes (do
  let r ← inter ((Any.rangeTo ⟨n 1⟩)) (Any.rangeFull)
  let u ← union ((Any.range ⟨n 1, n 3⟩)) (r)
  check ((u).contains (n 0))
  check ((u).contains (n 1))
  check ((u).contains (n 2))
  check (!(u).contains (n 3))
  check (!(u).contains (n 4))
  check (!(u).contains (n 5))
  check (!(u).contains (n 6))
  check (!(u).contains (n 7))
  check (!(u).contains (n 8))
  check (!(u).isEmpty)) := by decide +kernel

/-- `unbounded_range`, /repo/src/test/union/range.rs:159-172. -/
example : passes (do
  let ur ← inter ((Any.rangeFull)) (Any.rangeFull)
  let u ← union ((Any.range ⟨n 1, n 3⟩)) (ur)
  check ((u).contains (n 0))
  check ((u).contains (n 1))
  check ((u).contains (n 2))
  check ((u).contains (n 3))
  check ((u).contains (n 4))
  check ((u).contains (n 5))
  check ((u).contains (n 6))
  check (!(u).isEmpty)
  check (!((← union ((Any.range ⟨n 1, n 1⟩)) (ur))).isEmpty)) := by decide +kernel

/-- `empty_range`, /repo/src/test/union/range.rs:174-179. -/
example : passes (do
  let r : Any I32 := Any.range ⟨n 5, n 10⟩
  let u ← union (r) (Any.inner .er)
  check (decide (r = u))) := by decide +kernel

/-- `bounded_set`, /repo/src/test/union/range.rs:181-201. -/
example : passes (do
  let s ← union ((Any.range ⟨n 5, n 7⟩)) (Any.range ⟨n 2, n 4⟩)
  let u ← union ((Any.range ⟨n 1, n 3⟩)) (s)
  check (decide ((← collect ((← intoIter (u)))) = [n 1, n 2, n 3, n 5, n 6]))
  check (!(u).contains (n 0))
  check ((u).contains (n 1))
  check ((u).contains (n 2))
  check ((u).contains (n 3))
  check (!(u).contains (n 4))
  check ((u).contains (n 5))
  check ((u).contains (n 6))
  check (!(u).contains (n 7))
  check (!(u).contains (n 8))
  check (!(u).isEmpty)
  let s ← union ((Any.range ⟨n 1, n 1⟩)) (Any.range ⟨n 2, n 2⟩)
  check (((← union ((Any.range ⟨n 0, n 0⟩)) (s))).isEmpty)) := by decide +kernel

/-- `lower_bounded_set`, /repo/src/test/union/range.rs:203-219. -/
example : passes (do
  let s ← union ((Any.range ⟨n 2, n 3⟩)) (Any.rangeFrom ⟨n 5⟩)
  let u ← union ((Any.range ⟨n 1, n 3⟩)) (s)
  check (decide ((← collectTake 5 ((← intoIter (u)))) = [n 1, n 2, n 5, n 6, n 7]))
  check (!(u).contains (n 0))
  check ((u).contains (n 1))
  check ((u).contains (n 2))
  check (!(u).contains (n 3))
  check (!(u).contains (n 4))
  check ((u).contains (n 5))
  check ((u).contains (n 6))
  check (!(u).isEmpty)) := by decide +kernel

/-- `upper_bounded_set`, /repo/src/test/union/range.rs:221-235. -/
example : passes (do
  let s ← union ((Any.rangeTo ⟨n 1⟩)) (Any.range ⟨n 4, n 5⟩)
  let u ← union ((Any.range ⟨n 1, n 3⟩)) (s)
  check ((u).contains (n 0))
  check ((u).contains (n 1))
  check ((u).contains (n 2))
  check (!(u).contains (n 3))
  check ((u).contains (n 4))
  check (!(u).contains (n 5))
  check (!(u).contains (n 6))
  check (!(u).contains (n 7))
  check (!(u).contains (n 8))
  check (!(u).isEmpty)) := by decide +kernel

/-- `unbounded_set`, /repo/src/test/union/range.rs:237-249. -/
example : passes (do
  let s ← union ((Any.rangeTo ⟨n 2⟩)) (Any.rangeFrom ⟨n 5⟩)
  let u ← union ((Any.range ⟨n 1, n 3⟩)) (s)
  check ((u).contains (n 0))
  check ((u).contains (n 1))
  check ((u).contains (n 2))
  check (!(u).contains (n 3))
  check (!(u).contains (n 4))
  check ((u).contains (n 5))
  check ((u).contains (n 6))
  check (!(u).isEmpty)) := by decide +kernel

/-- `range`, /repo/src/test/union/range_from.rs:3-18. -/
example : passes (do
  let u ← union ((Any.rangeFrom ⟨n 3⟩)) (Any.range ⟨n 2, n 4⟩)
  check (decide ((← collectTake 5 ((← intoIter (u)))) = [n 2, n 3, n 4, n 5, n 6]))
  check (!(u).contains (n 0))
  check (!(u).contains (n 1))
  check ((u).contains (n 2))
  check ((u).contains (n 3))
  check ((u).contains (n 4))
  check ((u).contains (n 5))
  check ((u).contains (n 6))
  check (!(u).isEmpty)) := by decide +kernel

/-- `range_from`, /repo/src/test/union/range_from.rs:20-35. -/
example : passes (do
  let u ← union ((Any.rangeFrom ⟨n 3⟩)) (Any.rangeFrom ⟨n 4⟩)
  check (decide ((← collectTake 5 ((← intoIter (u)))) = [n 3, n 4, n 5, n 6, n 7]))
  check (!(u).contains (n 0))
  check (!(u).contains (n 1))
  check (!(u).contains (n 2))
  check ((u).contains (n 3))
  check ((u).contains (n 4))
  check ((u).contains (n 5))
  check ((u).contains (n 6))
  check (!(u).isEmpty)) := by decide +kernel

/-- `range_full`, /repo/src/test/union/range_from.rs:37-48. -/
example : passes (do
  let u ← union ((Any.rangeFrom ⟨n 3⟩)) (Any.rangeFull)
  check ((u).contains (n 0))
  check ((u).contains (n 1))
  check ((u).contains (n 2))
  check ((u).contains (n 3))
  check ((u).contains (n 4))
  check ((u).contains (n 5))
  check ((u).contains (n 6))
  check (!(u).isEmpty)) := by decide +kernel

/-- `range_inclusive`, /repo/src/test/union/range_from.rs:50-65. -/
example : passes (do
  let u ← union ((Any.rangeFrom ⟨n 3⟩)) (Any.rangeInclusive ⟨n 1, n 2, false⟩)
  check (decide ((← collectTake 5 ((← intoIter (u)))) = [n 1, n 2, n 3, n 4, n 5]))
  check (!(u).contains (n 0))
  check ((u).contains (n 1))
  check ((u).contains (n 2))
  check ((u).contains (n 3))
  check ((u).contains (n 4))
  check ((u).contains (n 5))
  check ((u).contains (n 6))
  check (!(u).isEmpty)) := by decide +kernel

/-- `range_to`, /repo/src/test/union/range_from.rs:67-87. -/
example : passes (do
  let u ← union ((Any.rangeFrom ⟨n 3⟩)) (Any.rangeTo ⟨n 2⟩)
  check ((u).contains (n 0))
  check ((u).contains (n 1))
  check (!(u).contains (n 2))
  check ((u).contains (n 3))
  check ((u).contains (n 4))
  check ((u).contains (n 5))
  check ((u).contains (n 6))
  check (!(u).isEmpty)
  let full ← union ((Any.rangeFrom ⟨n 3⟩)) (Any.rangeTo ⟨n 4⟩)
  check (!(full).isEmpty)
  check ((full).contains (n 0))
  check ((full).contains (n 1))
  check ((full).contains (n 2))
  check ((full).contains (n 3))
  check ((full).contains (n 4))
  check ((full).contains (n 5))) := by decide +kernel

/-- `range_to_inclusive`, /repo/src/test/union/range_from.rs:89-109. -/
example : passes (do
  let u ← union ((Any.rangeFrom ⟨n 3⟩)) (Any.rangeToInclusive ⟨n 1⟩)
  check ((u).contains (n 0))
  check ((u).contains (n 1))
  check (!(u).contains (n 2))
  check ((u).contains (n 3))
  check ((u).contains (n 4))
  check ((u).contains (n 5))
  check ((u).contains (n 6))
  check (!(u).isEmpty)
  let full ← union ((Any.rangeFrom ⟨n 3⟩)) (Any.rangeToInclusive ⟨n 4⟩)
  check (!(full).isEmpty)
  check ((full).contains (n 0))
  check ((full).contains (n 1))
  check ((full).contains (n 2))
  check ((full).contains (n 3))
  check ((full).contains (n 4))
  check ((full).contains (n 5))) := by decide +kernel

/-- `bounded_range`, /repo/src/test/union/range_from.rs:111-127. -/
example : passes (do
  let r ← inter ((Any.range ⟨n 2, n 4⟩)) (Any.rangeFull)
  let u ← union ((Any.rangeFrom ⟨n 3⟩)) (r)
  check (decide ((← collectTake 5 ((← intoIter (u)))) = [n 2, n 3, n 4, n 5, n 6]))
  check (!(u).contains (n 0))
  check (!(u).contains (n 1))
  check ((u).contains (n 2))
  check ((u).contains (n 3))
  check ((u).contains (n 4))
  check ((u).contains (n 5))
  check ((u).contains (n 6))
  check (!(u).isEmpty)) := by decide +kernel

/-- `lower_bounded_range`, /repo/src/test/union/range_from.rs:129-145. -/
example : passes (do
  let r ← inter ((Any.rangeFrom ⟨n 4⟩)) (Any.rangeFull)
  let u ← union ((Any.rangeFrom ⟨n 3⟩)) (r)
  check (decide ((← collectTake 5 ((← intoIter (u)))) = [n 3, n 4, n 5, n 6, n 7]))
  check (!(u).contains (n 0))
  check (!(u).contains (n 1))
  check (!(u).contains (n 2))
  check ((u).contains (n 3))
  check ((u).contains (n 4))
  check ((u).contains (n 5))
  check ((u).contains (n 6))
  check (!(u).isEmpty)) := by decide +kernel

/-- `upper_bounded_range`, /repo/src/test/union/range_from.rs:147-169. -/
example : passes (do
  let r ← inter ((Any.rangeTo ⟨n 2⟩)) (Any.rangeFull)
  let u ← union ((Any.rangeFrom ⟨n 3⟩)) (r)
  check ((u).contains (n 0))
  check ((u).contains (n 1))
  check (!(u).contains (n 2))
  check ((u).contains (n 3))
  check ((u).contains (n 4))
  check ((u).contains (n 5))
  check ((u).contains (n 6))
  check (!(u).isEmpty)
  let r ← inter ((Any.rangeTo ⟨n 4⟩)) (Any.rangeFull)
  let full ← union ((Any.rangeFrom ⟨n 3⟩)) (r)
  check (!(full).isEmpty)
  check ((full).contains (n 0))
  check ((full).contains (n 1))
  check ((full).contains (n 2))
  check ((full).contains (n 3))
  check ((full).contains (n 4))
  check ((full).contains (n 5))) := by decide +kernel

/-- `unbounded_range`, /repo/src/test/union/range_from.rs:171-183. -/
example : passes (do
  let r ← inter ((Any.rangeFull)) (Any.rangeFull)
  let u ← union ((Any.rangeFrom ⟨n 3⟩)) (r)
  check ((u).contains (n 0))
  check ((u).contains (n 1))
  check ((u).contains (n 2))
  check ((u).contains (n 3))
  check ((u).contains (n 4))
  check ((u).contains (n 5))
  check ((u).contains (n 6))
  check (!(u).isEmpty)) := by decide +kernel

/-- `empty_range`, /repo/src/test/union/range_from.rs:185-190. -/
example : passes (do
  let r : Any I32 := Any.rangeFrom ⟨n 3⟩
  let u ← union (r) (Any.inner .er)
  check (decide (r = u))) := by decide +kernel

/-- `bounded_set`, /repo/src/test/union/range_from.rs:192-208. -/
example : passes (do
  let s ← union ((Any.range ⟨n 2, n 4⟩)) (Any.range ⟨n 4, n 5⟩)
  let u ← union ((Any.rangeFrom ⟨n 3⟩)) (s)
  check (decide ((← collectTake 5 ((← intoIter (u)))) = [n 2, n 3, n 4, n 5, n 6]))
  check (!(u).contains (n 0))
  check (!(u).contains (n 1))
  check ((u).contains (n 2))
  check ((u).contains (n 3))
  check ((u).contains (n 4))
  check ((u).contains (n 5))
  check ((u).contains (n 6))
  check (!(u).isEmpty)) := by decide +kernel

/-- `lower_bounded_set`, /repo/src/test/union/range_from.rs:210-226. -/
example : passes (do
  let s ← union ((Any.range ⟨n 2, n 3⟩)) (Any.rangeFrom ⟨n 4⟩)
  let u ← union ((Any.rangeFrom ⟨n 3⟩)) (s)
  check (decide ((← collectTake 5 ((← intoIter (u)))) = [n 2, n 3, n 4, n 5, n 6]))
  check (!(u).contains (n 0))
  check (!(u).contains (n 1))
  check ((u).contains (n 2))
  check ((u).contains (n 3))
  check ((u).contains (n 4))
  check ((u).contains (n 5))
  check ((u).contains (n 6))
  check (!(u).isEmpty)) := by decide +kernel

/-- `upper_bounded_set`, /repo/src/test/union/range_from.rs:228-250. -/
example : passes (do
  let s ← union ((Any.rangeTo ⟨n 1⟩)) (Any.range ⟨n 2, n 3⟩)
  let u ← union ((Any.rangeFrom ⟨n 4⟩)) (s)
  check ((u).contains (n 0))
  check (!(u).contains (n 1))
  check ((u).contains (n 2))
  check (!(u).contains (n 3))
  check ((u).contains (n 4))
  check ((u).contains (n 5))
  check ((u).contains (n 6))
  check (!(u).isEmpty)
  let s ← union ((Any.rangeTo ⟨n 4⟩)) (Any.range ⟨n 5, n 6⟩)
  let full ← union ((Any.rangeFrom ⟨n 3⟩)) (s)
  check (!(full).isEmpty)
  check ((full).contains (n 0))
  check ((full).contains (n 1))
  check ((full).contains (n 2))
  check ((full).contains (n 3))
  check ((full).contains (n 4))
  check ((full).contains (n 5))) := by decide +kernel

/-- `unbounded_set`, /repo/src/test/union/range_from.rs:252-264. -/
example : passes (do
  let s ← union ((Any.rangeTo ⟨n 1⟩)) (Any.rangeFrom ⟨n 4⟩)
  let u ← union ((Any.rangeFrom ⟨n 3⟩)) (s)
  check ((u).contains (n 0))
  check (!(u).contains (n 1))
  check (!(u).contains (n 2))
  check ((u).contains (n 3))
  check ((u).contains (n 4))
  check ((u).contains (n 5))
  check ((u).contains (n 6))
  check (!(u).isEmpty)) := by decide +kernel

end Rangetools.Tests
