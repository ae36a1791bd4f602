import Verif.Tests.Harness

/-!
# Upstream intersection tests (1)

Transcribed from the crate's own unit tests.  These are tests of the model, not proofs of a property.
-/

set_option linter.unusedVariables false

namespace Rangetools.Tests

/-- `range`, /repo/src/test/intersection/bounded_range.rs:3-17. -/
example : passes (do
  let bounded_range ← inter ((Any.range ⟨n 1, n 4⟩)) (Any.range ⟨n 2, n 5⟩)
  let i ← inter (bounded_range) (Any.range ⟨n 3, n 6⟩)
  check (decide ((← collect ((← intoIter (i)))) = [n 3]))
  check (!(i).contains (n 0))
  check (!(i).contains (n 1))
  check (!(i).contains (n 2))
  check ((i).contains (n 3))
  check (!(i).contains (n 4))
  check (!(i).contains (n 5))
  check (!(i).contains (n 6))
  check (!(i).isEmpty)
  check (((← inter (bounded_range) (Any.range ⟨n 10, n 20⟩))).isEmpty)) := by decide +kernel

/-- `range_from`, /repo/src/test/intersection/bounded_range.rs:19-33. -/
example : passes (do
  let bounded_range ← inter ((Any.range ⟨n 1, n 4⟩)) (Any.range ⟨n 2, n 5⟩)
  let i ← inter (bounded_range) (Any.rangeFrom ⟨n 3⟩)
  check (decide ((← collect ((← intoIter (i)))) = [n 3]))
  check (!(i).contains (n 0))
  check (!(i).contains (n 1))
  check (!(i).contains (n 2))
  check ((i).contains (n 3))
  check (!(i).contains (n 4))
  check (!(i).contains (n 5))
  check (!(i).contains (n 6))
  check (!(i).isEmpty)
  check (((← inter (bounded_range) (Any.rangeFrom ⟨n 10⟩))).isEmpty)) := by decide +kernel

/-- `range_full`, /repo/src/test/intersection/bounded_range.rs:35-49. -/
example : passes (do
  let bounded_range ← inter ((Any.range ⟨n 1, n 4⟩)) (Any.range ⟨n 2, n 5⟩)
  let i ← inter (bounded_range) (Any.rangeFull)
  check (decide ((← collect ((← intoIter (i)))) = [n 2, n 3]))
  check (!(i).contains (n 0))
  check (!(i).contains (n 1))
  check ((i).contains (n 2))
  check ((i).contains (n 3))
  check (!(i).contains (n 4))
  check (!(i).contains (n 5))
  check (!(i).contains (n 6))
  check (!(i).isEmpty)
  check (((← inter (((← inter ((Any.range ⟨n 1, n 3⟩)) (Any.range ⟨n 5, n 10⟩)))) (Any.rangeFull))).isEmpty)) := by decide +kernel

/-- `range_inclusive`, /repo/src/test/intersection/bounded_range.rs:51-65. -/
example : passes (do
  let bounded_range ← inter ((Any.range ⟨n 1, n 4⟩)) (Any.range ⟨n 2, n 5⟩)
  let i ← inter (bounded_range) (Any.rangeInclusive ⟨n 1, n 3, false⟩)
  check (decide ((← collect ((← intoIter (i)))) = [n 2, n 3]))
  check (!(i).contains (n 0))
  check (!(i).contains (n 1))
  check ((i).contains (n 2))
  check ((i).contains (n 3))
  check (!(i).contains (n 4))
  check (!(i).contains (n 5))
  check (!(i).contains (n 6))
  check (!(i).isEmpty)
  check (((← inter (bounded_range) (Any.rangeInclusive ⟨n 10, n 20, false⟩))).isEmpty)) := by decide +kernel

/-- `range_to`, /repo/src/test/intersection/bounded_range.rs:67-81. -/
example : passes (do
  let bounded_range ← inter ((Any.range ⟨n 1, n 4⟩)) (Any.range ⟨n 2, n 5⟩)
  let i ← inter (bounded_range) (Any.rangeTo ⟨n 3⟩)
  check (decide ((← collect ((← intoIter (i)))) = [n 2]))
  check (!(i).contains (n 0))
  check (!(i).contains (n 1))
  check ((i).contains (n 2))
  check (!(i).contains (n 3))
  check (!(i).contains (n 4))
  check (!(i).contains (n 5))
  check (!(i).contains (n 6))
  check (!(i).isEmpty)
  check (((← inter (bounded_range) (Any.rangeTo ⟨n 1⟩))).isEmpty)) := by decide +kernel

/-- `range_to_inclusive`, /repo/src/test/intersection/bounded_range.rs:83-97. -/
example : passes (do
  let bounded_range ← inter ((Any.range ⟨n 1, n 4⟩)) (Any.range ⟨n 2, n 5⟩)
  let i ← inter (bounded_range) (Any.rangeToInclusive ⟨n 3⟩)
  check (decide ((← collect ((← intoIter (i)))) = [n 2, n 3]))
  check (!(i).contains (n 0))
  check (!(i).contains (n 1))
  check ((i).contains (n 2))
  check ((i).contains (n 3))
  check (!(i).contains (n 4))
  check (!(i).contains (n 5))
  check (!(i).contains (n 6))
  check (!(i).isEmpty)
  check (((← inter (bounded_range) (Any.rangeToInclusive ⟨n 1⟩))).isEmpty)) := by decide +kernel

/-- `bounded_range`, /repo/src/test/intersection/bounded_range.rs:99-117. -/
example : passes (do
  let r1 ← inter ((Any.range ⟨n 0, n 5⟩)) (Any.range ⟨n 1, n 5⟩)
  let r2 ← inter ((Any.range ⟨n 2, n 6⟩)) (Any.range ⟨n 2, n 7⟩)
  let i ← inter (r1) (r2)
  check (decide ((← collect ((← intoIter (i)))) = [n 2, n 3, n 4]))
  check (!(i).contains (n 0))
  check (!(i).contains (n 1))
  check ((i).contains (n 2))
  check ((i).contains (n 3))
  check ((i).contains (n 4))
  check (!(i).contains (n 5))
  check (!(i).contains (n 6))
  check (!(i).contains (n 7))
  check (!(i).contains (n 8))
  check (!(i).isEmpty)
  let r3 ← inter ((Any.range ⟨n 10, n 20⟩)) (Any.range ⟨n 15, n 20⟩)
  check (((← inter (i) (r3))).isEmpty)) := by decide +kernel

/-- `lower_bounded_range`, /repo/src/test/intersection/bounded_range.rs:119-133. -/
example : passes (do
  let r1 ← inter ((Any.range ⟨n 1, n 3⟩)) (Any.rangeFull)
  let r2 ← inter ((Any.rangeFrom ⟨n 1⟩)) (Any.rangeFull)
  let i ← inter (r1) (r2)
  check (decide ((← collect ((← intoIter (i)))) = [n 1, n 2]))
  check (!(i).contains (n 0))
  check ((i).contains (n 1))
  check ((i).contains (n 2))
  check (!(i).contains (n 3))
  check (!(i).contains (n 4))
  check (!(i).isEmpty)
  let r3 ← inter ((Any.rangeFrom ⟨n 5⟩)) (Any.rangeFull)
  check (((← inter (i) (r3))).isEmpty)) := by decide +kernel

/-- `upper_bounded_range`, /repo/src/test/intersection/bounded_range.rs:135-149. -/
example : passes (do
  let r1 ← inter ((Any.range ⟨n 1, n 3⟩)) (Any.rangeFull)
  let r2 ← inter ((Any.rangeTo ⟨n 3⟩)) (Any.rangeFull)
  let i ← inter (r1) (r2)
  check (decide ((← collect ((← intoIter (i)))) = [n 1, n 2]))
  check (!(i).contains (n 0))
  check ((i).contains (n 1))
  check ((i).contains (n 2))
  check (!(i).contains (n 3))
  check (!(i).contains (n 4))
  check (!(i).isEmpty)
  let r3 ← inter ((Any.rangeTo ⟨n 1⟩)) (Any.rangeFull)
  check (((← inter (i) (r3))).isEmpty)) := by decide +kernel

/-- `unbounded_range`, /repo/src/test/intersection/bounded_range.rs:151-165. -/
example : passes (do
  let r1 ← inter ((Any.range ⟨n 1, n 3⟩)) (Any.rangeFull)
  let r2 ← inter ((Any.rangeFull)) (Any.rangeFull)
  let i ← inter (r1) (r2)
  check (decide ((← collect ((← intoIter (i)))) = [n 1, n 2]))
  check (!(i).contains (n 0))
  check ((i).contains (n 1))
  check ((i).contains (n 2))
  check (!(i).contains (n 3))
  check (!(i).contains (n 4))
  check (!(i).isEmpty)
  let r3 ← inter ((Any.range ⟨n 1, n 3⟩)) (Any.range ⟨n 5, n 10⟩)
  check (((← inter (r3) (Any.rangeFull))).isEmpty)) := by decide +kernel

/-- `empty_range`, /repo/src/test/intersection/bounded_range.rs:167-174. -/
example : passes (do
  let r1 ← inter ((Any.range ⟨n 1, n 4⟩)) (Any.rangeFull)
  let r2 : Any I32 := Any.inner .er
  let i ← inter (r1) (r2)
  check ((i).isEmpty)
  check (decide ((← collect ((← intoIter (i)))) = []))) := by decide +kernel

/-- `bounded_set`, /repo/src/test/intersection/bounded_range.rs:176-191. -/
example : passes (do
  let r ← inter ((Any.range ⟨n 1, n 4⟩)) (Any.rangeFull)
  let s ← union ((Any.range ⟨n 1, n 2⟩)) (Any.range ⟨n 3, n 4⟩)
  let i ← inter (r) (s)
  check (decide ((← collect ((← intoIter (i)))) = [n 1, n 3]))
  check (!(i).contains (n 0))
  check ((i).contains (n 1))
  check (!(i).contains (n 2))
  check ((i).contains (n 3))
  check (!(i).contains (n 4))
  check (!(i).isEmpty)
  let r2 ← inter ((Any.range ⟨n 1, n 1⟩)) (Any.rangeFull)
  let s2 ← union ((Any.range ⟨n 1, n 2⟩)) (Any.range ⟨n 3, n 4⟩)
  check (((← inter (r2) (s2))).isEmpty)) := by decide +kernel

/-- `lower_bounded_set`, /repo/src/test/intersection/bounded_range.rs:193-208. -/
example : passes (do
  let r ← inter ((Any.range ⟨n 1, n 4⟩)) (Any.rangeFull)
  let s ← union ((Any.range ⟨n 1, n 2⟩)) (Any.rangeFrom ⟨n 3⟩)
  let i ← inter (r) (s)
  check (decide ((← collect ((← intoIter (i)))) = [n 1, n 3]))
  check (!(i).contains (n 0))
  check ((i).contains (n 1))
  check (!(i).contains (n 2))
  check ((i).contains (n 3))
  check (!(i).contains (n 4))
  check (!(i).isEmpty)
  let r2 ← inter ((Any.range ⟨n 2, n 3⟩)) (Any.rangeFull)
  let s2 ← union ((Any.range ⟨n 1, n 2⟩)) (Any.rangeFrom ⟨n 3⟩)
  check (((← inter (r2) (s2))).isEmpty)) := by decide +kernel

/-- `upper_bounded_set`, /repo/src/test/intersection/bounded_range.rs:210-225. -/
example : passes (do
  let r ← inter ((Any.range ⟨n 1, n 4⟩)) (Any.rangeFull)
  let s ← union ((Any.rangeTo ⟨n 2⟩)) (Any.range ⟨n 3, n 4⟩)
  let i ← inter (r) (s)
  check (decide ((← collect ((← intoIter (i)))) = [n 1, n 3]))
  check (!(i).contains (n 0))
  check ((i).contains (n 1))
  check (!(i).contains (n 2))
  check ((i).contains (n 3))
  check (!(i).contains (n 4))
  check (!(i).isEmpty)
  let r2 ← inter ((Any.range ⟨n 1, n 1⟩)) (Any.rangeFull)
  let s2 ← union ((Any.rangeTo ⟨n 2⟩)) (Any.range ⟨n 3, n 4⟩)
  check (((← inter (r2) (s2))).isEmpty)) := by decide +kernel

/-- `unbounded_set`, /repo/src/test/intersection/bounded_range.rs:227-242. -/
example : passes (do
  let r ← toInner' ((Any.range ⟨n 1, n 4⟩))
  let s ← union ((← union ((Any.rangeTo ⟨n 1⟩)) (Any.range ⟨n 2, n 3⟩))) (Any.rangeFrom ⟨n 4⟩)
  let i ← inter (r) (s)
  check (decide ((← collect ((← intoIter (i)))) = [n 2]))
  check (!(i).contains (n 0))
  check (!(i).contains (n 1))
  check ((i).contains (n 2))
  check (!(i).contains (n 3))
  check (!(i).contains (n 4))
  check (!(i).isEmpty)
  let r2 ← toInner' ((Any.range ⟨n 1, n 1⟩))
  let s2 ← union ((← union ((Any.rangeTo ⟨n 1⟩)) (Any.range ⟨n 2, n 3⟩))) (Any.rangeFrom ⟨n 4⟩)
  check (((← inter (r2) (s2))).isEmpty)) := by decide +kernel

/-- `range`, /repo/src/test/intersection/bounded_set.rs:3-17. -/
example : passes (do
  let s ← union ((Any.range ⟨n 1, n 3⟩)) (Any.range ⟨n 4, n 6⟩)
  let i ← inter (s) (Any.range ⟨n 2, n 6⟩)
  check (decide ((← collect ((← intoIter (i)))) = [n 2, n 4, n 5]))
  check (!(i).contains (n 0))
  check (!(i).contains (n 1))
  check ((i).contains (n 2))
  check (!(i).contains (n 3))
  check ((i).contains (n 4))
  check ((i).contains (n 5))
  check (!(i).contains (n 6))
  check (!(i).isEmpty)
  check (((← inter (s) (Any.range ⟨n 10, n 20⟩))).isEmpty)) := by decide +kernel

/-- `range_from`, /repo/src/test/intersection/bounded_set.rs:19-33. -/
example : passes (do
  let s ← union ((Any.range ⟨n 1, n 3⟩)) (Any.range ⟨n 4, n 6⟩)
  let i ← inter (s) (Any.rangeFrom ⟨n 2⟩)
  check (decide ((← collect ((← intoIter (i)))) = [n 2, n 4, n 5]))
  check (!(i).contains (n 0))
  check (!(i).contains (n 1))
  check ((i).contains (n 2))
  check (!(i).contains (n 3))
  check ((i).contains (n 4))
  check ((i).contains (n 5))
  check (!(i).contains (n 6))
  check (!(i).isEmpty)
  check (((← inter (s) (Any.rangeFrom ⟨n 10⟩))).isEmpty)) := by decide +kernel

/-- `range_full`, /repo/src/test/intersection/bounded_set.rs:35-49. -/
example : passes (do
  let s ← union ((Any.range ⟨n 1, n 3⟩)) (Any.rangeInclusive ⟨n 4, n 5, false⟩)
  let i ← inter (s) (Any.rangeFull)
  check (decide ((← collect ((← intoIter (i)))) = [n 1, n 2, n 4, n 5]))
  check (!(i).contains (n 0))
  check ((i).contains (n 1))
  check ((i).contains (n 2))
  check (!(i).contains (n 3))
  check ((i).contains (n 4))
  check ((i).contains (n 5))
  check (!(i).contains (n 6))
  check (!(i).isEmpty)
  check (((← inter ((← union ((Any.range ⟨n 1, n 1⟩)) (Any.range ⟨n 2, n 2⟩))) (Any.rangeFull))).isEmpty)) := by decide +kernel

/-- `range_inclusive`, /repo/src/test/intersection/bounded_set.rs:51-65. -/
example : passes (do
  let s ← union ((Any.range ⟨n 1, n 3⟩)) (Any.range ⟨n 4, n 6⟩)
  let i ← inter (s) (Any.rangeInclusive ⟨n 2, n 5, false⟩)
  check (decide ((← collect ((← intoIter (i)))) = [n 2, n 4, n 5]))
  check (!(i).contains (n 0))
  check (!(i).contains (n 1))
  check ((i).contains (n 2))
  check (!(i).contains (n 3))
  check ((i).contains (n 4))
  check ((i).contains (n 5))
  check (!(i).contains (n 6))
  check (!(i).isEmpty)
  check (((← inter (s) (Any.rangeInclusive ⟨n 10, n 20, false⟩))).isEmpty)) := by decide +kernel

/-- `range_to`, /repo/src/test/intersection/bounded_set.rs:67-81. -/
example : passes (do
  let s ← union ((Any.range ⟨n 1, n 3⟩)) (Any.range ⟨n 4, n 6⟩)
  let i ← inter (s) (Any.rangeTo ⟨n 5⟩)
  check (decide ((← collect ((← intoIter (i)))) = [n 1, n 2, n 4]))
  check (!(i).contains (n 0))
  check ((i).contains (n 1))
  check ((i).contains (n 2))
  check (!(i).contains (n 3))
  check ((i).contains (n 4))
  check (!(i).contains (n 5))
  check (!(i).contains (n 6))
  check (!(i).isEmpty)
  check (((← inter (s) (Any.rangeTo ⟨n 1⟩))).isEmpty)) := by decide +kernel

/-- `range_to_inclusive`, /repo/src/test/intersection/bounded_set.rs:83-97. -/
example : passes (do
  let s ← union ((Any.range ⟨n 1, n 3⟩)) (Any.range ⟨n 4, n 6⟩)
  let i ← inter (s) (Any.rangeToInclusive ⟨n 5⟩)
  check (decide ((← collect ((← intoIter (i)))) = [n 1, n 2, n 4, n 5]))
  check (!(i).contains (n 0))
  check ((i).contains (n 1))
  check ((i).contains (n 2))
  check (!(i).contains (n 3))
  check ((i).contains (n 4))
  check ((i).contains (n 5))
  check (!(i).contains (n 6))
  check (!(i).isEmpty)
  check (((← inter (s) (Any.rangeToInclusive ⟨n 0⟩))).isEmpty)) := by decide +kernel

/-- `bounded_range`, /repo/src/test/intersection/bounded_set.rs:99-115. -/
example : passes (do
  let s ← union ((Any.range ⟨n 1, n 3⟩)) (Any.range ⟨n 4, n 6⟩)
  let r ← inter ((Any.range ⟨n 2, n 6⟩)) (Any.rangeFull)
  let i ← inter (s) (r)
  check (decide ((← collect ((← intoIter (i)))) = [n 2, n 4, n 5]))
  check (!(i).contains (n 0))
  check (!(i).contains (n 1))
  check ((i).contains (n 2))
  check (!(i).contains (n 3))
  check ((i).contains (n 4))
  check ((i).contains (n 5))
  check (!(i).contains (n 6))
  check (!(i).isEmpty)
  let r ← inter ((Any.range ⟨n 10, n 20⟩)) (Any.rangeFull)
  check (((← inter (s) (r))).isEmpty)) := by decide +kernel

/-- `lower_bounded_range`, /repo/src/test/intersection/bounded_set.rs:117-133. -/
example : passes (do
  let s ← union ((Any.range ⟨n 1, n 3⟩)) (Any.range ⟨n 4, n 6⟩)
  let r ← inter ((Any.rangeFrom ⟨n 2⟩)) (Any.rangeFrom ⟨n 1⟩)
  let i ← inter (s) (r)
  check (decide ((← collect ((← intoIter (i)))) = [n 2, n 4, n 5]))
  check (!(i).contains (n 0))
  check (!(i).contains (n 1))
  check ((i).contains (n 2))
  check (!(i).contains (n 3))
  check ((i).contains (n 4))
  check ((i).contains (n 5))
  check (!(i).contains (n 6))
  check (!(i).isEmpty)
  let r ← inter ((Any.rangeFrom ⟨n 10⟩)) (Any.rangeFrom ⟨n 20⟩)
  check (((← inter (s) (r))).isEmpty)) := by decide +kernel

/-- `upper_bounded_range`, /repo/src/test/intersection/bounded_set.rs:135-151. -/
example : passes (do
  let s ← union ((Any.range ⟨n 1, n 3⟩)) (Any.range ⟨n 4, n 6⟩)
  let r ← inter ((Any.rangeTo ⟨n 5⟩)) (Any.rangeTo ⟨n 6⟩)
  let i ← inter (s) (r)
  check (decide ((← collect ((← intoIter (i)))) = [n 1, n 2, n 4]))
  check (!(i).contains (n 0))
  check ((i).contains (n 1))
  check ((i).contains (n 2))
  check (!(i).contains (n 3))
  check ((i).contains (n 4))
  check (!(i).contains (n 5))
  check (!(i).contains (n 6))
  check (!(i).isEmpty)
  let r ← inter ((Any.rangeTo ⟨n 1⟩)) (Any.rangeTo ⟨n 2⟩)
  check (((← inter (s) (r))).isEmpty)) := by decide +kernel

/-- `unbounded_range`, /repo/src/test/intersection/bounded_set.rs:153-168. -/
example : passes (do
  let s ← union ((Any.range ⟨n 1, n 3⟩)) (Any.rangeInclusive ⟨n 4, n 5, false⟩)
  let r ← toInner' ((Any.rangeFull))
  let i ← inter (s) (r)
  check (decide ((← collect ((← intoIter (i)))) = [n 1, n 2, n 4, n 5]))
  check (!(i).contains (n 0))
  check ((i).contains (n 1))
  check ((i).contains (n 2))
  check (!(i).contains (n 3))
  check ((i).contains (n 4))
  check ((i).contains (n 5))
  check (!(i).contains (n 6))
  check (!(i).isEmpty)
  check (((← inter ((← union ((Any.range ⟨n 1, n 1⟩)) (Any.range ⟨n 2, n 2⟩))) (r))).isEmpty)) := by decide +kernel

/-- `empty_range`, /repo/src/test/intersection/bounded_set.rs:170-177. -/
example : passes (do
  let s ← union ((Any.range ⟨n 1, n 3⟩)) (Any.range ⟨n 4, n 5⟩)
  let r : Any I32 := Any.inner .er
  let i ← inter (s) (r)
  check ((i).isEmpty)
  check (decide ((← collect ((← intoIter (i)))) = []))) := by decide +kernel

/-- `bounded_set`, /repo/src/test/intersection/bounded_set.rs:179-195. -/
example : passes (do
  let s1 ← union ((Any.range ⟨n 1, n 3⟩)) (Any.range ⟨n 4, n 6⟩)
  let s2 ← union ((Any.rangeInclusive ⟨n 2, n 2, false⟩)) (Any.range ⟨n 4, n 5⟩)
  let i ← inter (s1) (s2)
  check (decide ((← collect ((← intoIter (i)))) = [n 2, n 4]))
  check (!(i).contains (n 0))
  check (!(i).contains (n 1))
  check ((i).contains (n 2))
  check (!(i).contains (n 3))
  check ((i).contains (n 4))
  check (!(i).contains (n 5))
  check (!(i).contains (n 6))
  check (!(i).isEmpty)
  let s2 ← union ((Any.range ⟨n 10, n 20⟩)) (Any.range ⟨n 30, n 40⟩)
  check (((← inter (s1) (s2))).isEmpty)) := by decide +kernel

/-- `lower_bounded_set`, /repo/src/test/intersection/bounded_set.rs:197-213. -/
example : passes (do
  let s1 ← union ((Any.range ⟨n 1, n 3⟩)) (Any.range ⟨n 4, n 6⟩)
  let s2 ← union ((Any.rangeFrom ⟨n 2⟩)) (Any.rangeFrom ⟨n 3⟩)
  let i ← inter (s1) (s2)
  check (decide ((← collect ((← intoIter (i)))) = [n 2, n 4, n 5]))
  check (!(i).contains (n 0))
  check (!(i).contains (n 1))
  check ((i).contains (n 2))
  check (!(i).contains (n 3))
  check ((i).contains (n 4))
  check ((i).contains (n 5))
  check (!(i).contains (n 6))
  check (!(i).isEmpty)
  let s2 ← union ((Any.rangeFrom ⟨n 10⟩)) (Any.rangeFrom ⟨n 20⟩)
  check (((← inter (s1) (s2))).isEmpty)) := by decide +kernel

/-- `upper_bounded_set`, /repo/src/test/intersection/bounded_set.rs:215-231. -/
example : passes (do
  let s1 ← union ((Any.range ⟨n 1, n 2⟩)) (Any.range ⟨n 3, n 5⟩)
  let s2 ← union ((Any.rangeTo ⟨n 3⟩)) (Any.range ⟨n 4, n 6⟩)
  let i ← inter (s1) (s2)
  check (decide ((← collect ((← intoIter (i)))) = [n 1, n 4]))
  check (!(i).contains (n 0))
  check ((i).contains (n 1))
  check (!(i).contains (n 2))
  check (!(i).contains (n 3))
  check ((i).contains (n 4))
  check (!(i).contains (n 5))
  check (!(i).contains (n 6))
  check (!(i).isEmpty)
  let s2 ← union ((Any.rangeTo ⟨n 1⟩)) (Any.rangeTo ⟨n 0⟩)
  check (((← inter (s1) (s2))).isEmpty)) := by decide +kernel

/-- `unbounded_set`, /repo/src/test/intersection/bounded_set.rs:233-249. -/
example : passes (do
  let s ← union ((Any.range ⟨n 1, n 3⟩)) (Any.rangeInclusive ⟨n 4, n 5, false⟩)
  let r ← union ((← union ((Any.rangeToInclusive ⟨n 1⟩)) (Any.range ⟨n 2, n 3⟩))) (Any.rangeFrom ⟨n 5⟩)
  let i ← inter (s) (r)
  check (decide ((← collect ((← intoIter (i)))) = [n 1, n 2, n 5]))
  check (!(i).contains (n 0))
  check ((i).contains (n 1))
  check ((i).contains (n 2))
  check (!(i).contains (n 3))
  check (!(i).contains (n 4))
  check ((i).contains (n 5))
  check (!(i).contains (n 6))
  check (!(i).isEmpty)
  let r ← union ((← union ((Any.rangeTo ⟨n 1⟩)) (Any.range ⟨n 3, n 4⟩))) (Any.rangeFrom ⟨n 6⟩)
  check (((← inter (s) (r))).isEmpty)) := by decide +kernel

/-- `range`, /repo/src/test/intersection/empty_range.rs:3-9. -/
example : passes (do
  let r : Any I32 := Any.inner .er
  let i ← inter (r) (Any.range ⟨n 1, n 3⟩)
  check ((i).isEmpty)
  check (decide ((← collect ((← intoIter (i)))) = []))) := by decide +kernel

/-- `range_from`, /repo/src/test/intersection/empty_range.rs:11-17. -/
example : passes (do
  let r : Any I32 := Any.inner .er
  let i ← inter (r) (Any.rangeFrom ⟨n 1⟩)
  check ((i).isEmpty)
  check (decide ((← collect ((← intoIter (i)))) = []))) := by decide +kernel

/-- `range_full`, /repo/src/test/intersection/empty_range.rs:19-25. -/
example : passes (do
  let r : Any I32 := Any.inner .er
  let i ← inter (r) (Any.rangeFull)
  check ((i).isEmpty)
  check (decide ((← collect ((← intoIter (i)))) = []))) := by decide +kernel

/-- `range_inclusive`, /repo/src/test/intersection/empty_range.rs:27-33. -/
example : passes (do
  let r : Any I32 := Any.inner .er
  let i ← inter (r) (Any.rangeInclusive ⟨n 1, n 3, false⟩)
  check ((i).isEmpty)
  check (decide ((← collect ((← intoIter (i)))) = []))) := by decide +kernel

/-- `range_to`, /repo/src/test/intersection/empty_range.rs:35-41. -/
example : passes (do
  let r : Any I32 := Any.inner .er
  let i ← inter (r) (Any.rangeTo ⟨n 3⟩)
  check ((i).isEmpty)
  check (decide ((← collect ((← intoIter (i)))) = []))) := by decide +kernel

/-- `range_to_inclusive`, /repo/src/test/intersection/empty_range.rs:43-49. -/
example : passes (do
  let r : Any I32 := Any.inner .er
  let i ← inter (r) (Any.rangeToInclusive ⟨n 3⟩)
  check ((i).isEmpty)
  check (decide ((← collect ((← intoIter (i)))) = []))) := by decide +kernel

/-- `bounded_range`, /repo/src/test/intersection/empty_range.rs:51-58. -/
example : passes (do
  let r1 : Any I32 := Any.inner .er
  let r2 ← inter ((Any.range ⟨n 1, n 3⟩)) (Any.rangeFull)
  let i ← inter (r1) (r2)
  check ((i).isEmpty)
  check (decide ((← collect ((← intoIter (i)))) = []))) := by decide +kernel

/-- `lower_bounded_range`, /repo/src/test/intersection/empty_range.rs:60-67. -/
example : passes (do
  let r1 : Any I32 := Any.inner .er
  let r2 ← inter ((Any.rangeFrom ⟨n 3⟩)) (Any.rangeFull)
  let i ← inter (r1) (r2)
  check ((i).isEmpty)
  check (decide ((← collect ((← intoIter (i)))) = []))) := by decide +kernel

/-- `upper_bounded_range`, /repo/src/test/intersection/empty_range.rs:68-75. -/
example : passes (do
  let r1 : Any I32 := Any.inner .er
  let r2 ← inter ((Any.rangeTo ⟨n 3⟩)) (Any.rangeFull)
  let i ← inter (r1) (r2)
  check ((i).isEmpty)
  check (decide ((← collect ((← intoIter (i)))) = []))) := by decide +kernel

/-- `unbounded_range`, /repo/src/test/intersection/empty_range.rs:76-83. -/
example : passes (do
  let r1 : Any I32 := Any.inner .er
  let r2 ← inter ((Any.rangeFull)) (Any.rangeFull)
  let i ← inter (r1) (r2)
  check ((i).isEmpty)
  check (decide ((← collect ((← intoIter (i)))) = []))) := by decide +kernel

/-- `empty_range`, /repo/src/test/intersection/empty_range.rs:85-92. -/
example : passes (do
  let r1 : Any I32 := Any.inner .er
  let r2 : Any I32 := Any.inner .er
  let i ← inter (r1) (r2)
  check ((i).isEmpty)
  check (decide ((← collect ((← intoIter (i)))) = []))) := by decide +kernel

/-- `bounded_set`, /repo/src/test/intersection/empty_range.rs:94-101. -/
example : passes (do
  let r : Any I32 := Any.inner .er
  let s ← union ((Any.range ⟨n 1, n 3⟩)) (Any.range ⟨n 4, n 6⟩)
  let i ← inter (r) (s)
  check ((i).isEmpty)
  check (decide ((← collect ((← intoIter (i)))) = []))) := by decide +kernel

/-- `lower_bounded_set`, /repo/src/test/intersection/empty_range.rs:103-110. -/
example : passes (do
  let r : Any I32 := Any.inner .er
  let s ← union ((Any.rangeFrom ⟨n 3⟩)) (Any.range ⟨n 0, n 2⟩)
  let i ← inter (r) (s)
  check ((i).isEmpty)
  check (decide ((← collect ((← intoIter (i)))) = []))) := by decide +kernel

/-- `upper_bounded_set`, /repo/src/test/intersection/empty_range.rs:112-119. -/
example : passes (do
  let r : Any I32 := Any.inner .er
  let s ← union ((Any.rangeTo ⟨n 3⟩)) (Any.range ⟨n 4, n 5⟩)
  let i ← inter (r) (s)
  check ((i).isEmpty)
  check (decide ((← collect ((← intoIter (i)))) = []))) := by decide +kernel

/-- `unbounded_set`, /repo/src/test/intersection/empty_range.rs:121-128. -/
example : passes (do
  let r : Any I32 := Any.inner .er
  let s ← union ((← union ((Any.range ⟨n 2, n 3⟩)) (Any.rangeTo ⟨n 1⟩))) (Any.rangeFrom ⟨n 4⟩)
  let i ← inter (r) (s)
  check ((i).isEmpty)
  check (decide ((← collect ((← intoIter (i)))) = []))) := by decide +kernel

/-- `range`, /repo/src/test/intersection/lower_bounded_range.rs:3-16. -/
example : passes (do
  let r ← inter ((Any.rangeFrom ⟨n 1⟩)) (Any.rangeFull)
  let i ← inter (r) (Any.range ⟨n 2, n 4⟩)
  check (decide ((← collect ((← intoIter (i)))) = [n 2, n 3]))
  check (!(i).contains (n 0))
  check (!(i).contains (n 1))
  check ((i).contains (n 2))
  check ((i).contains (n 3))
  check (!(i).contains (n 4))
  check (!(i).contains (n 5))
  check (!(i).isEmpty)
  check (((← inter (r) (Any.range ⟨n 0, n 1⟩))).isEmpty)) := by decide +kernel

/-- `range_from`, /repo/src/test/intersection/lower_bounded_range.rs:18-30. -/
example : passes (do
  let r ← inter ((Any.rangeFrom ⟨n 1⟩)) (Any.rangeFull)
  let i ← inter (r) (Any.rangeFrom ⟨n 2⟩)
  check (decide ((← collectTake 3 ((← intoIter (i)))) = [n 2, n 3, n 4]))
  check (!(i).contains (n 0))
  check (!(i).contains (n 1))
  check ((i).contains (n 2))
  check ((i).contains (n 3))
  check ((i).contains (n 4))
  check ((i).contains (n 5))
  check (!(i).isEmpty)) := by decide +kernel

/-- `range_full`, /repo/src/test/intersection/lower_bounded_range.rs:32-44. -/
example : passes (do
  let r ← inter ((Any.rangeFrom ⟨n 1⟩)) (Any.rangeFull)
  let i ← inter (r) (Any.rangeFull)
  check (decide ((← collectTake 3 ((← intoIter (i)))) = [n 1, n 2, n 3]))
  check (!(i).contains (n 0))
  check ((i).contains (n 1))
  check ((i).contains (n 2))
  check ((i).contains (n 3))
  check ((i).contains (n 4))
  check ((i).contains (n 5))
  check (!(i).isEmpty)) := by decide +kernel

/-- `range_inclusive`, /repo/src/test/intersection/lower_bounded_range.rs:46-59. -/
example : passes (do
  let r ← inter ((Any.rangeFrom ⟨n 1⟩)) (Any.rangeFull)
  let i ← inter (r) (Any.rangeInclusive ⟨n 2, n 4, false⟩)
  check (decide ((← collect ((← intoIter (i)))) = [n 2, n 3, n 4]))
  check (!(i).contains (n 0))
  check (!(i).contains (n 1))
  check ((i).contains (n 2))
  check ((i).contains (n 3))
  check ((i).contains (n 4))
  check (!(i).contains (n 5))
  check (!(i).isEmpty)
  check (((← inter (r) (Any.rangeInclusive ⟨n 0, n 0, false⟩))).isEmpty)) := by decide +kernel

/-- `range_to`, /repo/src/test/intersection/lower_bounded_range.rs:61-74. -/
example : passes (do
  let r ← inter ((Any.rangeFrom ⟨n 1⟩)) (Any.rangeFull)
  let i ← inter (r) (Any.rangeTo ⟨n 4⟩)
  check (decide ((← collect ((← intoIter (i)))) = [n 1, n 2, n 3]))
  check (!(i).contains (n 0))
  check ((i).contains (n 1))
  check ((i).contains (n 2))
  check ((i).contains (n 3))
  check (!(i).contains (n 4))
  check (!(i).contains (n 5))
  check (!(i).isEmpty)
  check (((← inter (r) (Any.rangeTo ⟨n 1⟩))).isEmpty)) := by decide +kernel

/-- `range_to_inclusive`, /repo/src/test/intersection/lower_bounded_range.rs:76-89. -/
example : passes (do
  let r ← inter ((Any.rangeFrom ⟨n 1⟩)) (Any.rangeFull)
  let i ← inter (r) (Any.rangeToInclusive ⟨n 4⟩)
  check (decide ((← collect ((← intoIter (i)))) = [n 1, n 2, n 3, n 4]))
  check (!(i).contains (n 0))
  check ((i).contains (n 1))
  check ((i).contains (n 2))
  check ((i).contains (n 3))
  check ((i).contains (n 4))
  check (!(i).contains (n 5))
  check (!(i).isEmpty)
  check (((← inter (r) (Any.rangeToInclusive ⟨n 0⟩))).isEmpty)) := by decide +kernel

/-- `bounded_range`, /repo/src/test/intersection/lower_bounded_range.rs:91-106. -/
example : passes (do
  let r1 ← inter ((Any.rangeFrom ⟨n 1⟩)) (Any.rangeFull)
  let r2 ← inter ((Any.range ⟨n 2, n 5⟩)) (Any.rangeFull)
  let i ← inter (r1) (r2)
  check (decide ((← collect ((← intoIter (i)))) = [n 2, n 3, n 4]))
  check (!(i).contains (n 0))
  check (!(i).contains (n 1))
  check ((i).contains (n 2))
  check ((i).contains (n 3))
  check ((i).contains (n 4))
  check (!(i).contains (n 5))
  check (!(i).isEmpty)
  let r3 ← inter ((Any.range ⟨n 0, n 1⟩)) (Any.rangeFull)
  check (((← inter (r1) (r3))).isEmpty)) := by decide +kernel

/-- `lower_bounded_range`, /repo/src/test/intersection/lower_bounded_range.rs:108-121. -/
example : passes (do
  let r1 ← inter ((Any.rangeFrom ⟨n 1⟩)) (Any.rangeFull)
  let r2 ← inter ((Any.rangeFrom ⟨n 2⟩)) (Any.rangeFull)
  let i ← inter (r1) (r2)
  check (decide ((← collectTake 3 ((← intoIter (i)))) = [n 2, n 3, n 4]))
  check (!(i).contains (n 0))
  check (!(i).contains (n 1))
  check ((i).contains (n 2))
  check ((i).contains (n 3))
  check ((i).contains (n 4))
  check ((i).contains (n 5))
  check (!(i).isEmpty)) := by decide +kernel

/-- `upper_bounded_range`, /repo/src/test/intersection/lower_bounded_range.rs:123-138. -/
example : passes (do
  let r1 ← inter ((Any.rangeFrom ⟨n 1⟩)) (Any.rangeFull)
  let r2 ← inter ((Any.rangeTo ⟨n 5⟩)) (Any.rangeFull)
  let i ← inter (r1) (r2)
  check (decide ((← collect ((← intoIter (i)))) = [n 1, n 2, n 3, n 4]))
  check (!(i).contains (n 0))
  check ((i).contains (n 1))
  check ((i).contains (n 2))
  check ((i).contains (n 3))
  check ((i).contains (n 4))
  check (!(i).contains (n 5))
  check (!(i).isEmpty)
  let r3 ← inter ((Any.rangeTo ⟨n 1⟩)) (Any.rangeFull)
  check (((← inter (r1) (r3))).isEmpty)) := by decide +kernel

/-- `unbounded_range`, /repo/src/test/intersection/lower_bounded_range.rs:140-153. -/
example : passes (do
  let r1 ← inter ((Any.rangeFrom ⟨n 1⟩)) (Any.rangeFull)
  let r2 ← inter ((Any.rangeFull)) (Any.rangeFull)
  let i ← inter (r1) (r2)
  check (decide ((← collectTake 3 ((← intoIter (i)))) = [n 1, n 2, n 3]))
  check (!(i).contains (n 0))
  check ((i).contains (n 1))
  check ((i).contains (n 2))
  check ((i).contains (n 3))
  check ((i).contains (n 4))
  check ((i).contains (n 5))
  check (!(i).isEmpty)) := by decide +kernel

/-- `empty_range`, /repo/src/test/intersection/lower_bounded_range.rs:155-162. -/
example : passes (do
  let r1 ← inter ((Any.rangeFrom ⟨n 1⟩)) (Any.rangeFull)
  let r2 : Any I32 := Any.inner .er
  let i ← inter (r1) (r2)
  check ((i).isEmpty)
  check (decide ((← collect ((← intoIter (i)))) = []))) := by decide +kernel

/-- `bounded_set`, /repo/src/test/intersection/lower_bounded_range.rs:164-179. -/
example : passes (do
  let r ← inter ((Any.rangeFrom ⟨n 1⟩)) (Any.rangeFrom ⟨n 2⟩)
  let s ← union ((Any.range ⟨n 2, n 3⟩)) (Any.range ⟨n 4, n 5⟩)
  let i ← inter (r) (s)
  check (decide ((← collect ((← intoIter (i)))) = [n 2, n 4]))
  check (!(i).contains (n 0))
  check (!(i).contains (n 1))
  check ((i).contains (n 2))
  check (!(i).contains (n 3))
  check ((i).contains (n 4))
  check (!(i).contains (n 5))
  check (!(i).isEmpty)
  let s ← union ((Any.range ⟨n 0, n 1⟩)) (Any.range ⟨n 0, n 1⟩)
  check (((← inter (r) (s))).isEmpty)) := by decide +kernel

/-- `lower_bounded_set`, /repo/src/test/intersection/lower_bounded_range.rs:181-193. -/
example : passes (do
  let r ← inter ((Any.rangeFrom ⟨n 1⟩)) (Any.rangeFrom ⟨n 2⟩)
  let s ← union ((Any.range ⟨n 0, n 2⟩)) (Any.rangeFrom ⟨n 4⟩)
  let i ← inter (r) (s)
  check (!(i).contains (n 0))
  check (!(i).contains (n 1))
  check (!(i).contains (n 2))
  check (!(i).contains (n 3))
  check ((i).contains (n 4))
  check ((i).contains (n 5))
  check (!(i).isEmpty)) := by decide +kernel

/-- `upper_bounded_set`, /repo/src/test/intersection/lower_bounded_range.rs:195-210. -/
example : passes (do
  let r ← toInner' ((Any.rangeFrom ⟨n 1⟩))
  let s ← union ((Any.rangeTo ⟨n 2⟩)) (Any.range ⟨n 3, n 4⟩)
  let i ← inter (r) (s)
  check (decide ((← collect ((← intoIter (i)))) = [n 1, n 3]))
  check (!(i).contains (n 0))
  check ((i).contains (n 1))
  check (!(i).contains (n 2))
  check ((i).contains (n 3))
  check (!(i).contains (n 4))
  check (!(i).contains (n 5))
  check (!(i).isEmpty)
  let s ← union ((Any.rangeTo ⟨n 1⟩)) (Any.rangeTo ⟨n 1⟩)
  check (((← inter (r) (s))).isEmpty)) := by decide +kernel

/-- `unbounded_set`, /repo/src/test/intersection/lower_bounded_range.rs:212-224. -/
example : passes (do
  let r ← inter ((Any.rangeFrom ⟨n 1⟩)) (Any.rangeFrom ⟨n 2⟩)
  let s ← union ((← union ((Any.rangeTo ⟨n 1⟩)) (Any.range ⟨n 2, n 3⟩))) (Any.rangeFrom ⟨n 4⟩)
  let i ← inter (r) (s)
  check (!(i).contains (n 0))
  check (!(i).contains (n 1))
  check ((i).contains (n 2))
  check (!(i).contains (n 3))
  check ((i).contains (n 4))
  check ((i).contains (n 5))
  check (!(i).isEmpty)) := by decide +kernel

/-- `range`, /repo/src/test/intersection/lower_bounded_set.rs:3-16. -/
example : passes (do
  let s ← union ((Any.range ⟨n 1, n 2⟩)) (Any.rangeFrom ⟨n 3⟩)
  let i ← inter (s) (Any.range ⟨n 1, n 4⟩)
  check (decide ((← collect ((← intoIter (i)))) = [n 1, n 3]))
  check (!(i).contains (n 0))
  check ((i).contains (n 1))
  check (!(i).contains (n 2))
  check ((i).contains (n 3))
  check (!(i).contains (n 4))
  check (!(i).contains (n 5))
  check (!(i).isEmpty)
  check (((← inter (s) (Any.range ⟨n 2, n 3⟩))).isEmpty)) := by decide +kernel

/-- `range_from`, /repo/src/test/intersection/lower_bounded_set.rs:18-33. -/
example : passes (do
  let s ← union ((Any.range ⟨n 1, n 2⟩)) (Any.rangeFrom ⟨n 3⟩)
  let i ← inter (s) (Any.rangeFrom ⟨n 1⟩)
  check (decide ((← collectTake 3 ((← intoIter (i)))) = [n 1, n 3, n 4]))
  check (!(i).contains (n 0))
  check ((i).contains (n 1))
  check (!(i).contains (n 2))
  check ((i).contains (n 3))
  check ((i).contains (n 4))
  check ((i).contains (n 5))
  check (!(i).isEmpty)) := by decide +kernel

/-- `range_full`, /repo/src/test/intersection/lower_bounded_set.rs:35-50. -/
example : passes (do
  let s ← union ((Any.range ⟨n 1, n 2⟩)) (Any.rangeFrom ⟨n 3⟩)
  let i ← inter (s) (Any.rangeFull)
  check (decide ((← collectTake 3 ((← intoIter (i)))) = [n 1, n 3, n 4]))
  check (!(i).contains (n 0))
  check ((i).contains (n 1))
  check (!(i).contains (n 2))
  check ((i).contains (n 3))
  check ((i).contains (n 4))
  check ((i).contains (n 5))
  check (!(i).isEmpty)) := by decide +kernel

/-- `range_inclusive`, /repo/src/test/intersection/lower_bounded_set.rs:52-65. -/
example : passes (do
  let s ← union ((Any.range ⟨n 1, n 2⟩)) (Any.rangeFrom ⟨n 3⟩)
  let i ← inter (s) (Any.rangeInclusive ⟨n 1, n 4, false⟩)
  check (decide ((← collect ((← intoIter (i)))) = [n 1, n 3, n 4]))
  check (!(i).contains (n 0))
  check ((i).contains (n 1))
  check (!(i).contains (n 2))
  check ((i).contains (n 3))
  check ((i).contains (n 4))
  check (!(i).contains (n 5))
  check (!(i).isEmpty)
  check (((← inter (s) (Any.rangeInclusive ⟨n 2, n 2, false⟩))).isEmpty)) := by decide +kernel

/-- `range_to`, /repo/src/test/intersection/lower_bounded_set.rs:67-80. -/
example : passes (do
  let s ← union ((Any.range ⟨n 1, n 2⟩)) (Any.rangeFrom ⟨n 3⟩)
  let i ← inter (s) (Any.rangeTo ⟨n 5⟩)
  check (decide ((← collect ((← intoIter (i)))) = [n 1, n 3, n 4]))
  check (!(i).contains (n 0))
  check ((i).contains (n 1))
  check (!(i).contains (n 2))
  check ((i).contains (n 3))
  check ((i).contains (n 4))
  check (!(i).contains (n 5))
  check (!(i).isEmpty)
  check (((← inter (s) (Any.rangeTo ⟨n 1⟩))).isEmpty)) := by decide +kernel

/-- `range_to_inclusive`, /repo/src/test/intersection/lower_bounded_set.rs:82-95. -/
example : passes (do
  let s ← union ((Any.range ⟨n 1, n 2⟩)) (Any.rangeFrom ⟨n 3⟩)
  let i ← inter (s) (Any.rangeToInclusive ⟨n 5⟩)
  check (decide ((← collect ((← intoIter (i)))) = [n 1, n 3, n 4, n 5]))
  check (!(i).contains (n 0))
  check ((i).contains (n 1))
  check (!(i).contains (n 2))
  check ((i).contains (n 3))
  check ((i).contains (n 4))
  check ((i).contains (n 5))
  check (!(i).isEmpty)
  check (((← inter (s) (Any.rangeToInclusive ⟨n 0⟩))).isEmpty)) := by decide +kernel

/-- `bounded_range`, /repo/src/test/intersection/lower_bounded_set.rs:97-112. -/
example : passes (do
  let s ← union ((Any.range ⟨n 1, n 2⟩)) (Any.rangeFrom ⟨n 3⟩)
  let r ← inter ((Any.range ⟨n 0, n 8⟩)) (Any.range ⟨n 1, n 5⟩)
  let i ← inter (s) (r)
  check (decide ((← collect ((← intoIter (i)))) = [n 1, n 3, n 4]))
  check (!(i).contains (n 0))
  check ((i).contains (n 1))
  check (!(i).contains (n 2))
  check ((i).contains (n 3))
  check ((i).contains (n 4))
  check (!(i).contains (n 5))
  check (!(i).isEmpty)
  let r ← inter ((Any.range ⟨n 0, n 1⟩)) (Any.range ⟨n 0, n 3⟩)
  check (((← inter (s) (r))).isEmpty)) := by decide +kernel

/-- `lower_bounded_range`, /repo/src/test/intersection/lower_bounded_set.rs:114-130. -/
example : passes (do
  let s ← union ((Any.range ⟨n 1, n 2⟩)) (Any.rangeFrom ⟨n 3⟩)
  let r ← inter ((Any.rangeFrom ⟨n 1⟩)) (Any.rangeFull)
  let i ← inter (s) (r)
  check (decide ((← collectTake 3 ((← intoIter (i)))) = [n 1, n 3, n 4]))
  check (!(i).contains (n 0))
  check ((i).contains (n 1))
  check (!(i).contains (n 2))
  check ((i).contains (n 3))
  check ((i).contains (n 4))
  check ((i).contains (n 5))
  check (!(i).isEmpty)) := by decide +kernel

/-- `upper_bounded_range`, /repo/src/test/intersection/lower_bounded_set.rs:132-147. -/
example : passes (do
  let s ← union ((Any.range ⟨n 1, n 2⟩)) (Any.rangeFrom ⟨n 3⟩)
  let r ← inter ((Any.rangeTo ⟨n 5⟩)) (Any.rangeFull)
  let i ← inter (s) (r)
  check (decide ((← collect ((← intoIter (i)))) = [n 1, n 3, n 4]))
  check (!(i).contains (n 0))
  check ((i).contains (n 1))
  check (!(i).contains (n 2))
  check ((i).contains (n 3))
  check ((i).contains (n 4))
  check (!(i).contains (n 5))
  check (!(i).isEmpty)
  let r ← inter ((Any.range ⟨n 0, n 1⟩)) (Any.rangeFull)
  check (((← inter (s) (r))).isEmpty)) := by decide +kernel

/-- `unbounded_range`, /repo/src/test/intersection/lower_bounded_set.rs:149-165. -/
example : passes (do
  let s ← union ((Any.range ⟨n 1, n 2⟩)) (Any.rangeFrom ⟨n 3⟩)
  let r ← toInner' ((Any.rangeFull))
  let i ← inter (s) (r)
  check (decide ((← collectTake 3 ((← intoIter (i)))) = [n 1, n 3, n 4]))
  check (!(i).contains (n 0))
  check ((i).contains (n 1))
  check (!(i).contains (n 2))
  check ((i).contains (n 3))
  check ((i).contains (n 4))
  check ((i).contains (n 5))
  check (!(i).isEmpty)) := by decide +kernel

/-- `empty_range`, /repo/src/test/intersection/lower_bounded_set.rs:167-174. -/
example : passes (do
  let s ← union ((Any.range ⟨n 1, n 2⟩)) (Any.rangeFrom ⟨n 3⟩)
  let r : Any I32 := Any.inner .er
  let i ← inter (s) (r)
  check ((i).isEmpty)
  check (decide ((← collect ((← intoIter (i)))) = []))) := by decide +kernel

/-- `bounded_set`, /repo/src/test/intersection/lower_bounded_set.rs:176-191. -/
example : passes (do
  let s1 ← union ((Any.range ⟨n 1, n 2⟩)) (Any.rangeFrom ⟨n 3⟩)
  let s2 ← union ((Any.range ⟨n 0, n 3⟩)) (Any.range ⟨n 3, n 5⟩)
  let i ← inter (s1) (s2)
  check (decide ((← collect ((← intoIter (i)))) = [n 1, n 3, n 4]))
  check (!(i).contains (n 0))
  check ((i).contains (n 1))
  check (!(i).contains (n 2))
  check ((i).contains (n 3))
  check ((i).contains (n 4))
  check (!(i).contains (n 5))
  check (!(i).isEmpty)
  let s3 ← union ((Any.range ⟨n 0, n 1⟩)) (Any.range ⟨n 4, n 1⟩)
  check (((← inter (s1) (s3))).isEmpty)) := by decide +kernel

/-- `lower_bounded_set`, /repo/src/test/intersection/lower_bounded_set.rs:193-209. -/
example : passes (do
  let s1 ← union ((Any.range ⟨n 1, n 2⟩)) (Any.rangeFrom ⟨n 3⟩)
  let s2 ← union ((Any.range ⟨n 0, n 2⟩)) (Any.rangeFrom ⟨n 4⟩)
  let i ← inter (s1) (s2)
  check (decide ((← collectTake 3 ((← intoIter (i)))) = [n 1, n 4, n 5]))
  check (!(i).contains (n 0))
  check ((i).contains (n 1))
  check (!(i).contains (n 2))
  check (!(i).contains (n 3))
  check ((i).contains (n 4))
  check ((i).contains (n 5))
  check (!(i).isEmpty)) := by decide +kernel

/-- `upper_bounded_set`, /repo/src/test/intersection/lower_bounded_set.rs:211-226. -/
example : passes (do
  let s1 ← union ((Any.range ⟨n 1, n 2⟩)) (Any.rangeFrom ⟨n 3⟩)
  let s2 ← union ((Any.rangeTo ⟨n 3⟩)) (Any.range ⟨n 4, n 5⟩)
  let i ← inter (s1) (s2)
  check (decide ((← collect ((← intoIter (i)))) = [n 1, n 4]))
  check (!(i).contains (n 0))
  check ((i).contains (n 1))
  check (!(i).contains (n 2))
  check (!(i).contains (n 3))
  check ((i).contains (n 4))
  check (!(i).contains (n 5))
  check (!(i).isEmpty)
  let s2 ← union ((Any.rangeTo ⟨n 1⟩)) (Any.range ⟨n 2, n 3⟩)
  check (((← inter (s1) (s2))).isEmpty)) := by decide +kernel

/-- `unbounded_set`, /repo/src/test/intersection/lower_bounded_set.rs:228-244. -/
example : passes (do
  let s ← union ((Any.range ⟨n 1, n 2⟩)) (Any.rangeFrom ⟨n 3⟩)
  let r ← union ((← union ((Any.rangeTo ⟨n 3⟩)) (Any.range ⟨n 3, n 4⟩))) (Any.rangeFrom ⟨n 5⟩)
  let i ← inter (s) (r)
  check (decide ((← collectTake 3 ((← intoIter (i)))) = [n 1, n 3, n 5]))
  check (!(i).contains (n 0))
  check ((i).contains (n 1))
  check (!(i).contains (n 2))
  check ((i).contains (n 3))
  check (!(i).contains (n 4))
  check ((i).contains (n 5))
  check (!(i).isEmpty)) := by decide +kernel

/-- `range`, /repo/src/test/intersection/range.rs:3-17. -/
example : passes (do
  let i ← inter ((Any.range ⟨n 0, n 3⟩)) (Any.range ⟨n 1, n 5⟩)
  check (decide ((← collect ((← intoIter (i)))) = [n 1, n 2]))
  check (!(i).contains (n (-1)))
  check (!(i).contains (n 0))
  check ((i).contains (n 1))
  check ((i).contains (n 2))
  check (!(i).contains (n 3))
  check (!(i).contains (n 4))
  check (!(i).contains (n 5))
  check (!(i).contains (n 6))
  check (!(i).isEmpty)
  check (((← inter ((Any.range ⟨n 0, n 10⟩)) (Any.range ⟨n 10, n 20⟩))).isEmpty)) := by decide +kernel

/-- `range_from`, /repo/src/test/intersection/range.rs:19-31. -/
example : passes (do
  let i ← inter ((Any.range ⟨n 0, n 5⟩)) (Any.rangeFrom ⟨n 3⟩)
  check (decide ((← collect ((← intoIter (i)))) = [n 3, n 4]))
  check (!(i).contains (n 1))
  check (!(i).contains (n 2))
  check ((i).contains (n 3))
  check ((i).contains (n 4))
  check (!(i).contains (n 5))
  check (!(i).contains (n 6))
  check (!(i).isEmpty)
  check (((← inter ((Any.range ⟨n 0, n 3⟩)) (Any.rangeFrom ⟨n 3⟩))).isEmpty)) := by decide +kernel

/-- `range_full`, /repo/src/test/intersection/range.rs:33-47. -/
example : passes (do
  let i ← inter ((Any.range ⟨n 0, n 5⟩)) (Any.rangeFull)
  check (decide ((← collect ((← intoIter (i)))) = [n 0, n 1, n 2, n 3, n 4]))
  check (!(i).contains (n (-1)))
  check ((i).contains (n 0))
  check ((i).contains (n 1))
  check ((i).contains (n 2))
  check ((i).contains (n 3))
  check ((i).contains (n 4))
  check (!(i).contains (n 5))
  check (!(i).contains (n 6))
  check (!(i).isEmpty)
  check (!((← inter ((Any.range ⟨n 0, n 3⟩)) (Any.rangeFull))).isEmpty)) := by decide +kernel

/-- `range_inclusive`, /repo/src/test/intersection/range.rs:49-63. -/
example : passes (do
  let i ← inter ((Any.range ⟨n 0, n 5⟩)) (Any.rangeInclusive ⟨n 1, n 3, false⟩)
  check (decide ((← collect ((← intoIter (i)))) = [n 1, n 2, n 3]))
  check (!(i).contains (n 0))
  check (!(i).contains (n 0))
  check ((i).contains (n 1))
  check ((i).contains (n 2))
  check ((i).contains (n 3))
  check (!(i).contains (n 4))
  check (!(i).contains (n 5))
  check (!(i).contains (n 6))
  check (!(i).isEmpty)
  check (((← inter ((Any.range ⟨n 0, n 3⟩)) (Any.rangeInclusive ⟨n 3, n 5, false⟩))).isEmpty)) := by decide +kernel

/-- `range_to`, /repo/src/test/intersection/range.rs:65-77. -/
example : passes (do
  let i ← inter ((Any.range ⟨n 0, n 5⟩)) (Any.rangeTo ⟨n 3⟩)
  check (decide ((← collect ((← intoIter (i)))) = [n 0, n 1, n 2]))
  check (!(i).contains (n (-1)))
  check ((i).contains (n 0))
  check ((i).contains (n 1))
  check ((i).contains (n 2))
  check (!(i).contains (n 3))
  check (!(i).contains (n 4))
  check (!(i).isEmpty)
  check (((← inter ((Any.range ⟨n 5, n 10⟩)) (Any.rangeTo ⟨n 5⟩))).isEmpty)) := by decide +kernel

/-- `range_to_inclusive`, /repo/src/test/intersection/range.rs:79-91. -/
example : passes (do
  let i ← inter ((Any.range ⟨n 0, n 5⟩)) (Any.rangeTo ⟨n 3⟩)
  check (decide ((← collect ((← intoIter (i)))) = [n 0, n 1, n 2]))
  check (!(i).contains (n (-1)))
  check ((i).contains (n 0))
  check ((i).contains (n 1))
  check ((i).contains (n 2))
  check (!(i).contains (n 3))
  check (!(i).contains (n 4))
  check (!((i).isEmpty))
  check (((← inter ((Any.range ⟨n 5, n 10⟩)) (Any.rangeInclusive ⟨n 0, n 4, false⟩))).isEmpty)) := by decide +kernel

/-- `bounded_range`, /repo/src/test/intersection/range.rs:93-107. -/
example : passes (do
  let i ← inter ((Any.range ⟨n 0, n 3⟩)) ((← inter ((Any.range ⟨n 1, n 5⟩)) (Any.range ⟨n 2, n 4⟩)))
  check (decide ((← collect ((← intoIter (i)))) = [n 2]))
  check (!(i).contains (n 0))
  check (!(i).contains (n 1))
  check ((i).contains (n 2))
  check (!(i).contains (n 3))
  check (!(i).contains (n 4))
  check (!(i).contains (n 5))
  check (!(i).isEmpty)
  check (((← inter ((Any.range ⟨n 0, n 3⟩)) ((← inter ((Any.range ⟨n 10, n 20⟩)) (Any.range ⟨n 15, n 17⟩))))).isEmpty)) := by decide +kernel

/-- `lower_bounded_range`, /repo/src/test/intersection/range.rs:109-121. -/
example : passes (do
  let i ← inter ((Any.range ⟨n 0, n 3⟩)) ((← inter ((Any.rangeFrom ⟨n 1⟩)) (Any.rangeFull)))
  check (decide ((← collect ((← intoIter (i)))) = [n 1, n 2]))
  check (!(i).contains (n 0))
  check ((i).contains (n 1))
  check ((i).contains (n 2))
  check (!(i).contains (n 3))
  check (!(i).contains (n 4))
  check (!(i).contains (n 5))
  check (!(i).isEmpty)
  check (((← inter ((Any.range ⟨n 0, n 3⟩)) ((← inter ((Any.rangeFrom ⟨n 10⟩)) (Any.rangeFull))))).isEmpty)) := by decide +kernel

/-- `upper_bounded_range`, /repo/src/test/intersection/range.rs:123-135. -/
example : passes (do
  let i ← inter ((Any.range ⟨n 0, n 3⟩)) ((← inter ((Any.rangeTo ⟨n 2⟩)) (Any.rangeFull)))
  check (decide ((← collect ((← intoIter (i)))) = [n 0, n 1]))
  check ((i).contains (n 0))
  check ((i).contains (n 1))
  check (!(i).contains (n 2))
  check (!(i).contains (n 3))
  check (!(i).contains (n 4))
  check (!(i).contains (n 5))
  check (!(i).isEmpty)
  check (((← inter ((Any.range ⟨n 5, n 10⟩)) ((← inter ((Any.rangeTo ⟨n 3⟩)) (Any.rangeFull))))).isEmpty)) := by decide +kernel

/-- `unbounded_range`, /repo/src/test/intersection/range.rs:137-147. -/
example : passes (do
  let i ← inter ((Any.range ⟨n 0, n 3⟩)) ((← inter ((Any.rangeFull)) (Any.rangeFull)))
  check (!(i).contains (n (-1)))
  check ((i).contains (n 0))
  check ((i).contains (n 1))
  check ((i).contains (n 2))
  check (!(i).contains (n 3))
  check (!(i).contains (n 4))
  check (!(i).isEmpty)) := by decide +kernel

/-- `empty_range`, /repo/src/test/intersection/range.rs:149-156. -/
example : passes (do
  let r1 : Any I32 := Any.range ⟨n 0, n 3⟩
  let r2 : Any I32 := Any.inner .er
  let i ← inter (r1) (r2)
  check ((i).isEmpty)
  check (decide ((← collect ((← intoIter (i)))) = []))) := by decide +kernel

/-- `bounded_set`, /repo/src/test/intersection/range.rs:158-172. -/
example : passes (do
  let s ← union ((Any.range ⟨n 1, n 3⟩)) (Any.range ⟨n 4, n 6⟩)
  let i ← inter ((Any.range ⟨n 2, n 6⟩)) (s)
  check (decide ((← collect ((← intoIter (i)))) = [n 2, n 4, n 5]))
  check (!(i).contains (n 0))
  check (!(i).contains (n 1))
  check ((i).contains (n 2))
  check (!(i).contains (n 3))
  check ((i).contains (n 4))
  check ((i).contains (n 5))
  check (!(i).contains (n 6))
  check (!(i).isEmpty)
  check (((← inter ((Any.range ⟨n 10, n 15⟩)) (s))).isEmpty)) := by decide +kernel

/-- `lower_bounded_set`, /repo/src/test/intersection/range.rs:174-188. -/
example : passes (do
  let s ← union ((Any.range ⟨n 1, n 2⟩)) (Any.rangeFrom ⟨n 3⟩)
  let i ← inter ((Any.range ⟨n 1, n 5⟩)) (s)
  check (decide ((← collect ((← intoIter (i)))) = [n 1, n 3, n 4]))
  check (!(i).contains (n 0))
  check ((i).contains (n 1))
  check (!(i).contains (n 2))
  check ((i).contains (n 3))
  check ((i).contains (n 4))
  check (!(i).contains (n 5))
  check (!(i).contains (n 6))
  check (!(i).isEmpty)
  check (((← inter ((Any.range ⟨n 0, n 1⟩)) (s))).isEmpty)) := by decide +kernel

/-- `upper_bounded_set`, /repo/src/test/intersection/range.rs:190-204. -/
example : passes (do
  let s ← union ((Any.rangeTo ⟨n 2⟩)) (Any.range ⟨n 3, n 5⟩)
  let i ← inter ((Any.range ⟨n 1, n 4⟩)) (s)
  check (decide ((← collect ((← intoIter (i)))) = [n 1, n 3]))
  check (!(i).contains (n 0))
  check ((i).contains (n 1))
  check (!(i).contains (n 2))
  check ((i).contains (n 3))
  check (!(i).contains (n 4))
  check (!(i).contains (n 5))
  check (!(i).contains (n 6))
  check (!(i).isEmpty)
  check (((← inter ((Any.range ⟨n 5, n 6⟩)) (s))).isEmpty)) := by decide +kernel

/-- `unbounded_set`, /repo/src/test/intersection/range.rs:206-220. -/
example : passes (do
  let s ← union ((← union ((Any.rangeTo ⟨n 2⟩)) (Any.range ⟨n 3, n 4⟩))) (Any.rangeFrom ⟨n 5⟩)
  let i ← inter ((Any.range ⟨n 1, n 6⟩)) (s)
  check (decide ((← collect ((← intoIter (i)))) = [n 1, n 3, n 5]))
  check (!(i).contains (n 0))
  check ((i).contains (n 1))
  check (!(i).contains (n 2))
  check ((i).contains (n 3))
  check (!(i).contains (n 4))
  check ((i).contains (n 5))
  check (!(i).contains (n 6))
  check (!(i).isEmpty)
  check (((← inter ((Any.range ⟨n 2, n 3⟩)) (s))).isEmpty)) := by decide +kernel

/-- `range`, /repo/src/test/intersection/range_from.rs:3-15. -/
example : passes (do
  let i ← inter ((Any.rangeFrom ⟨n 3⟩)) (Any.range ⟨n 1, n 5⟩)
  check (decide ((← collect ((← intoIter (i)))) = [n 3, n 4]))
  check (!(i).contains (n 0))
  check (!(i).contains (n 1))
  check (!(i).contains (n 2))
  check ((i).contains (n 3))
  check ((i).contains (n 4))
  check (!(i).contains (n 5))
  check (!(i).isEmpty)
  check (((← inter ((Any.rangeFrom ⟨n 3⟩)) (Any.range ⟨n 1, n 1⟩))).isEmpty)) := by decide +kernel

/-- `range_from`, /repo/src/test/intersection/range_from.rs:17-29. -/
example : passes (do
  let i ← inter ((Any.rangeFrom ⟨n 3⟩)) (Any.rangeFrom ⟨n 5⟩)
  check (decide ((← collectTake 3 ((← intoIter (i)))) = [n 5, n 6, n 7]))
  check (!(i).contains (n 0))
  check (!(i).contains (n 1))
  check (!(i).contains (n 2))
  check (!(i).contains (n 3))
  check (!(i).contains (n 4))
  check ((i).contains (n 5))
  check ((i).contains (n 6))
  check (!(i).isEmpty)) := by decide +kernel

/-- `range_full`, /repo/src/test/intersection/range_from.rs:31-41. -/
example : passes (do
  let i ← inter ((Any.rangeFrom ⟨n 3⟩)) (Any.rangeFull)
  check (!(i).contains (n 0))
  check (!(i).contains (n 1))
  check (!(i).contains (n 2))
  check ((i).contains (n 3))
  check ((i).contains (n 4))
  check ((i).contains (n 5))
  check (!(i).isEmpty)) := by decide +kernel

/-- `range_inclusive`, /repo/src/test/intersection/range_from.rs:43-56. -/
example : passes (do
  let i ← inter ((Any.rangeFrom ⟨n 3⟩)) (Any.rangeInclusive ⟨n 1, n 5, false⟩)
  check (decide ((← collect ((← intoIter (i)))) = [n 3, n 4, n 5]))
  check (!(i).contains (n 0))
  check (!(i).contains (n 1))
  check (!(i).contains (n 2))
  check ((i).contains (n 3))
  check ((i).contains (n 4))
  check ((i).contains (n 5))
  check (!(i).contains (n 6))
  check (!(i).isEmpty)
  check (((← inter ((Any.rangeFrom ⟨n 3⟩)) (Any.rangeInclusive ⟨n 1, n 0, false⟩))).isEmpty)) := by decide +kernel

/-- `range_to`, /repo/src/test/intersection/range_from.rs:58-70. -/
example : passes (do
  let i ← inter ((Any.rangeFrom ⟨n 3⟩)) (Any.rangeTo ⟨n 5⟩)
  check (decide ((← collect ((← intoIter (i)))) = [n 3, n 4]))
  check (!(i).contains (n 0))
  check (!(i).contains (n 1))
  check (!(i).contains (n 2))
  check ((i).contains (n 3))
  check ((i).contains (n 4))
  check (!(i).contains (n 5))
  check (!(i).contains (n 6))
  check (((← inter ((Any.rangeFrom ⟨n 10⟩)) (Any.rangeTo ⟨n 5⟩))).isEmpty)) := by decide +kernel

/-- `range_to_inclusive`, /repo/src/test/intersection/range_from.rs:72-85. -/
example : passes (do
  let i ← inter ((Any.rangeFrom ⟨n 3⟩)) (Any.rangeToInclusive ⟨n 5⟩)
  check (decide ((← collect ((← intoIter (i)))) = [n 3, n 4, n 5]))
  check (!(i).contains (n 0))
  check (!(i).contains (n 1))
  check (!(i).contains (n 2))
  check ((i).contains (n 3))
  check ((i).contains (n 4))
  check ((i).contains (n 5))
  check (!(i).contains (n 6))
  check (!(i).isEmpty)
  check (((← inter ((Any.rangeFrom ⟨n 10⟩)) (Any.rangeToInclusive ⟨n 5⟩))).isEmpty)) := by decide +kernel

/-- `bounded_range`, /repo/src/test/intersection/range_from.rs:87-101. -/
example : passes (do
  let br ← inter ((Any.range ⟨n 2, n 5⟩)) (Any.rangeFull)
  let i ← inter ((Any.rangeFrom ⟨n 1⟩)) (br)
  check (decide ((← collect ((← intoIter (i)))) = [n 2, n 3, n 4]))
  check (!(i).contains (n 0))
  check (!(i).contains (n 1))
  check ((i).contains (n 2))
  check ((i).contains (n 3))
  check ((i).contains (n 4))
  check (!(i).contains (n 5))
  check (!(i).contains (n 6))
  check (!(i).isEmpty)
  check (((← inter ((Any.rangeFrom ⟨n 10⟩)) (br))).isEmpty)) := by decide +kernel

/-- `lower_bounded_range`, /repo/src/test/intersection/range_from.rs:103-116. -/
example : passes (do
  let br ← inter ((Any.rangeFrom ⟨n 2⟩)) (Any.rangeFull)
  let i ← inter ((Any.rangeFrom ⟨n 3⟩)) (br)
  check (decide ((← collectTake 3 ((← intoIter (i)))) = [n 3, n 4, n 5]))
  check (!(i).contains (n 0))
  check (!(i).contains (n 1))
  check (!(i).contains (n 2))
  check ((i).contains (n 3))
  check ((i).contains (n 4))
  check ((i).contains (n 5))
  check ((i).contains (n 6))
  check (!(i).isEmpty)) := by decide +kernel

/-- `upper_bounded_range`, /repo/src/test/intersection/range_from.rs:117-132. -/
example : passes (do
  let r ← inter ((Any.rangeTo ⟨n 5⟩)) (Any.rangeFull)
  let i ← inter ((Any.rangeFrom ⟨n 3⟩)) (r)
  check (decide ((← collect ((← intoIter (i)))) = [n 3, n 4]))
  check (!(i).contains (n 0))
  check (!(i).contains (n 1))
  check (!(i).contains (n 2))
  check ((i).contains (n 3))
  check ((i).contains (n 4))
  check (!(i).contains (n 5))
  check (!(i).contains (n 6))
  check (!(i).isEmpty)
  let r2 ← inter ((Any.rangeTo ⟨n 1⟩)) (Any.rangeFull)
  check (((← inter ((Any.rangeFrom ⟨n 3⟩)) (r2))).isEmpty)) := by decide +kernel

/-- `unbounded_range`, /repo/src/test/intersection/range_from.rs:133-145. -/
example : passes (do
  let r ← inter ((Any.rangeFull)) (Any.rangeFull)
  let i ← inter ((Any.rangeFrom ⟨n 3⟩)) (r)
  check (decide ((← collectTake 3 ((← intoIter (i)))) = [n 3, n 4, n 5]))
  check (!(i).contains (n 0))
  check (!(i).contains (n 1))
  check (!(i).contains (n 2))
  check ((i).contains (n 3))
  check ((i).contains (n 4))
  check ((i).contains (n 5))
  check (!(i).isEmpty)) := by decide +kernel

/-- `empty_range`, /repo/src/test/intersection/range_from.rs:147-154. -/
example : passes (do
  let r1 : Any I32 := Any.rangeFrom ⟨n 3⟩
  let r2 : Any I32 := Any.inner .er
  let i ← inter (r1) (r2)
  check ((i).isEmpty)
  check (decide ((← collect ((← intoIter (i)))) = []))) := by decide +kernel

/-- `bounded_set`, /repo/src/test/intersection/range_from.rs:156-170. -/
example : passes (do
  let bs ← union ((Any.range ⟨n 2, n 3⟩)) (Any.range ⟨n 4, n 5⟩)
  let i ← inter ((Any.rangeFrom ⟨n 1⟩)) (bs)
  check (decide ((← collect ((← intoIter (i)))) = [n 2, n 4]))
  check (!(i).contains (n 0))
  check (!(i).contains (n 1))
  check ((i).contains (n 2))
  check (!(i).contains (n 3))
  check ((i).contains (n 4))
  check (!(i).contains (n 5))
  check (!(i).contains (n 6))
  check (!(i).isEmpty)
  check (((← inter ((Any.rangeFrom ⟨n 10⟩)) (bs))).isEmpty)) := by decide +kernel

/-- `lower_bounded_set`, /repo/src/test/intersection/range_from.rs:172-188. -/
example : passes (do
  let bs ← union ((Any.rangeFrom ⟨n 2⟩)) (Any.range ⟨n 0, n 1⟩)
  let i ← inter ((Any.rangeFrom ⟨n 3⟩)) (bs)
  check (decide ((← collectTake 3 ((← intoIter (i)))) = [n 3, n 4, n 5]))
  check (!(i).contains (n 0))
  check (!(i).contains (n 1))
  check (!(i).contains (n 2))
  check ((i).contains (n 3))
  check ((i).contains (n 4))
  check ((i).contains (n 5))
  check ((i).contains (n 6))
  check (!(i).isEmpty)) := by decide +kernel

/-- `upper_bounded_set`, /repo/src/test/intersection/range_from.rs:190-205. -/
example : passes (do
  let s ← union ((Any.rangeTo ⟨n 3⟩)) (Any.range ⟨n 4, n 5⟩)
  let i ← inter ((Any.rangeFrom ⟨n 3⟩)) (s)
  check (decide ((← collect ((← intoIter (i)))) = [n 4]))
  check (!(i).contains (n 0))
  check (!(i).contains (n 1))
  check (!(i).contains (n 2))
  check (!(i).contains (n 3))
  check ((i).contains (n 4))
  check (!(i).contains (n 5))
  check (!(i).contains (n 6))
  check (!(i).isEmpty)
  let s2 ← union ((Any.rangeTo ⟨n 1⟩)) (Any.range ⟨n 2, n 3⟩)
  check (((← inter ((Any.rangeFrom ⟨n 3⟩)) (s2))).isEmpty)) := by decide +kernel

/-- `unbounded_set`, /repo/src/test/intersection/range_from.rs:207-222. -/
example : passes (do
  let s ← union ((← union ((Any.rangeFrom ⟨n 5⟩)) (Any.range ⟨n 2, n 4⟩))) (Any.rangeTo ⟨n 1⟩)
  let i ← inter ((Any.rangeFrom ⟨n 3⟩)) (s)
  check (decide ((← collectTake 3 ((← intoIter (i)))) = [n 3, n 5, n 6]))
  check (!(i).contains (n 0))
  check (!(i).contains (n 1))
  check (!(i).contains (n 2))
  check ((i).contains (n 3))
  check (!(i).contains (n 4))
  check ((i).contains (n 5))
  check (!(i).isEmpty)) := by decide +kernel

end Rangetools.Tests
