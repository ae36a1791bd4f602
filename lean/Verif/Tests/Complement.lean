import Verif.Tests.Harness

/-!
# Upstream complement tests

Transcribed from the crate's own unit tests.  These are tests of the model, not proofs of a property.
-/

set_option linter.unusedVariables false

namespace Rangetools.Tests

/-- `range`, /repo/src/test/complement.rs:6-14. -/
example : passes (do
  let r : Any I32 := Any.range ⟨n 5, n 10⟩
  hasType r .range
  let c : Any I32 := Any.inner (.us (.new ⟨UpperBound.excluded (n 5)⟩ ⟨LowerBound.included (n 10)⟩))
  check (decide ((← compl (r)) = c))) := by decide +kernel

/-- `range_inclusive`, /repo/src/test/complement.rs:16-24. -/
example : passes (do
  let r : Any I32 := Any.rangeInclusive ⟨n 5, n 10, false⟩
  hasType r .rangeInclusive
  let c : Any I32 := Any.inner (.us (.new ⟨UpperBound.excluded (n 5)⟩ ⟨LowerBound.excluded (n 10)⟩))
  check (decide ((← compl (r)) = c))) := by decide +kernel

/-- `range_to`, /repo/src/test/complement.rs:26-31. -/
example : passes (do
  let r : Any I32 := Any.rangeTo ⟨n 4⟩
  hasType r .rangeTo
  let c : Any I32 := Any.inner (.lbr ⟨LowerBound.included (n 4)⟩)
  check (decide ((← compl (r)) = c))) := by decide +kernel

/-- `range_to_inclusive`, /repo/src/test/complement.rs:33-38. -/
example : passes (do
  let r : Any I32 := Any.rangeToInclusive ⟨n 4⟩
  hasType r .rangeToInclusive
  let c : Any I32 := Any.inner (.lbr ⟨LowerBound.excluded (n 4)⟩)
  check (decide ((← compl (r)) = c))) := by decide +kernel

/-- `range_from`, /repo/src/test/complement.rs:40-45. -/
example : passes (do
  let r : Any I32 := Any.rangeFrom ⟨n 2⟩
  hasType r .rangeFrom
  let c : Any I32 := Any.inner (.ubr ⟨UpperBound.excluded (n 2)⟩)
  check (decide ((← compl (r)) = c))) := by decide +kernel

/-- `range_full`, /repo/src/test/complement.rs:47-52. -/
example : passes (do
  let r : Any I32 := Any.rangeFull
  hasType r .rangeFull
  let c : Any I32 := Any.inner .er
  check (decide ((← compl (r)) = c))) := by decide +kernel

/-- `bounded_range`, /repo/src/test/complement.rs:54-62. -/
example : passes (do
  let r ← toInner' ((Any.range ⟨n 1, n 3⟩))
  hasType r .br
  let c : Any I32 := Any.inner (.us (.new ⟨UpperBound.excluded (n 1)⟩ ⟨LowerBound.included (n 3)⟩))
  check (decide ((← compl (r)) = c))) := by decide +kernel

/-- `lower_bounded_range`, /repo/src/test/complement.rs:64-69. -/
example : passes (do
  let r ← toInner' ((Any.rangeFrom ⟨n 1⟩))
  hasType r .lbr
  let c : Any I32 := Any.inner (.ubr ⟨UpperBound.excluded (n 1)⟩)
  check (decide ((← compl (r)) = c))) := by decide +kernel

/-- `upper_bounded_range`, /repo/src/test/complement.rs:71-76. -/
example : passes (do
  let r ← toInner' ((Any.rangeTo ⟨n 1⟩))
  hasType r .ubr
  let c : Any I32 := Any.inner (.lbr ⟨LowerBound.included (n 1)⟩)
  check (decide ((← compl (r)) = c))) := by decide +kernel

/-- `unbounded_range`, /repo/src/test/complement.rs:78-83. -/
example : passes (do
  let r ← toInner' ((Any.rangeFull))
  hasType r .ur
  let c : Any I32 := Any.inner .er
  check (decide ((← compl (r)) = c))) := by decide +kernel

/-- `empty_range`, /repo/src/test/complement.rs:85-90. -/
example : passes (do
  let r : Any I32 := Any.inner .er
  hasType r .er
  let c : Any I32 := Any.inner .ur
  check (decide ((← compl (r)) = c))) := by decide +kernel

/-- `bounded_set`, /repo/src/test/complement.rs:92-97. -/
example : passes (do
  let s ← union ((Any.range ⟨n 1, n 3⟩)) (Any.range ⟨n 5, n 10⟩)
  hasType s .bs
  let c ← union ((← union ((Any.rangeTo ⟨n 1⟩)) (Any.range ⟨n 3, n 5⟩))) (Any.rangeFrom ⟨n 10⟩)
  check (decide ((← compl (s)) = c))) := by decide +kernel

/-- `lower_bounded_set`, /repo/src/test/complement.rs:99-104. -/
example : passes (do
  let s ← union ((Any.range ⟨n 1, n 2⟩)) (Any.rangeFrom ⟨n 4⟩)
  hasType s .lbs
  let c ← union ((Any.rangeTo ⟨n 1⟩)) (Any.range ⟨n 2, n 4⟩)
  check (decide ((← compl (s)) = c))) := by decide +kernel

/-- `upper_bounded_set`, /repo/src/test/complement.rs:106-111. -/
example : passes (do
  let s ← union ((Any.rangeTo ⟨n 4⟩)) (Any.range ⟨n 5, n 10⟩)
  hasType s .ubs
  let c ← union ((Any.range ⟨n 4, n 5⟩)) (Any.rangeFrom ⟨n 10⟩)
  check (decide ((← compl (s)) = c))) := by decide +kernel

/-- `unbounded_set`, /repo/src/test/complement.rs:113-118. -/
example : passes (do
  let s ← union ((← union ((Any.rangeTo ⟨n 1⟩)) (Any.range ⟨n 3, n 5⟩))) (Any.rangeFrom ⟨n 10⟩)
  hasType s .us
  let c ← union ((Any.range ⟨n 1, n 3⟩)) (Any.range ⟨n 5, n 10⟩)
  check (decide ((← compl (s)) = c))) := by decide +kernel

end Rangetools.Tests
