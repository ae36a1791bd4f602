import Verif.Tests.Harness

/-!
# Upstream conversion tests

Transcribed from the crate's own unit tests.  These are tests of the model, not proofs of a property.
-/

set_option linter.unusedVariables false

namespace Rangetools.Tests

/-- `range`, /repo/src/test/conversions.rs:5-18. -/
example : passes (do
  let a ← into .br ((Any.range ⟨n 0, n 10⟩))
  let b ← into .range (a)
  check (decide (b = Any.range ⟨n 0, n 10⟩))
  let c ← into .br ((Any.rangeInclusive ⟨n 0, n 10, false⟩))
  let d ← into .range (c)
  check (decide (d = Any.range ⟨n 0, n 11⟩))
  let e : Any I32 := Any.inner .er
  hasType e .er
  let d ← into .range (e)
  check ((d).isEmpty)) := by decide +kernel

/-- `range_inclusive`, /repo/src/test/conversions.rs:20-33. -/
example : passes (do
  let a ← into .br ((Any.range ⟨n 0, n 10⟩))
  let b ← into .rangeInclusive (a)
  check (decide (b = Any.rangeInclusive ⟨n 0, n 9, false⟩))
  let c ← into .br ((Any.rangeInclusive ⟨n 0, n 10, false⟩))
  let d ← into .rangeInclusive (c)
  check (decide (d = Any.rangeInclusive ⟨n 0, n 10, false⟩))
  let e : Any I32 := Any.inner .er
  hasType e .er
  let d ← into .rangeInclusive (e)
  check ((d).isEmpty)) := by decide +kernel

/-- `range_to`, /repo/src/test/conversions.rs:35-44. -/
example : passes (do
  let a ← into .ubr ((Any.rangeTo ⟨n 10⟩))
  let b ← into .rangeTo (a)
  check (decide (b = Any.rangeTo ⟨n 10⟩))
  let c ← into .ubr ((Any.rangeToInclusive ⟨n 10⟩))
  let d ← into .rangeTo (c)
  check (decide (d = Any.rangeTo ⟨n 11⟩))) := by decide +kernel

/-- `range_to_inclusive`, /repo/src/test/conversions.rs:46-55. -/
example : passes (do
  let a ← into .ubr ((Any.rangeTo ⟨n 10⟩))
  let b ← into .rangeToInclusive (a)
  check (decide (b = Any.rangeToInclusive ⟨n 9⟩))
  let c ← into .ubr ((Any.rangeToInclusive ⟨n 10⟩))
  let d ← into .rangeToInclusive (c)
  check (decide (d = Any.rangeToInclusive ⟨n 10⟩))) := by decide +kernel

/-- `range_from`, /repo/src/test/conversions.rs:57-66. -/
example : passes (do
  let a ← into .lbr ((Any.rangeFrom ⟨n 10⟩))
  let b ← into .rangeFrom (a)
  check (decide (b = Any.rangeFrom ⟨n 10⟩))
  let c : Any I32 := Any.inner (.lbr ⟨LowerBound.excluded (n 10)⟩)
  let d ← into .rangeFrom (c)
  check (decide (d = Any.rangeFrom ⟨n 11⟩))) := by decide +kernel

/-- `range_full`, /repo/src/test/conversions.rs:68-73. -/
example : passes (do
  let a : Any I32 := Any.inner .ur
  let b ← into .rangeFull (a)
  check (decide (b = Any.rangeFull))) := by decide +kernel

end Rangetools.Tests
