import Verif.Model.Step
import Verif.Model.Ranges

/-!
# Model of the conversions from crate ranges to `std::ops` ranges

`Step` is an explicit argument.  The conversions in the other direction are in `Model/Ranges.lean`.
-/

namespace Rangetools
variable {T : Type}

/-- `From<BoundedRange<T>> for Range<T>`, /repo/src/bounded_range.rs:51-66. -/
def BoundedRange.toRange (S : Step T) (r : BoundedRange T) : Res (Range T) := do
  let start ← match r.start.toBound with
    | .excluded t => S.forward t 1
    | .included t => .ok t
  let stop ← match r.stop.toBound with
    | .excluded t => .ok t
    | .included t => S.forward t 1
  return ⟨start, stop⟩

/-- `From<BoundedRange<T>> for RangeInclusive<T>`, /repo/src/bounded_range.rs:68-83. -/
def BoundedRange.toRangeInclusive (S : Step T) (r : BoundedRange T) : Res (RangeInclusive T) := do
  let start ← match r.start.toBound with
    | .excluded t => S.forward t 1
    | .included t => .ok t
  let stop ← match r.stop.toBound with
    | .excluded t => S.backward t 1
    | .included t => .ok t
  return { start, stop }

/-- `From<LowerBoundedRange<T>> for RangeFrom<T>`, /repo/src/lower_bounded_range.rs:33-43. -/
def LowerBoundedRange.toRangeFrom (S : Step T) (r : LowerBoundedRange T) : Res (RangeFrom T) :=
  match r.start.toBound with
  | .excluded t => do return ⟨← S.forward t 1⟩
  | .included t => .ok ⟨t⟩

/-- `From<UpperBoundedRange<T>> for RangeTo<T>`, /repo/src/upper_bounded_range.rs:40-50. -/
def UpperBoundedRange.toRangeTo (S : Step T) (r : UpperBoundedRange T) : Res (RangeTo T) :=
  match r.stop.toBound with
  | .excluded t => .ok ⟨t⟩
  | .included t => do return ⟨← S.forward t 1⟩

/-- `From<UpperBoundedRange<T>> for RangeToInclusive<T>`, /repo/src/upper_bounded_range.rs:52-62. -/
def UpperBoundedRange.toRangeToInclusive (S : Step T) (r : UpperBoundedRange T) :
    Res (RangeToInclusive T) :=
  match r.stop.toBound with
  | .excluded t => do return ⟨← S.backward t 1⟩
  | .included t => .ok ⟨t⟩

/-- `std::ops::RangeFull` (std). -/
structure RangeFull where
  deriving DecidableEq, Repr

/-- `pub struct UnboundedRange`, /repo/src/unbounded_range.rs:16-18. -/
structure UnboundedRange where
  deriving DecidableEq, Repr

/-- `From<RangeFull> for UnboundedRange`, /repo/src/unbounded_range.rs:20-24. -/
def UnboundedRange.ofRangeFull (_ : RangeFull) : UnboundedRange := ⟨⟩

/-- `From<UnboundedRange> for RangeFull`, /repo/src/unbounded_range.rs:26-30. -/
def UnboundedRange.toRangeFull (_ : UnboundedRange) : RangeFull := ⟨⟩

/-- `From<EmptyRange<T>> for Range<T>`, /repo/src/empty_range.rs:22-29; `dflt` is `T::default()`, and
`Range::default()` (std) is `T::default()..T::default()`. -/
def EmptyRange.toRange (dflt : T) : Range T := ⟨dflt, dflt⟩

/-- `From<EmptyRange<T>> for RangeInclusive<T>`, /repo/src/empty_range.rs:31-42. -/
def EmptyRange.toRangeInclusive (S : Step T) (dflt : T) : Res (RangeInclusive T) :=
  BoundedRange.toRangeInclusive S
    { start := LowerBound.included dflt, stop := UpperBound.excluded dflt }

end Rangetools
