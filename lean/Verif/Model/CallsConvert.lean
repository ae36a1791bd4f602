import Verif.Model.Calls
import Verif.Model.Convert

/-!
# The conversions to `std::ops` ranges as programs that call `Step`

As `Model/Convert.lean`, with `Step` as in `Model/Calls.lean`: a method of `Step` may have side effects, answer differently
each time, and panic.
-/

namespace Rangetools
variable {T : Type}

/-- `From<BoundedRange<T>> for Range<T>`, /repo/src/bounded_range.rs:51-66. -/
def BoundedRange.toRangeC (r : BoundedRange T) : Calls T (Res (Range T)) := do
  let start ← match r.start.toBound with
    | .excluded t => .forward t 1 .done
    | .included t => .done (.ok t)
  match start with
  | .panic m => return .panic m
  | .ok start =>
      let stop ← match r.stop.toBound with
        | .excluded t => .done (.ok t)
        | .included t => .forward t 1 .done
      match stop with
      | .panic m => return .panic m
      | .ok stop => return .ok ⟨start, stop⟩

/-- `From<BoundedRange<T>> for RangeInclusive<T>`, /repo/src/bounded_range.rs:68-83. -/
def BoundedRange.toRangeInclusiveC (r : BoundedRange T) : Calls T (Res (RangeInclusive T)) := do
  let start ← match r.start.toBound with
    | .excluded t => .forward t 1 .done
    | .included t => .done (.ok t)
  match start with
  | .panic m => return .panic m
  | .ok start =>
      let stop ← match r.stop.toBound with
        | .excluded t => .backward t 1 .done
        | .included t => .done (.ok t)
      match stop with
      | .panic m => return .panic m
      | .ok stop => return .ok { start, stop }

/-- `From<LowerBoundedRange<T>> for RangeFrom<T>`, /repo/src/lower_bounded_range.rs:33-43. -/
def LowerBoundedRange.toRangeFromC (r : LowerBoundedRange T) : Calls T (Res (RangeFrom T)) :=
  match r.start.toBound with
  | .excluded t => .forward t 1 fun
    | .ok t => .done (.ok ⟨t⟩)
    | .panic m => .done (.panic m)
  | .included t => .done (.ok ⟨t⟩)

/-- `From<UpperBoundedRange<T>> for RangeTo<T>`, /repo/src/upper_bounded_range.rs:40-50. -/
def UpperBoundedRange.toRangeToC (r : UpperBoundedRange T) : Calls T (Res (RangeTo T)) :=
  match r.stop.toBound with
  | .excluded t => .done (.ok ⟨t⟩)
  | .included t => .forward t 1 fun
    | .ok t => .done (.ok ⟨t⟩)
    | .panic m => .done (.panic m)

/-- `From<UpperBoundedRange<T>> for RangeToInclusive<T>`, /repo/src/upper_bounded_range.rs:52-62. -/
def UpperBoundedRange.toRangeToInclusiveC (r : UpperBoundedRange T) : Calls T (Res (RangeToInclusive T)) :=
  match r.stop.toBound with
  | .excluded t => .backward t 1 fun
    | .ok t => .done (.ok ⟨t⟩)
    | .panic m => .done (.panic m)
  | .included t => .done (.ok ⟨t⟩)

/-- `From<EmptyRange<T>> for RangeInclusive<T>`, /repo/src/empty_range.rs:31-42; `dflt` is `T::default()`. -/
def EmptyRange.toRangeInclusiveC (dflt : T) : Calls T (Res (RangeInclusive T)) :=
  BoundedRange.toRangeInclusiveC { start := LowerBound.included dflt, stop := UpperBound.excluded dflt }

end Rangetools
