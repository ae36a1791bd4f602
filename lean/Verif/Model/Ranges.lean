import Verif.Model.Bound

/-!
# Model of the range types

`std::ops` ranges (std), the crate ranges of `src/bounded_range.rs`, `src/lower_bounded_range.rs`,
`src/upper_bounded_range.rs`, `src/unbounded_range.rs`, `src/empty_range.rs`, their `contains`,
`is_empty`, the conversions from std, and the intersections between two ranges.
-/

namespace Rangetools

/-- `std::ops::Range` (std). -/
structure Range (T : Type) where
  start : T
  stop : T
  deriving DecidableEq, Repr

/-- `std::ops::RangeInclusive` (std); `exhausted` is std's private flag set once the range has
been iterated to its end. -/
structure RangeInclusive (T : Type) where
  start : T
  stop : T
  exhausted : Bool := false
  deriving DecidableEq, Repr

/-- `std::ops::RangeFrom` (std). -/
structure RangeFrom (T : Type) where
  start : T
  deriving DecidableEq, Repr

/-- `std::ops::RangeTo` (std). -/
structure RangeTo (T : Type) where
  stop : T
  deriving DecidableEq, Repr

/-- `std::ops::RangeToInclusive` (std). -/
structure RangeToInclusive (T : Type) where
  stop : T
  deriving DecidableEq, Repr

/-- `pub struct BoundedRange<T>`, /repo/src/bounded_range.rs:23-30. -/
structure BoundedRange (T : Type) where
  start : LowerBound T
  stop : UpperBound T
  deriving DecidableEq, Repr

/-- `pub struct LowerBoundedRange<T>`, /repo/src/lower_bounded_range.rs:18-23. -/
structure LowerBoundedRange (T : Type) where
  start : LowerBound T
  deriving DecidableEq, Repr

/-- `pub struct UpperBoundedRange<T>`, /repo/src/upper_bounded_range.rs:17-22. -/
structure UpperBoundedRange (T : Type) where
  stop : UpperBound T
  deriving DecidableEq, Repr

section
variable {T : Type}

/-- `From<Range<T>> for BoundedRange<T>`, /repo/src/bounded_range.rs:32-39. -/
def BoundedRange.ofRange (r : Range T) : BoundedRange T :=
  { start := LowerBound.included r.start, stop := UpperBound.excluded r.stop }

/-- `From<RangeInclusive<T>> for BoundedRange<T>`, /repo/src/bounded_range.rs:41-49.
`into_inner` drops the `exhausted` flag. -/
def BoundedRange.ofRangeInclusive (r : RangeInclusive T) : BoundedRange T :=
  { start := LowerBound.included r.start, stop := UpperBound.included r.stop }

/-- `From<RangeFrom<T>> for LowerBoundedRange<T>`, /repo/src/lower_bounded_range.rs:25-31. -/
def LowerBoundedRange.ofRangeFrom (r : RangeFrom T) : LowerBoundedRange T :=
  { start := LowerBound.included r.start }

/-- `From<RangeTo<T>> for UpperBoundedRange<T>`, /repo/src/upper_bounded_range.rs:24-30. -/
def UpperBoundedRange.ofRangeTo (r : RangeTo T) : UpperBoundedRange T :=
  { stop := UpperBound.excluded r.stop }

/-- `From<RangeToInclusive<T>> for UpperBoundedRange<T>`, /repo/src/upper_bounded_range.rs:32-38. -/
def UpperBoundedRange.ofRangeToInclusive (r : RangeToInclusive T) : UpperBoundedRange T :=
  { stop := UpperBound.included r.stop }

end

section
variable {T : Type} [LE T] [LT T] [DecidableLE T] [DecidableLT T] [Ord T] [BEq T]

/-! ### std membership -/

/-- std `Range::contains` (`start <= t && t < end`). -/
def Range.contains (r : Range T) (t : T) : Bool := decide (r.start ≤ t) && decide (t < r.stop)

/-- std `RangeInclusive::contains`: the end counts as excluded once `exhausted` is set. -/
def RangeInclusive.contains (r : RangeInclusive T) (t : T) : Bool :=
  decide (r.start ≤ t) && (if r.exhausted then decide (t < r.stop) else decide (t ≤ r.stop))

/-- std `RangeFrom::contains`. -/
def RangeFrom.contains (r : RangeFrom T) (t : T) : Bool := decide (r.start ≤ t)

/-- std `RangeTo::contains`. -/
def RangeTo.contains (r : RangeTo T) (t : T) : Bool := decide (t < r.stop)

/-- std `RangeToInclusive::contains`. -/
def RangeToInclusive.contains (r : RangeToInclusive T) (t : T) : Bool := decide (t ≤ r.stop)

/-! ### `Rangetools::is_empty` on the std ranges -/

/-- /repo/src/implementations/rangetools/range.rs:4-6. -/
def Range.isEmpty (r : Range T) : Bool := decide (r.start ≥ r.stop)

/-- /repo/src/implementations/rangetools/range_inclusive.rs:4-6. -/
def RangeInclusive.isEmpty (r : RangeInclusive T) : Bool := decide (r.start > r.stop)

/-! ### Crate ranges -/

/-- `BoundedRange::contains`, /repo/src/bounded_range.rs:128-138. -/
def BoundedRange.contains (self : BoundedRange T) (t : T) : Bool :=
  let startSatisfied := match self.start.b with
    | .excluded s => decide (t > s)
    | .included s => decide (t ≥ s)
  let endSatisfied := match self.stop.b with
    | .excluded e => decide (t < e)
    | .included e => decide (t ≤ e)
  startSatisfied && endSatisfied

/-- `LowerBoundedRange::contains`, /repo/src/lower_bounded_range.rs:85-90. -/
def LowerBoundedRange.contains (self : LowerBoundedRange T) (t : T) : Bool :=
  match self.start.b with
  | .excluded x => decide (t > x)
  | .included i => decide (t ≥ i)

/-- `UpperBoundedRange::contains`, /repo/src/upper_bounded_range.rs:88-93. -/
def UpperBoundedRange.contains (self : UpperBoundedRange T) (t : T) : Bool :=
  match self.stop.b with
  | .excluded x => decide (t < x)
  | .included i => decide (t ≤ i)

/-- `<BoundedRange<T> as Rangetools>::is_empty`,
/repo/src/implementations/rangetools/bounded_range.rs:4-11. -/
def BoundedRange.isEmpty (self : BoundedRange T) : Bool :=
  match self.start.b, self.stop.b with
  | .included s, .included e => decide (s > e)
  | .excluded s, .included e => decide (s ≥ e)
  | .included s, .excluded e => decide (s ≥ e)
  | .excluded s, .excluded e => decide (s ≥ e)

/-! ### Intersections of two ranges -/

/-- BoundedRange ∩ BoundedRange, /repo/src/implementations/intersection/bounded_range.rs:6-16. -/
def BoundedRange.interBR (self other : BoundedRange T) : BoundedRange T :=
  ⟨self.start.max other.start, self.stop.min other.stop⟩

/-- BoundedRange ∩ LowerBoundedRange, /repo/src/implementations/intersection/bounded_range.rs:29-38. -/
def BoundedRange.interLBR (self : BoundedRange T) (other : LowerBoundedRange T) : BoundedRange T :=
  ⟨self.start.max other.start, self.stop⟩

/-- BoundedRange ∩ UpperBoundedRange, /repo/src/implementations/intersection/bounded_range.rs:51-60. -/
def BoundedRange.interUBR (self : BoundedRange T) (other : UpperBoundedRange T) : BoundedRange T :=
  ⟨self.start, self.stop.min other.stop⟩

/-- LowerBoundedRange ∩ BoundedRange,
/repo/src/implementations/intersection/lower_bounded_range.rs:6-15. -/
def LowerBoundedRange.interBR (self : LowerBoundedRange T) (other : BoundedRange T) :
    BoundedRange T :=
  other.interLBR self

/-- LowerBoundedRange ∩ LowerBoundedRange,
/repo/src/implementations/intersection/lower_bounded_range.rs:28-37. -/
def LowerBoundedRange.interLBR (self other : LowerBoundedRange T) : LowerBoundedRange T :=
  ⟨self.start.max other.start⟩

/-- LowerBoundedRange ∩ UpperBoundedRange,
/repo/src/implementations/intersection/lower_bounded_range.rs:50-59. -/
def LowerBoundedRange.interUBR (self : LowerBoundedRange T) (other : UpperBoundedRange T) :
    BoundedRange T :=
  ⟨self.start, other.stop⟩

/-- UpperBoundedRange ∩ BoundedRange,
/repo/src/implementations/intersection/upper_bounded_range.rs:6-15. -/
def UpperBoundedRange.interBR (self : UpperBoundedRange T) (other : BoundedRange T) :
    BoundedRange T :=
  other.interUBR self

/-- UpperBoundedRange ∩ LowerBoundedRange,
/repo/src/implementations/intersection/upper_bounded_range.rs:28-37. -/
def UpperBoundedRange.interLBR (self : UpperBoundedRange T) (other : LowerBoundedRange T) :
    BoundedRange T :=
  other.interUBR self

/-- UpperBoundedRange ∩ UpperBoundedRange,
/repo/src/implementations/intersection/upper_bounded_range.rs:50-59. -/
def UpperBoundedRange.interUBR (self other : UpperBoundedRange T) : UpperBoundedRange T :=
  ⟨self.stop.min other.stop⟩

/-- `Rangetools::intersects` for two bounded ranges, /repo/src/lib.rs:160-185. -/
def BoundedRange.intersectsBR (self other : BoundedRange T) : Bool :=
  !(self.interBR other).isEmpty

/-- `Rangetools::intersects` for an upper bounded and a bounded range, /repo/src/lib.rs:160-185. -/
def UpperBoundedRange.intersectsBR (self : UpperBoundedRange T) (other : BoundedRange T) : Bool :=
  !(self.interBR other).isEmpty

/-- `Rangetools::intersects` for a lower bounded and a bounded range, /repo/src/lib.rs:160-185. -/
def LowerBoundedRange.intersectsBR (self : LowerBoundedRange T) (other : BoundedRange T) : Bool :=
  !(self.interBR other).isEmpty

/-- `Rangetools::intersects` for an upper and a lower bounded range, /repo/src/lib.rs:160-185. -/
def UpperBoundedRange.intersectsLBR (self : UpperBoundedRange T) (other : LowerBoundedRange T) :
    Bool :=
  !(self.interLBR other).isEmpty

/-- `BoundedRange::combine`, /repo/src/bounded_range.rs:140-152. -/
def BoundedRange.combine (self other : BoundedRange T) : Res (BoundedRange T) :=
  if other.isEmpty then .ok self
  else if self.isEmpty then .ok other
  else do
    assert "assertion failed: self.intersects(*other)" (self.intersectsBR other)
    return ⟨self.start.min other.start, self.stop.max other.stop⟩

end
end Rangetools
