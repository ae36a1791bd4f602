import Verif.Model.Traits

/-!
# Every `impl` of the four traits

One instance for each `impl` in /repo/src/implementations, with the body as written there:
`RangeUnion::union(a, b)`, `a.union(b)` become `Tools.union a b`, `RangeIntersection::intersection(a, b)`,
`a.intersection(b)` become `Tools.intersection a b` (the type parameter `RhsSet`, `RhsInner` is read off `b`),
`.clone()` disappears, `.into()` is the `From` instance of the types at hand, `set.add_set(x)` rebinds `set`,
`for` over the pieces is `foldlM` and `for` with `iter_mut` is `mapM`.  An instance can only use instances
before it, so Lean's acceptance of this file shows that no chain of forwarding impls comes back to itself.
-/

namespace Rangetools
variable {T : Type} [LE T] [LT T] [DecidableLE T] [DecidableLT T] [Ord T] [BEq T]
variable {R I S : Type}

/-! ### `Rangetools` -/

/-- /repo/src/implementations/rangetools/bounded_range.rs:3-22. -/
instance : Tools (BoundedRange T) (BoundedRange T) (BoundedSet T) where
  isEmpty self := self.isEmpty
  toInner self := self
  toSet self := BoundedSet.ofBR self

/-- /repo/src/implementations/rangetools/lower_bounded_range.rs:3-17. -/
instance : Tools (LowerBoundedRange T) (LowerBoundedRange T) (LowerBoundedSet T) where
  isEmpty _ := false
  toInner self := self
  toSet self := LowerBoundedSet.ofLBR self

/-- /repo/src/implementations/rangetools/upper_bounded_range.rs:3-17. -/
instance : Tools (UpperBoundedRange T) (UpperBoundedRange T) (UpperBoundedSet T) where
  isEmpty _ := false
  toInner self := self
  toSet self := UpperBoundedSet.ofUBR self

/-- /repo/src/implementations/rangetools/unbounded_range.rs:3-17. -/
instance : Tools UnboundedRange UnboundedRange UnboundedRange where
  isEmpty _ := false
  toInner self := self
  toSet self := self

/-- /repo/src/implementations/rangetools/empty_range.rs:3-17. -/
instance : Tools (EmptyRange T) (EmptyRange T) (EmptyRange T) where
  isEmpty _ := true
  toInner self := self
  toSet self := self

/-- /repo/src/implementations/rangetools/bounded_set.rs:3-17. -/
instance : Tools (BoundedSet T) (BoundedSet T) (BoundedSet T) where
  isEmpty self := self.isEmpty
  toInner self := self
  toSet self := self

/-- /repo/src/implementations/rangetools/lower_bounded_set.rs:3-17. -/
instance : Tools (LowerBoundedSet T) (LowerBoundedSet T) (LowerBoundedSet T) where
  isEmpty _ := false
  toInner self := self
  toSet self := self

/-- /repo/src/implementations/rangetools/upper_bounded_set.rs:3-17. -/
instance : Tools (UpperBoundedSet T) (UpperBoundedSet T) (UpperBoundedSet T) where
  isEmpty _ := false
  toInner self := self
  toSet self := self

/-- /repo/src/implementations/rangetools/unbounded_set.rs:3-17. -/
instance : Tools (UnboundedSet T) (UnboundedSet T) (UnboundedSet T) where
  isEmpty _ := false
  toInner self := self
  toSet self := self

/-- /repo/src/implementations/rangetools/range.rs:3-17. -/
instance : Tools (Range T) (BoundedRange T) (BoundedSet T) where
  isEmpty self := self.isEmpty
  toInner self := BoundedRange.ofRange self
  toSet self := Tools.toSet (BoundedRange.ofRange self)

/-- /repo/src/implementations/rangetools/range_inclusive.rs:3-17. -/
instance : Tools (RangeInclusive T) (BoundedRange T) (BoundedSet T) where
  isEmpty self := self.isEmpty
  toInner self := BoundedRange.ofRangeInclusive self
  toSet self := Tools.toSet (BoundedRange.ofRangeInclusive self)

/-- /repo/src/implementations/rangetools/range_from.rs:3-17. -/
instance : Tools (RangeFrom T) (LowerBoundedRange T) (LowerBoundedSet T) where
  isEmpty _ := false
  toInner self := LowerBoundedRange.ofRangeFrom self
  toSet self := Tools.toSet (LowerBoundedRange.ofRangeFrom self)

/-- /repo/src/implementations/rangetools/range_to.rs:3-17. -/
instance : Tools (RangeTo T) (UpperBoundedRange T) (UpperBoundedSet T) where
  isEmpty _ := false
  toInner self := UpperBoundedRange.ofRangeTo self
  toSet self := Tools.toSet (UpperBoundedRange.ofRangeTo self)

/-- /repo/src/implementations/rangetools/range_to_inclusive.rs:3-17. -/
instance : Tools (RangeToInclusive T) (UpperBoundedRange T) (UpperBoundedSet T) where
  isEmpty _ := false
  toInner self := UpperBoundedRange.ofRangeToInclusive self
  toSet self := Tools.toSet (UpperBoundedRange.ofRangeToInclusive self)

/-- /repo/src/implementations/rangetools/range_full.rs:3-17. -/
instance : Tools RangeFull UnboundedRange UnboundedRange where
  isEmpty _ := false
  toInner self := UnboundedRange.ofRangeFull self
  toSet self := UnboundedRange.ofRangeFull self

/-! ### `RangeUnion` -/

/-- /repo/src/implementations/union/bounded_set.rs:6-16. -/
instance [Tools R I (BoundedSet T)] : RangeUnion (BoundedSet T) R (BoundedSet T) (BoundedSet T) where
  union self other := self.addSet (Tools.toSet other)

/-- /repo/src/implementations/union/bounded_range.rs:6-15. -/
instance [Tools R I (BoundedSet T)] : RangeUnion (BoundedRange T) R (BoundedSet T) (BoundedSet T) where
  union self other := Tools.union (Tools.toSet self) other

/-- /repo/src/implementations/union/bounded_set.rs:18-29. -/
instance [Tools R I (LowerBoundedSet T)] : RangeUnion (BoundedSet T) R (LowerBoundedSet T) (LowerBoundedSet T) where
  union self other := do
    let set := Tools.toSet other
    set.addSet self

/-- /repo/src/implementations/union/bounded_range.rs:17-26. -/
instance [Tools R I (LowerBoundedSet T)] : RangeUnion (BoundedRange T) R (LowerBoundedSet T) (LowerBoundedSet T) where
  union self other := Tools.union (Tools.toSet self) other

/-- /repo/src/implementations/union/bounded_set.rs:31-42. -/
instance [Tools R I (UpperBoundedSet T)] : RangeUnion (BoundedSet T) R (UpperBoundedSet T) (UpperBoundedSet T) where
  union self other := do
    let set := Tools.toSet other
    set.addSet self

/-- /repo/src/implementations/union/bounded_range.rs:28-37. -/
instance [Tools R I (UpperBoundedSet T)] : RangeUnion (BoundedRange T) R (UpperBoundedSet T) (UpperBoundedSet T) where
  union self other := Tools.union (Tools.toSet self) other

/-- /repo/src/implementations/union/bounded_set.rs:44-55. -/
instance [Tools R I (UnboundedSet T)] : RangeUnion (BoundedSet T) R (UnboundedSet T) (UnboundedSet T) where
  union self other := do
    let set := Tools.toSet other
    set.addSet self

/-- /repo/src/implementations/union/bounded_range.rs:39-48. -/
instance [Tools R I (UnboundedSet T)] : RangeUnion (BoundedRange T) R (UnboundedSet T) (UnboundedSet T) where
  union self other := Tools.union (Tools.toSet self) other

/-- /repo/src/implementations/union/unbounded_range.rs:3-8. -/
instance [Tools R I S] : RangeUnion UnboundedRange R S UnboundedRange where
  union self _ := .ok self

/-- /repo/src/implementations/union/bounded_range.rs:50-59. -/
instance [Tools R I UnboundedRange] : RangeUnion (BoundedRange T) R UnboundedRange UnboundedRange where
  union self other := Tools.union (Tools.toSet other) self

/-- /repo/src/implementations/union/empty_range.rs:3-11. -/
instance [Tools R I S] : RangeUnion (EmptyRange T) R S R where
  union _ other := .ok other

/-- /repo/src/implementations/union/bounded_range.rs:61-70. -/
instance [Tools R I (EmptyRange T)] : RangeUnion (BoundedRange T) R (EmptyRange T) (BoundedRange T) where
  union self other := Tools.union (Tools.toSet other) self

/-- /repo/src/implementations/union/bounded_set.rs:57-66. -/
instance [Tools R I UnboundedRange] : RangeUnion (BoundedSet T) R UnboundedRange UnboundedRange where
  union self other := Tools.union (Tools.toSet other) self

/-- /repo/src/implementations/union/bounded_set.rs:68-77. -/
instance [Tools R I (EmptyRange T)] : RangeUnion (BoundedSet T) R (EmptyRange T) (BoundedSet T) where
  union self other := Tools.union (Tools.toSet other) self

/-- /repo/src/implementations/union/lower_bounded_set.rs:6-15. -/
instance [Tools R I (BoundedSet T)] : RangeUnion (LowerBoundedSet T) R (BoundedSet T) (LowerBoundedSet T) where
  union self other := Tools.union (Tools.toSet other) self

/-- /repo/src/implementations/union/lower_bounded_range.rs:6-15. -/
instance [Tools R I (BoundedSet T)] : RangeUnion (LowerBoundedRange T) R (BoundedSet T) (LowerBoundedSet T) where
  union self other := Tools.union (Tools.toSet self) other

/-- /repo/src/implementations/union/lower_bounded_set.rs:17-28. -/
instance [Tools R I (LowerBoundedSet T)] : RangeUnion (LowerBoundedSet T) R (LowerBoundedSet T) (LowerBoundedSet T) where
  union self other := do
    let other := Tools.toSet other
    let self ← self.addLowerBoundedRange other.lowerBoundedRange
    Tools.union self other.ranges

/-- /repo/src/implementations/union/lower_bounded_range.rs:17-26. -/
instance [Tools R I (LowerBoundedSet T)] : RangeUnion (LowerBoundedRange T) R (LowerBoundedSet T) (LowerBoundedSet T) where
  union self other := Tools.union (Tools.toSet self) other

/-- /repo/src/implementations/union/unbounded_set.rs:6-15. -/
instance [Tools R I (BoundedSet T)] : RangeUnion (UnboundedSet T) R (BoundedSet T) (UnboundedSet T) where
  union self other := Tools.union (Tools.toSet other) self

/-- /repo/src/implementations/union/lower_bounded_set.rs:30-41. -/
instance [Tools R I (UpperBoundedSet T)] : RangeUnion (LowerBoundedSet T) R (UpperBoundedSet T) (UnboundedSet T) where
  union self other := do
    let other := Tools.toSet other
    let set := UnboundedSet.new other.upperBoundedRange self.lowerBoundedRange
    Tools.union (← Tools.union set self.ranges) other.ranges

/-- /repo/src/implementations/union/lower_bounded_range.rs:28-37. -/
instance [Tools R I (UpperBoundedSet T)] : RangeUnion (LowerBoundedRange T) R (UpperBoundedSet T) (UnboundedSet T) where
  union self other := Tools.union (Tools.toSet self) other

/-- /repo/src/implementations/union/lower_bounded_set.rs:43-54. -/
instance [Tools R I (UnboundedSet T)] : RangeUnion (LowerBoundedSet T) R (UnboundedSet T) (UnboundedSet T) where
  union self other := do
    let set := Tools.toSet other
    let set ← set.addLowerBoundedRange self.lowerBoundedRange
    Tools.union set self.ranges

/-- /repo/src/implementations/union/lower_bounded_range.rs:39-48. -/
instance [Tools R I (UnboundedSet T)] : RangeUnion (LowerBoundedRange T) R (UnboundedSet T) (UnboundedSet T) where
  union self other := Tools.union (Tools.toSet self) other

/-- /repo/src/implementations/union/lower_bounded_range.rs:50-59. -/
instance [Tools R I UnboundedRange] : RangeUnion (LowerBoundedRange T) R UnboundedRange UnboundedRange where
  union self other := Tools.union (Tools.toSet other) self

/-- /repo/src/implementations/union/lower_bounded_range.rs:61-70. -/
instance [Tools R I (EmptyRange T)] : RangeUnion (LowerBoundedRange T) R (EmptyRange T) (LowerBoundedRange T) where
  union self other := Tools.union (Tools.toSet other) self

/-- /repo/src/implementations/union/lower_bounded_set.rs:56-65. -/
instance [Tools R I UnboundedRange] : RangeUnion (LowerBoundedSet T) R UnboundedRange UnboundedRange where
  union self other := Tools.union (Tools.toSet other) self

/-- /repo/src/implementations/union/lower_bounded_set.rs:67-76. -/
instance [Tools R I (EmptyRange T)] : RangeUnion (LowerBoundedSet T) R (EmptyRange T) (LowerBoundedSet T) where
  union self other := Tools.union (Tools.toSet other) self

/-- /repo/src/implementations/union/range.rs:6-15. -/
instance [Tools R I (BoundedSet T)] : RangeUnion (Range T) R (BoundedSet T) (BoundedSet T) where
  union self other := Tools.union (Tools.toSet self) other

/-- /repo/src/implementations/union/range.rs:17-26. -/
instance [Tools R I (LowerBoundedSet T)] : RangeUnion (Range T) R (LowerBoundedSet T) (LowerBoundedSet T) where
  union self other := Tools.union (Tools.toSet self) other

/-- /repo/src/implementations/union/range.rs:28-37. -/
instance [Tools R I (UpperBoundedSet T)] : RangeUnion (Range T) R (UpperBoundedSet T) (UpperBoundedSet T) where
  union self other := Tools.union (Tools.toSet self) other

/-- /repo/src/implementations/union/range.rs:39-48. -/
instance [Tools R I (UnboundedSet T)] : RangeUnion (Range T) R (UnboundedSet T) (UnboundedSet T) where
  union self other := Tools.union (Tools.toSet self) other

/-- /repo/src/implementations/union/range.rs:50-59. -/
instance [Tools R I UnboundedRange] : RangeUnion (Range T) R UnboundedRange UnboundedRange where
  union self other := Tools.union (Tools.toSet other) self

/-- /repo/src/implementations/union/range.rs:61-70. -/
instance [Tools R I (EmptyRange T)] : RangeUnion (Range T) R (EmptyRange T) (Range T) where
  union self other := Tools.union (Tools.toSet other) self

/-- /repo/src/implementations/union/range_from.rs:6-15. -/
instance [Tools R I (BoundedSet T)] : RangeUnion (RangeFrom T) R (BoundedSet T) (LowerBoundedSet T) where
  union self other := Tools.union (Tools.toSet self) other

/-- /repo/src/implementations/union/range_from.rs:17-26. -/
instance [Tools R I (LowerBoundedSet T)] : RangeUnion (RangeFrom T) R (LowerBoundedSet T) (LowerBoundedSet T) where
  union self other := Tools.union (Tools.toSet self) other

/-- /repo/src/implementations/union/range_from.rs:28-37. -/
instance [Tools R I (UpperBoundedSet T)] : RangeUnion (RangeFrom T) R (UpperBoundedSet T) (UnboundedSet T) where
  union self other := Tools.union (Tools.toSet self) other

/-- /repo/src/implementations/union/range_from.rs:39-48. -/
instance [Tools R I (UnboundedSet T)] : RangeUnion (RangeFrom T) R (UnboundedSet T) (UnboundedSet T) where
  union self other := Tools.union (Tools.toSet self) other

/-- /repo/src/implementations/union/range_from.rs:50-59. -/
instance [Tools R I UnboundedRange] : RangeUnion (RangeFrom T) R UnboundedRange UnboundedRange where
  union self other := Tools.union (Tools.toSet other) self

/-- /repo/src/implementations/union/range_from.rs:61-70. -/
instance [Tools R I (EmptyRange T)] : RangeUnion (RangeFrom T) R (EmptyRange T) (RangeFrom T) where
  union self other := Tools.union (Tools.toSet other) self

/-- /repo/src/implementations/union/range_full.rs:6-14. -/
instance [Tools R I (BoundedSet T)] : RangeUnion RangeFull R (BoundedSet T) UnboundedRange where
  union self other := Tools.union (Tools.toSet self) other

/-- /repo/src/implementations/union/range_full.rs:16-24. -/
instance [Tools R I (LowerBoundedSet T)] : RangeUnion RangeFull R (LowerBoundedSet T) UnboundedRange where
  union self other := Tools.union (Tools.toSet self) other

/-- /repo/src/implementations/union/range_full.rs:26-34. -/
instance [Tools R I (UpperBoundedSet T)] : RangeUnion RangeFull R (UpperBoundedSet T) UnboundedRange where
  union self other := Tools.union (Tools.toSet self) other

/-- /repo/src/implementations/union/range_full.rs:36-44. -/
instance [Tools R I (UnboundedSet T)] : RangeUnion RangeFull R (UnboundedSet T) UnboundedRange where
  union self other := Tools.union (Tools.toSet self) other

/-- /repo/src/implementations/union/range_full.rs:46-54. -/
instance [Tools R I UnboundedRange] : RangeUnion RangeFull R UnboundedRange UnboundedRange where
  union self other := Tools.union (Tools.toSet other) self

/-- /repo/src/implementations/union/range_full.rs:56-65. -/
instance [Tools R I (EmptyRange T)] : RangeUnion RangeFull R (EmptyRange T) RangeFull where
  union self other := Tools.union (Tools.toSet other) self

/-- /repo/src/implementations/union/range_inclusive.rs:6-15. -/
instance [Tools R I (BoundedSet T)] : RangeUnion (RangeInclusive T) R (BoundedSet T) (BoundedSet T) where
  union self other := Tools.union (Tools.toSet self) other

/-- /repo/src/implementations/union/range_inclusive.rs:17-26. -/
instance [Tools R I (LowerBoundedSet T)] : RangeUnion (RangeInclusive T) R (LowerBoundedSet T) (LowerBoundedSet T) where
  union self other := Tools.union (Tools.toSet self) other

/-- /repo/src/implementations/union/range_inclusive.rs:28-37. -/
instance [Tools R I (UpperBoundedSet T)] : RangeUnion (RangeInclusive T) R (UpperBoundedSet T) (UpperBoundedSet T) where
  union self other := Tools.union (Tools.toSet self) other

/-- /repo/src/implementations/union/range_inclusive.rs:39-48. -/
instance [Tools R I (UnboundedSet T)] : RangeUnion (RangeInclusive T) R (UnboundedSet T) (UnboundedSet T) where
  union self other := Tools.union (Tools.toSet self) other

/-- /repo/src/implementations/union/range_inclusive.rs:50-59. -/
instance [Tools R I UnboundedRange] : RangeUnion (RangeInclusive T) R UnboundedRange UnboundedRange where
  union self other := Tools.union (Tools.toSet other) self

/-- /repo/src/implementations/union/range_inclusive.rs:61-70. -/
instance [Tools R I (EmptyRange T)] : RangeUnion (RangeInclusive T) R (EmptyRange T) (RangeInclusive T) where
  union self other := Tools.union (Tools.toSet other) self

/-- /repo/src/implementations/union/upper_bounded_set.rs:6-15. -/
instance [Tools R I (BoundedSet T)] : RangeUnion (UpperBoundedSet T) R (BoundedSet T) (UpperBoundedSet T) where
  union self other := Tools.union (Tools.toSet other) self

/-- /repo/src/implementations/union/range_to.rs:6-15. -/
instance [Tools R I (BoundedSet T)] : RangeUnion (RangeTo T) R (BoundedSet T) (UpperBoundedSet T) where
  union self other := Tools.union (Tools.toSet self) other

/-- /repo/src/implementations/union/upper_bounded_set.rs:17-26. -/
instance [Tools R I (LowerBoundedSet T)] : RangeUnion (UpperBoundedSet T) R (LowerBoundedSet T) (UnboundedSet T) where
  union self other := Tools.union (Tools.toSet other) self

/-- /repo/src/implementations/union/range_to.rs:17-26. -/
instance [Tools R I (LowerBoundedSet T)] : RangeUnion (RangeTo T) R (LowerBoundedSet T) (UnboundedSet T) where
  union self other := Tools.union (Tools.toSet self) other

/-- /repo/src/implementations/union/upper_bounded_set.rs:28-39. -/
instance [Tools R I (UpperBoundedSet T)] : RangeUnion (UpperBoundedSet T) R (UpperBoundedSet T) (UpperBoundedSet T) where
  union self other := do
    let other := Tools.toSet other
    let self ← self.addUpperBoundedRange other.upperBoundedRange
    Tools.union self other.ranges

/-- /repo/src/implementations/union/range_to.rs:28-37. -/
instance [Tools R I (UpperBoundedSet T)] : RangeUnion (RangeTo T) R (UpperBoundedSet T) (UpperBoundedSet T) where
  union self other := Tools.union (Tools.toSet self) other

/-- /repo/src/implementations/union/upper_bounded_set.rs:41-52. -/
instance [Tools R I (UnboundedSet T)] : RangeUnion (UpperBoundedSet T) R (UnboundedSet T) (UnboundedSet T) where
  union self other := do
    let set := Tools.toSet other
    let set ← set.addUpperBoundedRange self.upperBoundedRange
    Tools.union set self.ranges

/-- /repo/src/implementations/union/range_to.rs:39-48. -/
instance [Tools R I (UnboundedSet T)] : RangeUnion (RangeTo T) R (UnboundedSet T) (UnboundedSet T) where
  union self other := Tools.union (Tools.toSet self) other

/-- /repo/src/implementations/union/range_to.rs:50-59. -/
instance [Tools R I UnboundedRange] : RangeUnion (RangeTo T) R UnboundedRange UnboundedRange where
  union self other := Tools.union (Tools.toSet other) self

/-- /repo/src/implementations/union/range_to.rs:61-70. -/
instance [Tools R I (EmptyRange T)] : RangeUnion (RangeTo T) R (EmptyRange T) (RangeTo T) where
  union self other := Tools.union (Tools.toSet other) self

/-- /repo/src/implementations/union/range_to_inclusive.rs:6-15. -/
instance [Tools R I (BoundedSet T)] : RangeUnion (RangeToInclusive T) R (BoundedSet T) (UpperBoundedSet T) where
  union self other := Tools.union (Tools.toSet self) other

/-- /repo/src/implementations/union/range_to_inclusive.rs:17-26. -/
instance [Tools R I (LowerBoundedSet T)] : RangeUnion (RangeToInclusive T) R (LowerBoundedSet T) (UnboundedSet T) where
  union self other := Tools.union (Tools.toSet self) other

/-- /repo/src/implementations/union/range_to_inclusive.rs:28-37. -/
instance [Tools R I (UpperBoundedSet T)] : RangeUnion (RangeToInclusive T) R (UpperBoundedSet T) (UpperBoundedSet T) where
  union self other := Tools.union (Tools.toSet self) other

/-- /repo/src/implementations/union/range_to_inclusive.rs:39-48. -/
instance [Tools R I (UnboundedSet T)] : RangeUnion (RangeToInclusive T) R (UnboundedSet T) (UnboundedSet T) where
  union self other := Tools.union (Tools.toSet self) other

/-- /repo/src/implementations/union/range_to_inclusive.rs:50-59. -/
instance [Tools R I UnboundedRange] : RangeUnion (RangeToInclusive T) R UnboundedRange UnboundedRange where
  union self other := Tools.union (Tools.toSet other) self

/-- /repo/src/implementations/union/range_to_inclusive.rs:61-70. -/
instance [Tools R I (EmptyRange T)] : RangeUnion (RangeToInclusive T) R (EmptyRange T) (RangeToInclusive T) where
  union self other := Tools.union (Tools.toSet other) self

/-- /repo/src/implementations/union/unbounded_set.rs:17-26. -/
instance [Tools R I (LowerBoundedSet T)] : RangeUnion (UnboundedSet T) R (LowerBoundedSet T) (UnboundedSet T) where
  union self other := Tools.union (Tools.toSet other) self

/-- /repo/src/implementations/union/unbounded_set.rs:28-37. -/
instance [Tools R I (UpperBoundedSet T)] : RangeUnion (UnboundedSet T) R (UpperBoundedSet T) (UnboundedSet T) where
  union self other := Tools.union (Tools.toSet other) self

/-- /repo/src/implementations/union/unbounded_set.rs:39-49. -/
instance [Tools R I (UnboundedSet T)] : RangeUnion (UnboundedSet T) R (UnboundedSet T) (UnboundedSet T) where
  union self other := self.addUnboundedSet (Tools.toSet other)

/-- /repo/src/implementations/union/unbounded_set.rs:51-60. -/
instance [Tools R I UnboundedRange] : RangeUnion (UnboundedSet T) R UnboundedRange UnboundedRange where
  union self other := Tools.union (Tools.toSet other) self

/-- /repo/src/implementations/union/unbounded_set.rs:62-71. -/
instance [Tools R I (EmptyRange T)] : RangeUnion (UnboundedSet T) R (EmptyRange T) (UnboundedSet T) where
  union self other := Tools.union (Tools.toSet other) self

/-- /repo/src/implementations/union/upper_bounded_range.rs:6-15. -/
instance [Tools R I (BoundedSet T)] : RangeUnion (UpperBoundedRange T) R (BoundedSet T) (UpperBoundedSet T) where
  union self other := Tools.union (Tools.toSet self) other

/-- /repo/src/implementations/union/upper_bounded_range.rs:17-26. -/
instance [Tools R I (LowerBoundedSet T)] : RangeUnion (UpperBoundedRange T) R (LowerBoundedSet T) (UnboundedSet T) where
  union self other := Tools.union (Tools.toSet self) other

/-- /repo/src/implementations/union/upper_bounded_range.rs:28-37. -/
instance [Tools R I (UpperBoundedSet T)] : RangeUnion (UpperBoundedRange T) R (UpperBoundedSet T) (UpperBoundedSet T) where
  union self other := Tools.union (Tools.toSet self) other

/-- /repo/src/implementations/union/upper_bounded_range.rs:39-48. -/
instance [Tools R I (UnboundedSet T)] : RangeUnion (UpperBoundedRange T) R (UnboundedSet T) (UnboundedSet T) where
  union self other := Tools.union (Tools.toSet self) other

/-- /repo/src/implementations/union/upper_bounded_range.rs:50-59. -/
instance [Tools R I UnboundedRange] : RangeUnion (UpperBoundedRange T) R UnboundedRange UnboundedRange where
  union self other := Tools.union (Tools.toSet other) self

/-- /repo/src/implementations/union/upper_bounded_range.rs:61-70. -/
instance [Tools R I (EmptyRange T)] : RangeUnion (UpperBoundedRange T) R (EmptyRange T) (UpperBoundedRange T) where
  union self other := Tools.union (Tools.toSet other) self

/-- /repo/src/implementations/union/upper_bounded_set.rs:54-63. -/
instance [Tools R I UnboundedRange] : RangeUnion (UpperBoundedSet T) R UnboundedRange UnboundedRange where
  union self other := Tools.union (Tools.toSet other) self

/-- /repo/src/implementations/union/upper_bounded_set.rs:65-74. -/
instance [Tools R I (EmptyRange T)] : RangeUnion (UpperBoundedSet T) R (EmptyRange T) (UpperBoundedSet T) where
  union self other := Tools.union (Tools.toSet other) self

/-! ### `RangeIntersection` -/

/-- /repo/src/implementations/intersection/bounded_range.rs:6-16. -/
instance [Tools R (BoundedRange T) S] : RangeIntersection (BoundedRange T) R (BoundedRange T) (BoundedRange T) where
  intersection self other := do
    let other := Tools.toInner other
    return ⟨self.start.max other.start, self.stop.min other.stop⟩

/-- /repo/src/implementations/intersection/bounded_set.rs:7-21. -/
instance [Tools R (BoundedRange T) S] : RangeIntersection (BoundedSet T) R (BoundedRange T) (BoundedSet T) where
  intersection self other := do
    let other := Tools.toInner other
    let ranges ← self.ranges.mapM fun range => Tools.intersection range other
    return ⟨ranges.filter fun r => !Tools.isEmpty r⟩

/-- /repo/src/implementations/intersection/bounded_range.rs:18-27. -/
instance [Tools R (BoundedSet T) S] : RangeIntersection (BoundedRange T) R (BoundedSet T) (BoundedSet T) where
  intersection self other := Tools.intersection (Tools.toInner other) self

/-- /repo/src/implementations/intersection/bounded_range.rs:29-38. -/
instance [Tools R (LowerBoundedRange T) S] : RangeIntersection (BoundedRange T) R (LowerBoundedRange T) (BoundedRange T) where
  intersection self other := .ok ⟨self.start.max (Tools.toInner other).start, self.stop⟩

/-- /repo/src/implementations/intersection/lower_bounded_range.rs:6-15. -/
instance [Tools R (BoundedRange T) S] : RangeIntersection (LowerBoundedRange T) R (BoundedRange T) (BoundedRange T) where
  intersection self other := Tools.intersection (Tools.toInner other) self

/-- /repo/src/implementations/intersection/lower_bounded_set.rs:7-20. -/
instance [Tools R (BoundedRange T) S] : RangeIntersection (LowerBoundedSet T) R (BoundedRange T) (BoundedSet T) where
  intersection self other := do
    let other := Tools.toInner other
    let set := BoundedSet.ofBR (← Tools.intersection self.lowerBoundedRange other)
    set.addSet (← Tools.intersection self.ranges other)

/-- /repo/src/implementations/intersection/bounded_range.rs:40-49. -/
instance [Tools R (LowerBoundedSet T) S] : RangeIntersection (BoundedRange T) R (LowerBoundedSet T) (BoundedSet T) where
  intersection self other := Tools.intersection (Tools.toInner other) self

/-- /repo/src/implementations/intersection/bounded_range.rs:51-60. -/
instance [Tools R (UpperBoundedRange T) S] : RangeIntersection (BoundedRange T) R (UpperBoundedRange T) (BoundedRange T) where
  intersection self other := .ok ⟨self.start, self.stop.min (Tools.toInner other).stop⟩

/-- /repo/src/implementations/intersection/upper_bounded_range.rs:6-15. -/
instance [Tools R (BoundedRange T) S] : RangeIntersection (UpperBoundedRange T) R (BoundedRange T) (BoundedRange T) where
  intersection self other := Tools.intersection (Tools.toInner other) self

/-- /repo/src/implementations/intersection/upper_bounded_set.rs:7-20. -/
instance [Tools R (BoundedRange T) S] : RangeIntersection (UpperBoundedSet T) R (BoundedRange T) (BoundedSet T) where
  intersection self other := do
    let other := Tools.toInner other
    let set := Tools.toSet (← Tools.intersection self.upperBoundedRange other)
    let set : BoundedSet T := ⟨set.ranges.filter fun r => !Tools.isEmpty r⟩
    set.addSet (← Tools.intersection self.ranges other)

/-- /repo/src/implementations/intersection/bounded_range.rs:62-71. -/
instance [Tools R (UpperBoundedSet T) S] : RangeIntersection (BoundedRange T) R (UpperBoundedSet T) (BoundedSet T) where
  intersection self other := Tools.intersection (Tools.toInner other) self

/-- /repo/src/implementations/intersection/unbounded_range.rs:3-8. -/
instance [Tools R I S] : RangeIntersection UnboundedRange R I I where
  intersection _ other := .ok (Tools.toInner other)

/-- /repo/src/implementations/intersection/bounded_range.rs:73-82. -/
instance [Tools R UnboundedRange S] : RangeIntersection (BoundedRange T) R UnboundedRange (BoundedRange T) where
  intersection self other := Tools.intersection (Tools.toInner other) self

/-- /repo/src/implementations/intersection/bounded_set.rs:72-86. -/
instance [Tools R (UpperBoundedRange T) S] : RangeIntersection (BoundedSet T) R (UpperBoundedRange T) (BoundedSet T) where
  intersection self other := do
    let other := Tools.toInner other
    let ranges ← self.ranges.mapM fun range => Tools.intersection range other
    return ⟨ranges.filter fun r => !Tools.isEmpty r⟩

/-- /repo/src/implementations/intersection/bounded_set.rs:38-52. -/
instance [Tools R (LowerBoundedRange T) S] : RangeIntersection (BoundedSet T) R (LowerBoundedRange T) (BoundedSet T) where
  intersection self other := do
    let other := Tools.toInner other
    let ranges ← self.ranges.mapM fun range => Tools.intersection range other
    return ⟨ranges.filter fun r => !Tools.isEmpty r⟩

/-- /repo/src/implementations/intersection/bounded_set.rs:23-36. -/
instance [Tools R (BoundedSet T) S] : RangeIntersection (BoundedSet T) R (BoundedSet T) (BoundedSet T) where
  intersection self other := do
    let set := BoundedSet.empty
    self.ranges.foldlM (fun set range => do set.addSet (← Tools.intersection range other)) set

/-- /repo/src/implementations/intersection/bounded_set.rs:117-141. -/
instance [Tools R (UnboundedSet T) S] : RangeIntersection (BoundedSet T) R (UnboundedSet T) (BoundedSet T) where
  intersection self other := match Tools.toInner other with
    | .full => .ok self
    | .piecewise p => do
        let set ← Tools.intersection self p.upperBoundedRange
        let set ← set.addSet (← Tools.intersection self p.lowerBoundedRange)
        set.addSet (← Tools.intersection self p.ranges)

/-- /repo/src/implementations/intersection/unbounded_set.rs:7-16. -/
instance [Tools R (BoundedRange T) S] : RangeIntersection (UnboundedSet T) R (BoundedRange T) (BoundedSet T) where
  intersection self other := Tools.intersection (Tools.toSet (Tools.toInner other)) self

/-- /repo/src/implementations/intersection/bounded_range.rs:84-93. -/
instance [Tools R (UnboundedSet T) S] : RangeIntersection (BoundedRange T) R (UnboundedSet T) (BoundedSet T) where
  intersection self other := Tools.intersection (Tools.toInner other) self

/-- /repo/src/implementations/intersection/empty_range.rs:3-11. -/
instance [Tools R I S] : RangeIntersection (EmptyRange T) R I (EmptyRange T) where
  intersection self _ := .ok self

/-- /repo/src/implementations/intersection/bounded_range.rs:95-104. -/
instance [Tools R (EmptyRange T) S] : RangeIntersection (BoundedRange T) R (EmptyRange T) (EmptyRange T) where
  intersection self other := Tools.intersection (Tools.toInner other) self

/-- /repo/src/implementations/intersection/bounded_set.rs:54-70. -/
instance [Tools R (LowerBoundedSet T) S] : RangeIntersection (BoundedSet T) R (LowerBoundedSet T) (BoundedSet T) where
  intersection self other := do
    let set ← Tools.intersection self (Tools.toInner other).lowerBoundedRange
    self.ranges.foldlM (fun set range => do set.addSet (← Tools.intersection range other)) set

/-- /repo/src/implementations/intersection/bounded_set.rs:88-104. -/
instance [Tools R (UpperBoundedSet T) S] : RangeIntersection (BoundedSet T) R (UpperBoundedSet T) (BoundedSet T) where
  intersection self other := do
    let set ← Tools.intersection self (Tools.toInner other).upperBoundedRange
    self.ranges.foldlM (fun set range => do set.addSet (← Tools.intersection range other)) set

/-- /repo/src/implementations/intersection/bounded_set.rs:106-115. -/
instance [Tools R UnboundedRange S] : RangeIntersection (BoundedSet T) R UnboundedRange (BoundedSet T) where
  intersection self _ := .ok self

/-- /repo/src/implementations/intersection/bounded_set.rs:143-152. -/
instance [Tools R (EmptyRange T) S] : RangeIntersection (BoundedSet T) R (EmptyRange T) (EmptyRange T) where
  intersection _ other := .ok (Tools.toInner other)

/-- /repo/src/implementations/intersection/lower_bounded_range.rs:17-26. -/
instance [Tools R (BoundedSet T) S] : RangeIntersection (LowerBoundedRange T) R (BoundedSet T) (BoundedSet T) where
  intersection self other := Tools.intersection (Tools.toInner other) self

/-- /repo/src/implementations/intersection/lower_bounded_range.rs:28-37. -/
instance [Tools R (LowerBoundedRange T) S] : RangeIntersection (LowerBoundedRange T) R (LowerBoundedRange T) (LowerBoundedRange T) where
  intersection self other := .ok ⟨self.start.max (Tools.toInner other).start⟩

/-- /repo/src/implementations/intersection/lower_bounded_set.rs:33-45. -/
instance [Tools R (LowerBoundedRange T) S] : RangeIntersection (LowerBoundedSet T) R (LowerBoundedRange T) (LowerBoundedSet T) where
  intersection self other := do
    let other := Tools.toInner other
    return { lowerBoundedRange := ← Tools.intersection self.lowerBoundedRange other
             ranges := ← Tools.intersection self.ranges other }

/-- /repo/src/implementations/intersection/lower_bounded_range.rs:39-48. -/
instance [Tools R (LowerBoundedSet T) S] : RangeIntersection (LowerBoundedRange T) R (LowerBoundedSet T) (LowerBoundedSet T) where
  intersection self other := Tools.intersection (Tools.toInner other) self

/-- /repo/src/implementations/intersection/lower_bounded_range.rs:50-59. -/
instance [Tools R (UpperBoundedRange T) S] : RangeIntersection (LowerBoundedRange T) R (UpperBoundedRange T) (BoundedRange T) where
  intersection self other := .ok ⟨self.start, (Tools.toInner other).stop⟩

/-- /repo/src/implementations/intersection/upper_bounded_range.rs:28-37. -/
instance [Tools R (LowerBoundedRange T) S] : RangeIntersection (UpperBoundedRange T) R (LowerBoundedRange T) (BoundedRange T) where
  intersection self other := Tools.intersection (Tools.toInner other) self

/-- /repo/src/implementations/intersection/upper_bounded_set.rs:33-46. -/
instance [Tools R (LowerBoundedRange T) S] : RangeIntersection (UpperBoundedSet T) R (LowerBoundedRange T) (BoundedSet T) where
  intersection self other := do
    let other := Tools.toInner other
    let set := Tools.toSet (← Tools.intersection self.upperBoundedRange other)
    let set : BoundedSet T := ⟨set.ranges.filter fun r => !Tools.isEmpty r⟩
    set.addSet (← Tools.intersection self.ranges other)

/-- /repo/src/implementations/intersection/lower_bounded_range.rs:61-70. -/
instance [Tools R (UpperBoundedSet T) S] : RangeIntersection (LowerBoundedRange T) R (UpperBoundedSet T) (BoundedSet T) where
  intersection self other := Tools.intersection (Tools.toInner other) self

/-- /repo/src/implementations/intersection/lower_bounded_range.rs:72-80. -/
instance [Tools R UnboundedRange S] : RangeIntersection (LowerBoundedRange T) R UnboundedRange (LowerBoundedRange T) where
  intersection self other := Tools.intersection (Tools.toInner other) self

/-- /repo/src/implementations/intersection/lower_bounded_set.rs:63-77. -/
instance [Tools R (UpperBoundedRange T) S] : RangeIntersection (LowerBoundedSet T) R (UpperBoundedRange T) (BoundedSet T) where
  intersection self other := do
    let other := Tools.toInner other
    let set := Tools.toSet (← Tools.intersection self.lowerBoundedRange other)
    let set : BoundedSet T := ⟨set.ranges.filter fun r => !Tools.isEmpty r⟩
    let set ← set.addSet (← Tools.intersection self.ranges other)
    return ⟨set.ranges.filter fun r => !Tools.isEmpty r⟩

/-- /repo/src/implementations/intersection/lower_bounded_set.rs:22-31. -/
instance [Tools R (BoundedSet T) S] : RangeIntersection (LowerBoundedSet T) R (BoundedSet T) (BoundedSet T) where
  intersection self other := Tools.intersection (Tools.toInner other) self

/-- /repo/src/implementations/intersection/lower_bounded_set.rs:106-130. -/
instance [Tools R (UnboundedSet T) S] : RangeIntersection (LowerBoundedSet T) R (UnboundedSet T) (LowerBoundedSet T) where
  intersection self other := match Tools.toInner other with
    | .full => .ok self
    | .piecewise p => do
        let set ← Tools.intersection self p.lowerBoundedRange
        let set ← set.addSet (← Tools.intersection self p.upperBoundedRange)
        set.addSet (← Tools.intersection self p.ranges)

/-- /repo/src/implementations/intersection/unbounded_set.rs:29-38. -/
instance [Tools R (LowerBoundedRange T) S] : RangeIntersection (UnboundedSet T) R (LowerBoundedRange T) (LowerBoundedSet T) where
  intersection self other := Tools.intersection (Tools.toSet (Tools.toInner other)) self

/-- /repo/src/implementations/intersection/lower_bounded_range.rs:82-91. -/
instance [Tools R (UnboundedSet T) S] : RangeIntersection (LowerBoundedRange T) R (UnboundedSet T) (LowerBoundedSet T) where
  intersection self other := Tools.intersection (Tools.toInner other) self

/-- /repo/src/implementations/intersection/lower_bounded_range.rs:93-102. -/
instance [Tools R (EmptyRange T) S] : RangeIntersection (LowerBoundedRange T) R (EmptyRange T) (EmptyRange T) where
  intersection _ other := .ok (Tools.toInner other)

/-- /repo/src/implementations/intersection/lower_bounded_set.rs:47-61. -/
instance [Tools R (LowerBoundedSet T) S] : RangeIntersection (LowerBoundedSet T) R (LowerBoundedSet T) (LowerBoundedSet T) where
  intersection self other := do
    let set ← Tools.intersection self (Tools.toInner other).lowerBoundedRange
    set.addSet (← Tools.intersection self.ranges other)

/-- /repo/src/implementations/intersection/lower_bounded_set.rs:79-93. -/
instance [Tools R (UpperBoundedSet T) S] : RangeIntersection (LowerBoundedSet T) R (UpperBoundedSet T) (BoundedSet T) where
  intersection self other := do
    let other := Tools.toInner other
    let set ← Tools.intersection self other.upperBoundedRange
    let set : BoundedSet T := ⟨set.ranges.filter fun r => !Tools.isEmpty r⟩
    let set ← set.addSet (← Tools.intersection self other.ranges)
    return ⟨set.ranges.filter fun r => !Tools.isEmpty r⟩

/-- /repo/src/implementations/intersection/lower_bounded_set.rs:95-104. -/
instance [Tools R UnboundedRange S] : RangeIntersection (LowerBoundedSet T) R UnboundedRange (LowerBoundedSet T) where
  intersection self _ := .ok self

/-- /repo/src/implementations/intersection/lower_bounded_set.rs:132-141. -/
instance [Tools R (EmptyRange T) S] : RangeIntersection (LowerBoundedSet T) R (EmptyRange T) (EmptyRange T) where
  intersection _ other := .ok (Tools.toInner other)

/-- /repo/src/implementations/intersection/range.rs:6-15. -/
instance [Tools R (BoundedRange T) S] : RangeIntersection (Range T) R (BoundedRange T) (BoundedRange T) where
  intersection self other := Tools.intersection (Tools.toInner self) other

/-- /repo/src/implementations/intersection/range.rs:17-26. -/
instance [Tools R (BoundedSet T) S] : RangeIntersection (Range T) R (BoundedSet T) (BoundedSet T) where
  intersection self other := Tools.intersection (Tools.toInner other) self

/-- /repo/src/implementations/intersection/range.rs:28-37. -/
instance [Tools R (LowerBoundedRange T) S] : RangeIntersection (Range T) R (LowerBoundedRange T) (BoundedRange T) where
  intersection self other := Tools.intersection (Tools.toInner self) other

/-- /repo/src/implementations/intersection/range.rs:39-48. -/
instance [Tools R (LowerBoundedSet T) S] : RangeIntersection (Range T) R (LowerBoundedSet T) (BoundedSet T) where
  intersection self other := Tools.intersection (Tools.toInner other) self

/-- /repo/src/implementations/intersection/range.rs:50-59. -/
instance [Tools R (UpperBoundedRange T) S] : RangeIntersection (Range T) R (UpperBoundedRange T) (BoundedRange T) where
  intersection self other := Tools.intersection (Tools.toInner self) other

/-- /repo/src/implementations/intersection/range.rs:61-70. -/
instance [Tools R (UpperBoundedSet T) S] : RangeIntersection (Range T) R (UpperBoundedSet T) (BoundedSet T) where
  intersection self other := Tools.intersection (Tools.toInner other) self

/-- /repo/src/implementations/intersection/range.rs:72-81. -/
instance [Tools R UnboundedRange S] : RangeIntersection (Range T) R UnboundedRange (BoundedRange T) where
  intersection self other := Tools.intersection (Tools.toInner self) other

/-- /repo/src/implementations/intersection/range.rs:83-92. -/
instance [Tools R (UnboundedSet T) S] : RangeIntersection (Range T) R (UnboundedSet T) (BoundedSet T) where
  intersection self other := Tools.intersection (Tools.toInner other) self

/-- /repo/src/implementations/intersection/range.rs:94-103. -/
instance [Tools R (EmptyRange T) S] : RangeIntersection (Range T) R (EmptyRange T) (EmptyRange T) where
  intersection _ other := .ok (Tools.toInner other)

/-- /repo/src/implementations/intersection/range_from.rs:6-15. -/
instance [Tools R (BoundedRange T) S] : RangeIntersection (RangeFrom T) R (BoundedRange T) (BoundedRange T) where
  intersection self other := Tools.intersection (Tools.toInner self) other

/-- /repo/src/implementations/intersection/range_from.rs:17-26. -/
instance [Tools R (BoundedSet T) S] : RangeIntersection (RangeFrom T) R (BoundedSet T) (BoundedSet T) where
  intersection self other := Tools.intersection (Tools.toInner self) other

/-- /repo/src/implementations/intersection/range_from.rs:28-37. -/
instance [Tools R (LowerBoundedRange T) S] : RangeIntersection (RangeFrom T) R (LowerBoundedRange T) (LowerBoundedRange T) where
  intersection self other := Tools.intersection (Tools.toInner self) other

/-- /repo/src/implementations/intersection/range_from.rs:39-48. -/
instance [Tools R (LowerBoundedSet T) S] : RangeIntersection (RangeFrom T) R (LowerBoundedSet T) (LowerBoundedSet T) where
  intersection self other := Tools.intersection (Tools.toInner self) other

/-- /repo/src/implementations/intersection/range_from.rs:50-59. -/
instance [Tools R (UpperBoundedRange T) S] : RangeIntersection (RangeFrom T) R (UpperBoundedRange T) (BoundedRange T) where
  intersection self other := Tools.intersection (Tools.toInner self) other

/-- /repo/src/implementations/intersection/range_from.rs:61-70. -/
instance [Tools R (UpperBoundedSet T) S] : RangeIntersection (RangeFrom T) R (UpperBoundedSet T) (BoundedSet T) where
  intersection self other := Tools.intersection (Tools.toInner self) other

/-- /repo/src/implementations/intersection/range_from.rs:72-81. -/
instance [Tools R UnboundedRange S] : RangeIntersection (RangeFrom T) R UnboundedRange (LowerBoundedRange T) where
  intersection self other := Tools.intersection (Tools.toInner self) other

/-- /repo/src/implementations/intersection/range_from.rs:83-92. -/
instance [Tools R (UnboundedSet T) S] : RangeIntersection (RangeFrom T) R (UnboundedSet T) (LowerBoundedSet T) where
  intersection self other := Tools.intersection (Tools.toInner self) other

/-- /repo/src/implementations/intersection/range_from.rs:94-103. -/
instance [Tools R (EmptyRange T) S] : RangeIntersection (RangeFrom T) R (EmptyRange T) (EmptyRange T) where
  intersection _ other := .ok (Tools.toInner other)

/-- /repo/src/implementations/intersection/range_full.rs:6-14. -/
instance [Tools R (BoundedRange T) S] : RangeIntersection RangeFull R (BoundedRange T) (BoundedRange T) where
  intersection self other := Tools.intersection (Tools.toInner self) other

/-- /repo/src/implementations/intersection/range_full.rs:16-24. -/
instance [Tools R (BoundedSet T) S] : RangeIntersection RangeFull R (BoundedSet T) (BoundedSet T) where
  intersection self other := Tools.intersection (Tools.toInner self) other

/-- /repo/src/implementations/intersection/range_full.rs:26-34. -/
instance [Tools R (LowerBoundedRange T) S] : RangeIntersection RangeFull R (LowerBoundedRange T) (LowerBoundedRange T) where
  intersection self other := Tools.intersection (Tools.toInner self) other

/-- /repo/src/implementations/intersection/range_full.rs:36-44. -/
instance [Tools R (LowerBoundedSet T) S] : RangeIntersection RangeFull R (LowerBoundedSet T) (LowerBoundedSet T) where
  intersection self other := Tools.intersection (Tools.toInner self) other

/-- /repo/src/implementations/intersection/range_full.rs:46-54. -/
instance [Tools R (UpperBoundedRange T) S] : RangeIntersection RangeFull R (UpperBoundedRange T) (UpperBoundedRange T) where
  intersection self other := Tools.intersection (Tools.toInner self) other

/-- /repo/src/implementations/intersection/range_full.rs:56-64. -/
instance [Tools R (UpperBoundedSet T) S] : RangeIntersection RangeFull R (UpperBoundedSet T) (UpperBoundedSet T) where
  intersection self other := Tools.intersection (Tools.toInner self) other

/-- /repo/src/implementations/intersection/range_full.rs:66-74. -/
instance [Tools R UnboundedRange S] : RangeIntersection RangeFull R UnboundedRange UnboundedRange where
  intersection self other := Tools.intersection (Tools.toInner self) other

/-- /repo/src/implementations/intersection/range_full.rs:76-84. -/
instance [Tools R (UnboundedSet T) S] : RangeIntersection RangeFull R (UnboundedSet T) (UnboundedSet T) where
  intersection self other := Tools.intersection (Tools.toInner self) other

/-- /repo/src/implementations/intersection/range_full.rs:86-95. -/
instance [Tools R (EmptyRange T) S] : RangeIntersection RangeFull R (EmptyRange T) (EmptyRange T) where
  intersection _ other := .ok (Tools.toInner other)

/-- /repo/src/implementations/intersection/range_inclusive.rs:6-15. -/
instance [Tools R (BoundedRange T) S] : RangeIntersection (RangeInclusive T) R (BoundedRange T) (BoundedRange T) where
  intersection self other := Tools.intersection (Tools.toInner self) other

/-- /repo/src/implementations/intersection/range_inclusive.rs:17-26. -/
instance [Tools R (BoundedSet T) S] : RangeIntersection (RangeInclusive T) R (BoundedSet T) (BoundedSet T) where
  intersection self other := Tools.intersection (Tools.toInner other) self

/-- /repo/src/implementations/intersection/range_inclusive.rs:28-37. -/
instance [Tools R (LowerBoundedRange T) S] : RangeIntersection (RangeInclusive T) R (LowerBoundedRange T) (BoundedRange T) where
  intersection self other := Tools.intersection (Tools.toInner self) other

/-- /repo/src/implementations/intersection/range_inclusive.rs:39-48. -/
instance [Tools R (LowerBoundedSet T) S] : RangeIntersection (RangeInclusive T) R (LowerBoundedSet T) (BoundedSet T) where
  intersection self other := Tools.intersection (Tools.toInner other) self

/-- /repo/src/implementations/intersection/range_inclusive.rs:50-59. -/
instance [Tools R (UpperBoundedRange T) S] : RangeIntersection (RangeInclusive T) R (UpperBoundedRange T) (BoundedRange T) where
  intersection self other := Tools.intersection (Tools.toInner self) other

/-- /repo/src/implementations/intersection/range_inclusive.rs:61-70. -/
instance [Tools R (UpperBoundedSet T) S] : RangeIntersection (RangeInclusive T) R (UpperBoundedSet T) (BoundedSet T) where
  intersection self other := Tools.intersection (Tools.toInner other) self

/-- /repo/src/implementations/intersection/range_inclusive.rs:72-81. -/
instance [Tools R UnboundedRange S] : RangeIntersection (RangeInclusive T) R UnboundedRange (BoundedRange T) where
  intersection self other := Tools.intersection (Tools.toInner self) other

/-- /repo/src/implementations/intersection/range_inclusive.rs:83-92. -/
instance [Tools R (UnboundedSet T) S] : RangeIntersection (RangeInclusive T) R (UnboundedSet T) (BoundedSet T) where
  intersection self other := Tools.intersection (Tools.toInner other) self

/-- /repo/src/implementations/intersection/range_inclusive.rs:94-103. -/
instance [Tools R (EmptyRange T) S] : RangeIntersection (RangeInclusive T) R (EmptyRange T) (EmptyRange T) where
  intersection _ other := .ok (Tools.toInner other)

/-- /repo/src/implementations/intersection/range_to.rs:6-15. -/
instance [Tools R (BoundedRange T) S] : RangeIntersection (RangeTo T) R (BoundedRange T) (BoundedRange T) where
  intersection self other := Tools.intersection (Tools.toInner self) other

/-- /repo/src/implementations/intersection/range_to.rs:17-26. -/
instance [Tools R (BoundedSet T) S] : RangeIntersection (RangeTo T) R (BoundedSet T) (BoundedSet T) where
  intersection self other := Tools.intersection (Tools.toInner other) self

/-- /repo/src/implementations/intersection/range_to.rs:28-37. -/
instance [Tools R (LowerBoundedRange T) S] : RangeIntersection (RangeTo T) R (LowerBoundedRange T) (BoundedRange T) where
  intersection self other := Tools.intersection (Tools.toInner self) other

/-- /repo/src/implementations/intersection/range_to.rs:39-48. -/
instance [Tools R (LowerBoundedSet T) S] : RangeIntersection (RangeTo T) R (LowerBoundedSet T) (BoundedSet T) where
  intersection self other := Tools.intersection (Tools.toInner other) self

/-- /repo/src/implementations/intersection/upper_bounded_range.rs:50-59. -/
instance [Tools R (UpperBoundedRange T) S] : RangeIntersection (UpperBoundedRange T) R (UpperBoundedRange T) (UpperBoundedRange T) where
  intersection self other := .ok ⟨self.stop.min (Tools.toInner other).stop⟩

/-- /repo/src/implementations/intersection/range_to.rs:50-59. -/
instance [Tools R (UpperBoundedRange T) S] : RangeIntersection (RangeTo T) R (UpperBoundedRange T) (UpperBoundedRange T) where
  intersection self other := Tools.intersection (Tools.toInner self) other

/-- /repo/src/implementations/intersection/upper_bounded_set.rs:59-71. -/
instance [Tools R (UpperBoundedRange T) S] : RangeIntersection (UpperBoundedSet T) R (UpperBoundedRange T) (UpperBoundedSet T) where
  intersection self other := do
    let other := Tools.toInner other
    let set := Tools.toSet (← Tools.intersection self.upperBoundedRange other)
    set.addSet (← Tools.intersection self.ranges other)

/-- /repo/src/implementations/intersection/range_to.rs:61-70. -/
instance [Tools R (UpperBoundedSet T) S] : RangeIntersection (RangeTo T) R (UpperBoundedSet T) (UpperBoundedSet T) where
  intersection self other := Tools.intersection (Tools.toInner other) self

/-- /repo/src/implementations/intersection/upper_bounded_range.rs:72-80. -/
instance [Tools R UnboundedRange S] : RangeIntersection (UpperBoundedRange T) R UnboundedRange (UpperBoundedRange T) where
  intersection self other := Tools.intersection (Tools.toInner other) self

/-- /repo/src/implementations/intersection/range_to.rs:72-81. -/
instance [Tools R UnboundedRange S] : RangeIntersection (RangeTo T) R UnboundedRange (UpperBoundedRange T) where
  intersection self other := Tools.intersection (Tools.toInner self) other

/-- /repo/src/implementations/intersection/upper_bounded_set.rs:22-31. -/
instance [Tools R (BoundedSet T) S] : RangeIntersection (UpperBoundedSet T) R (BoundedSet T) (BoundedSet T) where
  intersection self other := Tools.intersection (Tools.toInner other) self

/-- /repo/src/implementations/intersection/upper_bounded_set.rs:97-121. -/
instance [Tools R (UnboundedSet T) S] : RangeIntersection (UpperBoundedSet T) R (UnboundedSet T) (UpperBoundedSet T) where
  intersection self other := match Tools.toInner other with
    | .full => .ok self
    | .piecewise p => do
        let set ← Tools.intersection self p.upperBoundedRange
        let set ← set.addSet (← Tools.intersection self p.lowerBoundedRange)
        set.addSet (← Tools.intersection self p.ranges)

/-- /repo/src/implementations/intersection/unbounded_set.rs:51-60. -/
instance [Tools R (UpperBoundedRange T) S] : RangeIntersection (UnboundedSet T) R (UpperBoundedRange T) (UpperBoundedSet T) where
  intersection self other := Tools.intersection (Tools.toSet (Tools.toInner other)) self

/-- /repo/src/implementations/intersection/range_to.rs:83-92. -/
instance [Tools R (UnboundedSet T) S] : RangeIntersection (RangeTo T) R (UnboundedSet T) (UpperBoundedSet T) where
  intersection self other := Tools.intersection (Tools.toInner other) self

/-- /repo/src/implementations/intersection/range_to.rs:93-102. -/
instance [Tools R (EmptyRange T) S] : RangeIntersection (RangeTo T) R (EmptyRange T) (EmptyRange T) where
  intersection _ other := .ok (Tools.toInner other)

/-- /repo/src/implementations/intersection/range_to_inclusive.rs:6-15. -/
instance [Tools R (BoundedRange T) S] : RangeIntersection (RangeToInclusive T) R (BoundedRange T) (BoundedRange T) where
  intersection self other := Tools.intersection (Tools.toInner self) other

/-- /repo/src/implementations/intersection/range_to_inclusive.rs:17-26. -/
instance [Tools R (BoundedSet T) S] : RangeIntersection (RangeToInclusive T) R (BoundedSet T) (BoundedSet T) where
  intersection self other := Tools.intersection (Tools.toInner other) self

/-- /repo/src/implementations/intersection/range_to_inclusive.rs:28-37. -/
instance [Tools R (LowerBoundedRange T) S] : RangeIntersection (RangeToInclusive T) R (LowerBoundedRange T) (BoundedRange T) where
  intersection self other := Tools.intersection (Tools.toInner self) other

/-- /repo/src/implementations/intersection/range_to_inclusive.rs:39-48. -/
instance [Tools R (LowerBoundedSet T) S] : RangeIntersection (RangeToInclusive T) R (LowerBoundedSet T) (BoundedSet T) where
  intersection self other := Tools.intersection (Tools.toInner other) self

/-- /repo/src/implementations/intersection/range_to_inclusive.rs:50-59. -/
instance [Tools R (UpperBoundedRange T) S] : RangeIntersection (RangeToInclusive T) R (UpperBoundedRange T) (UpperBoundedRange T) where
  intersection self other := Tools.intersection (Tools.toInner self) other

/-- /repo/src/implementations/intersection/range_to_inclusive.rs:61-70. -/
instance [Tools R (UpperBoundedSet T) S] : RangeIntersection (RangeToInclusive T) R (UpperBoundedSet T) (UpperBoundedSet T) where
  intersection self other := Tools.intersection (Tools.toInner other) self

/-- /repo/src/implementations/intersection/range_to_inclusive.rs:72-81. -/
instance [Tools R UnboundedRange S] : RangeIntersection (RangeToInclusive T) R UnboundedRange (UpperBoundedRange T) where
  intersection self other := Tools.intersection (Tools.toInner self) other

/-- /repo/src/implementations/intersection/range_to_inclusive.rs:83-92. -/
instance [Tools R (UnboundedSet T) S] : RangeIntersection (RangeToInclusive T) R (UnboundedSet T) (UpperBoundedSet T) where
  intersection self other := Tools.intersection (Tools.toInner other) self

/-- /repo/src/implementations/intersection/range_to_inclusive.rs:94-103. -/
instance [Tools R (EmptyRange T) S] : RangeIntersection (RangeToInclusive T) R (EmptyRange T) (EmptyRange T) where
  intersection _ other := .ok (Tools.toInner other)

/-- /repo/src/implementations/intersection/unbounded_set.rs:18-27. -/
instance [Tools R (BoundedSet T) S] : RangeIntersection (UnboundedSet T) R (BoundedSet T) (BoundedSet T) where
  intersection self other := Tools.intersection (Tools.toInner other) self

/-- /repo/src/implementations/intersection/unbounded_set.rs:40-49. -/
instance [Tools R (LowerBoundedSet T) S] : RangeIntersection (UnboundedSet T) R (LowerBoundedSet T) (LowerBoundedSet T) where
  intersection self other := Tools.intersection (Tools.toInner other) self

/-- /repo/src/implementations/intersection/unbounded_set.rs:62-71. -/
instance [Tools R (UpperBoundedSet T) S] : RangeIntersection (UnboundedSet T) R (UpperBoundedSet T) (UpperBoundedSet T) where
  intersection self other := Tools.intersection (Tools.toInner other) self

/-- /repo/src/implementations/intersection/unbounded_set.rs:73-81. -/
instance [Tools R UnboundedRange S] : RangeIntersection (UnboundedSet T) R UnboundedRange (UnboundedSet T) where
  intersection self _ := .ok self

/-- /repo/src/implementations/intersection/unbounded_set.rs:83-108. -/
instance [Tools R (UnboundedSet T) S] : RangeIntersection (UnboundedSet T) R (UnboundedSet T) (UnboundedSet T) where
  intersection self other := match self, Tools.toInner other with
    | .full, other => .ok other
    | s, .full => .ok s
    | s, .piecewise p => do
        let a ← Tools.intersection s p.upperBoundedRange
        let b ← Tools.intersection s p.lowerBoundedRange
        let c ← Tools.intersection s p.ranges
        Tools.union a (← Tools.union b c)

/-- /repo/src/implementations/intersection/unbounded_set.rs:110-119. -/
instance [Tools R (EmptyRange T) S] : RangeIntersection (UnboundedSet T) R (EmptyRange T) (EmptyRange T) where
  intersection _ other := .ok (Tools.toInner other)

/-- /repo/src/implementations/intersection/upper_bounded_range.rs:17-26. -/
instance [Tools R (BoundedSet T) S] : RangeIntersection (UpperBoundedRange T) R (BoundedSet T) (BoundedSet T) where
  intersection self other := Tools.intersection (Tools.toInner other) self

/-- /repo/src/implementations/intersection/upper_bounded_range.rs:39-48. -/
instance [Tools R (LowerBoundedSet T) S] : RangeIntersection (UpperBoundedRange T) R (LowerBoundedSet T) (BoundedSet T) where
  intersection self other := Tools.intersection (Tools.toInner other) self

/-- /repo/src/implementations/intersection/upper_bounded_range.rs:61-70. -/
instance [Tools R (UpperBoundedSet T) S] : RangeIntersection (UpperBoundedRange T) R (UpperBoundedSet T) (UpperBoundedSet T) where
  intersection self other := Tools.intersection (Tools.toInner other) self

/-- /repo/src/implementations/intersection/upper_bounded_range.rs:82-91. -/
instance [Tools R (UnboundedSet T) S] : RangeIntersection (UpperBoundedRange T) R (UnboundedSet T) (UpperBoundedSet T) where
  intersection self other := Tools.intersection (Tools.toInner other) self

/-- /repo/src/implementations/intersection/upper_bounded_range.rs:93-102. -/
instance [Tools R (EmptyRange T) S] : RangeIntersection (UpperBoundedRange T) R (EmptyRange T) (EmptyRange T) where
  intersection _ other := .ok (Tools.toInner other)

/-- /repo/src/implementations/intersection/upper_bounded_set.rs:48-57. -/
instance [Tools R (LowerBoundedSet T) S] : RangeIntersection (UpperBoundedSet T) R (LowerBoundedSet T) (BoundedSet T) where
  intersection self other := Tools.intersection (Tools.toInner other) self

/-- /repo/src/implementations/intersection/upper_bounded_set.rs:73-85. -/
instance [Tools R (UpperBoundedSet T) S] : RangeIntersection (UpperBoundedSet T) R (UpperBoundedSet T) (UpperBoundedSet T) where
  intersection self other := do
    let other := Tools.toInner other
    let set ← Tools.intersection self other.upperBoundedRange
    set.addSet (← Tools.intersection self other.ranges)

/-- /repo/src/implementations/intersection/upper_bounded_set.rs:87-95. -/
instance [Tools R UnboundedRange S] : RangeIntersection (UpperBoundedSet T) R UnboundedRange (UpperBoundedSet T) where
  intersection self _ := .ok self

/-- /repo/src/implementations/intersection/upper_bounded_set.rs:123-132. -/
instance [Tools R (EmptyRange T) S] : RangeIntersection (UpperBoundedSet T) R (EmptyRange T) (EmptyRange T) where
  intersection _ other := .ok (Tools.toInner other)

/-! ### `RangeComplement` -/

/-- /repo/src/implementations/complement/bounded_range.rs:5-13. -/
instance : RangeComplement (BoundedRange T) (UnboundedSet T) where
  complement self := Tools.union (UpperBoundedRange.mk (.ofBound self.start.b.flipped))
    (LowerBoundedRange.mk (.ofBound self.stop.b.flipped))

/-- /repo/src/implementations/complement/lower_bounded_range.rs:3-10. -/
instance : RangeComplement (LowerBoundedRange T) (UpperBoundedRange T) where
  complement self := .ok ⟨.ofBound self.start.b.flipped⟩

/-- /repo/src/implementations/complement/upper_bounded_range.rs:3-10. -/
instance : RangeComplement (UpperBoundedRange T) (LowerBoundedRange T) where
  complement self := .ok ⟨.ofBound self.stop.b.flipped⟩

/-- /repo/src/implementations/complement/unbounded_range.rs:3-7. -/
instance : RangeComplement UnboundedRange (EmptyRange T) where
  complement _ := .ok EmptyRange.new

/-- /repo/src/implementations/complement/empty_range.rs:3-7. -/
instance : RangeComplement (EmptyRange T) UnboundedRange where
  complement _ := .ok ⟨⟩

/-- /repo/src/implementations/complement/bounded_set.rs:3-14. -/
instance : RangeComplement (BoundedSet T) (UnboundedSet T) where
  complement self := self.ranges.foldlM (fun acc range => do
    Tools.intersection acc (← (Tools.complement range : Res (UnboundedSet T)))) .full

/-- /repo/src/implementations/complement/lower_bounded_set.rs:3-13. -/
instance : RangeComplement (LowerBoundedSet T) (UpperBoundedSet T) where
  complement self := do
    self.ranges.ranges.foldlM
      (fun acc range => do Tools.intersection acc (← (Tools.complement range : Res (UnboundedSet T))))
      (Tools.toSet (← (Tools.complement self.lowerBoundedRange : Res (UpperBoundedRange T))))

/-- /repo/src/implementations/complement/upper_bounded_set.rs:3-13. -/
instance : RangeComplement (UpperBoundedSet T) (LowerBoundedSet T) where
  complement self := do
    self.ranges.ranges.foldlM
      (fun acc range => do Tools.intersection acc (← (Tools.complement range : Res (UnboundedSet T))))
      (Tools.toSet (← (Tools.complement self.upperBoundedRange : Res (LowerBoundedRange T))))

/-- /repo/src/implementations/complement/unbounded_set.rs:3-24. -/
instance : RangeComplement (UnboundedSet T) (BoundedSet T) where
  complement self := match self with
    | .full => .ok BoundedSet.empty
    | .piecewise set => do
        let startingRange ← Tools.intersection
          (← (Tools.complement set.lowerBoundedRange : Res (UpperBoundedRange T)))
          (← (Tools.complement set.upperBoundedRange : Res (LowerBoundedRange T)))
        set.ranges.ranges.foldlM
          (fun acc range => do Tools.intersection acc (← (Tools.complement range : Res (UnboundedSet T))))
          (Tools.toSet startingRange)

/-- /repo/src/implementations/complement/range.rs:3-10. -/
instance : RangeComplement (Range T) (UnboundedSet T) where
  complement self := Tools.complement (Tools.toInner self)

/-- /repo/src/implementations/complement/range_inclusive.rs:3-10. -/
instance : RangeComplement (RangeInclusive T) (UnboundedSet T) where
  complement self := Tools.complement (Tools.toInner self)

/-- /repo/src/implementations/complement/range_from.rs:3-10. -/
instance : RangeComplement (RangeFrom T) (UpperBoundedRange T) where
  complement self := Tools.complement (Tools.toInner self)

/-- /repo/src/implementations/complement/range_to.rs:3-10. -/
instance : RangeComplement (RangeTo T) (LowerBoundedRange T) where
  complement self := Tools.complement (Tools.toInner self)

/-- /repo/src/implementations/complement/range_to_inclusive.rs:3-10. -/
instance : RangeComplement (RangeToInclusive T) (LowerBoundedRange T) where
  complement self := Tools.complement (Tools.toInner self)

/-- /repo/src/implementations/complement/range_full.rs:3-7. -/
instance : RangeComplement RangeFull (EmptyRange T) where
  complement _ := .ok EmptyRange.new

end Rangetools
