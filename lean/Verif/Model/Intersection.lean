import Verif.Model.Union

/-!
# Model of `src/implementations/intersection/*.rs` where a set type takes part

(The intersections of two ranges are in `Ranges.lean`.)  Each definition is one `impl`; the
argument `other` stands for `other.to_inner()`.
-/

namespace Rangetools
variable {T : Type} [LE T] [LT T] [DecidableLE T] [DecidableLT T] [Ord T] [BEq T]

/-! ### Self = BoundedSet (and the flipped range impls) -/

/-- BoundedSet ∩ BoundedRange, /repo/src/implementations/intersection/bounded_set.rs:7-21. -/
def BoundedSet.interBR (self : BoundedSet T) (other : BoundedRange T) : BoundedSet T :=
  BoundedSet.retainNonEmpty ⟨self.ranges.map (fun range => range.interBR other)⟩

/-- BoundedSet ∩ LowerBoundedRange, /repo/src/implementations/intersection/bounded_set.rs:38-52. -/
def BoundedSet.interLBR (self : BoundedSet T) (other : LowerBoundedRange T) : BoundedSet T :=
  BoundedSet.retainNonEmpty ⟨self.ranges.map (fun range => range.interLBR other)⟩

/-- BoundedSet ∩ UpperBoundedRange, /repo/src/implementations/intersection/bounded_set.rs:72-86. -/
def BoundedSet.interUBR (self : BoundedSet T) (other : UpperBoundedRange T) : BoundedSet T :=
  BoundedSet.retainNonEmpty ⟨self.ranges.map (fun range => range.interUBR other)⟩

/-- BoundedRange ∩ BoundedSet, /repo/src/implementations/intersection/bounded_range.rs:18-27. -/
def BoundedRange.interBS (self : BoundedRange T) (other : BoundedSet T) : BoundedSet T :=
  other.interBR self

/-- LowerBoundedRange ∩ BoundedSet,
/repo/src/implementations/intersection/lower_bounded_range.rs:17-26. -/
def LowerBoundedRange.interBS (self : LowerBoundedRange T) (other : BoundedSet T) : BoundedSet T :=
  other.interLBR self

/-- UpperBoundedRange ∩ BoundedSet,
/repo/src/implementations/intersection/upper_bounded_range.rs:17-26. -/
def UpperBoundedRange.interBS (self : UpperBoundedRange T) (other : BoundedSet T) : BoundedSet T :=
  other.interUBR self

/-- BoundedSet ∩ BoundedSet, /repo/src/implementations/intersection/bounded_set.rs:23-36. -/
def BoundedSet.interBS (self other : BoundedSet T) : Res (BoundedSet T) :=
  self.ranges.foldlM (fun set range => set.addSet (range.interBS other)) BoundedSet.empty

/-! ### Self = LowerBoundedSet -/

/-- LowerBoundedSet ∩ BoundedRange, /repo/src/implementations/intersection/lower_bounded_set.rs:7-20. -/
def LowerBoundedSet.interBR (self : LowerBoundedSet T) (other : BoundedRange T) :
    Res (BoundedSet T) :=
  let set := BoundedSet.ofBR (self.lowerBoundedRange.interBR other)
  set.addSet (self.ranges.interBR other)

/-- BoundedRange ∩ LowerBoundedSet, /repo/src/implementations/intersection/bounded_range.rs:40-49. -/
def BoundedRange.interLBS (self : BoundedRange T) (other : LowerBoundedSet T) :
    Res (BoundedSet T) :=
  other.interBR self

/-- BoundedSet ∩ LowerBoundedSet, /repo/src/implementations/intersection/bounded_set.rs:54-70. -/
def BoundedSet.interLBS (self : BoundedSet T) (other : LowerBoundedSet T) : Res (BoundedSet T) :=
  self.ranges.foldlM (fun set range => do set.addSet (← range.interLBS other))
    (self.interLBR other.lowerBoundedRange)

/-- LowerBoundedSet ∩ BoundedSet, /repo/src/implementations/intersection/lower_bounded_set.rs:22-31. -/
def LowerBoundedSet.interBS (self : LowerBoundedSet T) (other : BoundedSet T) :
    Res (BoundedSet T) :=
  other.interLBS self

/-- LowerBoundedSet ∩ LowerBoundedRange,
/repo/src/implementations/intersection/lower_bounded_set.rs:33-45. -/
def LowerBoundedSet.interLBR (self : LowerBoundedSet T) (other : LowerBoundedRange T) :
    LowerBoundedSet T :=
  { lowerBoundedRange := self.lowerBoundedRange.interLBR other
    ranges := self.ranges.interLBR other }

/-- LowerBoundedRange ∩ LowerBoundedSet,
/repo/src/implementations/intersection/lower_bounded_range.rs:39-48. -/
def LowerBoundedRange.interLBS (self : LowerBoundedRange T) (other : LowerBoundedSet T) :
    LowerBoundedSet T :=
  other.interLBR self

/-- LowerBoundedSet ∩ LowerBoundedSet,
/repo/src/implementations/intersection/lower_bounded_set.rs:47-61. -/
def LowerBoundedSet.interLBS (self other : LowerBoundedSet T) : Res (LowerBoundedSet T) := do
  let set := self.interLBR other.lowerBoundedRange
  set.addSet (← self.ranges.interLBS other)

/-- LowerBoundedSet ∩ UpperBoundedRange,
/repo/src/implementations/intersection/lower_bounded_set.rs:63-77. -/
def LowerBoundedSet.interUBR (self : LowerBoundedSet T) (other : UpperBoundedRange T) :
    Res (BoundedSet T) := do
  let set := BoundedSet.ofBR (self.lowerBoundedRange.interUBR other)
  let set := set.retainNonEmpty
  let set ← set.addSet (self.ranges.interUBR other)
  return set.retainNonEmpty

/-- UpperBoundedRange ∩ LowerBoundedSet,
/repo/src/implementations/intersection/upper_bounded_range.rs:39-48. -/
def UpperBoundedRange.interLBS (self : UpperBoundedRange T) (other : LowerBoundedSet T) :
    Res (BoundedSet T) :=
  other.interUBR self

/-- LowerBoundedSet ∩ UpperBoundedSet,
/repo/src/implementations/intersection/lower_bounded_set.rs:79-93. -/
def LowerBoundedSet.interUBS (self : LowerBoundedSet T) (other : UpperBoundedSet T) :
    Res (BoundedSet T) := do
  let set ← self.interUBR other.upperBoundedRange
  let set := set.retainNonEmpty
  let set ← set.addSet (← self.interBS other.ranges)
  return set.retainNonEmpty

/-! ### Self = UpperBoundedSet -/

/-- UpperBoundedSet ∩ BoundedRange, /repo/src/implementations/intersection/upper_bounded_set.rs:7-20. -/
def UpperBoundedSet.interBR (self : UpperBoundedSet T) (other : BoundedRange T) :
    Res (BoundedSet T) :=
  let set := BoundedSet.ofBR (self.upperBoundedRange.interBR other)
  let set := set.retainNonEmpty
  set.addSet (self.ranges.interBR other)

/-- BoundedRange ∩ UpperBoundedSet, /repo/src/implementations/intersection/bounded_range.rs:62-71. -/
def BoundedRange.interUBS (self : BoundedRange T) (other : UpperBoundedSet T) :
    Res (BoundedSet T) :=
  other.interBR self

/-- BoundedSet ∩ UpperBoundedSet, /repo/src/implementations/intersection/bounded_set.rs:88-104. -/
def BoundedSet.interUBS (self : BoundedSet T) (other : UpperBoundedSet T) : Res (BoundedSet T) :=
  self.ranges.foldlM (fun set range => do set.addSet (← range.interUBS other))
    (self.interUBR other.upperBoundedRange)

/-- UpperBoundedSet ∩ BoundedSet, /repo/src/implementations/intersection/upper_bounded_set.rs:22-31. -/
def UpperBoundedSet.interBS (self : UpperBoundedSet T) (other : BoundedSet T) :
    Res (BoundedSet T) :=
  other.interUBS self

/-- UpperBoundedSet ∩ LowerBoundedRange,
/repo/src/implementations/intersection/upper_bounded_set.rs:33-46. -/
def UpperBoundedSet.interLBR (self : UpperBoundedSet T) (other : LowerBoundedRange T) :
    Res (BoundedSet T) :=
  let set := BoundedSet.ofBR (self.upperBoundedRange.interLBR other)
  let set := set.retainNonEmpty
  set.addSet (self.ranges.interLBR other)

/-- LowerBoundedRange ∩ UpperBoundedSet,
/repo/src/implementations/intersection/lower_bounded_range.rs:61-70. -/
def LowerBoundedRange.interUBS (self : LowerBoundedRange T) (other : UpperBoundedSet T) :
    Res (BoundedSet T) :=
  other.interLBR self

/-- UpperBoundedSet ∩ LowerBoundedSet,
/repo/src/implementations/intersection/upper_bounded_set.rs:48-57. -/
def UpperBoundedSet.interLBS (self : UpperBoundedSet T) (other : LowerBoundedSet T) :
    Res (BoundedSet T) :=
  other.interUBS self

/-- UpperBoundedSet ∩ UpperBoundedRange,
/repo/src/implementations/intersection/upper_bounded_set.rs:59-71. -/
def UpperBoundedSet.interUBR (self : UpperBoundedSet T) (other : UpperBoundedRange T) :
    Res (UpperBoundedSet T) :=
  let set := UpperBoundedSet.ofUBR (self.upperBoundedRange.interUBR other)
  set.addSet (self.ranges.interUBR other)

/-- UpperBoundedRange ∩ UpperBoundedSet,
/repo/src/implementations/intersection/upper_bounded_range.rs:61-70. -/
def UpperBoundedRange.interUBS (self : UpperBoundedRange T) (other : UpperBoundedSet T) :
    Res (UpperBoundedSet T) :=
  other.interUBR self

/-- UpperBoundedSet ∩ UpperBoundedSet,
/repo/src/implementations/intersection/upper_bounded_set.rs:73-85. -/
def UpperBoundedSet.interUBS (self other : UpperBoundedSet T) : Res (UpperBoundedSet T) := do
  let set ← self.interUBR other.upperBoundedRange
  set.addSet (← self.interBS other.ranges)

/-! ### UnboundedSet on either side -/

/-- BoundedSet ∩ UnboundedSet, /repo/src/implementations/intersection/bounded_set.rs:117-141. -/
def BoundedSet.interUS (self : BoundedSet T) (other : UnboundedSet T) : Res (BoundedSet T) :=
  match other with
  | .full => .ok self
  | .piecewise p => do
      let set := self.interUBR p.upperBoundedRange
      let set ← set.addSet (self.interLBR p.lowerBoundedRange)
      set.addSet (← self.interBS p.ranges)

/-- LowerBoundedSet ∩ UnboundedSet,
/repo/src/implementations/intersection/lower_bounded_set.rs:106-130. -/
def LowerBoundedSet.interUS (self : LowerBoundedSet T) (other : UnboundedSet T) :
    Res (LowerBoundedSet T) :=
  match other with
  | .full => .ok self
  | .piecewise p => do
      let set := self.interLBR p.lowerBoundedRange
      let set ← set.addSet (← self.interUBR p.upperBoundedRange)
      set.addSet (← self.interBS p.ranges)

/-- UpperBoundedSet ∩ UnboundedSet,
/repo/src/implementations/intersection/upper_bounded_set.rs:97-121. -/
def UpperBoundedSet.interUS (self : UpperBoundedSet T) (other : UnboundedSet T) :
    Res (UpperBoundedSet T) :=
  match other with
  | .full => .ok self
  | .piecewise p => do
      let set ← self.interUBR p.upperBoundedRange
      let set ← set.addSet (← self.interLBR p.lowerBoundedRange)
      set.addSet (← self.interBS p.ranges)

/-- UnboundedSet ∩ BoundedRange, /repo/src/implementations/intersection/unbounded_set.rs:7-16. -/
def UnboundedSet.interBR (self : UnboundedSet T) (other : BoundedRange T) : Res (BoundedSet T) :=
  (BoundedSet.ofBR other).interUS self

/-- UnboundedSet ∩ BoundedSet, /repo/src/implementations/intersection/unbounded_set.rs:18-27. -/
def UnboundedSet.interBS (self : UnboundedSet T) (other : BoundedSet T) : Res (BoundedSet T) :=
  other.interUS self

/-- UnboundedSet ∩ LowerBoundedRange, /repo/src/implementations/intersection/unbounded_set.rs:29-38. -/
def UnboundedSet.interLBR (self : UnboundedSet T) (other : LowerBoundedRange T) :
    Res (LowerBoundedSet T) :=
  (LowerBoundedSet.ofLBR other).interUS self

/-- UnboundedSet ∩ LowerBoundedSet, /repo/src/implementations/intersection/unbounded_set.rs:40-49. -/
def UnboundedSet.interLBS (self : UnboundedSet T) (other : LowerBoundedSet T) :
    Res (LowerBoundedSet T) :=
  other.interUS self

/-- UnboundedSet ∩ UpperBoundedRange, /repo/src/implementations/intersection/unbounded_set.rs:51-60. -/
def UnboundedSet.interUBR (self : UnboundedSet T) (other : UpperBoundedRange T) :
    Res (UpperBoundedSet T) :=
  (UpperBoundedSet.ofUBR other).interUS self

/-- UnboundedSet ∩ UpperBoundedSet, /repo/src/implementations/intersection/unbounded_set.rs:62-71. -/
def UnboundedSet.interUBS (self : UnboundedSet T) (other : UpperBoundedSet T) :
    Res (UpperBoundedSet T) :=
  other.interUS self

/-- UnboundedSet ∩ UnboundedSet, /repo/src/implementations/intersection/unbounded_set.rs:83-108. -/
def UnboundedSet.interUS (self other : UnboundedSet T) : Res (UnboundedSet T) :=
  match self, other with
  | .full, other => .ok other
  | s, .full => .ok s
  | s, .piecewise p => do
      let a ← s.interUBR p.upperBoundedRange
      let b ← s.interLBR p.lowerBoundedRange
      let c ← s.interBS p.ranges
      a.unionLBS (← b.unionBS c)

/-- BoundedRange ∩ UnboundedSet, /repo/src/implementations/intersection/bounded_range.rs:84-93. -/
def BoundedRange.interUS (self : BoundedRange T) (other : UnboundedSet T) : Res (BoundedSet T) :=
  other.interBR self

/-- LowerBoundedRange ∩ UnboundedSet,
/repo/src/implementations/intersection/lower_bounded_range.rs:82-91. -/
def LowerBoundedRange.interUS (self : LowerBoundedRange T) (other : UnboundedSet T) :
    Res (LowerBoundedSet T) :=
  other.interLBR self

/-- UpperBoundedRange ∩ UnboundedSet,
/repo/src/implementations/intersection/upper_bounded_range.rs:82-91. -/
def UpperBoundedRange.interUS (self : UpperBoundedRange T) (other : UnboundedSet T) :
    Res (UpperBoundedSet T) :=
  other.interUBR self

end Rangetools
