import Verif.Model.Sets

/-!
# Model of `src/implementations/union/*.rs` between set types

The impls for range types only convert with `to_set` and forward; they are in `Any.lean`.
-/

namespace Rangetools
variable {T : Type} [LE T] [LT T] [DecidableLE T] [DecidableLT T] [Ord T] [BEq T]

/-- BoundedSet ∪ BoundedSet, /repo/src/implementations/union/bounded_set.rs:6-16. -/
def BoundedSet.unionBS (self other : BoundedSet T) : Res (BoundedSet T) :=
  self.addSet other

/-- BoundedSet ∪ LowerBoundedSet, /repo/src/implementations/union/bounded_set.rs:18-29. -/
def BoundedSet.unionLBS (self : BoundedSet T) (other : LowerBoundedSet T) :
    Res (LowerBoundedSet T) :=
  other.addSet self

/-- BoundedSet ∪ UpperBoundedSet, /repo/src/implementations/union/bounded_set.rs:31-42. -/
def BoundedSet.unionUBS (self : BoundedSet T) (other : UpperBoundedSet T) :
    Res (UpperBoundedSet T) :=
  other.addSet self

/-- BoundedSet ∪ UnboundedSet, /repo/src/implementations/union/bounded_set.rs:44-55. -/
def BoundedSet.unionUS (self : BoundedSet T) (other : UnboundedSet T) : Res (UnboundedSet T) :=
  other.addSet self

/-- LowerBoundedSet ∪ BoundedSet, /repo/src/implementations/union/lower_bounded_set.rs:6-15. -/
def LowerBoundedSet.unionBS (self : LowerBoundedSet T) (other : BoundedSet T) :
    Res (LowerBoundedSet T) :=
  other.unionLBS self

/-- LowerBoundedSet ∪ LowerBoundedSet, /repo/src/implementations/union/lower_bounded_set.rs:17-28. -/
def LowerBoundedSet.unionLBS (self other : LowerBoundedSet T) : Res (LowerBoundedSet T) := do
  let self ← self.addLowerBoundedRange other.lowerBoundedRange
  self.unionBS other.ranges

/-- UnboundedSet ∪ BoundedSet, /repo/src/implementations/union/unbounded_set.rs:6-15. -/
def UnboundedSet.unionBS (self : UnboundedSet T) (other : BoundedSet T) : Res (UnboundedSet T) :=
  other.unionUS self

/-- LowerBoundedSet ∪ UpperBoundedSet, /repo/src/implementations/union/lower_bounded_set.rs:30-41. -/
def LowerBoundedSet.unionUBS (self : LowerBoundedSet T) (other : UpperBoundedSet T) :
    Res (UnboundedSet T) := do
  let set := UnboundedSet.new other.upperBoundedRange self.lowerBoundedRange
  (← set.unionBS self.ranges).unionBS other.ranges

/-- LowerBoundedSet ∪ UnboundedSet, /repo/src/implementations/union/lower_bounded_set.rs:43-54. -/
def LowerBoundedSet.unionUS (self : LowerBoundedSet T) (other : UnboundedSet T) :
    Res (UnboundedSet T) := do
  let set ← other.addLowerBoundedRange self.lowerBoundedRange
  set.unionBS self.ranges

/-- UpperBoundedSet ∪ BoundedSet, /repo/src/implementations/union/upper_bounded_set.rs:6-15. -/
def UpperBoundedSet.unionBS (self : UpperBoundedSet T) (other : BoundedSet T) :
    Res (UpperBoundedSet T) :=
  other.unionUBS self

/-- UpperBoundedSet ∪ LowerBoundedSet, /repo/src/implementations/union/upper_bounded_set.rs:17-26. -/
def UpperBoundedSet.unionLBS (self : UpperBoundedSet T) (other : LowerBoundedSet T) :
    Res (UnboundedSet T) :=
  other.unionUBS self

/-- UpperBoundedSet ∪ UpperBoundedSet, /repo/src/implementations/union/upper_bounded_set.rs:28-39. -/
def UpperBoundedSet.unionUBS (self other : UpperBoundedSet T) : Res (UpperBoundedSet T) := do
  let self ← self.addUpperBoundedRange other.upperBoundedRange
  self.unionBS other.ranges

/-- UpperBoundedSet ∪ UnboundedSet, /repo/src/implementations/union/upper_bounded_set.rs:41-52. -/
def UpperBoundedSet.unionUS (self : UpperBoundedSet T) (other : UnboundedSet T) :
    Res (UnboundedSet T) := do
  let set ← other.addUpperBoundedRange self.upperBoundedRange
  set.unionBS self.ranges

/-- UnboundedSet ∪ LowerBoundedSet, /repo/src/implementations/union/unbounded_set.rs:17-26. -/
def UnboundedSet.unionLBS (self : UnboundedSet T) (other : LowerBoundedSet T) :
    Res (UnboundedSet T) :=
  other.unionUS self

/-- UnboundedSet ∪ UpperBoundedSet, /repo/src/implementations/union/unbounded_set.rs:28-37. -/
def UnboundedSet.unionUBS (self : UnboundedSet T) (other : UpperBoundedSet T) :
    Res (UnboundedSet T) :=
  other.unionUS self

/-- UnboundedSet ∪ UnboundedSet, /repo/src/implementations/union/unbounded_set.rs:39-49. -/
def UnboundedSet.unionUS (self other : UnboundedSet T) : Res (UnboundedSet T) :=
  self.addUnboundedSet other

end Rangetools
