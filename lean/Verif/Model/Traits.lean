import Verif.Model.Any
import Verif.Model.Convert

/-!
# The traits themselves

`Model/Any.lean` models the choice of an `impl` by pattern matching over all types at once.  Here the four
traits are Lean classes and every `impl` is an instance of its own (`Model/TraitImpls.lean`), so that Lean's
instance search plays the part of rustc's.  `Props/Dispatch.lean` proves that the two agree.
-/

namespace Rangetools

/-- `pub struct EmptyRange<T>(PhantomData<T>)`, /repo/src/empty_range.rs:18-20. -/
structure EmptyRange (T : Type) where
  deriving DecidableEq, Repr

/-- `EmptyRange::new`, /repo/src/empty_range.rs:62-66. -/
def EmptyRange.new {T : Type} : EmptyRange T := ⟨⟩

/-- `UnboundedRange::new`, /repo/src/unbounded_range.rs:42-44. -/
def UnboundedRange.new : UnboundedRange := ⟨⟩

/-- `BoundedRange::new`, /repo/src/bounded_range.rs:114-116: the bounds in any order, with no check. -/
def BoundedRange.new {T : Type} (start : LowerBound T) (stop : UpperBound T) : BoundedRange T := ⟨start, stop⟩

/-- `LowerBoundedRange::new`, /repo/src/lower_bounded_range.rs:71-73. -/
def LowerBoundedRange.new {T : Type} (start : LowerBound T) : LowerBoundedRange T := ⟨start⟩

/-- `UpperBoundedRange::new`, /repo/src/upper_bounded_range.rs:74-76. -/
def UpperBoundedRange.new {T : Type} (stop : UpperBound T) : UpperBoundedRange T := ⟨stop⟩

/-- `From<UnboundedRange> for UnboundedSet<T>`, /repo/src/unbounded_set.rs:92-96. -/
def UnboundedSet.ofUR {T : Type} (_ : UnboundedRange) : UnboundedSet T := .full

/-- `trait Rangetools` with its associated types `Inner` and `Set`, /repo/src/lib.rs:85-223.  The provided
methods are below. -/
class Tools (R : Type) (Inner Set : outParam Type) where
  /-- /repo/src/lib.rs:95 -/
  isEmpty : R → Bool
  /-- /repo/src/lib.rs:130 -/
  toInner : R → Inner
  /-- /repo/src/lib.rs:201 -/
  toSet : R → Set

/-- `trait RangeUnion<Rhs, RhsSet>` with its associated type `Output`, /repo/src/union.rs:7-14. -/
class RangeUnion (Self Rhs RhsSet : Type) (Output : outParam Type) where
  union : Self → Rhs → Res Output

/-- `trait RangeIntersection<Rhs, RhsInner>` with its associated type `Output`,
/repo/src/intersection.rs:7-14. -/
class RangeIntersection (Self Rhs RhsInner : Type) (Output : outParam Type) where
  intersection : Self → Rhs → Res Output

/-- `trait RangeComplement<Output>`, /repo/src/complement.rs:5-8. -/
class RangeComplement (Self Output : Type) where
  complement : Self → Res Output

section
variable {Self R I S I' S' O : Type}

/-- The provided method `Rangetools::complement`, /repo/src/lib.rs:107-112. -/
def Tools.complement [RangeComplement Self O] (self : Self) : Res O := RangeComplement.complement self

/-- The provided method `Rangetools::intersection`, /repo/src/lib.rs:143-149. -/
def Tools.intersection [Tools R I S] [RangeIntersection Self R I O] (self : Self) (other : R) : Res O :=
  RangeIntersection.intersection (RhsInner := I) self other

/-- The provided method `Rangetools::disjoint`, /repo/src/lib.rs:160-167. -/
def Tools.disjoint [Tools R I S] [Tools O I' S'] [RangeIntersection Self R I O] (self : Self) (other : R) :
    Res Bool := do
  return Tools.isEmpty (← Tools.intersection self other)

/-- The provided method `Rangetools::intersects`, /repo/src/lib.rs:178-185. -/
def Tools.intersects [Tools R I S] [Tools O I' S'] [RangeIntersection Self R I O] (self : Self) (other : R) :
    Res Bool := do
  return !(← Tools.disjoint self other)

/-- The provided method `Rangetools::union`, /repo/src/lib.rs:216-222. -/
def Tools.union [Tools R I S] [RangeUnion Self R S O] (self : Self) (other : R) : Res O :=
  RangeUnion.union (RhsSet := S) self other

end

end Rangetools
