import Verif.Model.Any
import Mathlib.Order.Cover
import Mathlib.Order.Max

/-!
# Values without elements that do not look empty
-/

namespace Rangetools
variable {T : Type} [LinearOrder T]

/-- Both ends excluded, and nothing between them. -/
def BoundedRange.Gap (r : BoundedRange T) : Prop := ∃ a b, a ⋖ b ∧ r = ⟨.excluded a, .excluded b⟩

/-- The ends are the wrong way round, or there is nothing between them. -/
def BoundedRange.Void (r : BoundedRange T) : Prop := r.isEmpty = true ∨ r.Gap

/-- What comes after the greatest element. -/
def LowerBoundedRange.Beyond (r : LowerBoundedRange T) : Prop := ∃ m, IsMax m ∧ r = ⟨.excluded m⟩

/-- What comes before the least element. -/
def UpperBoundedRange.Beyond (r : UpperBoundedRange T) : Prop := ∃ m, IsMin m ∧ r = ⟨.excluded m⟩

/-- A value without elements of which `is_empty` says that it is not empty. -/
def Inner.Misjudged : Inner T → Prop
  | .br r => r.Gap
  | .bs s => (∃ r ∈ s.ranges, r.Gap) ∧ ∀ r ∈ s.ranges, r.Void
  | .lbr r => r.Beyond
  | .lbs s => s.lowerBoundedRange.Beyond ∧ ∀ r ∈ s.ranges.ranges, r.Void
  | .ubr r => r.Beyond
  | .ubs s => s.upperBoundedRange.Beyond ∧ ∀ r ∈ s.ranges.ranges, r.Void
  | .ur => IsEmpty T
  | .us .full => IsEmpty T
  | .us (.piecewise s) => s.upperBoundedRange.Beyond ∧ s.lowerBoundedRange.Beyond ∧ ∀ r ∈ s.ranges.ranges, r.Void
  | .er => False

end Rangetools
