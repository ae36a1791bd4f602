import Verif.Spec.Algebra
import Mathlib.Order.OrderDual

/-!
# Left and right exchanged

A value over `T` seen in a mirror is a value over `Tᵒᵈ`, the same elements in reverse order: lower bounds
become upper bounds, `LowerBoundedSet`s `UpperBoundedSet`s, and piece lists are reversed.
-/

namespace Rangetools
variable {T : Type}

def Bound.mirror : Bound T → Bound Tᵒᵈ
  | .included t => .included (OrderDual.toDual t)
  | .excluded t => .excluded (OrderDual.toDual t)

def LowerBound.mirror (b : LowerBound T) : UpperBound Tᵒᵈ := ⟨b.b.mirror⟩
def UpperBound.mirror (b : UpperBound T) : LowerBound Tᵒᵈ := ⟨b.b.mirror⟩
def BoundedRange.mirror (r : BoundedRange T) : BoundedRange Tᵒᵈ := ⟨r.stop.mirror, r.start.mirror⟩
def LowerBoundedRange.mirror (r : LowerBoundedRange T) : UpperBoundedRange Tᵒᵈ := ⟨r.start.mirror⟩
def UpperBoundedRange.mirror (r : UpperBoundedRange T) : LowerBoundedRange Tᵒᵈ := ⟨r.stop.mirror⟩
def BoundedSet.mirror (s : BoundedSet T) : BoundedSet Tᵒᵈ := ⟨(s.ranges.map BoundedRange.mirror).reverse⟩
def LowerBoundedSet.mirror (s : LowerBoundedSet T) : UpperBoundedSet Tᵒᵈ :=
  ⟨s.lowerBoundedRange.mirror, s.ranges.mirror⟩
def UpperBoundedSet.mirror (s : UpperBoundedSet T) : LowerBoundedSet Tᵒᵈ :=
  ⟨s.ranges.mirror, s.upperBoundedRange.mirror⟩
def PiecewiseUnboundedSet.mirror (s : PiecewiseUnboundedSet T) : PiecewiseUnboundedSet Tᵒᵈ :=
  ⟨s.lowerBoundedRange.mirror, s.ranges.mirror, s.upperBoundedRange.mirror⟩
def UnboundedSet.mirror : UnboundedSet T → UnboundedSet Tᵒᵈ
  | .full => .full
  | .piecewise p => .piecewise p.mirror

/-- A value seen in a mirror. -/
def Inner.mirror : Inner T → Inner Tᵒᵈ
  | .br r => .br r.mirror
  | .bs s => .bs s.mirror
  | .lbr r => .ubr r.mirror
  | .lbs s => .ubs s.mirror
  | .ubr r => .lbr r.mirror
  | .ubs s => .lbs s.mirror
  | .ur => .ur
  | .us s => .us s.mirror
  | .er => .er

/-- An expression seen in a mirror; the mirror image of a `std` range is taken of its `to_inner`. -/
def Expr.mirror : Expr T → Expr Tᵒᵈ
  | .leaf a => .leaf (.inner a.toInner.mirror)
  | .toInner e => .toInner e.mirror
  | .toSet e => .toSet e.mirror
  | .union e f => .union e.mirror f.mirror
  | .inter e f => .inter e.mirror f.mirror
  | .complement e => .complement e.mirror

end Rangetools
