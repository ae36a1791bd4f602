import Verif.Model.Asks

/-!
# The derived `==` as a program that compares

`Model/Derive.lean` has the derived `==` for a function `eq` on elements.  Here the `==` of the element type is code, as in
`Model/Asks.lean`.  A derived `eq` compares the variants of an `enum` first and then the fields in the order in which they are
declared, with `&&`; it stops at the first difference.  `VecDeque::eq` (std) compares the lengths first and then the elements
in order, wherever the ring buffer is split.
-/

namespace Rangetools
variable {T : Type}

/-- `#[derive(PartialEq)]` on `Bound`, /repo/src/bound.rs:9-16. -/
def Bound.eqA : Bound T → Bound T → Asks T Bool
  | .excluded a, .excluded b => .test .eq a b .done
  | .included a, .included b => .test .eq a b .done
  | _, _ => .done false

/-- `#[derive(PartialEq)]` on `BoundedRange`, `LowerBound` and `UpperBound`, /repo/src/bounded_range.rs:23-30,
/repo/src/bound.rs:62-64 and 163-165. -/
def BoundedRange.eqA (a b : BoundedRange T) : Asks T Bool := do
  if ← a.start.b.eqA b.start.b then a.stop.b.eqA b.stop.b else return false

/-- `#[derive(PartialEq)]` on `LowerBoundedRange`, /repo/src/lower_bounded_range.rs:18-23. -/
def LowerBoundedRange.eqA (a b : LowerBoundedRange T) : Asks T Bool := a.start.b.eqA b.start.b

/-- `#[derive(PartialEq)]` on `UpperBoundedRange`, /repo/src/upper_bounded_range.rs:17-22. -/
def UpperBoundedRange.eqA (a b : UpperBoundedRange T) : Asks T Bool := a.stop.b.eqA b.stop.b

/-- `VecDeque::eq` (std), for the ranges of a set. -/
def dequeEqA (a b : List (BoundedRange T)) : Asks T Bool :=
  if a.length == b.length then Asks.all (fun p => p.1.eqA p.2) (a.zip b) else .done false

/-- `#[derive(PartialEq)]` on `BoundedSet`, /repo/src/bounded_set.rs:15-20. -/
def BoundedSet.eqA (a b : BoundedSet T) : Asks T Bool := dequeEqA a.ranges b.ranges

/-- `#[derive(PartialEq)]` on `LowerBoundedSet`, /repo/src/lower_bounded_set.rs:18-24. -/
def LowerBoundedSet.eqA (a b : LowerBoundedSet T) : Asks T Bool := do
  if ← a.ranges.eqA b.ranges then a.lowerBoundedRange.eqA b.lowerBoundedRange else return false

/-- `#[derive(PartialEq)]` on `UpperBoundedSet`, /repo/src/upper_bounded_set.rs:14-20. -/
def UpperBoundedSet.eqA (a b : UpperBoundedSet T) : Asks T Bool := do
  if ← a.upperBoundedRange.eqA b.upperBoundedRange then a.ranges.eqA b.ranges else return false

/-- `#[derive(PartialEq)]` on `PiecewiseUnboundedSet`, /repo/src/unbounded_set.rs:22-29. -/
def PiecewiseUnboundedSet.eqA (a b : PiecewiseUnboundedSet T) : Asks T Bool := do
  if ← a.upperBoundedRange.eqA b.upperBoundedRange then
    if ← a.ranges.eqA b.ranges then a.lowerBoundedRange.eqA b.lowerBoundedRange else return false
  else return false

/-- `#[derive(PartialEq)]` on `UnboundedSet`, /repo/src/unbounded_set.rs:83-90. -/
def UnboundedSet.eqA : UnboundedSet T → UnboundedSet T → Asks T Bool
  | .full, .full => .done true
  | .piecewise a, .piecewise b => a.eqA b
  | _, _ => .done false

/-- `==` between values of the nine types; it only type-checks between values of one type, and is `false` here between others.
`EmptyRange` and `UnboundedRange` (/repo/src/empty_range.rs:16-20, /repo/src/unbounded_range.rs:16-18) have one value each. -/
def Inner.eqA : Inner T → Inner T → Asks T Bool
  | .br a, .br b => a.eqA b
  | .bs a, .bs b => a.eqA b
  | .lbr a, .lbr b => a.eqA b
  | .lbs a, .lbs b => a.eqA b
  | .ubr a, .ubr b => a.eqA b
  | .ubs a, .ubs b => a.eqA b
  | .ur, .ur => .done true
  | .us a, .us b => a.eqA b
  | .er, .er => .done true
  | _, _ => .done false

end Rangetools
