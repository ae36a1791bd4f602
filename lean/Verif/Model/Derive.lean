import Verif.Model.Any

/-!
# Model of `#[derive(PartialEq, Eq, Hash)]`

The derived implementations are not written out in the crate; what follows is what the compiler derives
from the attributes: `==` compares variants and then the fields in order, `hash` feeds the hasher the
variant number of an `enum` and then the fields in order.  `VecDeque` (std) compares length and elements,
and feeds the length followed by the elements.
-/

namespace Rangetools
variable {T : Type} {E : Type}

/-! ### `PartialEq` -/

/-- `#[derive(PartialEq)]` on `Bound`, /repo/src/bound.rs:9-16, for the element type's own `==`. -/
def Bound.eqWith (eq : T → T → Bool) : Bound T → Bound T → Bool
  | .excluded a, .excluded b => eq a b
  | .included a, .included b => eq a b
  | _, _ => false

/-- `#[derive(PartialEq)]` on `LowerBound`, /repo/src/bound.rs:62-64. -/
def LowerBound.eqWith (eq : T → T → Bool) (a b : LowerBound T) : Bool := a.b.eqWith eq b.b

/-- `#[derive(PartialEq)]` on `UpperBound`, /repo/src/bound.rs:163-165. -/
def UpperBound.eqWith (eq : T → T → Bool) (a b : UpperBound T) : Bool := a.b.eqWith eq b.b

/-- `#[derive(PartialEq)]` on `BoundedRange`, /repo/src/bounded_range.rs:23-30. -/
def BoundedRange.eqWith (eq : T → T → Bool) (a b : BoundedRange T) : Bool :=
  a.start.eqWith eq b.start && a.stop.eqWith eq b.stop

/-- `#[derive(PartialEq)]` on `LowerBoundedRange`, /repo/src/lower_bounded_range.rs:18-23. -/
def LowerBoundedRange.eqWith (eq : T → T → Bool) (a b : LowerBoundedRange T) : Bool :=
  a.start.eqWith eq b.start

/-- `#[derive(PartialEq)]` on `UpperBoundedRange`, /repo/src/upper_bounded_range.rs:17-22. -/
def UpperBoundedRange.eqWith (eq : T → T → Bool) (a b : UpperBoundedRange T) : Bool :=
  a.stop.eqWith eq b.stop

/-- `VecDeque::eq` (std): equal lengths and pairwise equal elements. -/
def dequeEqWith {α : Type} (eq : α → α → Bool) (a b : List α) : Bool :=
  a.length == b.length && (a.zip b).all fun p => eq p.1 p.2

/-- `#[derive(PartialEq)]` on `BoundedSet`, /repo/src/bounded_set.rs:15-20. -/
def BoundedSet.eqWith (eq : T → T → Bool) (a b : BoundedSet T) : Bool :=
  dequeEqWith (BoundedRange.eqWith eq) a.ranges b.ranges

/-- `#[derive(PartialEq)]` on `LowerBoundedSet`, /repo/src/lower_bounded_set.rs:18-24. -/
def LowerBoundedSet.eqWith (eq : T → T → Bool) (a b : LowerBoundedSet T) : Bool :=
  a.ranges.eqWith eq b.ranges && a.lowerBoundedRange.eqWith eq b.lowerBoundedRange

/-- `#[derive(PartialEq)]` on `UpperBoundedSet`, /repo/src/upper_bounded_set.rs:14-20. -/
def UpperBoundedSet.eqWith (eq : T → T → Bool) (a b : UpperBoundedSet T) : Bool :=
  a.upperBoundedRange.eqWith eq b.upperBoundedRange && a.ranges.eqWith eq b.ranges

/-- `#[derive(PartialEq)]` on `PiecewiseUnboundedSet`, /repo/src/unbounded_set.rs:22-29. -/
def PiecewiseUnboundedSet.eqWith (eq : T → T → Bool) (a b : PiecewiseUnboundedSet T) : Bool :=
  a.upperBoundedRange.eqWith eq b.upperBoundedRange && a.ranges.eqWith eq b.ranges &&
    a.lowerBoundedRange.eqWith eq b.lowerBoundedRange

/-- `#[derive(PartialEq)]` on `UnboundedSet`, /repo/src/unbounded_set.rs:83-90. -/
def UnboundedSet.eqWith (eq : T → T → Bool) : UnboundedSet T → UnboundedSet T → Bool
  | .full, .full => true
  | .piecewise a, .piecewise b => a.eqWith eq b
  | _, _ => false

/-- `==` between values of the nine types; it only type-checks between values of one type.
`EmptyRange` and `UnboundedRange` (/repo/src/empty_range.rs:16-20, /repo/src/unbounded_range.rs:16-18)
have one value each. -/
def Inner.eqWith (eq : T → T → Bool) : Inner T → Inner T → Bool
  | .br a, .br b => a.eqWith eq b
  | .bs a, .bs b => a.eqWith eq b
  | .lbr a, .lbr b => a.eqWith eq b
  | .lbs a, .lbs b => a.eqWith eq b
  | .ubr a, .ubr b => a.eqWith eq b
  | .ubs a, .ubs b => a.eqWith eq b
  | .ur, .ur => true
  | .us a, .us b => a.eqWith eq b
  | .er, .er => true
  | _, _ => false

/-! ### `Hash` -/

/-- What a hasher is fed: variant numbers, length prefixes, and whatever the elements write. -/
inductive HashWrite (E : Type) where
  | variant (n : Nat)
  | len (n : Nat)
  | elem (e : E)
  deriving DecidableEq, Repr

/-- `#[derive(Hash)]` on `Bound`, /repo/src/bound.rs:9-16. -/
def Bound.hashWith (h : T → List (HashWrite E)) : Bound T → List (HashWrite E)
  | .excluded a => .variant 0 :: h a
  | .included a => .variant 1 :: h a

/-- `#[derive(Hash)]` on `LowerBound`, /repo/src/bound.rs:62-64. -/
def LowerBound.hashWith (h : T → List (HashWrite E)) (a : LowerBound T) : List (HashWrite E) :=
  a.b.hashWith h

/-- `#[derive(Hash)]` on `UpperBound`, /repo/src/bound.rs:163-165. -/
def UpperBound.hashWith (h : T → List (HashWrite E)) (a : UpperBound T) : List (HashWrite E) :=
  a.b.hashWith h

/-- `#[derive(Hash)]` on `BoundedRange`, /repo/src/bounded_range.rs:23-30. -/
def BoundedRange.hashWith (h : T → List (HashWrite E)) (a : BoundedRange T) :
    List (HashWrite E) :=
  a.start.hashWith h ++ a.stop.hashWith h

/-- `#[derive(Hash)]` on `LowerBoundedRange`, /repo/src/lower_bounded_range.rs:18-23. -/
def LowerBoundedRange.hashWith (h : T → List (HashWrite E)) (a : LowerBoundedRange T) :
    List (HashWrite E) :=
  a.start.hashWith h

/-- `#[derive(Hash)]` on `UpperBoundedRange`, /repo/src/upper_bounded_range.rs:17-22. -/
def UpperBoundedRange.hashWith (h : T → List (HashWrite E)) (a : UpperBoundedRange T) :
    List (HashWrite E) :=
  a.stop.hashWith h

/-- `#[derive(Hash)]` on `BoundedSet`, /repo/src/bounded_set.rs:15-20. -/
def BoundedSet.hashWith (h : T → List (HashWrite E)) (a : BoundedSet T) : List (HashWrite E) :=
  .len a.ranges.length :: (a.ranges.map (BoundedRange.hashWith h)).flatten

/-- `#[derive(Hash)]` on `LowerBoundedSet`, /repo/src/lower_bounded_set.rs:18-24. -/
def LowerBoundedSet.hashWith (h : T → List (HashWrite E)) (a : LowerBoundedSet T) :
    List (HashWrite E) :=
  a.ranges.hashWith h ++ a.lowerBoundedRange.hashWith h

/-- `#[derive(Hash)]` on `UpperBoundedSet`, /repo/src/upper_bounded_set.rs:14-20. -/
def UpperBoundedSet.hashWith (h : T → List (HashWrite E)) (a : UpperBoundedSet T) :
    List (HashWrite E) :=
  a.upperBoundedRange.hashWith h ++ a.ranges.hashWith h

/-- `#[derive(Hash)]` on `PiecewiseUnboundedSet`, /repo/src/unbounded_set.rs:22-29. -/
def PiecewiseUnboundedSet.hashWith (h : T → List (HashWrite E)) (a : PiecewiseUnboundedSet T) :
    List (HashWrite E) :=
  a.upperBoundedRange.hashWith h ++ (a.ranges.hashWith h ++ a.lowerBoundedRange.hashWith h)

/-- `#[derive(Hash)]` on `UnboundedSet`, /repo/src/unbounded_set.rs:83-90. -/
def UnboundedSet.hashWith (h : T → List (HashWrite E)) : UnboundedSet T → List (HashWrite E)
  | .full => [.variant 0]
  | .piecewise a => .variant 1 :: a.hashWith h

/-- `hash` of a value of one of the nine types; nothing is written for `EmptyRange` and
`UnboundedRange`. -/
def Inner.hashWith (h : T → List (HashWrite E)) : Inner T → List (HashWrite E)
  | .br a => a.hashWith h
  | .bs a => a.hashWith h
  | .lbr a => a.hashWith h
  | .lbs a => a.hashWith h
  | .ubr a => a.hashWith h
  | .ubs a => a.hashWith h
  | .ur => []
  | .us a => a.hashWith h
  | .er => []

end Rangetools
