import Verif.Spec.Algebra

/-!
# Renaming the elements of a value

Applying a function to every endpoint; used to state facts about element types that differ only in
representation.
-/

namespace Rangetools
variable {T U : Type}

/-- The value of a result mapped; panics stay. -/
def Res.map {α β : Type} (g : α → β) : Res α → Res β
  | .ok a => .ok (g a)
  | .panic m => .panic m

/-- `f` keeps the outcome of every comparison the crate makes: `<=`, `<`, `cmp` and `==`. -/
structure Compares [LE T] [LT T] [DecidableLE T] [DecidableLT T] [Ord T] [BEq T]
    [LE U] [LT U] [DecidableLE U] [DecidableLT U] [Ord U] [BEq U] (f : T → U) : Prop where
  le (a b : T) : f a ≤ f b ↔ a ≤ b
  lt (a b : T) : f a < f b ↔ a < b
  cmp (a b : T) : compare (f a) (f b) = compare a b
  eq (a b : T) : (f a == f b) = (a == b)

/-- Every endpoint mapped. -/
def BoundedRange.map (f : T → U) (r : BoundedRange T) : BoundedRange U := ⟨r.start.map f, r.stop.map f⟩

/-- Every endpoint mapped. -/
def LowerBoundedRange.map (f : T → U) (r : LowerBoundedRange T) : LowerBoundedRange U := ⟨r.start.map f⟩

/-- Every endpoint mapped. -/
def UpperBoundedRange.map (f : T → U) (r : UpperBoundedRange T) : UpperBoundedRange U := ⟨r.stop.map f⟩

/-- Every endpoint mapped. -/
def BoundedSet.map (f : T → U) (s : BoundedSet T) : BoundedSet U := ⟨s.ranges.map (·.map f)⟩

/-- Every endpoint mapped. -/
def LowerBoundedSet.map (f : T → U) (s : LowerBoundedSet T) : LowerBoundedSet U :=
  ⟨s.ranges.map f, s.lowerBoundedRange.map f⟩

/-- Every endpoint mapped. -/
def UpperBoundedSet.map (f : T → U) (s : UpperBoundedSet T) : UpperBoundedSet U :=
  ⟨s.upperBoundedRange.map f, s.ranges.map f⟩

/-- Every endpoint mapped. -/
def PiecewiseUnboundedSet.map (f : T → U) (p : PiecewiseUnboundedSet T) : PiecewiseUnboundedSet U :=
  ⟨p.upperBoundedRange.map f, p.ranges.map f, p.lowerBoundedRange.map f⟩

/-- Every endpoint mapped. -/
def UnboundedSet.map (f : T → U) : UnboundedSet T → UnboundedSet U
  | .full => .full
  | .piecewise p => .piecewise (p.map f)

/-- Every endpoint mapped. -/
def Inner.map (f : T → U) : Inner T → Inner U
  | .br r => .br (r.map f)
  | .bs s => .bs (s.map f)
  | .lbr r => .lbr (r.map f)
  | .lbs s => .lbs (s.map f)
  | .ubr r => .ubr (r.map f)
  | .ubs s => .ubs (s.map f)
  | .ur => .ur
  | .us s => .us (s.map f)
  | .er => .er

/-- Every endpoint mapped. -/
def SetVal.map (f : T → U) : SetVal T → SetVal U
  | .bs s => .bs (s.map f)
  | .lbs s => .lbs (s.map f)
  | .ubs s => .ubs (s.map f)
  | .us s => .us (s.map f)
  | .ur => .ur
  | .er => .er

/-- Every endpoint mapped. -/
def Any.map (f : T → U) : Any T → Any U
  | .range r => .range ⟨f r.start, f r.stop⟩
  | .rangeInclusive r => .rangeInclusive ⟨f r.start, f r.stop, r.exhausted⟩
  | .rangeFrom r => .rangeFrom ⟨f r.start⟩
  | .rangeTo r => .rangeTo ⟨f r.stop⟩
  | .rangeToInclusive r => .rangeToInclusive ⟨f r.stop⟩
  | .rangeFull => .rangeFull
  | .inner i => .inner (i.map f)

/-- The elements of an expression renamed. -/
def Expr.map (f : T → U) : Expr T → Expr U
  | .leaf a => .leaf (a.map f)
  | .toInner e => .toInner (e.map f)
  | .toSet e => .toSet (e.map f)
  | .union e e' => .union (e.map f) (e'.map f)
  | .inter e e' => .inter (e.map f) (e'.map f)
  | .complement e => .complement (e.map f)

/-! ### Endpoints -/

/-- The value of a bound. -/
def Bound.value : Bound T → T
  | .excluded t => t
  | .included t => t

/-- The endpoints of pieces. -/
def endpointsOf (l : List (BoundedRange T)) : List T :=
  l.flatMap fun r => [r.start.b.value, r.stop.b.value]

/-- The endpoints written in a value. -/
def Inner.endpoints : Inner T → List T
  | .br r => [r.start.b.value, r.stop.b.value]
  | .bs s => endpointsOf s.ranges
  | .lbr r => [r.start.b.value]
  | .lbs s => endpointsOf s.ranges.ranges ++ [s.lowerBoundedRange.start.b.value]
  | .ubr r => [r.stop.b.value]
  | .ubs s => s.upperBoundedRange.stop.b.value :: endpointsOf s.ranges.ranges
  | .ur => []
  | .us .full => []
  | .us (.piecewise p) => p.upperBoundedRange.stop.b.value ::
      (endpointsOf p.ranges.ranges ++ [p.lowerBoundedRange.start.b.value])
  | .er => []

/-- The endpoints written in a value. -/
def Any.endpoints : Any T → List T
  | .range r => [r.start, r.stop]
  | .rangeInclusive r => [r.start, r.stop]
  | .rangeFrom r => [r.start]
  | .rangeTo r => [r.stop]
  | .rangeToInclusive r => [r.stop]
  | .rangeFull => []
  | .inner i => i.endpoints

end Rangetools
