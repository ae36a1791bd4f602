import Verif.Spec.Algebra
import Mathlib.Data.Prod.Lex
import Mathlib.Data.Set.Basic
import Mathlib.Order.Fin.Basic

/-!
# What an expression means, exactly

Every element `a` is drawn on a line as five consecutive spots: just before `a` (0), the cut before `a`
(1), `a` itself (2), the cut after `a` (3), just after `a` (4).  Bounds are cuts.  A range is the open
interval between its bounds, so `1..3` and `3..5` leave the cut before `3` uncovered, and `1..=2` and
`3..` leave the gap between `2` and `3` uncovered even for integers.  Nothing here mentions piece lists
apart from `Inner.inside`, which reads a value off as a set of spots.
-/

namespace Rangetools
variable {T : Type} [LinearOrder T]

/-- A place on the line. -/
abbrev Spot (T : Type) := T ×ₗ Fin 5

/-- Spot number `k` of `a`. -/
def spot (a : T) (k : Fin 5) : Spot T := toLex (a, k)

/-- The cut a lower bound stands for. -/
def LowerBound.spot (b : LowerBound T) : Spot T :=
  match b.b with
  | .included a => Rangetools.spot a 1
  | .excluded a => Rangetools.spot a 3

/-- The cut an upper bound stands for. -/
def UpperBound.spot (b : UpperBound T) : Spot T :=
  match b.b with
  | .included a => Rangetools.spot a 3
  | .excluded a => Rangetools.spot a 1

/-- The spots strictly between the bounds. -/
def BoundedRange.spots (r : BoundedRange T) : Set (Spot T) := fun p => r.start.spot < p ∧ p < r.stop.spot
def LowerBoundedRange.spots (r : LowerBoundedRange T) : Set (Spot T) := fun p => r.start.spot < p
def UpperBoundedRange.spots (r : UpperBoundedRange T) : Set (Spot T) := fun p => p < r.stop.spot

/-- The spots covered by a list of pieces. -/
def BoundedSet.spots (s : BoundedSet T) : Set (Spot T) := fun p => ∃ r ∈ s.ranges, p ∈ r.spots

/-- The spots covered by a value. -/
def Inner.inside : Inner T → Set (Spot T)
  | .br r => r.spots
  | .bs s => s.spots
  | .lbr r => r.spots
  | .lbs s => s.ranges.spots ∪ s.lowerBoundedRange.spots
  | .ubr r => r.spots
  | .ubs s => s.upperBoundedRange.spots ∪ s.ranges.spots
  | .ur => Set.univ
  | .us .full => Set.univ
  | .us (.piecewise p) => p.upperBoundedRange.spots ∪ p.ranges.spots ∪ p.lowerBoundedRange.spots
  | .er => ∅

/-- Equal, or a cut and one of its two neighbours. -/
def Near (p q : Spot T) : Prop :=
  p = q ∨ (ofLex p).1 = (ofLex q).1 ∧
    ((ofLex p).2 = 1 ∧ ((ofLex q).2 = 0 ∨ (ofLex q).2 = 2) ∨
      (ofLex p).2 = 3 ∧ ((ofLex q).2 = 2 ∨ (ofLex q).2 = 4))

/-- The spots not covered; a cut only if neither side of it is covered. -/
def exterior (S : Set (Spot T)) : Set (Spot T) := fun p => ∀ q, Near p q → q ∉ S

/-- The last stretch: everything from which on all is covered. -/
def tail (S : Set (Spot T)) : Set (Spot T) := fun p => ∀ q, p ≤ q → q ∈ S

/-- A type of the crate other than `EmptyRange`: a set or a single range, with or without a bound
below and above. -/
structure Shape where
  set : Bool
  below : Bool
  above : Bool
  deriving DecidableEq

/-- The type of a value; `none` is `EmptyRange`. -/
def Inner.shape : Inner T → Option Shape
  | .br _ => some ⟨false, true, true⟩
  | .bs _ => some ⟨true, true, true⟩
  | .lbr _ => some ⟨false, true, false⟩
  | .lbs _ => some ⟨true, true, false⟩
  | .ubr _ => some ⟨false, false, true⟩
  | .ubs _ => some ⟨true, false, true⟩
  | .ur => some ⟨false, false, false⟩
  | .us _ => some ⟨true, false, false⟩
  | .er => none

/-- What a value is, as far as the operations can tell: its type, what it covers and what its complement
will cover. -/
structure Region (T : Type) where
  shape : Option Shape
  inside : Set (Spot T)
  outside : Set (Spot T)

/-- The spots the complement covers.  Only for a single range is this not the exterior: `3..3` covers
nothing, yet its complement leaves out the cut before `3`. -/
def Inner.outside : Inner T → Set (Spot T)
  | .br r => fun p => p < r.start.spot ∨ r.stop.spot < p
  | .lbr r => fun p => p < r.start.spot
  | .ubr r => fun p => r.stop.spot < p
  | i => exterior i.inside

/-- A value as a region. -/
def Inner.region (i : Inner T) : Region T := ⟨i.shape, i.inside, i.outside⟩

/-- A region given by what it covers. -/
def Region.ofSet (k : Option Shape) (S : Set (Spot T)) : Region T := ⟨k, S, exterior S⟩

/-- `to_set`. -/
def Region.toSet (a : Region T) : Region T :=
  match a.shape with
  | none => a
  | some k => if k.below || k.above then .ofSet (some { k with set := true }) a.inside else a

/-- `union`: `EmptyRange` is neutral, `UnboundedRange` absorbs, otherwise a set covering what either
covers, with a bound where both have one. -/
def Region.union (a b : Region T) : Region T :=
  match a.shape, b.shape with
  | none, _ => b
  | _, none => a
  | some j, some k =>
    let s := (j.set || j.below || j.above) && (k.set || k.below || k.above)
    .ofSet (some ⟨s, s && j.below && k.below, s && j.above && k.above⟩) (a.inside ∪ b.inside)

/-- The type of `intersection`: `EmptyRange` absorbs, otherwise a set if either is one, with a bound
where either has one. -/
def Shape.inter : Option Shape → Option Shape → Option Shape
  | some j, some k => some ⟨j.set || k.set, j.below || k.below, j.above || k.above⟩
  | _, _ => none

/-- The type `LowerBoundedSet`. -/
def Shape.lbs : Shape := ⟨true, true, false⟩

/-- `intersection`: what both cover, except that between two `LowerBoundedSet`s it drops what lies in
the last stretch of the first but not in that of the second. -/
def Region.inter (a b : Region T) : Region T :=
  if a.shape = some Shape.lbs ∧ b.shape = some Shape.lbs then
    .ofSet (some Shape.lbs) ((a.inside ∩ b.inside) \ (tail a.inside \ tail b.inside))
  else if a.shape.any (·.set) || b.shape.any (·.set) then
    .ofSet (Shape.inter a.shape b.shape) (a.inside ∩ b.inside)
  else ⟨Shape.inter a.shape b.shape, a.inside ∩ b.inside, a.outside ∪ b.outside⟩

/-- The type of `complement`: the two ends swap roles; only a single half-line stays a single range. -/
def Shape.complement : Option Shape → Option Shape
  | none => some ⟨false, false, false⟩
  | some ⟨false, false, false⟩ => none
  | some k => some ⟨k.set || (k.below && k.above), !k.below, !k.above⟩

/-- `complement`. -/
def Region.complement (a : Region T) : Region T :=
  ⟨Shape.complement a.shape, a.outside, exterior a.outside⟩

/-- The meaning of an expression. -/
def Expr.region : Expr T → Region T
  | .leaf a => a.toInner.region
  | .toInner e => e.region
  | .toSet e => e.region.toSet
  | .union e f => e.region.union f.region
  | .inter e f => e.region.inter f.region
  | .complement e => e.region.complement

end Rangetools
