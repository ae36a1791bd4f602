import Verif.Model.Any

/-!
# Specification vocabulary for the set algebra

Nothing here refers to cuts, probes or interval lists.
-/

namespace Rangetools
variable {T : Type}

/-- A `RangeInclusive` that has not been iterated to exhaustion (all other values are fresh). -/
def Any.Fresh : Any T → Prop
  | .rangeInclusive r => r.exhausted = false
  | _ => True

/-- The value with the exhaustion flag of a `RangeInclusive` cleared. -/
def Any.refresh : Any T → Any T
  | .rangeInclusive r => .rangeInclusive { r with exhausted := false }
  | a => a

/-- The value is a `LowerBoundedSet`. -/
def Inner.IsLBS : Inner T → Prop
  | .lbs _ => True
  | _ => False

/-- The value is an `UpperBoundedSet`. -/
def Inner.IsUBS : Inner T → Prop
  | .ubs _ => True
  | _ => False

/-- The value is one of the four set types. -/
def Inner.IsSet : Inner T → Prop
  | .bs _ | .lbs _ | .ubs _ | .us _ => True
  | _ => False

/-- The value's type has a lower bound (bounded or lower-bounded range or set). -/
def Inner.BoundedBelow : Inner T → Prop
  | .br _ | .bs _ | .lbr _ | .lbs _ | .er => True
  | _ => False

/-- The value's type has an upper bound (bounded or upper-bounded range or set). -/
def Inner.BoundedAbove : Inner T → Prop
  | .br _ | .bs _ | .ubr _ | .ubs _ | .er => True
  | _ => False

/-- The two values have the same Rust type. -/
def Inner.SameType : Inner T → Inner T → Prop
  | .br _, .br _ | .bs _, .bs _ | .lbr _, .lbr _ | .lbs _, .lbs _ | .ubr _, .ubr _
  | .ubs _, .ubs _ | .ur, .ur | .us _, .us _ | .er, .er => True
  | _, _ => False

/-- The range has an included start or an included end. -/
def BoundedRange.HasIncluded (r : BoundedRange T) : Prop :=
  (∃ a, r.start = .included a) ∨ ∃ b, r.stop = .included b

/-- Every piece of a bounded range or bounded set has an included start or an included end. -/
def Inner.BoundedWithIncluded : Inner T → Prop
  | .br r => r.HasIncluded
  | .bs s => ∀ r ∈ s.ranges, r.HasIncluded
  | .er => True
  | _ => False

/-- One of the six `std::ops` ranges, not exhausted. -/
def Any.IsStd : Any T → Prop
  | .inner _ => False
  | .rangeInclusive r => r.exhausted = false
  | _ => True

instance (i : Inner T) : Decidable i.IsLBS := by
  cases i <;> unfold Inner.IsLBS <;> infer_instance

instance (i : Inner T) : Decidable i.IsUBS := by
  cases i <;> unfold Inner.IsUBS <;> infer_instance

instance (i : Inner T) : Decidable i.IsSet := by
  cases i <;> unfold Inner.IsSet <;> infer_instance

section
variable [LE T] [LT T] [DecidableLE T] [DecidableLT T] [Ord T] [BEq T]

/-- Upper bound `u` ends no later than lower bound `l` begins: nothing fits between `l` and `u`. -/
def NoOverlap (u : UpperBound T) (l : LowerBound T) : Prop :=
  match u.b, l.b with
  | .included x, .included y => x < y
  | .included x, .excluded y => x ≤ y
  | .excluded x, .included y => x ≤ y
  | .excluded x, .excluded y => x ≤ y

/-- If both are `LowerBoundedSet`s, no bounded piece of `b` reaches into `a`'s half-line.  This is the
condition under which `a.intersection(b)` is right. -/
def Inner.Lossless : Inner T → Inner T → Prop
  | .lbs a, .lbs b => ∀ r ∈ b.ranges.ranges, NoOverlap r.stop a.lowerBoundedRange.start
  | _, _ => True

/-- `Inner.Lossless` for any of the fifteen types. -/
def Lossless (a b : Any T) : Prop := a.toInner.Lossless b.toInner

/-- The private invariant of a piece list: no piece is empty, pieces are in increasing order and do
not overlap. -/
def Pieces (l : List (BoundedRange T)) : Prop :=
  (∀ r ∈ l, r.isEmpty = false) ∧ l.Pairwise (fun r r' => NoOverlap r.stop r'.start)

/-- The private invariant of every type; ranges have none. -/
def Inner.Normal : Inner T → Prop
  | .bs s => Pieces s.ranges
  | .lbs s =>
      Pieces s.ranges.ranges ∧ ∀ r ∈ s.ranges.ranges, NoOverlap r.stop s.lowerBoundedRange.start
  | .ubs s =>
      Pieces s.ranges.ranges ∧ ∀ r ∈ s.ranges.ranges, NoOverlap s.upperBoundedRange.stop r.start
  | .us (.piecewise p) =>
      Pieces p.ranges.ranges ∧ (∀ r ∈ p.ranges.ranges, NoOverlap r.stop p.lowerBoundedRange.start) ∧
        (∀ r ∈ p.ranges.ranges, NoOverlap p.upperBoundedRange.stop r.start) ∧
        NoOverlap p.upperBoundedRange.stop p.lowerBoundedRange.start
  | _ => True

instance (u : UpperBound T) (l : LowerBound T) : Decidable (NoOverlap u l) := by
  rcases u with ⟨_ | _⟩ <;> rcases l with ⟨_ | _⟩ <;> unfold NoOverlap <;> infer_instance

instance (a b : Inner T) : Decidable (a.Lossless b) := by
  cases a <;> cases b <;> unfold Inner.Lossless <;> infer_instance

instance (a b : Any T) : Decidable (Lossless a b) := by unfold Lossless; infer_instance

instance (l : List (BoundedRange T)) : Decidable (Pieces l) := by unfold Pieces; infer_instance

instance (i : Inner T) : Decidable i.Normal := by
  rcases i with _ | _ | _ | _ | _ | _ | _ | ⟨_ | _⟩ | _ <;> unfold Inner.Normal <;> infer_instance

/-- The values a program can build through the public API (without deserialising).  Range types have
public fields and constructors, so every range value counts. -/
inductive Reachable : Any T → Prop
  | range (r : Range T) : Reachable (.range r)
  | rangeInclusive (r : RangeInclusive T) : Reachable (.rangeInclusive r)
  | rangeFrom (r : RangeFrom T) : Reachable (.rangeFrom r)
  | rangeTo (r : RangeTo T) : Reachable (.rangeTo r)
  | rangeToInclusive (r : RangeToInclusive T) : Reachable (.rangeToInclusive r)
  | rangeFull : Reachable .rangeFull
  | boundedRange (r : BoundedRange T) : Reachable (.inner (.br r))
  | lowerBoundedRange (r : LowerBoundedRange T) : Reachable (.inner (.lbr r))
  | upperBoundedRange (r : UpperBoundedRange T) : Reachable (.inner (.ubr r))
  | unboundedRange : Reachable (.inner .ur)
  | emptyRange : Reachable (.inner .er)
  /-- `BoundedSet::empty()` -/
  | boundedSetEmpty : Reachable (.inner (.bs BoundedSet.empty))
  /-- `UnboundedSet::Full`, `UnboundedSet::from(UnboundedRange)` -/
  | unboundedSetFull : Reachable (.inner (.us .full))
  /-- `UnboundedSet::new(upper, lower)` -/
  | unboundedSetNew (u : UpperBoundedRange T) (l : LowerBoundedRange T) :
      Reachable (.inner (.us (.new u l)))
  | toInner {a : Any T} : Reachable a → Reachable (.inner a.toInner)
  | toSet {a : Any T} : Reachable a → Reachable (.inner a.toSet.toInner)
  | union {a b c : Any T} : Reachable a → Reachable b → a.union b = .ok c → Reachable c
  | inter {a b : Any T} {c : Inner T} :
      Reachable a → Reachable b → a.inter b = .ok c → Reachable (.inner c)
  | complement {a : Any T} {c : Inner T} :
      Reachable a → a.complement = .ok c → Reachable (.inner c)

end

/-- Expressions over the public API. -/
inductive Expr (T : Type) where
  | leaf (a : Any T)
  | toInner (e : Expr T)
  | toSet (e : Expr T)
  | union (e f : Expr T)
  | inter (e f : Expr T)
  | complement (e : Expr T)

/-- The leaves satisfy `P`. -/
def Expr.AllLeaves (P : Any T → Prop) : Expr T → Prop
  | .leaf a => P a
  | .toInner e => e.AllLeaves P
  | .toSet e => e.AllLeaves P
  | .union e f => e.AllLeaves P ∧ f.AllLeaves P
  | .inter e f => e.AllLeaves P ∧ f.AllLeaves P
  | .complement e => e.AllLeaves P

/-- No complement in the expression. -/
def Expr.Positive : Expr T → Prop
  | .leaf _ => True
  | .toInner e => e.Positive
  | .toSet e => e.Positive
  | .union e f => e.Positive ∧ f.Positive
  | .inter e f => e.Positive ∧ f.Positive
  | .complement _ => False

variable [LE T] [LT T] [DecidableLE T] [DecidableLT T] [Ord T] [BEq T]

/-- Run an expression. -/
def Expr.eval : Expr T → Res (Any T)
  | .leaf a => .ok a
  | .toInner e => do return .inner (← e.eval).toInner
  | .toSet e => do return .inner (← e.eval).toSet.toInner
  | .union e f => do (← e.eval).union (← f.eval)
  | .inter e f => do return .inner (← (← e.eval).inter (← f.eval))
  | .complement e => do return .inner (← (← e.eval).complement)

/-- The Boolean formula the expression is meant to denote. -/
def Expr.denotes (t : T) : Expr T → Bool
  | .leaf a => a.contains t
  | .toInner e => e.denotes t
  | .toSet e => e.denotes t
  | .union e f => e.denotes t || f.denotes t
  | .inter e f => e.denotes t && f.denotes t
  | .complement e => !e.denotes t

/-- Every intersection in the expression is of operands it does not lose elements of. -/
def Expr.LosslessInter : Expr T → Prop
  | .leaf _ => True
  | .toInner e => e.LosslessInter
  | .toSet e => e.LosslessInter
  | .union e f => e.LosslessInter ∧ f.LosslessInter
  | .inter e f => e.LosslessInter ∧ f.LosslessInter ∧
      ∀ a b, e.eval = .ok a → f.eval = .ok b → Lossless a b
  | .complement e => e.LosslessInter

end Rangetools
