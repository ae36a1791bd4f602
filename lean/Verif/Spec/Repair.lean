import Verif.Spec.Algebra

/-!
# A repaired intersection

Not the code in /repo: what its `LowerBoundedSet ∩ LowerBoundedSet` would have to be.
-/

namespace Rangetools
variable {T : Type} [LE T] [LT T] [DecidableLE T] [DecidableLT T] [Ord T] [BEq T]

/-- /repo/src/implementations/intersection/lower_bounded_set.rs:47-61 with the last line
`set.add_set(self.ranges.intersection(other))` changed to `set.add_set(self.intersection(other.ranges))`, as
/repo/src/implementations/intersection/upper_bounded_set.rs:73-85 has it. -/
def LowerBoundedSet.interRepaired (self other : LowerBoundedSet T) : Res (LowerBoundedSet T) := do
  let set := self.interLBR other.lowerBoundedRange
  set.addSet (← self.interBS other.ranges)

/-- `a.intersection(b)` after the repair: nothing else changes. -/
def Any.interRepaired (a b : Any T) : Res (Inner T) :=
  match a.toInner, b.toInner with
  | .lbs s, .lbs o => do return .lbs (← s.interRepaired o)
  | _, _ => a.inter b

/-- An expression evaluated by the repaired crate. -/
def Expr.evalRepaired : Expr T → Res (Any T)
  | .leaf a => .ok a
  | .toInner e => do return .inner (← e.evalRepaired).toInner
  | .toSet e => do return .inner (← e.evalRepaired).toSet.toInner
  | .union e f => do (← e.evalRepaired).union (← f.evalRepaired)
  | .inter e f => do return .inner (← (← e.evalRepaired).interRepaired (← f.evalRepaired))
  | .complement e => do return .inner (← (← e.evalRepaired).complement)

end Rangetools
