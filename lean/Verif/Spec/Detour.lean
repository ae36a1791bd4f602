import Verif.Spec.Algebra

/-!
# Intersection by way of complements and a union
-/

namespace Rangetools
variable {T : Type}

/-- The expression with every `a.intersection(b)` written
`a.complement().union(b.complement()).complement()`. -/
def Expr.detour : Expr T → Expr T
  | .leaf a => .leaf a
  | .toInner e => .toInner e.detour
  | .toSet e => .toSet e.detour
  | .union e f => .union e.detour f.detour
  | .inter e f => .complement (.union (.complement e.detour) (.complement f.detour))
  | .complement e => .complement e.detour

/-- `a.complement().union(b.complement()).complement()`. -/
def Any.meet [LE T] [LT T] [DecidableLE T] [DecidableLT T] [Ord T] [BEq T] (a b : Any T) : Res (Inner T) := do
  (← (Any.inner (← a.complement)).union (.inner (← b.complement))).complement

end Rangetools
