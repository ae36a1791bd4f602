import Verif.Spec.Algebra

/-!
# Trees of unions
-/

namespace Rangetools
variable {T : Type}

/-- Only unions. -/
def Expr.Unions : Expr T → Prop
  | .leaf _ => True
  | .union e f => e.Unions ∧ f.Unions
  | _ => False

/-- The leaves, from left to right. -/
def Expr.leaves : Expr T → List (Any T)
  | .leaf a => [a]
  | .toInner e => e.leaves
  | .toSet e => e.leaves
  | .union e f => e.leaves ++ f.leaves
  | .inter e f => e.leaves ++ f.leaves
  | .complement e => e.leaves

end Rangetools
