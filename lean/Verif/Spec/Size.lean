import Verif.Spec.Algebra

/-!
# How many pieces a value is made of
-/

namespace Rangetools
variable {T : Type}

/-- The number of ranges a value stores (an empty `BoundedRange` counts as one). -/
def Inner.size : Inner T → Nat
  | .er => 0
  | .br _ | .lbr _ | .ubr _ | .ur | .us .full => 1
  | .bs s => s.ranges.length
  | .lbs s => s.ranges.ranges.length + 1
  | .ubs s => s.ranges.ranges.length + 1
  | .us (.piecewise p) => p.ranges.ranges.length + 2

/-- The number of ranges in the leaves of an expression. -/
def Expr.size : Expr T → Nat
  | .leaf a => a.toInner.size
  | .toInner e => e.size
  | .toSet e => e.size
  | .union e f => e.size + f.size
  | .inter e f => e.size + f.size
  | .complement e => e.size

/-- The number of complements in an expression. -/
def Expr.complements : Expr T → Nat
  | .leaf _ => 0
  | .toInner e => e.complements
  | .toSet e => e.complements
  | .union e f => e.complements + f.complements
  | .inter e f => e.complements + f.complements
  | .complement e => e.complements + 1

end Rangetools
