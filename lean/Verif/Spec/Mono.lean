import Verif.Spec.Algebra

/-!
# Growing the operands
-/

namespace Rangetools
variable {T : Type} [LE T] [LT T] [DecidableLE T] [DecidableLT T] [Ord T] [BEq T]

/-- Every element of `a` is in `b`. -/
def Any.Subset (a b : Any T) : Prop := ∀ t, a.contains t = true → b.contains t = true

/-- The same expression with larger leaves, smaller ones under an odd number of complements. -/
inductive Expr.Grows : Expr T → Expr T → Prop
  | leaf {a b : Any T} : a.Subset b → Grows (.leaf a) (.leaf b)
  | toInner {e e' : Expr T} : Grows e e' → Grows (.toInner e) (.toInner e')
  | toSet {e e' : Expr T} : Grows e e' → Grows (.toSet e) (.toSet e')
  | union {e e' f f' : Expr T} : Grows e e' → Grows f f' → Grows (.union e f) (.union e' f')
  | inter {e e' f f' : Expr T} : Grows e e' → Grows f f' → Grows (.inter e f) (.inter e' f')
  | complement {e e' : Expr T} : Grows e' e → Grows (.complement e) (.complement e')

end Rangetools
