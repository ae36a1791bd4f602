import Verif.Spec.Ty
import Verif.Spec.Algebra

/-!
# Typed expressions

Rust expressions over the public API, each with the type rustc gives it.
-/

namespace Rangetools
variable {T : Type}

/-- Expressions of type `a`. -/
inductive TExpr (T : Type) : Ty → Type where
  | val (a : Ty) (x : a.Val T) : TExpr T a
  | toInner {a : Ty} (e : TExpr T a) : TExpr T a.inner
  | toSet {a : Ty} (e : TExpr T a) : TExpr T a.set
  | union {a b : Ty} (e : TExpr T a) (f : TExpr T b) : TExpr T (a.union b)
  | inter {a b : Ty} (e : TExpr T a) (f : TExpr T b) : TExpr T (a.inter b)
  | complement {a : Ty} (e : TExpr T a) : TExpr T a.complement

/-- Forget the types. -/
def TExpr.erase : {a : Ty} → TExpr T a → Expr T
  | _, .val a x => .leaf (a.embed x)
  | _, .toInner e => .toInner e.erase
  | _, .toSet e => .toSet e.erase
  | _, .union e f => .union e.erase f.erase
  | _, .inter e f => .inter e.erase f.erase
  | _, .complement e => .complement e.erase

/-- No intersection is of two `LowerBoundedSet`s; this can be seen from the types alone. -/
def TExpr.Safe : {a : Ty} → TExpr T a → Prop
  | _, .val _ _ => True
  | _, .toInner e => e.Safe
  | _, .toSet e => e.Safe
  | _, .union e f => e.Safe ∧ f.Safe
  | _, .inter (a := a) (b := b) e f => e.Safe ∧ f.Safe ∧ ¬(a = .lbs ∧ b = .lbs)
  | _, .complement e => e.Safe

/-- Write the intersection of two `LowerBoundedSet`s as the complement of the union of the complements. -/
def TExpr.meet : {a b : Ty} → TExpr T a → TExpr T b → TExpr T (a.inter b)
  | .lbs, .lbs, e, f => .complement (.union (.complement e) (.complement f))
  | _, _, e, f => .inter e f

/-- Do so everywhere. -/
def TExpr.rewrite : {a : Ty} → TExpr T a → TExpr T a
  | _, .val a x => .val a x
  | _, .toInner e => .toInner e.rewrite
  | _, .toSet e => .toSet e.rewrite
  | _, .union e f => .union e.rewrite f.rewrite
  | _, .inter e f => e.rewrite.meet f.rewrite
  | _, .complement e => .complement e.rewrite

variable [LE T] [LT T] [DecidableLE T] [DecidableLT T] [Ord T] [BEq T]

/-- Run the expression: left operand first, then the right one, then the chosen impl. -/
def TExpr.eval : {a : Ty} → TExpr T a → Res (a.Val T)
  | _, .val _ x => .ok x
  | _, .toInner (a := a) e => do return a.tools.toInner (← e.eval)
  | _, .toSet (a := a) e => do return a.tools.toSet (← e.eval)
  | _, .union (a := a) (b := b) e f => do (a.unionImpl b).union (← e.eval) (← f.eval)
  | _, .inter (a := a) (b := b) e f => do (a.interImpl b).intersection (← e.eval) (← f.eval)
  | _, .complement (a := a) e => do a.complementImpl.complement (← e.eval)

end Rangetools
