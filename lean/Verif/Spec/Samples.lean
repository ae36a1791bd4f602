import Verif.Spec.Algebra
import Mathlib.Data.Int.Order.Basic

/-!
# Concrete values used in the examples beside the theorems
-/

namespace Rangetools.Samples

/-- `a..b` -/
def co (a b : Int) : BoundedRange Int := ⟨.included a, .excluded b⟩
/-- `a..=b` -/
def cc (a b : Int) : BoundedRange Int := ⟨.included a, .included b⟩
/-- `a..` -/
def ci (a : Int) : LowerBoundedRange Int := ⟨.included a⟩
/-- `..b` -/
def io (b : Int) : UpperBoundedRange Int := ⟨.excluded b⟩

/-- `(0..3) ∪ (5..=9)` -/
def bs : Inner Int := .bs ⟨[co 0 3, cc 5 9]⟩
/-- `(-5..-3) ∪ (0..)` -/
def lbs : Inner Int := .lbs ⟨⟨[co (-5) (-3)]⟩, ci 0⟩
/-- `(1..3) ∪ (10..)` -/
def lbs' : Inner Int := .lbs ⟨⟨[co 1 3]⟩, ci 10⟩
/-- `(..-7) ∪ (2..=4)` -/
def ubs : Inner Int := .ubs ⟨io (-7), ⟨[cc 2 4]⟩⟩
/-- `(..-20) ∪ (2..=4) ∪ (30..)` -/
def us : Inner Int := .us (.piecewise ⟨io (-20), ⟨[cc 2 4]⟩, ci 30⟩)

example : bs.Normal ∧ lbs.Normal ∧ lbs'.Normal ∧ ubs.Normal ∧ us.Normal := by decide

/-- `lbs` comes out of `(-5..-3).union(0..)`. -/
theorem lbs_union : (Any.range ⟨-5, -3⟩ : Any Int).union (.rangeFrom ⟨0⟩) = .ok (.inner lbs) := by
  decide +kernel

/-- `lbs'` comes out of `(1..3).union(10..)`. -/
theorem lbs'_union : (Any.range ⟨1, 3⟩ : Any Int).union (.rangeFrom ⟨10⟩) = .ok (.inner lbs') := by
  decide +kernel

theorem lbs_reachable : Reachable (.inner lbs) := .union (.range _) (.rangeFrom _) lbs_union
theorem lbs'_reachable : Reachable (.inner lbs') := .union (.range _) (.rangeFrom _) lbs'_union

end Rangetools.Samples
