import Verif.Spec.Step

/-!
# Integers as a circle

Without overflow checks the values of an integer type form a circle: after `MAX` comes `MIN`.
-/

namespace Rangetools

/-- `v` is where one arrives on the circle of the `2 ^ bits` values by going to the number `x`. -/
def IntTy.Lands {τ : IntTy} (v : τ.Val) (x : Int) : Prop := (2 ^ τ.bits : Int) ∣ v.1 - x

end Rangetools
