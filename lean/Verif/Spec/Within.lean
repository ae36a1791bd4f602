import Verif.Spec.Algebra

/-!
# When one set fits into the pieces of another
-/

namespace Rangetools

variable {T : Type} [LinearOrder T]

/-- A range with lower bound `x` starts no later than one with lower bound `y`. -/
def StartsFirst (x y : LowerBound T) : Prop :=
  match x.b, y.b with
  | .excluded a, .included b => a < b
  | .included a, .included b | .included a, .excluded b | .excluded a, .excluded b => a ≤ b

/-- A range with upper bound `x` ends no later than one with upper bound `y`. -/
def EndsFirst (x y : UpperBound T) : Prop :=
  match x.b, y.b with
  | .included a, .excluded b => a < b
  | .included a, .included b | .excluded a, .included b | .excluded a, .excluded b => a ≤ b

/-- The pieces of a set, as bounds; `none` where there is no bound. -/
def Inner.stretches : Inner T → List (Option (LowerBound T) × Option (UpperBound T))
  | .bs s => s.ranges.map fun r => (some r.start, some r.stop)
  | .lbs s => s.ranges.ranges.map (fun r => (some r.start, some r.stop)) ++ [(some s.lowerBoundedRange.start, none)]
  | .ubs s => (none, some s.upperBoundedRange.stop) :: s.ranges.ranges.map fun r => (some r.start, some r.stop)
  | .us .full => [(none, none)]
  | .us (.piecewise p) => (none, some p.upperBoundedRange.stop) ::
      (p.ranges.ranges.map (fun r => (some r.start, some r.stop)) ++ [(some p.lowerBoundedRange.start, none)])
  | _ => []

/-- `p` lies between the bounds of `q`. -/
def FitsIn (p q : Option (LowerBound T) × Option (UpperBound T)) : Prop :=
  (∀ x, q.1 = some x → ∃ y, p.1 = some y ∧ StartsFirst x y) ∧ ∀ x, q.2 = some x → ∃ y, p.2 = some y ∧ EndsFirst y x

/-- Every piece of `a` lies in a single piece of `b`. -/
def Within (a b : Inner T) : Prop := ∀ p ∈ a.stretches, ∃ q ∈ b.stretches, FitsIn p q

/-- A range with upper bound `x` and one with lower bound `y` have nothing between them and nothing in common. -/
def Meets (x : UpperBound T) (y : LowerBound T) : Prop :=
  match x.b, y.b with
  | .excluded a, .included b | .included a, .excluded b => a = b
  | _, _ => False

/-- No piece begins where another one ends. -/
def Inner.Apart (a : Inner T) : Prop :=
  ∀ p ∈ a.stretches, ∀ q ∈ a.stretches, ∀ x y, p.2 = some x → q.1 = some y → ¬ Meets x y

end Rangetools
