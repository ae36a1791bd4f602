import Verif.Model.Any

/-!
# How much a value has to tell a hasher
-/

namespace Rangetools
variable {T : Type}

/-- The number of bounds a value stores. -/
def Inner.storedBounds : Inner T → Nat
  | .er | .ur | .us .full => 0
  | .br _ => 2
  | .lbr _ | .ubr _ => 1
  | .bs s => 2 * s.ranges.length
  | .lbs s => 2 * s.ranges.ranges.length + 1
  | .ubs s => 2 * s.ranges.ranges.length + 1
  | .us (.piecewise s) => 2 * s.ranges.ranges.length + 2

/-- Whether a value stores a list of ranges, whose length must be told. -/
def Inner.storesList : Inner T → Bool
  | .bs _ | .lbs _ | .ubs _ | .us (.piecewise _) => true
  | _ => false

/-- Whether the type of a value is an enum, whose variant must be told. -/
def Inner.isEnum : Inner T → Bool
  | .us _ => true
  | _ => false

end Rangetools
