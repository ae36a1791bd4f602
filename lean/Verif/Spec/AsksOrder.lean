import Verif.Spec.Asks

/-!
# In which order a value is searched
-/

namespace Rangetools
variable {T α : Type}

/-- The elements of a list up to and including the first that satisfies `p`. -/
def upToFirst (p : α → Bool) : List α → List α
  | [] => []
  | x :: xs => if p x then [x] else x :: upToFirst p xs

/-- The pieces of a value of the crate in the order in which they are searched: the half-lines, that towards smaller elements
first, and then the bounded ranges. -/
def Inner.pieces : Inner T → List (Inner T)
  | .br r => [.br r]
  | .bs s => s.ranges.map .br
  | .lbr r => [.lbr r]
  | .lbs s => .lbr s.lowerBoundedRange :: s.ranges.ranges.map .br
  | .ubr r => [.ubr r]
  | .ubs s => .ubr s.upperBoundedRange :: s.ranges.ranges.map .br
  | .us (.piecewise p) => .ubr p.upperBoundedRange :: .lbr p.lowerBoundedRange :: p.ranges.ranges.map .br
  | _ => []

/-- What an element is compared with to find out whether it is in a piece. -/
def Inner.probes (t : T) : Inner T → List (T × T)
  | .br r => [(t, r.start.b.value), (t, r.stop.b.value)]
  | .lbr r => [(t, r.start.b.value)]
  | .ubr r => [(t, r.stop.b.value)]
  | _ => []

/-- What is compared to find out whether a range is empty. -/
def Inner.widths : Inner T → List (T × T)
  | .br r => [(r.start.b.value, r.stop.b.value)]
  | .bs s => s.ranges.map fun r => (r.start.b.value, r.stop.b.value)
  | _ => []

end Rangetools
