import Mathlib.Order.Lattice
import Mathlib.Order.MinMax
import Mathlib.Order.BoundedOrder.Basic

/-!
# The textbook algorithms

Union, intersection and complement of sorted lists of intervals over any linear order, each in one sweep from
left to right.  Nothing here comes from the crate.
-/

namespace Rangetools.Sweep
variable {α : Type} [LinearOrder α]

/-- Join overlapping neighbours of a list sorted by start; intervals that only touch stay apart. -/
def fuse : List (α × α) → List (α × α)
  | [] => []
  | [p] => [p]
  | p :: q :: l => if q.1 < p.2 then fuse ((p.1, max p.2 q.2) :: l) else p :: fuse (q :: l)
termination_by l => l.length

/-- Merge by start, then join. -/
def union (l m : List (α × α)) : List (α × α) := fuse (l.merge m fun p q => p.1 ≤ q.1)

/-- Intersect the two heads, then drop the one that ends first. -/
def inter : List (α × α) → List (α × α) → List (α × α)
  | [], _ => []
  | _ :: _, [] => []
  | p :: l, q :: m =>
    let rest := if p.2 ≤ q.2 then inter l (q :: m) else inter (p :: l) m
    if max p.1 q.1 < min p.2 q.2 then (max p.1 q.1, min p.2 q.2) :: rest else rest
termination_by l m => l.length + m.length

variable [BoundedOrder α]

/-- What is left free from `x` on. -/
def gapsFrom (x : α) : List (α × α) → List (α × α)
  | [] => if x < ⊤ then [(x, ⊤)] else []
  | p :: l => if x < p.1 then (x, p.1) :: gapsFrom p.2 l else gapsFrom p.2 l

/-- The gaps between the intervals, and before and after them. -/
def gaps (l : List (α × α)) : List (α × α) := gapsFrom ⊥ l

end Rangetools.Sweep
