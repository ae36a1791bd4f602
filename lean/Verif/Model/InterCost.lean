import Verif.Model.Depth
import Verif.Model.Intersection

/-!
# How much work the intersection of two `BoundedSet`s does

These follow the loop of `BoundedSet ∩ BoundedSet`, /repo/src/implementations/intersection/bounded_set.rs:30-33,
from the set built so far and the ranges still to come, and count.
-/

namespace Rangetools
variable {T : Type} [LE T] [LT T] [DecidableLE T] [DecidableLT T] [Ord T] [BEq T]

/-- Activations of `add_range`. -/
def BoundedSet.interLoopCalls (set other : BoundedSet T) : List (BoundedRange T) → Nat
  | [] => 0
  | r :: rs => set.addAllCalls (r.interBS other).ranges + match set.addSet (r.interBS other) with
      | .ok s => s.interLoopCalls other rs
      | .panic _ => 0

/-- Pieces looked at by the `position` searches of `add_range`. -/
def BoundedSet.interLoopTests (set other : BoundedSet T) : List (BoundedRange T) → Nat
  | [] => 0
  | r :: rs => set.addAllTests (r.interBS other).ranges + match set.addSet (r.interBS other) with
      | .ok s => s.interLoopTests other rs
      | .panic _ => 0

/-- Intersections of two ranges computed: `BoundedSet ∩ BoundedRange` computes one for each of its pieces,
/repo/src/implementations/intersection/bounded_set.rs:15-17. -/
def BoundedSet.interLoopMeets (other : BoundedSet T) : List (BoundedRange T) → Nat
  | [] => 0
  | _ :: rs => other.ranges.length + interLoopMeets other rs

end Rangetools
