import Verif.Model.Calls

/-!
# The methods that use up an iterator, as programs that call `Step` and compare

`count`, `last`, `min` and `max` take the iterator by value, so that only their outcome is left.
-/

namespace Rangetools
variable {T : Type}

namespace BoundedRangeIter

/-- `count`, /repo/src/bounded_range.rs:195-197. -/
def countC (p : Platform) (self : BoundedRangeIter T) : Calls T (Res Nat) := self.lenC p

/-- `last`, /repo/src/bounded_range.rs:199-208. -/
def lastItemC (self : BoundedRangeIter T) : Calls T (Res (Option T)) :=
  .greater self.current self.last fun
    | .ok true => .done (.ok none)
    | .ok false => .done (.ok (some self.last))
    | .panic m => .done (.panic m)

/-- `min`, /repo/src/bounded_range.rs:215-217. -/
def minC (self : BoundedRangeIter T) : Calls T (Res (Option T)) := do
  return (← self.nextC).1

/-- `max`, /repo/src/bounded_range.rs:219-221. -/
def maxC (self : BoundedRangeIter T) : Calls T (Res (Option T)) := do
  return (← self.nextBackC).1

/-- The provided `Iterator::last` (std), as `foldLast` in `Model/Iter.lean`: calls `next` until it returns `None` and keeps
the last item.  `none` means that it has not returned within `fuel` calls. -/
def foldLastC : Nat → BoundedRangeIter T → Option T → Calls T (Res (Option (Option T)))
  | 0, _, _ => .done (.ok none)
  | fuel + 1, it, acc => do
      match ← it.nextC with
      | (.panic m, _) => return .panic m
      | (.ok none, _) => return .ok (some acc)
      | (.ok (some t), it') => foldLastC fuel it' (some t)

end BoundedRangeIter

namespace BoundedSetIter

/-- `count`, /repo/src/bounded_set.rs:140-145. -/
def countC (p : Platform) (self : BoundedSetIter T) : Calls T (Res Nat) := self.lenC p

/-- `last`, /repo/src/bounded_set.rs:147-160.  `i` has type `&mut BoundedRangeIter<T>`, so `i.last()` is the provided
`Iterator::last` of `&mut I`. -/
def lastItemC (p : Platform) (fuel : Nat) (self : BoundedSetIter T) : Calls T (Res (Option (Option T))) := do
  match ← popEmptyC p self.rangeIters.reverse with
  | (.panic m, _) => return .panic m
  | (.ok _, []) => return .ok (some none)
  | (.ok _, i :: _) => i.foldLastC fuel none

/-- `min`, /repo/src/bounded_set.rs:174-176. -/
def minC (p : Platform) (self : BoundedSetIter T) : Calls T (Res (Option T)) := do
  return (← self.nextC p).1

/-- `max`, /repo/src/bounded_set.rs:178-180. -/
def maxC (p : Platform) (self : BoundedSetIter T) : Calls T (Res (Option T)) := do
  return (← self.nextBackC p).1

end BoundedSetIter

/-- `min`, /repo/src/lower_bounded_range.rs:130-135. -/
def LowerBoundedRangeIter.minC (self : LowerBoundedRangeIter T) : Calls T (Res (Option T)) := do
  return (← self.nextC).1

/-- `min`, /repo/src/lower_bounded_set.rs:136-138. -/
def LowerBoundedSetIter.minC (p : Platform) (self : LowerBoundedSetIter T) : Calls T (Res (Option T)) := do
  return (← self.nextC p).1

end Rangetools
