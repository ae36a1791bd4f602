import Verif.Model.Step
import Verif.Model.Sets

/-!
# Model of the iterators

An iterator method taking `&mut self` returns the result together with the new state.  `Step` and the
platform (pointer width, overflow checks) are explicit arguments.  A `VecDeque` is a list.
-/

namespace Rangetools

/-- `pub struct BoundedRangeIter<T>`, /repo/src/bounded_range.rs:166-170. -/
structure BoundedRangeIter (T : Type) where
  current : T
  last : T
  deriving DecidableEq, Repr

/-- `pub struct BoundedSetIter<T>`, /repo/src/bounded_set.rs:112-115. -/
structure BoundedSetIter (T : Type) where
  rangeIters : List (BoundedRangeIter T)
  deriving DecidableEq, Repr

/-- `pub struct LowerBoundedRangeIter<T>`, /repo/src/lower_bounded_range.rs:104-107. -/
structure LowerBoundedRangeIter (T : Type) where
  current : T
  deriving DecidableEq, Repr

/-- `pub struct LowerBoundedSetIter<T>`, /repo/src/lower_bounded_set.rs:109-113. -/
structure LowerBoundedSetIter (T : Type) where
  setIter : BoundedSetIter T
  rangeIter : LowerBoundedRangeIter T
  deriving DecidableEq, Repr

/-- `std::iter::Empty<T>` (std). -/
inductive EmptyIter (T : Type) where
  | mk
  deriving DecidableEq, Repr

variable {T : Type}

/-! ### `EmptyRange` -/

/-- `EmptyRange::into_iter`, /repo/src/empty_range.rs:44-50. -/
def EmptyRange.intoIter : EmptyIter T := .mk

namespace EmptyIter

/-- std `Empty::next`. -/
def next (self : EmptyIter T) : Option T × EmptyIter T := (none, self)

/-- std `Empty::next_back`. -/
def nextBack (self : EmptyIter T) : Option T × EmptyIter T := (none, self)

/-- std `Empty::size_hint`. -/
def sizeHint (_self : EmptyIter T) : Nat × Option Nat := (0, some 0)

/-- The provided `Iterator::nth` (std): `n` calls of `next`, giving up at the first `None`, then one
more. -/
def nth (self : EmptyIter T) : Nat → Option T × EmptyIter T
  | 0 => self.next
  | n + 1 => match self.next with
      | (none, self') => (none, self')
      | (some _, self') => self'.nth n

/-- The provided `DoubleEndedIterator::nth_back` (std). -/
def nthBack (self : EmptyIter T) : Nat → Option T × EmptyIter T
  | 0 => self.nextBack
  | n + 1 => match self.nextBack with
      | (none, self') => (none, self')
      | (some _, self') => self'.nthBack n

end EmptyIter

/-! ### `into_iter` -/

/-- `BoundedRange::into_iter`, /repo/src/bounded_range.rs:91-101. -/
def BoundedRange.intoIter (S : Step T) (self : BoundedRange T) : Res (BoundedRangeIter T) := do
  let current ← match self.start.b with
    | .excluded t => S.forward t 1
    | .included t => .ok t
  let last ← match self.stop.b with
    | .excluded t => S.backward t 1
    | .included t => .ok t
  return ⟨current, last⟩

/-- `map(|r| r.into_iter()).collect()`, /repo/src/bounded_set.rs:40. -/
def intoIters (S : Step T) : List (BoundedRange T) → Res (List (BoundedRangeIter T))
  | [] => .ok []
  | r :: rs => do
      let i ← r.intoIter S
      let is ← intoIters S rs
      return i :: is

/-- `BoundedSet::into_iter`, /repo/src/bounded_set.rs:38-42. -/
def BoundedSet.intoIter (S : Step T) (self : BoundedSet T) : Res (BoundedSetIter T) := do
  return ⟨← intoIters S self.ranges⟩

/-- `LowerBoundedRange::into_iter`, /repo/src/lower_bounded_range.rs:51-58. -/
def LowerBoundedRange.intoIter (S : Step T) (self : LowerBoundedRange T) :
    Res (LowerBoundedRangeIter T) := do
  let current ← match self.start.b with
    | .excluded t => S.forward t 1
    | .included t => .ok t
  return ⟨current⟩

/-- `LowerBoundedSet::into_iter`, /repo/src/lower_bounded_set.rs:41-46. -/
def LowerBoundedSet.intoIter (S : Step T) (self : LowerBoundedSet T) :
    Res (LowerBoundedSetIter T) := do
  let setIter ← self.ranges.intoIter S
  let rangeIter ← self.lowerBoundedRange.intoIter S
  return ⟨setIter, rangeIter⟩

variable [LinearOrder T]

/-! ### `BoundedRangeIter`, /repo/src/bounded_range.rs:172-246 -/

namespace BoundedRangeIter

/-- `next`, /repo/src/bounded_range.rs:178-186. -/
def next (S : Step T) (self : BoundedRangeIter T) : Res (Option T × BoundedRangeIter T) :=
  if self.current > self.last then
    .ok (none, self)
  else do
    let t := self.current
    let current ← S.forward self.current 1
    return (some t, { self with current })

/-- `next_back`, /repo/src/bounded_range.rs:228-236. -/
def nextBack (S : Step T) (self : BoundedRangeIter T) : Res (Option T × BoundedRangeIter T) :=
  if self.current > self.last then
    .ok (none, self)
  else do
    let t := self.last
    let last ← S.backward self.last 1
    return (some t, { self with last })

/-- `size_hint`, /repo/src/bounded_range.rs:188-193. -/
def sizeHint (p : Platform) (S : Step T) (self : BoundedRangeIter T) :
    Res (Nat × Option Nat) := do
  let size ← match ← S.stepsBetween self.current self.last with
    | some steps => p.addUsize steps 1
    | none => .ok 0
  return (size, some size)

/-- `ExactSizeIterator::len` (std, provided): asserts that both parts of `size_hint` agree. -/
def len (p : Platform) (S : Step T) (self : BoundedRangeIter T) : Res Nat := do
  let (lower, upper) ← self.sizeHint p S
  assert "assertion `left == right` failed" (upper == some lower)
  return lower

/-- `count`, /repo/src/bounded_range.rs:195-197. -/
def count (p : Platform) (S : Step T) (self : BoundedRangeIter T) : Res Nat := self.len p S

/-- `last`, /repo/src/bounded_range.rs:199-208. -/
def lastItem (self : BoundedRangeIter T) : Option T :=
  if self.current > self.last then none else some self.last

/-- `nth`, /repo/src/bounded_range.rs:210-213. -/
def nth (S : Step T) (self : BoundedRangeIter T) (n : Nat) :
    Res (Option T × BoundedRangeIter T) := do
  let current ← S.forward self.current n
  { self with current }.next S

/-- `nth_back`, /repo/src/bounded_range.rs:238-241. -/
def nthBack (S : Step T) (self : BoundedRangeIter T) (n : Nat) :
    Res (Option T × BoundedRangeIter T) := do
  let last ← S.backward self.last n
  { self with last }.nextBack S

/-- `min`, /repo/src/bounded_range.rs:215-217. -/
def min (S : Step T) (self : BoundedRangeIter T) : Res (Option T) := do
  return (← self.next S).1

/-- `max`, /repo/src/bounded_range.rs:219-221. -/
def max (S : Step T) (self : BoundedRangeIter T) : Res (Option T) := do
  return (← self.nextBack S).1

/-- The provided `Iterator::last` (std): calls `next` until it returns `None` and keeps the last item.
`none` means that it has not returned within `fuel` calls. -/
def foldLast (S : Step T) : Nat → BoundedRangeIter T → Option T → Res (Option (Option T))
  | 0, _, _ => .ok none
  | fuel + 1, it, acc => do
      match ← it.next S with
      | (none, _) => return some acc
      | (some t, it') => foldLast S fuel it' (some t)

end BoundedRangeIter

/-! ### `BoundedSetIter`, /repo/src/bounded_set.rs:117-214 -/

namespace BoundedSetIter

/-- The loop dropping front iterators of length 0, /repo/src/bounded_set.rs:124-131.  The loops at the
back (151-158, 188-195) are the same on the reversed list. -/
def popEmpty (p : Platform) (S : Step T) :
    List (BoundedRangeIter T) → Res (List (BoundedRangeIter T))
  | [] => .ok []
  | i :: is => do
      if (← i.len p S) == 0 then popEmpty p S is else return i :: is

/-- `next`, /repo/src/bounded_set.rs:123-133. -/
def next (p : Platform) (S : Step T) (self : BoundedSetIter T) :
    Res (Option T × BoundedSetIter T) := do
  match ← popEmpty p S self.rangeIters with
  | [] => return (none, ⟨[]⟩)
  | i :: is => do
      let (t, i') ← i.next S
      return (t, ⟨i' :: is⟩)

/-- `next_back`, /repo/src/bounded_set.rs:187-197. -/
def nextBack (p : Platform) (S : Step T) (self : BoundedSetIter T) :
    Res (Option T × BoundedSetIter T) := do
  match ← popEmpty p S self.rangeIters.reverse with
  | [] => return (none, ⟨[]⟩)
  | i :: is => do
      let (t, i') ← i.nextBack S
      return (t, ⟨(i' :: is).reverse⟩)

/-- `self.range_iters.iter().map(|i| i.len()).sum()`, /repo/src/bounded_set.rs:136; std's `sum` adds
from 0 with the overflow behaviour of the build. -/
def sumLens (p : Platform) (S : Step T) : Nat → List (BoundedRangeIter T) → Res Nat
  | acc, [] => .ok acc
  | acc, i :: is => do
      let l ← i.len p S
      let acc ← p.addUsize acc l
      sumLens p S acc is

/-- `size_hint`, /repo/src/bounded_set.rs:135-138. -/
def sizeHint (p : Platform) (S : Step T) (self : BoundedSetIter T) : Res (Nat × Option Nat) := do
  let size ← sumLens p S 0 self.rangeIters
  return (size, some size)

/-- `ExactSizeIterator::len` (std, provided). -/
def len (p : Platform) (S : Step T) (self : BoundedSetIter T) : Res Nat := do
  let (lower, upper) ← self.sizeHint p S
  assert "assertion `left == right` failed" (upper == some lower)
  return lower

/-- `count`, /repo/src/bounded_set.rs:140-145. -/
def count (p : Platform) (S : Step T) (self : BoundedSetIter T) : Res Nat := self.len p S

/-- `last`, /repo/src/bounded_set.rs:147-160.  `i` has type `&mut BoundedRangeIter<T>`, so `i.last()`
is the provided `Iterator::last` of `&mut I`, a loop over `next`; see `foldLast` for `fuel`. -/
def lastItem (p : Platform) (S : Step T) (fuel : Nat) (self : BoundedSetIter T) :
    Res (Option (Option T)) := do
  match ← popEmpty p S self.rangeIters.reverse with
  | [] => return some none
  | i :: _ => i.foldLast S fuel none

/-- The loop of `nth`, /repo/src/bounded_set.rs:163-170: drops front iterators while they are no longer
than `n`.  The loop of `nth_back` (200-207) is the same on the reversed list. -/
def skip (p : Platform) (S : Step T) :
    List (BoundedRangeIter T) → Nat → Res (List (BoundedRangeIter T) × Nat)
  | [], n => .ok ([], n)
  | i :: is, n => do
      let l ← i.len p S
      if l ≤ n then skip p S is (← p.subUsize n l) else return (i :: is, n)

/-- `nth`, /repo/src/bounded_set.rs:162-172. -/
def nth (p : Platform) (S : Step T) (self : BoundedSetIter T) (n : Nat) :
    Res (Option T × BoundedSetIter T) := do
  match ← skip p S self.rangeIters n with
  | ([], _) => return (none, ⟨[]⟩)
  | (i :: is, n) => do
      let (t, i') ← i.nth S n
      return (t, ⟨i' :: is⟩)

/-- `nth_back`, /repo/src/bounded_set.rs:199-209. -/
def nthBack (p : Platform) (S : Step T) (self : BoundedSetIter T) (n : Nat) :
    Res (Option T × BoundedSetIter T) := do
  match ← skip p S self.rangeIters.reverse n with
  | ([], _) => return (none, ⟨[]⟩)
  | (i :: is, n) => do
      let (t, i') ← i.nthBack S n
      return (t, ⟨(i' :: is).reverse⟩)

/-- `min`, /repo/src/bounded_set.rs:174-176. -/
def min (p : Platform) (S : Step T) (self : BoundedSetIter T) : Res (Option T) := do
  return (← self.next p S).1

/-- `max`, /repo/src/bounded_set.rs:178-180. -/
def max (p : Platform) (S : Step T) (self : BoundedSetIter T) : Res (Option T) := do
  return (← self.nextBack p S).1

end BoundedSetIter

/-! ### `LowerBoundedRangeIter`, /repo/src/lower_bounded_range.rs:109-138 -/

namespace LowerBoundedRangeIter

omit [LinearOrder T] in
/-- `next`, /repo/src/lower_bounded_range.rs:115-119. -/
def next (S : Step T) (self : LowerBoundedRangeIter T) :
    Res (Option T × LowerBoundedRangeIter T) := do
  let t := self.current
  let current ← S.forward self.current 1
  return (some t, ⟨current⟩)

omit [LinearOrder T] in
/-- `nth`, /repo/src/lower_bounded_range.rs:125-128. -/
def nth (S : Step T) (self : LowerBoundedRangeIter T) (n : Nat) :
    Res (Option T × LowerBoundedRangeIter T) := do
  let current ← S.forward self.current n
  LowerBoundedRangeIter.next S ⟨current⟩

omit [LinearOrder T] in
/-- `size_hint`, /repo/src/lower_bounded_range.rs:121-123. -/
def sizeHint (p : Platform) (_self : LowerBoundedRangeIter T) : Nat × Option Nat :=
  (p.usizeCount - 1, none)

omit [LinearOrder T] in
/-- `min`, /repo/src/lower_bounded_range.rs:130-135. -/
def min (S : Step T) (self : LowerBoundedRangeIter T) : Res (Option T) := do
  return (← self.next S).1

end LowerBoundedRangeIter

/-! ### `LowerBoundedSetIter`, /repo/src/lower_bounded_set.rs:115-141 -/

namespace LowerBoundedSetIter

/-- `next`, /repo/src/lower_bounded_set.rs:121-123. -/
def next (p : Platform) (S : Step T) (self : LowerBoundedSetIter T) :
    Res (Option T × LowerBoundedSetIter T) := do
  match ← self.setIter.next p S with
  | (some t, setIter) => return (some t, { self with setIter })
  | (none, setIter) => do
      let (t, rangeIter) ← self.rangeIter.next S
      return (t, ⟨setIter, rangeIter⟩)

/-- `nth`, /repo/src/lower_bounded_set.rs:129-134. -/
def nth (p : Platform) (S : Step T) (self : LowerBoundedSetIter T) (n : Nat) :
    Res (Option T × LowerBoundedSetIter T) := do
  let boundedSize ← self.setIter.len p S
  match ← self.setIter.nth p S n with
  | (some t, setIter) => return (some t, { self with setIter })
  | (none, setIter) => do
      let n ← p.subUsize n boundedSize
      let (t, rangeIter) ← self.rangeIter.nth S n
      return (t, ⟨setIter, rangeIter⟩)

omit [LinearOrder T] in
/-- `size_hint`, /repo/src/lower_bounded_set.rs:125-127. -/
def sizeHint (p : Platform) (_self : LowerBoundedSetIter T) : Nat × Option Nat :=
  (p.usizeCount - 1, none)

/-- `min`, /repo/src/lower_bounded_set.rs:136-138. -/
def min (p : Platform) (S : Step T) (self : LowerBoundedSetIter T) : Res (Option T) := do
  return (← self.next p S).1

end LowerBoundedSetIter
end Rangetools
