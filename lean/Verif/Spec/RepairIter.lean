import Verif.Spec.StdIter
import Verif.Model.Iter

/-!
# Repaired iterators

Not the code in /repo: what its `BoundedRangeIter` and `BoundedSetIter` would be with the `exhausted` flag of
std's `RangeInclusive`, with empty ranges told apart before an end is stepped over, and with spent pieces found
without asking for lengths.
-/

namespace Rangetools
variable {T : Type} [LinearOrder T]

/-- /repo/src/bounded_range.rs:91-101, except that an empty range steps nowhere and that the result is std's
`RangeInclusive`, /repo's `BoundedRangeIter` with one more flag. -/
def BoundedRange.intoIterRepaired (S : Step T) (self : BoundedRange T) : Res (RangeInclusive T) :=
  if self.isEmpty then match self.start.b with
    | .excluded t => .ok ⟨t, t, true⟩
    | .included t => .ok ⟨t, t, true⟩
  else do
    let it ← self.intoIter S
    return ⟨it.current, it.last, false⟩

/-- /repo/src/bounded_set.rs:40, with the above. -/
def intoItersRepaired (S : Step T) : List (BoundedRange T) → Res (List (RangeInclusive T))
  | [] => .ok []
  | r :: rs => do
      let i ← r.intoIterRepaired S
      let is ← intoItersRepaired S rs
      return i :: is

/-- /repo/src/bounded_set.rs:112-115, with the above. -/
structure RepairedSetIter (T : Type) where
  rangeIters : List (RangeInclusive T)
  deriving DecidableEq, Repr

/-- /repo/src/bounded_set.rs:38-42, with the above. -/
def BoundedSet.intoIterRepaired (S : Step T) (self : BoundedSet T) : Res (RepairedSetIter T) := do
  return ⟨← intoItersRepaired S self.ranges⟩

namespace RepairedSetIter

/-- /repo/src/bounded_set.rs:123-133, with `is_empty` instead of `len() == 0`. -/
def next (S : Step T) (self : RepairedSetIter T) : Res (Option T × RepairedSetIter T) :=
  match self.rangeIters.dropWhile RangeInclusive.done with
  | [] => .ok (none, ⟨[]⟩)
  | i :: is => do
      let (t, i') ← i.next S
      return (t, ⟨i' :: is⟩)

/-- /repo/src/bounded_set.rs:187-197, with `is_empty` instead of `len() == 0`. -/
def nextBack (S : Step T) (self : RepairedSetIter T) : Res (Option T × RepairedSetIter T) :=
  match self.rangeIters.reverse.dropWhile RangeInclusive.done with
  | [] => .ok (none, ⟨[]⟩)
  | i :: is => do
      let (t, i') ← i.nextBack S
      return (t, ⟨(i' :: is).reverse⟩)

/-- The provided `Iterator::nth` (std). -/
def nth (S : Step T) (self : RepairedSetIter T) : Nat → Res (Option T × RepairedSetIter T)
  | 0 => self.next S
  | n + 1 => do
      match ← self.next S with
      | (none, self') => return (none, self')
      | (some _, self') => self'.nth S n

/-- The provided `DoubleEndedIterator::nth_back` (std). -/
def nthBack (S : Step T) (self : RepairedSetIter T) : Nat → Res (Option T × RepairedSetIter T)
  | 0 => self.nextBack S
  | n + 1 => do
      match ← self.nextBack S with
      | (none, self') => return (none, self')
      | (some _, self') => self'.nthBack S n

/-- /repo/src/bounded_set.rs:136: the sum of the sizes of the pieces. -/
def size (p : Platform) (S : Step T) : Nat → List (RangeInclusive T) → Res Nat
  | acc, [] => .ok acc
  | acc, i :: is => do
      let l ← i.count p S
      let acc ← p.addUsize acc l
      size p S acc is

/-- The method named by the call. -/
def call (p : Platform) (S : Step T) (it : RepairedSetIter T) : Op → Res (Out T × RepairedSetIter T)
  | .next => do let (o, it') ← it.next S; return (.item o, it')
  | .nextBack => do let (o, it') ← it.nextBack S; return (.item o, it')
  | .nth n => do let (o, it') ← it.nth S n; return (.item o, it')
  | .nthBack n => do let (o, it') ← it.nthBack S n; return (.item o, it')
  | .sizeHint => do let n ← size p S 0 it.rangeIters; return (.hint n (some n), it)
  | .len => do let n ← size p S 0 it.rangeIters; return (.num n, it)
  | .count => do let n ← size p S 0 it.rangeIters; return (.num n, it)
  | .min => do let (o, _) ← it.next S; return (.item o, it)
  | .max => do let (o, _) ← it.nextBack S; return (.item o, it)

end RepairedSetIter
end Rangetools
