import Verif.Spec.Iter
import Verif.Model.Ranges

/-!
# The iterators of the standard library

`std::ops::Range` and `std::ops::RangeInclusive` are iterators themselves.  What follows is their documented
behaviour (`core::iter::range`), over the same `Step` record; the crate's iterators are compared with it.  The
`Step` trait of std is unstable and separate from the crate's; for the integer types and `char` both do the
same, see `LawfulStep`.
-/

namespace Rangetools
variable {T : Type} [LinearOrder T]

/-- `usize::MAX`. -/
def Platform.usizeMax (p : Platform) : Nat := p.usizeCount - 1

/-- std `Step::steps_between`: the number of steps and whether it is exact. -/
def stdSteps (p : Platform) (S : Step T) (a b : T) : Res (Nat × Option Nat) := do
  match ← S.stepsBetween a b with
  | some n => return (n, some n)
  | none => return (p.usizeMax, none)

/-- std `checked_add(1)` on `usize`. -/
def checkedSucc (p : Platform) (n : Nat) : Option Nat := if n + 1 < p.usizeCount then some (n + 1) else none

namespace Range

/-- std `Range::next`. -/
def next (S : Step T) (r : Range T) : Res (Option T × Range T) :=
  if r.start < r.stop then do
    return (some r.start, ⟨← S.forward r.start 1, r.stop⟩)
  else .ok (none, r)

/-- std `Range::next_back`. -/
def nextBack (S : Step T) (r : Range T) : Res (Option T × Range T) :=
  if r.start < r.stop then do
    let e ← S.backward r.stop 1
    return (some e, ⟨r.start, e⟩)
  else .ok (none, r)

/-- std `Range::nth`. -/
def nth (S : Step T) (r : Range T) (n : Nat) : Res (Option T × Range T) := do
  match ← S.forwardChecked r.start n with
  | some x =>
      if x < r.stop then return (some x, ⟨← S.forward x 1, r.stop⟩) else return (none, ⟨r.stop, r.stop⟩)
  | none => return (none, ⟨r.stop, r.stop⟩)

/-- std `Range::nth_back`. -/
def nthBack (S : Step T) (r : Range T) (n : Nat) : Res (Option T × Range T) := do
  match ← S.backwardChecked r.stop n with
  | some x =>
      if r.start < x then do
        let e ← S.backward x 1
        return (some e, ⟨r.start, e⟩)
      else return (none, ⟨r.start, r.start⟩)
  | none => return (none, ⟨r.start, r.start⟩)

/-- std `Range::size_hint`. -/
def sizeHint (p : Platform) (S : Step T) (r : Range T) : Res (Nat × Option Nat) :=
  if r.start < r.stop then stdSteps p S r.start r.stop else .ok (0, some 0)

/-- std `Range::count`. -/
def count (p : Platform) (S : Step T) (r : Range T) : Res Nat :=
  if r.start < r.stop then do
    unwrap "count overflowed usize" (← stdSteps p S r.start r.stop).2
  else .ok 0

/-- The method of `Range` named by the call.  `len` exists for the types whose sizes always fit. -/
def call (p : Platform) (S : Step T) (r : Range T) : Op → Res (Out T × Range T)
  | .next => do let (o, r') ← r.next S; return (.item o, r')
  | .nextBack => do let (o, r') ← r.nextBack S; return (.item o, r')
  | .nth n => do let (o, r') ← r.nth S n; return (.item o, r')
  | .nthBack n => do let (o, r') ← r.nthBack S n; return (.item o, r')
  | .sizeHint => do let (lo, hi) ← r.sizeHint p S; return (.hint lo hi, r)
  | .len => do
      let (lo, hi) ← r.sizeHint p S
      assert "assertion `left == right` failed" (hi == some lo)
      return (.num lo, r)
  | .count => do let n ← r.count p S; return (.num n, r)
  | .min => do let (o, _) ← r.next S; return (.item o, r)
  | .max => do let (o, _) ← r.nextBack S; return (.item o, r)

end Range

namespace RangeInclusive

/-- std `RangeInclusive::is_empty`. -/
def done (r : RangeInclusive T) : Bool := r.exhausted || !decide (r.start ≤ r.stop)

/-- std `RangeInclusive::next`. -/
def next (S : Step T) (r : RangeInclusive T) : Res (Option T × RangeInclusive T) :=
  if r.done then .ok (none, r)
  else if r.start < r.stop then do
    return (some r.start, { r with start := ← S.forward r.start 1 })
  else .ok (some r.start, { r with exhausted := true })

/-- std `RangeInclusive::next_back`. -/
def nextBack (S : Step T) (r : RangeInclusive T) : Res (Option T × RangeInclusive T) :=
  if r.done then .ok (none, r)
  else if r.start < r.stop then do
    return (some r.stop, { r with stop := ← S.backward r.stop 1 })
  else .ok (some r.stop, { r with exhausted := true })

/-- std `RangeInclusive::nth`. -/
def nth (S : Step T) (r : RangeInclusive T) (n : Nat) : Res (Option T × RangeInclusive T) :=
  if r.done then .ok (none, r)
  else do
    match ← S.forwardChecked r.start n with
    | some x =>
        if x < r.stop then return (some x, { r with start := ← S.forward x 1 })
        else if x = r.stop then return (some x, { r with start := x, exhausted := true })
        else return (none, { r with start := r.stop, exhausted := true })
    | none => return (none, { r with start := r.stop, exhausted := true })

/-- std `RangeInclusive::nth_back`. -/
def nthBack (S : Step T) (r : RangeInclusive T) (n : Nat) : Res (Option T × RangeInclusive T) :=
  if r.done then .ok (none, r)
  else do
    match ← S.backwardChecked r.stop n with
    | some x =>
        if r.start < x then return (some x, { r with stop := ← S.backward x 1 })
        else if x = r.start then return (some x, { r with stop := x, exhausted := true })
        else return (none, { r with stop := r.start, exhausted := true })
    | none => return (none, { r with stop := r.start, exhausted := true })

/-- std `RangeInclusive::size_hint`. -/
def sizeHint (p : Platform) (S : Step T) (r : RangeInclusive T) : Res (Nat × Option Nat) :=
  if r.done then .ok (0, some 0)
  else do
    let (lo, hi) ← stdSteps p S r.start r.stop
    return (Min.min (lo + 1) p.usizeMax, hi.bind (checkedSucc p))

/-- std `RangeInclusive::count`. -/
def count (p : Platform) (S : Step T) (r : RangeInclusive T) : Res Nat :=
  if r.done then .ok 0
  else do
    let (_, hi) ← stdSteps p S r.start r.stop
    unwrap "count overflowed usize" (hi.bind (checkedSucc p))

/-- The method of `RangeInclusive` named by the call.  `len` exists for the types whose sizes always fit. -/
def call (p : Platform) (S : Step T) (r : RangeInclusive T) : Op → Res (Out T × RangeInclusive T)
  | .next => do let (o, r') ← r.next S; return (.item o, r')
  | .nextBack => do let (o, r') ← r.nextBack S; return (.item o, r')
  | .nth n => do let (o, r') ← r.nth S n; return (.item o, r')
  | .nthBack n => do let (o, r') ← r.nthBack S n; return (.item o, r')
  | .sizeHint => do let (lo, hi) ← r.sizeHint p S; return (.hint lo hi, r)
  | .len => do
      let (lo, hi) ← r.sizeHint p S
      assert "assertion `left == right` failed" (hi == some lo)
      return (.num lo, r)
  | .count => do let n ← r.count p S; return (.num n, r)
  | .min => do let (o, _) ← r.next S; return (.item o, r)
  | .max => do let (o, _) ← r.nextBack S; return (.item o, r)

end RangeInclusive

omit [LinearOrder T] in
/-- std `RangeFrom::next`. -/
def RangeFrom.next (S : Step T) (r : RangeFrom T) : Res (Option T × RangeFrom T) := do
  return (some r.start, ⟨← S.forward r.start 1⟩)

omit [LinearOrder T] in
/-- std `RangeFrom::nth`. -/
def RangeFrom.nth (S : Step T) (r : RangeFrom T) (n : Nat) : Res (Option T × RangeFrom T) := do
  let x ← S.forward r.start n
  return (some x, ⟨← S.forward x 1⟩)

omit [LinearOrder T] in
/-- The method of `RangeFrom` named by the call.  std has no `min` of its own: the provided one does not end
before the values do. -/
def RangeFrom.call (S : Step T) (r : RangeFrom T) : FrontOp → Res (Out T × RangeFrom T)
  | .next => do let (o, r') ← r.next S; return (.item o, r')
  | .nth n => do let (o, r') ← r.nth S n; return (.item o, r')
  | .min => .panic "does not end"

end Rangetools
