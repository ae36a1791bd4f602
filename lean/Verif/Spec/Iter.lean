import Verif.Model.Iter
import Verif.Spec.Step
import Verif.Spec.Algebra

/-!
# Specification of iteration

A program drives an iterator by a finite schedule of calls (`Op`) and sees their results (`Out`).  The
specification is a plain list, popped at both ends (`listCall`); the claim of the iteration theorems is
that an iterator and the increasing list of the contained elements cannot be told apart.
-/

namespace Rangetools
variable {T : Type}

/-- `l` is the strictly increasing list of the values satisfying `P`. -/
def Lists [LT T] (l : List T) (P : T → Bool) : Prop :=
  l.Pairwise (· < ·) ∧ ∀ t, t ∈ l ↔ P t = true

/-- A call on an iterator.  `count`, `min` and `max` consume the iterator in Rust; here they are made on
a clone, so that the schedule can go on. -/
inductive Op where
  | next
  | nextBack
  | nth (n : Nat)
  | nthBack (n : Nat)
  | sizeHint
  | len
  | count
  | min
  | max
  deriving DecidableEq, Repr

/-- What a call returns. -/
inductive Out (T : Type) where
  | item (o : Option T)
  | hint (lower : Nat) (upper : Option Nat)
  | num (n : Nat)
  deriving DecidableEq, Repr

namespace Op

/-- The call moves, or looks at, the front. -/
def isFront : Op → Bool
  | .next | .nth _ | .min => true
  | _ => false

/-- The call moves, or looks at, the back. -/
def isBack : Op → Bool
  | .nextBack | .nthBack _ | .max => true
  | _ => false

/-- The call asks for the number of remaining elements. -/
def isSize : Op → Bool
  | .sizeHint | .len | .count => true
  | _ => false

/-- How many elements `nth` is asked to skip at the front. -/
def skipFront : Op → Nat
  | .nth n => n
  | _ => 0

/-- How many elements `nth_back` is asked to skip at the back. -/
def skipBack : Op → Nat
  | .nthBack n => n
  | _ => 0

end Op

/-- Total number of elements the schedule asks to skip at the front. -/
def skipsFront (ops : List Op) : Nat := (ops.map Op.skipFront).sum
/-- Total number of elements the schedule asks to skip at the back. -/
def skipsBack (ops : List Op) : Nat := (ops.map Op.skipBack).sum
/-- Every argument of the schedule is a `usize`. -/
def UsizeArgs (p : Platform) (ops : List Op) : Prop :=
  ∀ op ∈ ops, op.skipFront < p.usizeCount ∧ op.skipBack < p.usizeCount

/-! ### The reference: a list popped at both ends -/

/-- One call on a list. -/
def listCall (l : List T) : Op → Out T × List T
  | .next => (.item l.head?, l.tail)
  | .nextBack => (.item l.getLast?, l.dropLast)
  | .nth n => (.item l[n]?, l.drop (n + 1))
  | .nthBack n => (.item l.reverse[n]?, (l.reverse.drop (n + 1)).reverse)
  | .sizeHint => (.hint l.length (some l.length), l)
  | .len => (.num l.length, l)
  | .count => (.num l.length, l)
  | .min => (.item l.head?, l)
  | .max => (.item l.getLast?, l)

/-- A schedule on a list: the results, and the list that remains. -/
def listRun : List T → List Op → List (Out T) × List T
  | l, [] => ([], l)
  | l, op :: ops =>
      let (o, l') := listCall l op
      let (os, l'') := listRun l' ops
      (o :: os, l'')

/-! ### Driving a real iterator -/

/-- A schedule on an iterator with state `σ`: the results and the final state, or a panic. -/
def runOps {σ : Type} (call : σ → Op → Res (Out T × σ)) : σ → List Op → Res (List (Out T) × σ)
  | s, [] => .ok ([], s)
  | s, op :: ops => do
      let (o, s') ← call s op
      let (os, s'') ← runOps call s' ops
      return (o :: os, s'')

variable [LinearOrder T]

/-- The method of `BoundedRangeIter` named by the call. -/
def BoundedRangeIter.call (p : Platform) (S : Step T) (it : BoundedRangeIter T) :
    Op → Res (Out T × BoundedRangeIter T)
  | .next => do let (o, it') ← it.next S; return (.item o, it')
  | .nextBack => do let (o, it') ← it.nextBack S; return (.item o, it')
  | .nth n => do let (o, it') ← it.nth S n; return (.item o, it')
  | .nthBack n => do let (o, it') ← it.nthBack S n; return (.item o, it')
  | .sizeHint => do let (lo, hi) ← it.sizeHint p S; return (.hint lo hi, it)
  | .len => do let n ← it.len p S; return (.num n, it)
  | .count => do let n ← it.count p S; return (.num n, it)
  | .min => do let o ← it.min S; return (.item o, it)
  | .max => do let o ← it.max S; return (.item o, it)

/-- The method of `BoundedSetIter` named by the call. -/
def BoundedSetIter.call (p : Platform) (S : Step T) (it : BoundedSetIter T) :
    Op → Res (Out T × BoundedSetIter T)
  | .next => do let (o, it') ← it.next p S; return (.item o, it')
  | .nextBack => do let (o, it') ← it.nextBack p S; return (.item o, it')
  | .nth n => do let (o, it') ← it.nth p S n; return (.item o, it')
  | .nthBack n => do let (o, it') ← it.nthBack p S n; return (.item o, it')
  | .sizeHint => do let (lo, hi) ← it.sizeHint p S; return (.hint lo hi, it)
  | .len => do let n ← it.len p S; return (.num n, it)
  | .count => do let n ← it.count p S; return (.num n, it)
  | .min => do let o ← it.min p S; return (.item o, it)
  | .max => do let o ← it.max p S; return (.item o, it)

/-! ### Staying inside the element type -/

omit [LinearOrder T] in
/-- The type has a value with number `k`. -/
def Has (idx : T → Int) (k : Int) : Prop := ∃ t, idx t = k

omit [LinearOrder T] in
/-- Number of the first value a lower bound admits. -/
def LowerBound.firstIdx (idx : T → Int) (b : LowerBound T) : Int :=
  match b.b with
  | .included s => idx s
  | .excluded s => idx s + 1

omit [LinearOrder T] in
/-- Number of the last value an upper bound admits. -/
def UpperBound.lastIdx (idx : T → Int) (b : UpperBound T) : Int :=
  match b.b with
  | .included e => idx e
  | .excluded e => idx e - 1

omit [LinearOrder T] in
/-- The first and the last position exist, so that `into_iter` has something to store. -/
def BoundedRange.Representable (idx : T → Int) (r : BoundedRange T) : Prop :=
  Has idx (r.start.firstIdx idx) ∧ Has idx (r.stop.lastIdx idx)

omit [LinearOrder T] in
/-- The element type goes on for one value past the end of the range, and `k` more.  For a non-empty
range and `k = 0`: the last contained element is not the greatest value of the type. -/
def BoundedRange.RoomAbove (idx : T → Int) (r : BoundedRange T) (k : Nat) : Prop :=
  Has idx (Max.max (r.start.firstIdx idx) (r.stop.lastIdx idx + 1) + k)

omit [LinearOrder T] in
/-- The element type goes on for one value before the start of the range, and `k` more. -/
def BoundedRange.RoomBelow (idx : T → Int) (r : BoundedRange T) (k : Nat) : Prop :=
  Has idx (Min.min (r.stop.lastIdx idx) (r.start.firstIdx idx - 1) - k)

omit [LinearOrder T] in
/-- Number of contained elements. -/
def BoundedRange.size (idx : T → Int) (r : BoundedRange T) : Nat :=
  (r.stop.lastIdx idx - r.start.firstIdx idx + 1).toNat

omit [LinearOrder T] in
/-- The schedule needs no value outside the element type: past the last element when it moves the front
(how far, depends on how much it skips), before the first one when it moves the back.  When it asks for
sizes, they are `usize`s. -/
structure BoundedRange.Affords (p : Platform) (idx : T → Int) (r : BoundedRange T) (ops : List Op) :
    Prop where
  args : UsizeArgs p ops
  front : (∃ op ∈ ops, op.isFront = true) → r.RoomAbove idx (skipsFront ops)
  back : (∃ op ∈ ops, op.isBack = true) → r.RoomBelow idx (skipsBack ops)
  sizes : (∃ op ∈ ops, op.isSize = true) → r.size idx < p.usizeCount

omit [LinearOrder T] in
/-- The same for a set.  The set iterator asks every piece for its size all the time, but never skips
past the end of a piece. -/
structure BoundedSet.Affords (p : Platform) (idx : T → Int) (s : BoundedSet T) (ops : List Op) :
    Prop where
  args : UsizeArgs p ops
  pieces : ∀ r ∈ s.ranges, r.size idx < p.usizeCount
  front : (∃ op ∈ ops, op.isFront = true) → ∀ r ∈ s.ranges, r.RoomAbove idx 0
  back : (∃ op ∈ ops, op.isBack = true) → ∀ r ∈ s.ranges, r.RoomBelow idx 0
  sizes : (∃ op ∈ ops, op.isSize = true) →
    (s.ranges.map (BoundedRange.size idx)).sum < p.usizeCount

/-- `o` is the least element of `l`; `none` exactly when there is none. -/
def LeastOf (l : List T) : Option T → Prop
  | none => l = []
  | some x => x ∈ l ∧ ∀ y ∈ l, x ≤ y

/-- `o` is the greatest element of `l`; `none` exactly when there is none. -/
def GreatestOf (l : List T) : Option T → Prop
  | none => l = []
  | some x => x ∈ l ∧ ∀ y ∈ l, y ≤ x

/-! ### Iterators without end -/

/-- `l` consists of the `l.length` smallest values satisfying `P`, in increasing order. -/
def Initial (l : List T) (P : T → Bool) : Prop :=
  l.Pairwise (· < ·) ∧ (∀ t ∈ l, P t = true) ∧ ∀ t, P t = true → t ∉ l → ∀ x ∈ l, x < t

/-- A call on an iterator that is not double-ended (`min` on a clone). -/
inductive FrontOp where
  | next
  | nth (n : Nat)
  | min
  deriving DecidableEq, Repr

/-- The same call on a list. -/
def FrontOp.toOp : FrontOp → Op
  | .next => .next
  | .nth n => .nth n
  | .min => .min

/-- How many elements the schedule looks at. -/
def needs : List FrontOp → Nat
  | [] => 0
  | .next :: ops => 1 + needs ops
  | .nth n :: ops => n + 1 + needs ops
  | .min :: ops => Max.max 1 (needs ops)

/-- A schedule on an iterator that is not double-ended. -/
def runFront {σ : Type} (call : σ → FrontOp → Res (Out T × σ)) :
    σ → List FrontOp → Res (List (Out T) × σ)
  | s, [] => .ok ([], s)
  | s, op :: ops => do
      let (o, s') ← call s op
      let (os, s'') ← runFront call s' ops
      return (o :: os, s'')

omit [LinearOrder T] in
/-- The method of `LowerBoundedRangeIter` named by the call. -/
def LowerBoundedRangeIter.call (S : Step T) (it : LowerBoundedRangeIter T) :
    FrontOp → Res (Out T × LowerBoundedRangeIter T)
  | .next => do let (o, it') ← it.next S; return (.item o, it')
  | .nth n => do let (o, it') ← it.nth S n; return (.item o, it')
  | .min => do let o ← it.min S; return (.item o, it)

/-- The method of `LowerBoundedSetIter` named by the call. -/
def LowerBoundedSetIter.call (p : Platform) (S : Step T) (it : LowerBoundedSetIter T) :
    FrontOp → Res (Out T × LowerBoundedSetIter T)
  | .next => do let (o, it') ← it.next p S; return (.item o, it')
  | .nth n => do let (o, it') ← it.nth p S n; return (.item o, it')
  | .min => do let o ← it.min p S; return (.item o, it)

end Rangetools
