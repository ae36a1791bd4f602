import Verif.Model.Any
import Verif.Model.Iter
import Verif.Model.Convert
import Mathlib.Data.Int.Order.Basic

/-!
# Running the crate's unit tests on the model

`/repo/src/test` asserts concrete results of the crate.  The modules `Verif/Tests/*.lean` repeat those
assertions on the model, so that a slip in the model shows up as a failing test.  Nothing here is used
by a theorem; these are tests of the model and prove no property.

Every integer is an `i32` on a 64-bit platform with overflow checks, as in `cargo test`.
-/

namespace Rangetools.Tests

abbrev i32 : IntTy := ⟨true, 32⟩
abbrev I32 : Type := i32.Val
def p : Platform := ⟨64, true, by decide⟩
def S : Step I32 := IntTy.step p i32

/-- An `i32` literal. -/
def n (x : Int) : I32 := i32.wrap x

/-- A test passes when it runs to its end: a panic or a failed assertion is a `Res.panic`. -/
def passes (t : Res Unit) : Prop := t = .ok ()
instance (t : Res Unit) : Decidable (passes t) := inferInstanceAs (Decidable (_ = _))

/-- `assert!`. -/
def check (b : Bool) : Res Unit := assert "assertion failed" b

/-- The types a test may ask for. -/
inductive Ty where
  | range | rangeInclusive | rangeFrom | rangeTo | rangeToInclusive | rangeFull
  | br | bs | lbr | lbs | ubr | ubs | ur | us | er
  deriving DecidableEq

def typeOf : Any I32 → Ty
  | .range _ => .range
  | .rangeInclusive _ => .rangeInclusive
  | .rangeFrom _ => .rangeFrom
  | .rangeTo _ => .rangeTo
  | .rangeToInclusive _ => .rangeToInclusive
  | .rangeFull => .rangeFull
  | .inner (.br _) => .br
  | .inner (.bs _) => .bs
  | .inner (.lbr _) => .lbr
  | .inner (.lbs _) => .lbs
  | .inner (.ubr _) => .ubr
  | .inner (.ubs _) => .ubs
  | .inner .ur => .ur
  | .inner (.us _) => .us
  | .inner .er => .er

/-- A type annotation `let x: T = …`. -/
def hasType (a : Any I32) (t : Ty) : Res Unit := check (decide (typeOf a = t))

def union (a b : Any I32) : Res (Any I32) := a.union b
def inter (a b : Any I32) : Res (Any I32) := do return .inner (← a.inter b)
def compl (a : Any I32) : Res (Any I32) := do return .inner (← a.complement)
def toInner' (a : Any I32) : Res (Any I32) := .ok (.inner a.toInner)
def toSet' (a : Any I32) : Res (Any I32) := .ok (.inner a.toSet.toInner)

/-- `let x: T = a.into()`. -/
def into (t : Ty) (a : Any I32) : Res (Any I32) :=
  match t, a with
  | .br, .range r => .ok (.inner (.br (.ofRange r)))
  | .br, .rangeInclusive r => .ok (.inner (.br (.ofRangeInclusive r)))
  | .lbr, .rangeFrom r => .ok (.inner (.lbr (.ofRangeFrom r)))
  | .ubr, .rangeTo r => .ok (.inner (.ubr (.ofRangeTo r)))
  | .ubr, .rangeToInclusive r => .ok (.inner (.ubr (.ofRangeToInclusive r)))
  | .range, .inner (.br r) => do return .range (← r.toRange S)
  | .rangeInclusive, .inner (.br r) => do return .rangeInclusive (← r.toRangeInclusive S)
  | .rangeFrom, .inner (.lbr r) => do return .rangeFrom (← r.toRangeFrom S)
  | .rangeTo, .inner (.ubr r) => do return .rangeTo (← r.toRangeTo S)
  | .rangeToInclusive, .inner (.ubr r) => do return .rangeToInclusive (← r.toRangeToInclusive S)
  | .range, .inner .er => .ok (.range (EmptyRange.toRange (n 0)))
  | .rangeInclusive, .inner .er => do
      return .rangeInclusive (← EmptyRange.toRangeInclusive S (n 0))
  | .rangeFull, .inner .ur => .ok .rangeFull
  | _, _ => .panic "no such conversion"

/-- The iterators of the crate. -/
inductive It where
  | br (i : BoundedRangeIter I32)
  | bs (i : BoundedSetIter I32)
  | lbr (i : LowerBoundedRangeIter I32)
  | lbs (i : LowerBoundedSetIter I32)
  | er

def intoIter : Any I32 → Res It
  | .inner (.br r) => do return .br (← r.intoIter S)
  | .inner (.bs s) => do return .bs (← s.intoIter S)
  | .inner (.lbr r) => do return .lbr (← r.intoIter S)
  | .inner (.lbs s) => do return .lbs (← s.intoIter S)
  | .inner .er => .ok .er
  | _ => .panic "not an iterator of the crate"

def next : It → Res (Option I32 × It)
  | .br i => do let (o, i) ← i.next S; return (o, .br i)
  | .bs i => do let (o, i) ← i.next p S; return (o, .bs i)
  | .lbr i => do let (o, i) ← i.next S; return (o, .lbr i)
  | .lbs i => do let (o, i) ← i.next p S; return (o, .lbs i)
  | .er => .ok (none, .er)

def nextBack : It → Res (Option I32 × It)
  | .br i => do let (o, i) ← i.nextBack S; return (o, .br i)
  | .bs i => do let (o, i) ← i.nextBack p S; return (o, .bs i)
  | .er => .ok (none, .er)
  | _ => .panic "not double ended"

def nth (k : Nat) : It → Res (Option I32 × It)
  | .br i => do let (o, i) ← i.nth S k; return (o, .br i)
  | .bs i => do let (o, i) ← i.nth p S k; return (o, .bs i)
  | .lbr i => do let (o, i) ← i.nth S k; return (o, .lbr i)
  | .lbs i => do let (o, i) ← i.nth p S k; return (o, .lbs i)
  | .er => .ok (none, .er)

def nthBack (k : Nat) : It → Res (Option I32 × It)
  | .br i => do let (o, i) ← i.nthBack S k; return (o, .br i)
  | .bs i => do let (o, i) ← i.nthBack p S k; return (o, .bs i)
  | .er => .ok (none, .er)
  | _ => .panic "not double ended"

def minItem : It → Res (Option I32)
  | .br i => i.min S
  | .bs i => i.min p S
  | .lbr i => i.min S
  | .lbs i => i.min p S
  | .er => .ok none

def maxItem : It → Res (Option I32)
  | .br i => i.max S
  | .bs i => i.max p S
  | .er => .ok none
  | _ => .panic "not tested"

def lastItem : It → Res (Option I32)
  | .br i => .ok i.lastItem
  | .bs i => do unwrap "still running" (← i.lastItem p S 100)
  | .er => .ok none
  | _ => .panic "not tested"

def sizeHint : It → Res (Nat × Option Nat)
  | .br i => i.sizeHint p S
  | .bs i => i.sizeHint p S
  | .lbr i => .ok (i.sizeHint p)
  | .lbs i => .ok (i.sizeHint p)
  | .er => .ok (0, some 0)

def count : It → Res Nat
  | .br i => i.count p S
  | .bs i => i.count p S
  | .er => .ok 0
  | _ => .panic "not tested"

/-- `.take(k).collect()`. -/
def collectTake : Nat → It → Res (List I32)
  | 0, _ => .ok []
  | k + 1, i => do
      match ← next i with
      | (none, _) => return []
      | (some t, i) => do return t :: (← collectTake k i)

/-- `.collect()`, for at most 100 items. -/
def collectFuel : Nat → It → Res (List I32)
  | 0, _ => .panic "still running"
  | k + 1, i => do
      match ← next i with
      | (none, _) => return []
      | (some t, i) => do return t :: (← collectFuel k i)
def collect (i : It) : Res (List I32) := collectFuel 100 i

end Rangetools.Tests
