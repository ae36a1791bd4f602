import Verif.Model.Unwind

/-!
# The iterators as programs that call `Step` and compare

`Model/Iter.lean` and `Model/Unwind.lean` take a `Step` implementation to be three functions, and the order to be one.  In
Rust the methods of `Step`, and the `>` of the elements, may also have side effects, and answer differently each time.  Here an iterator method is a program that makes calls and goes on
according to each answer (a value or a panic), with nothing assumed about the answers.  As in `Model/Unwind.lean` every method
returns its outcome and the iterator it leaves behind.
-/

namespace Rangetools

/-- A program that calls methods of `Step` and the `>` of the elements, and then returns. -/
inductive Calls (T α : Type) where
  | done (a : α)
  | between (a b : T) (k : Res (Option Nat) → Calls T α)
  | forward (a : T) (n : Nat) (k : Res T → Calls T α)
  | backward (a : T) (n : Nat) (k : Res T → Calls T α)
  | greater (a b : T) (k : Res Bool → Calls T α)

namespace Calls
variable {T α β : Type}

/-- One program after the other. -/
protected def bind (x : Calls T α) (f : α → Calls T β) : Calls T β :=
  match x with
  | done a => f a
  | between a b k => between a b fun r => (k r).bind f
  | forward a n k => forward a n fun r => (k r).bind f
  | backward a n k => backward a n fun r => (k r).bind f
  | greater a b k => greater a b fun r => (k r).bind f

instance : Monad (Calls T) where
  pure := done
  bind := Calls.bind

end Calls

variable {T : Type}

/-! ### `into_iter` -/

/-- The first element, /repo/src/bounded_range.rs:92-95 and /repo/src/lower_bounded_range.rs:52-55. -/
def LowerBound.firstC (b : LowerBound T) : Calls T (Res T) :=
  match b.b with
  | .excluded t => .forward t 1 .done
  | .included t => .done (.ok t)

/-- The last element, /repo/src/bounded_range.rs:96-99. -/
def UpperBound.lastC (b : UpperBound T) : Calls T (Res T) :=
  match b.b with
  | .excluded t => .backward t 1 .done
  | .included t => .done (.ok t)

/-- `BoundedRange::into_iter`, /repo/src/bounded_range.rs:91-101. -/
def BoundedRange.intoIterC (self : BoundedRange T) : Calls T (Res (BoundedRangeIter T)) := do
  match ← self.start.firstC with
  | .panic m => return .panic m
  | .ok current =>
      match ← self.stop.lastC with
      | .panic m => return .panic m
      | .ok last => return .ok ⟨current, last⟩

/-- `map(|r| r.into_iter()).collect()`, /repo/src/bounded_set.rs:40. -/
def intoItersC : List (BoundedRange T) → Calls T (Res (List (BoundedRangeIter T)))
  | [] => .done (.ok [])
  | r :: rs => do
      match ← r.intoIterC with
      | .panic m => return .panic m
      | .ok i =>
          match ← intoItersC rs with
          | .panic m => return .panic m
          | .ok is => return .ok (i :: is)

/-- `BoundedSet::into_iter`, /repo/src/bounded_set.rs:38-42. -/
def BoundedSet.intoIterC (self : BoundedSet T) : Calls T (Res (BoundedSetIter T)) := do
  match ← intoItersC self.ranges with
  | .panic m => return .panic m
  | .ok is => return .ok ⟨is⟩

/-- `LowerBoundedRange::into_iter`, /repo/src/lower_bounded_range.rs:51-58. -/
def LowerBoundedRange.intoIterC (self : LowerBoundedRange T) : Calls T (Res (LowerBoundedRangeIter T)) := do
  match ← self.start.firstC with
  | .panic m => return .panic m
  | .ok current => return .ok ⟨current⟩

/-- `LowerBoundedSet::into_iter`, /repo/src/lower_bounded_set.rs:41-46. -/
def LowerBoundedSet.intoIterC (self : LowerBoundedSet T) : Calls T (Res (LowerBoundedSetIter T)) := do
  match ← self.ranges.intoIterC with
  | .panic m => return .panic m
  | .ok setIter =>
      match ← self.lowerBoundedRange.intoIterC with
      | .panic m => return .panic m
      | .ok rangeIter => return .ok ⟨setIter, rangeIter⟩

/-! ### Lengths -/

/-- `BoundedRangeIter::len` through `size_hint`, /repo/src/bounded_range.rs:188-193.  The assertion of the provided `len`
compares a number with itself. -/
def BoundedRangeIter.lenC (p : Platform) (self : BoundedRangeIter T) : Calls T (Res Nat) :=
  .between self.current self.last fun
    | .panic m => .done (.panic m)
    | .ok none => .done (.ok 0)
    | .ok (some steps) => .done (p.addUsize steps 1)

namespace BoundedSetIter

/-- `self.range_iters.iter().map(|i| i.len()).sum()`, /repo/src/bounded_set.rs:136. -/
def sumLensC (p : Platform) : Nat → List (BoundedRangeIter T) → Calls T (Res Nat)
  | acc, [] => .done (.ok acc)
  | acc, i :: is => do
      match ← i.lenC p with
      | .panic m => return .panic m
      | .ok l =>
          match p.addUsize acc l with
          | .panic m => return .panic m
          | .ok acc => sumLensC p acc is

/-- `BoundedSetIter::len` through `size_hint`, /repo/src/bounded_set.rs:135-138. -/
def lenC (p : Platform) (self : BoundedSetIter T) : Calls T (Res Nat) := sumLensC p 0 self.rangeIters

end BoundedSetIter

namespace BoundedRangeIter

/-- `next`, /repo/src/bounded_range.rs:178-186. -/
def nextC (self : BoundedRangeIter T) : Calls T (Res (Option T) × BoundedRangeIter T) :=
  .greater self.current self.last fun
    | .ok true => .done (.ok none, self)
    | .ok false => .forward self.current 1 fun
      | .ok current => .done (.ok (some self.current), { self with current })
      | .panic m => .done (.panic m, self)
    | .panic m => .done (.panic m, self)

/-- `next_back`, /repo/src/bounded_range.rs:228-236. -/
def nextBackC (self : BoundedRangeIter T) : Calls T (Res (Option T) × BoundedRangeIter T) :=
  .greater self.current self.last fun
    | .ok true => .done (.ok none, self)
    | .ok false => .backward self.last 1 fun
      | .ok last => .done (.ok (some self.last), { self with last })
      | .panic m => .done (.panic m, self)
    | .panic m => .done (.panic m, self)

/-- `nth`, /repo/src/bounded_range.rs:210-213. -/
def nthC (self : BoundedRangeIter T) (n : Nat) : Calls T (Res (Option T) × BoundedRangeIter T) :=
  .forward self.current n fun
    | .ok current => { self with current }.nextC
    | .panic m => .done (.panic m, self)

/-- `nth_back`, /repo/src/bounded_range.rs:238-241. -/
def nthBackC (self : BoundedRangeIter T) (n : Nat) : Calls T (Res (Option T) × BoundedRangeIter T) :=
  .backward self.last n fun
    | .ok last => { self with last }.nextBackC
    | .panic m => .done (.panic m, self)

end BoundedRangeIter

namespace BoundedSetIter

/-- The loop at /repo/src/bounded_set.rs:124-131 (and 188-195 on the reversed list). -/
def popEmptyC (p : Platform) : List (BoundedRangeIter T) → Calls T (Res Unit × List (BoundedRangeIter T))
  | [] => .done (.ok (), [])
  | i :: is => do
      match ← i.lenC p with
      | .ok l => if l == 0 then popEmptyC p is else return (.ok (), i :: is)
      | .panic m => return (.panic m, i :: is)

/-- The loop at /repo/src/bounded_set.rs:163-170 (and 200-207 on the reversed list). -/
def skipC (p : Platform) : List (BoundedRangeIter T) → Nat → Calls T (Res Nat × List (BoundedRangeIter T))
  | [], n => .done (.ok n, [])
  | i :: is, n => do
      match ← i.lenC p with
      | .ok l =>
          if l ≤ n then
            match p.subUsize n l with
            | .ok n => skipC p is n
            | .panic m => return (.panic m, i :: is)
          else return (.ok n, i :: is)
      | .panic m => return (.panic m, i :: is)

/-- `next`, /repo/src/bounded_set.rs:123-133. -/
def nextC (p : Platform) (self : BoundedSetIter T) : Calls T (Res (Option T) × BoundedSetIter T) := do
  match ← popEmptyC p self.rangeIters with
  | (.panic m, is) => return (.panic m, ⟨is⟩)
  | (.ok _, []) => return (.ok none, ⟨[]⟩)
  | (.ok _, i :: is) => do
      let r ← i.nextC
      return (r.1, ⟨r.2 :: is⟩)

/-- `next_back`, /repo/src/bounded_set.rs:187-197. -/
def nextBackC (p : Platform) (self : BoundedSetIter T) : Calls T (Res (Option T) × BoundedSetIter T) := do
  match ← popEmptyC p self.rangeIters.reverse with
  | (.panic m, is) => return (.panic m, ⟨is.reverse⟩)
  | (.ok _, []) => return (.ok none, ⟨[]⟩)
  | (.ok _, i :: is) => do
      let r ← i.nextBackC
      return (r.1, ⟨(r.2 :: is).reverse⟩)

/-- `nth`, /repo/src/bounded_set.rs:162-172. -/
def nthC (p : Platform) (self : BoundedSetIter T) (n : Nat) : Calls T (Res (Option T) × BoundedSetIter T) := do
  match ← skipC p self.rangeIters n with
  | (.panic m, is) => return (.panic m, ⟨is⟩)
  | (.ok _, []) => return (.ok none, ⟨[]⟩)
  | (.ok n, i :: is) => do
      let r ← i.nthC n
      return (r.1, ⟨r.2 :: is⟩)

/-- `nth_back`, /repo/src/bounded_set.rs:199-209. -/
def nthBackC (p : Platform) (self : BoundedSetIter T) (n : Nat) : Calls T (Res (Option T) × BoundedSetIter T) := do
  match ← skipC p self.rangeIters.reverse n with
  | (.panic m, is) => return (.panic m, ⟨is.reverse⟩)
  | (.ok _, []) => return (.ok none, ⟨[]⟩)
  | (.ok n, i :: is) => do
      let r ← i.nthBackC n
      return (r.1, ⟨(r.2 :: is).reverse⟩)

end BoundedSetIter

namespace LowerBoundedRangeIter

/-- `next`, /repo/src/lower_bounded_range.rs:115-119. -/
def nextC (self : LowerBoundedRangeIter T) : Calls T (Res (Option T) × LowerBoundedRangeIter T) :=
  .forward self.current 1 fun
    | .ok current => .done (.ok (some self.current), ⟨current⟩)
    | .panic m => .done (.panic m, self)

/-- `nth`, /repo/src/lower_bounded_range.rs:125-128. -/
def nthC (self : LowerBoundedRangeIter T) (n : Nat) : Calls T (Res (Option T) × LowerBoundedRangeIter T) :=
  .forward self.current n fun
    | .ok current => LowerBoundedRangeIter.nextC ⟨current⟩
    | .panic m => .done (.panic m, self)

end LowerBoundedRangeIter

namespace LowerBoundedSetIter
/-- `next`, /repo/src/lower_bounded_set.rs:121-123. -/
def nextC (p : Platform) (self : LowerBoundedSetIter T) : Calls T (Res (Option T) × LowerBoundedSetIter T) := do
  match ← self.setIter.nextC p with
  | (.panic m, setIter) => return (.panic m, { self with setIter })
  | (.ok (some t), setIter) => return (.ok (some t), { self with setIter })
  | (.ok none, setIter) => do
      let r ← self.rangeIter.nextC
      return (r.1, ⟨setIter, r.2⟩)

/-- `nth`, /repo/src/lower_bounded_set.rs:129-134. -/
def nthC (p : Platform) (self : LowerBoundedSetIter T) (n : Nat) :
    Calls T (Res (Option T) × LowerBoundedSetIter T) := do
  match ← self.setIter.lenC p with
  | .panic m => return (.panic m, self)
  | .ok boundedSize =>
      match ← self.setIter.nthC p n with
      | (.panic m, setIter) => return (.panic m, { self with setIter })
      | (.ok (some t), setIter) => return (.ok (some t), { self with setIter })
      | (.ok none, setIter) =>
          match p.subUsize n boundedSize with
          | .panic m => return (.panic m, { self with setIter })
          | .ok n => do
              let r ← self.rangeIter.nthC n
              return (r.1, ⟨setIter, r.2⟩)

end LowerBoundedSetIter
end Rangetools
