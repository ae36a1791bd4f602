import Verif.Model.Any

/-!
# The set algebra as programs that compare

`Model/Bound.lean` to `Model/Any.lean` take the comparisons of the element type to be functions.  In Rust `<`, `<=`, `>`, `>=`,
`==` and `partial_cmp` of a user's type are code: they may have side effects, answer differently each time, contradict each
other, and panic.  Here an operation is a program that asks comparisons and goes on according to each answer, with nothing
assumed about the answers.  Every definition follows the one of the same name without the final `A`, with the comparisons in
the order in which the Rust code makes them.  (`T` is `Copy`, so copying an element runs no user code; a hand-written
`Clone` of a `Copy` type is not modelled.)

A comparison that panics ends the operation: the operands were moved into it, so nothing is left to observe.  It is therefore
an answer of the surroundings (`Asks.exec` in `Spec/Asks.lean`), not a branch of the program.
-/

set_option linter.unusedVariables false

namespace Rangetools

/-- The comparison operators of the element type. -/
inductive Test where
  | lt | le | gt | ge | eq
  deriving DecidableEq, Repr

/-- A program that compares elements and then returns or panics. -/
inductive Asks (T α : Type) where
  | done (a : α)
  | panic (msg : String)
  /-- an operator, `a < b` and the like -/
  | test (q : Test) (a b : T) (k : Bool → Asks T α)
  /-- `a.partial_cmp(&b)` -/
  | cmp (a b : T) (k : Option Ordering → Asks T α)

namespace Asks
variable {T α β : Type}

/-- One program after the other. -/
protected def bind (x : Asks T α) (f : α → Asks T β) : Asks T β :=
  match x with
  | done a => f a
  | panic m => panic m
  | test q a b k => test q a b fun r => (k r).bind f
  | cmp a b k => cmp a b fun r => (k r).bind f

instance : Monad (Asks T) where
  pure := done
  bind := Asks.bind

/-- A computation that compares nothing. -/
def ofRes : Res α → Asks T α
  | .ok a => done a
  | .panic m => panic m

/-- `Iterator::all` (std): in order, stops at the first `false`. -/
def all (f : α → Asks T Bool) : List α → Asks T Bool
  | [] => done true
  | x :: xs => do if ← f x then all f xs else return false

/-- `Iterator::any` (std): in order, stops at the first `true`. -/
def any (f : α → Asks T Bool) : List α → Asks T Bool
  | [] => done false
  | x :: xs => do if ← f x then return true else any f xs

/-- `Iterator::position` (std): in order, stops at the first `true`. -/
def position (f : α → Asks T Bool) : (l : List α) → Asks T (Option (Fin l.length))
  | [] => done none
  | x :: xs => do
      if ← f x then return some ⟨0, Nat.succ_pos _⟩ else return (← position f xs).map Fin.succ

/-- A `for` loop that changes the elements in place. -/
def map (f : α → Asks T β) : List α → Asks T (List β)
  | [] => done []
  | x :: xs => do
      let y ← f x
      return y :: (← map f xs)

/-- `VecDeque::retain` (std): in order. -/
def filter (f : α → Asks T Bool) : List α → Asks T (List α)
  | [] => done []
  | x :: xs => do
      if ← f x then return x :: (← filter f xs) else filter f xs

/-- A `for` loop, or `Iterator::fold`. -/
def fold (f : β → α → Asks T β) : β → List α → Asks T β
  | b, [] => done b
  | b, x :: xs => do fold f (← f b x) xs

end Asks

/-- How std's `Ord::max` and `Ord::min` decide: by `cmp` (`max_by`, `min_by`), or by `other < self` (from 1.87). -/
inductive MaxVia where
  | cmp
  | lt
  deriving DecidableEq, Repr

variable {T : Type}

/-! ### `src/bound.rs` -/

namespace LowerBound

/-- `partial_cmp`, /repo/src/bound.rs:72-94. -/
def partialCmpA (self other : LowerBound T) : Asks T (Option Ordering) :=
  match self.b, other.b with
  | .included a, .included b => .cmp a b .done
  | .excluded a, .excluded b => .cmp a b .done
  | .included a, .excluded b => .test .eq a b fun r => if r then .done (some .lt) else .cmp a b .done
  | .excluded a, .included b => .test .eq a b fun r => if r then .done (some .gt) else .cmp a b .done

/-- `cmp`, /repo/src/bound.rs:96-100. -/
def cmpA (self other : LowerBound T) : Asks T Ordering := do
  .ofRes (unwrap "called `Option::unwrap()` on a `None` value" (← self.partialCmpA other))

/-- `a > b` (std's default, through `partial_cmp`), used at /repo/src/bounded_set.rs:74. -/
def gtA (self other : LowerBound T) : Asks T Bool := do
  return (← self.partialCmpA other) == some .gt

/-- `a < b` (std's default, through `partial_cmp`). -/
def ltA (self other : LowerBound T) : Asks T Bool := do
  return (← self.partialCmpA other) == some .lt

/-- std `Ord::max`. -/
def maxA (m : MaxVia) (self other : LowerBound T) : Asks T (LowerBound T) :=
  match m with
  | .cmp => do
      match ← self.cmpA other with
      | .gt => return self
      | _ => return other
  | .lt => do if ← other.ltA self then return self else return other

/-- std `Ord::min`. -/
def minA (m : MaxVia) (self other : LowerBound T) : Asks T (LowerBound T) :=
  match m with
  | .cmp => do
      match ← self.cmpA other with
      | .gt => return other
      | _ => return self
  | .lt => do if ← other.ltA self then return other else return self

end LowerBound

namespace UpperBound

/-- `partial_cmp`, /repo/src/bound.rs:173-195. -/
def partialCmpA (self other : UpperBound T) : Asks T (Option Ordering) :=
  match self.b, other.b with
  | .included a, .included b => .cmp a b .done
  | .excluded a, .excluded b => .cmp a b .done
  | .included a, .excluded b => .test .eq a b fun r => if r then .done (some .gt) else .cmp a b .done
  | .excluded a, .included b => .test .eq a b fun r => if r then .done (some .lt) else .cmp a b .done

/-- `cmp`, /repo/src/bound.rs:197-201. -/
def cmpA (self other : UpperBound T) : Asks T Ordering := do
  .ofRes (unwrap "called `Option::unwrap()` on a `None` value" (← self.partialCmpA other))

/-- `a < b` (std's default, through `partial_cmp`). -/
def ltA (self other : UpperBound T) : Asks T Bool := do
  return (← self.partialCmpA other) == some .lt

/-- std `Ord::max`. -/
def maxA (m : MaxVia) (self other : UpperBound T) : Asks T (UpperBound T) :=
  match m with
  | .cmp => do
      match ← self.cmpA other with
      | .gt => return self
      | _ => return other
  | .lt => do if ← other.ltA self then return self else return other

/-- std `Ord::min`. -/
def minA (m : MaxVia) (self other : UpperBound T) : Asks T (UpperBound T) :=
  match m with
  | .cmp => do
      match ← self.cmpA other with
      | .gt => return other
      | _ => return self
  | .lt => do if ← other.ltA self then return other else return self

end UpperBound

/-! ### Ranges -/

/-- std `Range::contains`: `start <= t && t < end`. -/
def Range.containsA (r : Range T) (t : T) : Asks T Bool :=
  .test .le r.start t fun x => if x then .test .lt t r.stop .done else .done false

/-- std `RangeInclusive::contains`. -/
def RangeInclusive.containsA (r : RangeInclusive T) (t : T) : Asks T Bool :=
  .test .le r.start t fun x =>
    if x then (if r.exhausted then .test .lt t r.stop .done else .test .le t r.stop .done) else .done false

/-- std `RangeFrom::contains`. -/
def RangeFrom.containsA (r : RangeFrom T) (t : T) : Asks T Bool := .test .le r.start t .done

/-- std `RangeTo::contains`. -/
def RangeTo.containsA (r : RangeTo T) (t : T) : Asks T Bool := .test .lt t r.stop .done

/-- std `RangeToInclusive::contains`. -/
def RangeToInclusive.containsA (r : RangeToInclusive T) (t : T) : Asks T Bool := .test .le t r.stop .done

/-- /repo/src/implementations/rangetools/range.rs:4-6. -/
def Range.isEmptyA (r : Range T) : Asks T Bool := .test .ge r.start r.stop .done

/-- /repo/src/implementations/rangetools/range_inclusive.rs:4-6. -/
def RangeInclusive.isEmptyA (r : RangeInclusive T) : Asks T Bool := .test .gt r.start r.stop .done

/-- `LowerBoundedRange::contains`, /repo/src/lower_bounded_range.rs:85-90. -/
def LowerBoundedRange.containsA (self : LowerBoundedRange T) (t : T) : Asks T Bool :=
  match self.start.b with
  | .excluded x => .test .gt t x .done
  | .included i => .test .ge t i .done

/-- `UpperBoundedRange::contains`, /repo/src/upper_bounded_range.rs:88-93. -/
def UpperBoundedRange.containsA (self : UpperBoundedRange T) (t : T) : Asks T Bool :=
  match self.stop.b with
  | .excluded x => .test .lt t x .done
  | .included i => .test .le t i .done

namespace BoundedRange

/-- `BoundedRange::contains`, /repo/src/bounded_range.rs:128-138: both ends are always compared. -/
def containsA (self : BoundedRange T) (t : T) : Asks T Bool := do
  let startSatisfied : Bool ← match self.start.b with
    | .excluded s => .test .gt t s .done
    | .included s => .test .ge t s .done
  let endSatisfied : Bool ← match self.stop.b with
    | .excluded e => .test .lt t e .done
    | .included e => .test .le t e .done
  return startSatisfied && endSatisfied

/-- `is_empty`, /repo/src/implementations/rangetools/bounded_range.rs:4-11. -/
def isEmptyA (self : BoundedRange T) : Asks T Bool :=
  match self.start.b, self.stop.b with
  | .included s, .included e => .test .gt s e .done
  | .excluded s, .included e => .test .ge s e .done
  | .included s, .excluded e => .test .ge s e .done
  | .excluded s, .excluded e => .test .ge s e .done

/-- /repo/src/implementations/intersection/bounded_range.rs:6-16. -/
def interBRA (m : MaxVia) (self other : BoundedRange T) : Asks T (BoundedRange T) := do
  let start ← self.start.maxA m other.start
  let stop ← self.stop.minA m other.stop
  return ⟨start, stop⟩

/-- /repo/src/implementations/intersection/bounded_range.rs:29-38. -/
def interLBRA (m : MaxVia) (self : BoundedRange T) (other : LowerBoundedRange T) : Asks T (BoundedRange T) := do
  return ⟨← self.start.maxA m other.start, self.stop⟩

/-- /repo/src/implementations/intersection/bounded_range.rs:51-60. -/
def interUBRA (m : MaxVia) (self : BoundedRange T) (other : UpperBoundedRange T) : Asks T (BoundedRange T) := do
  return ⟨self.start, ← self.stop.minA m other.stop⟩

/-- `Rangetools::intersects`, /repo/src/lib.rs:160-185. -/
def intersectsBRA (m : MaxVia) (self other : BoundedRange T) : Asks T Bool := do
  return !(← (← self.interBRA m other).isEmptyA)

/-- `BoundedRange::combine`, /repo/src/bounded_range.rs:140-152. -/
def combineA (m : MaxVia) (self other : BoundedRange T) : Asks T (BoundedRange T) := do
  if ← other.isEmptyA then return self
  else if ← self.isEmptyA then return other
  else if ← self.intersectsBRA m other then
    let start ← self.start.minA m other.start
    let stop ← self.stop.maxA m other.stop
    return ⟨start, stop⟩
  else .panic "assertion failed: self.intersects(*other)"

end BoundedRange

/-- /repo/src/implementations/intersection/lower_bounded_range.rs:6-15. -/
def LowerBoundedRange.interBRA (m : MaxVia) (self : LowerBoundedRange T) (other : BoundedRange T) :
    Asks T (BoundedRange T) :=
  other.interLBRA m self

/-- /repo/src/implementations/intersection/lower_bounded_range.rs:28-37. -/
def LowerBoundedRange.interLBRA (m : MaxVia) (self other : LowerBoundedRange T) : Asks T (LowerBoundedRange T) := do
  return ⟨← self.start.maxA m other.start⟩

/-- /repo/src/implementations/intersection/upper_bounded_range.rs:6-15. -/
def UpperBoundedRange.interBRA (m : MaxVia) (self : UpperBoundedRange T) (other : BoundedRange T) :
    Asks T (BoundedRange T) :=
  other.interUBRA m self

/-- /repo/src/implementations/intersection/upper_bounded_range.rs:50-59. -/
def UpperBoundedRange.interUBRA (m : MaxVia) (self other : UpperBoundedRange T) : Asks T (UpperBoundedRange T) := do
  return ⟨← self.stop.minA m other.stop⟩

/-- `Rangetools::intersects`, /repo/src/lib.rs:160-185. -/
def UpperBoundedRange.intersectsBRA (m : MaxVia) (self : UpperBoundedRange T) (other : BoundedRange T) : Asks T Bool := do
  return !(← (← self.interBRA m other).isEmptyA)

/-- `Rangetools::intersects`, /repo/src/lib.rs:160-185. -/
def LowerBoundedRange.intersectsBRA (m : MaxVia) (self : LowerBoundedRange T) (other : BoundedRange T) : Asks T Bool := do
  return !(← (← self.interBRA m other).isEmptyA)

/-- `Rangetools::intersects`, /repo/src/lib.rs:160-185; the intersection compares nothing
(intersection/upper_bounded_range.rs:28-37, lower_bounded_range.rs:50-59). -/
def UpperBoundedRange.intersectsLBRA (self : UpperBoundedRange T) (other : LowerBoundedRange T) : Asks T Bool := do
  return !(← (⟨other.start, self.stop⟩ : BoundedRange T).isEmptyA)

/-! ### Sets -/

namespace BoundedSet

/-- `From<BoundedRange<T>>`, /repo/src/bounded_set.rs:22-30. -/
def ofBRA (r : BoundedRange T) : Asks T (BoundedSet T) := do
  if ← r.isEmptyA then return empty else return ⟨[r]⟩

/-- `BoundedSet::add_range`, /repo/src/bounded_set.rs:64-79. -/
def addRangeA (m : MaxVia) (self : BoundedSet T) (r : BoundedRange T) : Asks T (BoundedSet T) := do
  if !(← r.isEmptyA) then
    match ← Asks.position (fun range => range.intersectsBRA m r) self.ranges with
    | some index =>
        let newRange ← r.combineA m (← .ofRes (vdIndex self.ranges index))
        addRangeA m ⟨self.ranges.eraseIdx index⟩ newRange
    | none =>
        let index := ((← Asks.position (fun range => range.start.gtA r.start) self.ranges).map Fin.val).getD
          self.ranges.length
        return ⟨← .ofRes (vdInsert self.ranges index r)⟩
  else
    return self
termination_by self.ranges.length
decreasing_by
  have := index.isLt
  rw [List.length_eraseIdx_of_lt this]
  omega

/-- `BoundedSet::add_set`, /repo/src/bounded_set.rs:80-84. -/
def addSetA (m : MaxVia) (self other : BoundedSet T) : Asks T (BoundedSet T) :=
  Asks.fold (fun s range => s.addRangeA m range) self other.ranges

/-- `BoundedSet::contains`, /repo/src/bounded_set.rs:96-98. -/
def containsA (self : BoundedSet T) (t : T) : Asks T Bool :=
  Asks.any (fun r => r.containsA t) self.ranges

/-- `is_empty`, /repo/src/implementations/rangetools/bounded_set.rs:4-6. -/
def isEmptyA (self : BoundedSet T) : Asks T Bool :=
  Asks.all (fun r => r.isEmptyA) self.ranges

/-- `set.ranges.retain(|r| !r.is_empty())`. -/
def retainNonEmptyA (self : BoundedSet T) : Asks T (BoundedSet T) := do
  return ⟨← Asks.filter (fun r => do return !(← r.isEmptyA)) self.ranges⟩

end BoundedSet

namespace LowerBoundedSet

/-- `LowerBoundedSet::defragment`, /repo/src/lower_bounded_set.rs:50-66. -/
def defragmentA (m : MaxVia) (self : LowerBoundedSet T) : Asks T (LowerBoundedSet T) := do
  if !(← self.ranges.isEmptyA) then
    match h : self.ranges.ranges.getLast? with
    | none => .panic "called `Option::unwrap()` on a `None` value"
    | some range =>
        if ← (← range.interLBRA m self.lowerBoundedRange).isEmptyA then return self
        else
          defragmentA m
            { ranges := ⟨self.ranges.ranges.dropLast⟩
              lowerBoundedRange := ⟨← self.lowerBoundedRange.start.minA m range.start⟩ }
  else
    return self
termination_by self.ranges.ranges.length
decreasing_by
  have : self.ranges.ranges ≠ [] := by
    intro h0; simp [h0] at h
  have := List.length_pos_iff.mpr this
  simp only [List.length_dropLast]
  omega

/-- `LowerBoundedSet::add_range`, /repo/src/lower_bounded_set.rs:68-71. -/
def addRangeA (m : MaxVia) (self : LowerBoundedSet T) (range : BoundedRange T) : Asks T (LowerBoundedSet T) := do
  let ranges ← self.ranges.addRangeA m range
  defragmentA m { self with ranges := ranges }

/-- `LowerBoundedSet::add_lower_bounded_range`, /repo/src/lower_bounded_set.rs:72-76. -/
def addLowerBoundedRangeA (m : MaxVia) (self : LowerBoundedSet T) (range : LowerBoundedRange T) :
    Asks T (LowerBoundedSet T) := do
  defragmentA m { self with lowerBoundedRange := ⟨← self.lowerBoundedRange.start.minA m range.start⟩ }

/-- `LowerBoundedSet::add_set`, /repo/src/lower_bounded_set.rs:77-81. -/
def addSetA (m : MaxVia) (self : LowerBoundedSet T) (set : BoundedSet T) : Asks T (LowerBoundedSet T) :=
  Asks.fold (fun s range => s.addRangeA m range) self set.ranges

/-- `LowerBoundedSet::contains`, /repo/src/lower_bounded_set.rs:93-95. -/
def containsA (self : LowerBoundedSet T) (t : T) : Asks T Bool := do
  if ← self.lowerBoundedRange.containsA t then return true else self.ranges.containsA t

end LowerBoundedSet

namespace UpperBoundedSet

/-- `UpperBoundedSet::defragment`, /repo/src/upper_bounded_set.rs:32-48. -/
def defragmentA (m : MaxVia) (self : UpperBoundedSet T) : Asks T (UpperBoundedSet T) := do
  if !(← self.ranges.isEmptyA) then
    match h : self.ranges.ranges with
    | [] => .panic "called `Option::unwrap()` on a `None` value"
    | range :: rest =>
        if ← (← range.interUBRA m self.upperBoundedRange).isEmptyA then return self
        else
          defragmentA m
            { ranges := ⟨rest⟩
              upperBoundedRange := ⟨← self.upperBoundedRange.stop.maxA m range.stop⟩ }
  else
    return self
termination_by self.ranges.ranges.length
decreasing_by simp [h]

/-- `UpperBoundedSet::add_range`, /repo/src/upper_bounded_set.rs:49-52. -/
def addRangeA (m : MaxVia) (self : UpperBoundedSet T) (range : BoundedRange T) : Asks T (UpperBoundedSet T) := do
  let ranges ← self.ranges.addRangeA m range
  defragmentA m { self with ranges := ranges }

/-- `UpperBoundedSet::add_upper_bounded_range`, /repo/src/upper_bounded_set.rs:53-56. -/
def addUpperBoundedRangeA (m : MaxVia) (self : UpperBoundedSet T) (range : UpperBoundedRange T) :
    Asks T (UpperBoundedSet T) := do
  defragmentA m { self with upperBoundedRange := ⟨← self.upperBoundedRange.stop.maxA m range.stop⟩ }

/-- `UpperBoundedSet::add_set`, /repo/src/upper_bounded_set.rs:57-61. -/
def addSetA (m : MaxVia) (self : UpperBoundedSet T) (set : BoundedSet T) : Asks T (UpperBoundedSet T) :=
  Asks.fold (fun s range => s.addRangeA m range) self set.ranges

/-- `UpperBoundedSet::contains`, /repo/src/upper_bounded_set.rs:73-75. -/
def containsA (self : UpperBoundedSet T) (t : T) : Asks T Bool := do
  if ← self.upperBoundedRange.containsA t then return true else self.ranges.containsA t

end UpperBoundedSet

namespace PiecewiseUnboundedSet

/-- `PiecewiseUnboundedSet::contains`, /repo/src/unbounded_set.rs:43-47. -/
def containsA (self : PiecewiseUnboundedSet T) (t : T) : Asks T Bool := do
  if ← self.upperBoundedRange.containsA t then return true
  else if ← self.lowerBoundedRange.containsA t then return true
  else self.ranges.containsA t

/-- `PiecewiseUnboundedSet::defragment`, /repo/src/unbounded_set.rs:49-69. -/
def defragmentA (m : MaxVia) (self : PiecewiseUnboundedSet T) : Asks T (PiecewiseUnboundedSet T) := do
  match ← Asks.position (fun r => self.upperBoundedRange.intersectsBRA m r) self.ranges.ranges with
  | some index =>
      let range ← .ofRes (unwrap "called `Option::unwrap()` on a `None` value" self.ranges.ranges[index.val]?)
      let stop ← self.upperBoundedRange.stop.maxA m range.stop
      defragmentA m
        { self with ranges := ⟨self.ranges.ranges.eraseIdx index⟩, upperBoundedRange := ⟨stop⟩ }
  | none =>
      match ← Asks.position (fun r => self.lowerBoundedRange.intersectsBRA m r) self.ranges.ranges with
      | some index =>
          let range ← .ofRes (unwrap "called `Option::unwrap()` on a `None` value" self.ranges.ranges[index.val]?)
          let start ← self.lowerBoundedRange.start.minA m range.start
          defragmentA m
            { self with ranges := ⟨self.ranges.ranges.eraseIdx index⟩, lowerBoundedRange := ⟨start⟩ }
      | none => return self
termination_by self.ranges.ranges.length
decreasing_by
  all_goals
    have := index.isLt
    simp only [List.length_eraseIdx_of_lt this]
    omega

end PiecewiseUnboundedSet

namespace UnboundedSet

/-- `UnboundedSet::new`, /repo/src/unbounded_set.rs:107-120. -/
def newA (upper : UpperBoundedRange T) (lower : LowerBoundedRange T) : Asks T (UnboundedSet T) := do
  if ← (⟨lower.start, upper.stop⟩ : BoundedRange T).isEmptyA then
    return piecewise { upperBoundedRange := upper, ranges := BoundedSet.empty, lowerBoundedRange := lower }
  else
    return full

/-- `UnboundedSet::contains`, /repo/src/unbounded_set.rs:135-140. -/
def containsA (self : UnboundedSet T) (t : T) : Asks T Bool :=
  match self with
  | full => .done true
  | piecewise p => p.containsA t

/-- `UnboundedSet::map_piecewise`, /repo/src/unbounded_set.rs:141-146. -/
def mapPiecewiseA (self : UnboundedSet T)
    (f : PiecewiseUnboundedSet T → Asks T (PiecewiseUnboundedSet T)) : Asks T (UnboundedSet T) :=
  match self with
  | full => .done full
  | piecewise p => do return piecewise (← f p)

/-- `UnboundedSet::defragment`, /repo/src/unbounded_set.rs:147-159. -/
def defragmentA (m : MaxVia) (self : UnboundedSet T) : Asks T (UnboundedSet T) := do
  match ← self.mapPiecewiseA (PiecewiseUnboundedSet.defragmentA m) with
  | full => return full
  | piecewise p =>
      if ← p.upperBoundedRange.intersectsLBRA p.lowerBoundedRange then return full
      else return piecewise p

/-- `UnboundedSet::add_range`, /repo/src/unbounded_set.rs:161-164. -/
def addRangeA (m : MaxVia) (self : UnboundedSet T) (range : BoundedRange T) : Asks T (UnboundedSet T) := do
  let s ← self.mapPiecewiseA (fun p => do return { p with ranges := ← p.ranges.addRangeA m range })
  s.defragmentA m

/-- `UnboundedSet::add_lower_bounded_range`, /repo/src/unbounded_set.rs:165-170. -/
def addLowerBoundedRangeA (m : MaxVia) (self : UnboundedSet T) (range : LowerBoundedRange T) :
    Asks T (UnboundedSet T) := do
  let s ← self.mapPiecewiseA (fun p => do
    return { p with lowerBoundedRange := ⟨← p.lowerBoundedRange.start.minA m range.start⟩ })
  s.defragmentA m

/-- `UnboundedSet::add_upper_bounded_range`, /repo/src/unbounded_set.rs:171-176. -/
def addUpperBoundedRangeA (m : MaxVia) (self : UnboundedSet T) (range : UpperBoundedRange T) :
    Asks T (UnboundedSet T) := do
  let s ← self.mapPiecewiseA (fun p => do
    return { p with upperBoundedRange := ⟨← p.upperBoundedRange.stop.maxA m range.stop⟩ })
  s.defragmentA m

/-- `UnboundedSet::add_set`, /repo/src/unbounded_set.rs:177-181. -/
def addSetA (m : MaxVia) (self : UnboundedSet T) (set : BoundedSet T) : Asks T (UnboundedSet T) :=
  Asks.fold (fun s range => s.addRangeA m range) self set.ranges

/-- `UnboundedSet::add_unbounded_set`, /repo/src/unbounded_set.rs:182-196. -/
def addUnboundedSetA (m : MaxVia) (self range : UnboundedSet T) : Asks T (UnboundedSet T) :=
  match range with
  | piecewise p => do
      let s ← self.addLowerBoundedRangeA m p.lowerBoundedRange
      let s ← s.addUpperBoundedRangeA m p.upperBoundedRange
      let s ← s.addSetA m p.ranges
      s.defragmentA m
  | full => .done full

end UnboundedSet

/-! ### `src/implementations/union/*.rs` between sets -/

/-- LowerBoundedSet ∪ LowerBoundedSet, /repo/src/implementations/union/lower_bounded_set.rs:17-28. -/
def LowerBoundedSet.unionLBSA (m : MaxVia) (self other : LowerBoundedSet T) : Asks T (LowerBoundedSet T) := do
  let self ← self.addLowerBoundedRangeA m other.lowerBoundedRange
  self.addSetA m other.ranges

/-- LowerBoundedSet ∪ UpperBoundedSet, /repo/src/implementations/union/lower_bounded_set.rs:30-41. -/
def LowerBoundedSet.unionUBSA (m : MaxVia) (self : LowerBoundedSet T) (other : UpperBoundedSet T) :
    Asks T (UnboundedSet T) := do
  let set ← UnboundedSet.newA other.upperBoundedRange self.lowerBoundedRange
  (← set.addSetA m self.ranges).addSetA m other.ranges

/-- LowerBoundedSet ∪ UnboundedSet, /repo/src/implementations/union/lower_bounded_set.rs:43-54. -/
def LowerBoundedSet.unionUSA (m : MaxVia) (self : LowerBoundedSet T) (other : UnboundedSet T) :
    Asks T (UnboundedSet T) := do
  let set ← other.addLowerBoundedRangeA m self.lowerBoundedRange
  set.addSetA m self.ranges

/-- UpperBoundedSet ∪ UpperBoundedSet, /repo/src/implementations/union/upper_bounded_set.rs:28-39. -/
def UpperBoundedSet.unionUBSA (m : MaxVia) (self other : UpperBoundedSet T) : Asks T (UpperBoundedSet T) := do
  let self ← self.addUpperBoundedRangeA m other.upperBoundedRange
  self.addSetA m other.ranges

/-- UpperBoundedSet ∪ UnboundedSet, /repo/src/implementations/union/upper_bounded_set.rs:41-52. -/
def UpperBoundedSet.unionUSA (m : MaxVia) (self : UpperBoundedSet T) (other : UnboundedSet T) :
    Asks T (UnboundedSet T) := do
  let set ← other.addUpperBoundedRangeA m self.upperBoundedRange
  set.addSetA m self.ranges

/-! ### `src/implementations/intersection/*.rs` where a set takes part

The flipped impls (`self` and `other` exchanged) are in `Inner.interA`. -/

/-- BoundedSet ∩ BoundedRange, /repo/src/implementations/intersection/bounded_set.rs:7-21. -/
def BoundedSet.interBRA (m : MaxVia) (self : BoundedSet T) (other : BoundedRange T) : Asks T (BoundedSet T) := do
  BoundedSet.retainNonEmptyA ⟨← Asks.map (fun range => range.interBRA m other) self.ranges⟩

/-- BoundedSet ∩ LowerBoundedRange, /repo/src/implementations/intersection/bounded_set.rs:38-52. -/
def BoundedSet.interLBRA (m : MaxVia) (self : BoundedSet T) (other : LowerBoundedRange T) : Asks T (BoundedSet T) := do
  BoundedSet.retainNonEmptyA ⟨← Asks.map (fun range => range.interLBRA m other) self.ranges⟩

/-- BoundedSet ∩ UpperBoundedRange, /repo/src/implementations/intersection/bounded_set.rs:72-86. -/
def BoundedSet.interUBRA (m : MaxVia) (self : BoundedSet T) (other : UpperBoundedRange T) : Asks T (BoundedSet T) := do
  BoundedSet.retainNonEmptyA ⟨← Asks.map (fun range => range.interUBRA m other) self.ranges⟩

/-- BoundedSet ∩ BoundedSet, /repo/src/implementations/intersection/bounded_set.rs:23-36; `*range ∩ other` is flipped
(intersection/bounded_range.rs:18-27). -/
def BoundedSet.interBSA (m : MaxVia) (self other : BoundedSet T) : Asks T (BoundedSet T) :=
  Asks.fold (fun set range => do set.addSetA m (← other.interBRA m range)) BoundedSet.empty self.ranges

/-- LowerBoundedSet ∩ BoundedRange, /repo/src/implementations/intersection/lower_bounded_set.rs:7-20. -/
def LowerBoundedSet.interBRA (m : MaxVia) (self : LowerBoundedSet T) (other : BoundedRange T) : Asks T (BoundedSet T) := do
  let set ← BoundedSet.ofBRA (← self.lowerBoundedRange.interBRA m other)
  set.addSetA m (← self.ranges.interBRA m other)

/-- BoundedSet ∩ LowerBoundedSet, /repo/src/implementations/intersection/bounded_set.rs:54-70; `*range ∩ other` is flipped
(intersection/bounded_range.rs:40-49). -/
def BoundedSet.interLBSA (m : MaxVia) (self : BoundedSet T) (other : LowerBoundedSet T) : Asks T (BoundedSet T) := do
  Asks.fold (fun set range => do set.addSetA m (← other.interBRA m range))
    (← self.interLBRA m other.lowerBoundedRange) self.ranges

/-- LowerBoundedSet ∩ LowerBoundedRange, /repo/src/implementations/intersection/lower_bounded_set.rs:33-45. -/
def LowerBoundedSet.interLBRA (m : MaxVia) (self : LowerBoundedSet T) (other : LowerBoundedRange T) :
    Asks T (LowerBoundedSet T) := do
  let lower ← self.lowerBoundedRange.interLBRA m other
  let ranges ← self.ranges.interLBRA m other
  return { lowerBoundedRange := lower, ranges := ranges }

/-- LowerBoundedSet ∩ LowerBoundedSet, /repo/src/implementations/intersection/lower_bounded_set.rs:47-61. -/
def LowerBoundedSet.interLBSA (m : MaxVia) (self other : LowerBoundedSet T) : Asks T (LowerBoundedSet T) := do
  let set ← self.interLBRA m other.lowerBoundedRange
  set.addSetA m (← self.ranges.interLBSA m other)

/-- LowerBoundedSet ∩ UpperBoundedRange, /repo/src/implementations/intersection/lower_bounded_set.rs:63-77; the
intersection with the half-line compares nothing. -/
def LowerBoundedSet.interUBRA (m : MaxVia) (self : LowerBoundedSet T) (other : UpperBoundedRange T) :
    Asks T (BoundedSet T) := do
  let set ← BoundedSet.ofBRA ⟨self.lowerBoundedRange.start, other.stop⟩
  let set ← set.retainNonEmptyA
  let set ← set.addSetA m (← self.ranges.interUBRA m other)
  set.retainNonEmptyA

/-- LowerBoundedSet ∩ UpperBoundedSet, /repo/src/implementations/intersection/lower_bounded_set.rs:79-93; the
intersection with `other.ranges` is flipped (22-31). -/
def LowerBoundedSet.interUBSA (m : MaxVia) (self : LowerBoundedSet T) (other : UpperBoundedSet T) :
    Asks T (BoundedSet T) := do
  let set ← self.interUBRA m other.upperBoundedRange
  let set ← set.retainNonEmptyA
  let set ← set.addSetA m (← other.ranges.interLBSA m self)
  set.retainNonEmptyA

/-- UpperBoundedSet ∩ BoundedRange, /repo/src/implementations/intersection/upper_bounded_set.rs:7-20. -/
def UpperBoundedSet.interBRA (m : MaxVia) (self : UpperBoundedSet T) (other : BoundedRange T) : Asks T (BoundedSet T) := do
  let set ← BoundedSet.ofBRA (← self.upperBoundedRange.interBRA m other)
  let set ← set.retainNonEmptyA
  set.addSetA m (← self.ranges.interBRA m other)

/-- BoundedSet ∩ UpperBoundedSet, /repo/src/implementations/intersection/bounded_set.rs:88-104; `*range ∩ other` is flipped
(intersection/bounded_range.rs:62-71). -/
def BoundedSet.interUBSA (m : MaxVia) (self : BoundedSet T) (other : UpperBoundedSet T) : Asks T (BoundedSet T) := do
  Asks.fold (fun set range => do set.addSetA m (← other.interBRA m range))
    (← self.interUBRA m other.upperBoundedRange) self.ranges

/-- UpperBoundedSet ∩ LowerBoundedRange, /repo/src/implementations/intersection/upper_bounded_set.rs:33-46. -/
def UpperBoundedSet.interLBRA (m : MaxVia) (self : UpperBoundedSet T) (other : LowerBoundedRange T) :
    Asks T (BoundedSet T) := do
  let set ← BoundedSet.ofBRA ⟨other.start, self.upperBoundedRange.stop⟩
  let set ← set.retainNonEmptyA
  set.addSetA m (← self.ranges.interLBRA m other)

/-- UpperBoundedSet ∩ UpperBoundedRange, /repo/src/implementations/intersection/upper_bounded_set.rs:59-71. -/
def UpperBoundedSet.interUBRA (m : MaxVia) (self : UpperBoundedSet T) (other : UpperBoundedRange T) :
    Asks T (UpperBoundedSet T) := do
  let set := UpperBoundedSet.ofUBR (← self.upperBoundedRange.interUBRA m other)
  set.addSetA m (← self.ranges.interUBRA m other)

/-- UpperBoundedSet ∩ UpperBoundedSet, /repo/src/implementations/intersection/upper_bounded_set.rs:73-85; the
intersection with `other.ranges` is flipped (22-31). -/
def UpperBoundedSet.interUBSA (m : MaxVia) (self other : UpperBoundedSet T) : Asks T (UpperBoundedSet T) := do
  let set ← self.interUBRA m other.upperBoundedRange
  set.addSetA m (← other.ranges.interUBSA m self)

/-- BoundedSet ∩ UnboundedSet, /repo/src/implementations/intersection/bounded_set.rs:117-141. -/
def BoundedSet.interUSA (m : MaxVia) (self : BoundedSet T) (other : UnboundedSet T) : Asks T (BoundedSet T) :=
  match other with
  | .full => .done self
  | .piecewise p => do
      let set ← self.interUBRA m p.upperBoundedRange
      let set ← set.addSetA m (← self.interLBRA m p.lowerBoundedRange)
      set.addSetA m (← self.interBSA m p.ranges)

/-- LowerBoundedSet ∩ UnboundedSet, /repo/src/implementations/intersection/lower_bounded_set.rs:106-130; the
intersection with `ranges` is flipped (22-31). -/
def LowerBoundedSet.interUSA (m : MaxVia) (self : LowerBoundedSet T) (other : UnboundedSet T) :
    Asks T (LowerBoundedSet T) :=
  match other with
  | .full => .done self
  | .piecewise p => do
      let set ← self.interLBRA m p.lowerBoundedRange
      let set ← set.addSetA m (← self.interUBRA m p.upperBoundedRange)
      set.addSetA m (← p.ranges.interLBSA m self)

/-- UpperBoundedSet ∩ UnboundedSet, /repo/src/implementations/intersection/upper_bounded_set.rs:97-121; the
intersection with `ranges` is flipped (22-31). -/
def UpperBoundedSet.interUSA (m : MaxVia) (self : UpperBoundedSet T) (other : UnboundedSet T) :
    Asks T (UpperBoundedSet T) :=
  match other with
  | .full => .done self
  | .piecewise p => do
      let set ← self.interUBRA m p.upperBoundedRange
      let set ← set.addSetA m (← self.interLBRA m p.lowerBoundedRange)
      set.addSetA m (← p.ranges.interUBSA m self)

/-- UnboundedSet ∩ UnboundedSet, /repo/src/implementations/intersection/unbounded_set.rs:83-108; the three intersections
are flipped (51-60, 29-38, 18-27), and so is the outer union (union/upper_bounded_set.rs:17-26). -/
def UnboundedSet.interUSA (m : MaxVia) (self other : UnboundedSet T) : Asks T (UnboundedSet T) :=
  match self, other with
  | .full, other => .done other
  | s, .full => .done s
  | s, .piecewise p => do
      let a ← (UpperBoundedSet.ofUBR p.upperBoundedRange).interUSA m s
      let b ← (LowerBoundedSet.ofLBR p.lowerBoundedRange).interUSA m s
      let c ← p.ranges.interUSA m s
      (← b.addSetA m c).unionUBSA m a

/-! ### `src/implementations/complement/*.rs` -/

/-- /repo/src/implementations/complement/bounded_range.rs:5-13; the union of the two half-lines is flipped
(union/upper_bounded_set.rs:17-26), and adding their no ranges compares nothing. -/
def BoundedRange.complementA (m : MaxVia) (self : BoundedRange T) : Asks T (UnboundedSet T) :=
  (LowerBoundedSet.ofLBR ⟨.ofBound self.stop.b.flipped⟩).unionUBSA m
    (UpperBoundedSet.ofUBR ⟨.ofBound self.start.b.flipped⟩)

/-- /repo/src/implementations/complement/bounded_set.rs:3-14. -/
def BoundedSet.complementA (m : MaxVia) (self : BoundedSet T) : Asks T (UnboundedSet T) :=
  Asks.fold (fun acc range => do acc.interUSA m (← range.complementA m)) .full self.ranges

/-- /repo/src/implementations/complement/lower_bounded_set.rs:3-13. -/
def LowerBoundedSet.complementA (m : MaxVia) (self : LowerBoundedSet T) : Asks T (UpperBoundedSet T) :=
  Asks.fold (fun acc range => do acc.interUSA m (← range.complementA m))
    (UpperBoundedSet.ofUBR ⟨.ofBound self.lowerBoundedRange.start.b.flipped⟩) self.ranges.ranges

/-- /repo/src/implementations/complement/upper_bounded_set.rs:3-13. -/
def UpperBoundedSet.complementA (m : MaxVia) (self : UpperBoundedSet T) : Asks T (LowerBoundedSet T) :=
  Asks.fold (fun acc range => do acc.interUSA m (← range.complementA m))
    (LowerBoundedSet.ofLBR ⟨.ofBound self.upperBoundedRange.stop.b.flipped⟩) self.ranges.ranges

/-- /repo/src/implementations/complement/unbounded_set.rs:3-24. -/
def UnboundedSet.complementA (m : MaxVia) (self : UnboundedSet T) : Asks T (BoundedSet T) :=
  match self with
  | .full => .done BoundedSet.empty
  | .piecewise set => do
      let startingRange : BoundedRange T :=
        ⟨.ofBound set.upperBoundedRange.stop.b.flipped, .ofBound set.lowerBoundedRange.start.b.flipped⟩
      Asks.fold (fun acc range => do acc.interUSA m (← range.complementA m))
        (← BoundedSet.ofBRA startingRange) set.ranges.ranges

/-! ### The public methods, for the fifteen types -/

/-- The nine `contains` methods of the crate (see `Inner.contains`). -/
def Inner.containsA (self : Inner T) (t : T) : Asks T Bool :=
  match self with
  | br r => r.containsA t
  | bs s => s.containsA t
  | lbr r => r.containsA t
  | lbs s => s.containsA t
  | ubr r => r.containsA t
  | ubs s => s.containsA t
  | ur => .done true
  | us s => s.containsA t
  | er => .done false

/-- `contains` of any of the fifteen types. -/
def Any.containsA (self : Any T) (t : T) : Asks T Bool :=
  match self with
  | range r => r.containsA t
  | rangeInclusive r => r.containsA t
  | rangeFrom r => r.containsA t
  | rangeTo r => r.containsA t
  | rangeToInclusive r => r.containsA t
  | rangeFull => .done true
  | inner i => i.containsA t

/-- `Rangetools::is_empty` of the crate types (see `Inner.isEmpty`). -/
def Inner.isEmptyA (self : Inner T) : Asks T Bool :=
  match self with
  | br r => r.isEmptyA
  | bs s => s.isEmptyA
  | er => .done true
  | _ => .done false

/-- `Rangetools::is_empty`, /repo/src/implementations/rangetools/*.rs:4-6. -/
def Any.isEmptyA (self : Any T) : Asks T Bool :=
  match self with
  | range r => r.isEmptyA
  | rangeInclusive r => r.isEmptyA
  | inner i => i.isEmptyA
  | _ => .done false

/-- `Rangetools::to_set` of the crate types, /repo/src/implementations/rangetools/*.rs:13-16. -/
def Inner.toSetA (self : Inner T) : Asks T (SetVal T) :=
  match self with
  | br r => do return .bs (← BoundedSet.ofBRA r)
  | bs s => .done (.bs s)
  | lbr r => .done (.lbs (.ofLBR r))
  | lbs s => .done (.lbs s)
  | ubr r => .done (.ubs (.ofUBR r))
  | ubs s => .done (.ubs s)
  | ur => .done .ur
  | us s => .done (.us s)
  | er => .done .er

/-- `Rangetools::to_set`, /repo/src/implementations/rangetools/*.rs:13-16. -/
def Any.toSetA (self : Any T) : Asks T (SetVal T) := self.toInner.toSetA

/-- `RangeIntersection` between the crate types, /repo/src/implementations/intersection/*.rs (see `Inner.inter`). -/
def Inner.interA (m : MaxVia) (self other : Inner T) : Asks T (Inner T) :=
  match self, other with
  | er, _ => .done .er
  | ur, o => .done o
  | a, er => .done .er
  | a, ur => .done a
  -- bounded_range.rs
  | br a, br b => do return .br (← a.interBRA m b)
  | br a, bs b => do return .bs (← b.interBRA m a)
  | br a, lbr b => do return .br (← a.interLBRA m b)
  | br a, lbs b => do return .bs (← b.interBRA m a)
  | br a, ubr b => do return .br (← a.interUBRA m b)
  | br a, ubs b => do return .bs (← b.interBRA m a)
  | br a, us b => do return .bs (← (← BoundedSet.ofBRA a).interUSA m b)
  -- bounded_set.rs
  | bs a, br b => do return .bs (← a.interBRA m b)
  | bs a, bs b => do return .bs (← a.interBSA m b)
  | bs a, lbr b => do return .bs (← a.interLBRA m b)
  | bs a, lbs b => do return .bs (← a.interLBSA m b)
  | bs a, ubr b => do return .bs (← a.interUBRA m b)
  | bs a, ubs b => do return .bs (← a.interUBSA m b)
  | bs a, us b => do return .bs (← a.interUSA m b)
  -- lower_bounded_range.rs
  | lbr a, br b => do return .br (← a.interBRA m b)
  | lbr a, bs b => do return .bs (← b.interLBRA m a)
  | lbr a, lbr b => do return .lbr (← a.interLBRA m b)
  | lbr a, lbs b => do return .lbs (← b.interLBRA m a)
  | lbr a, ubr b => .done (.br ⟨a.start, b.stop⟩)
  | lbr a, ubs b => do return .bs (← b.interLBRA m a)
  | lbr a, us b => do return .lbs (← (LowerBoundedSet.ofLBR a).interUSA m b)
  -- lower_bounded_set.rs
  | lbs a, br b => do return .bs (← a.interBRA m b)
  | lbs a, bs b => do return .bs (← b.interLBSA m a)
  | lbs a, lbr b => do return .lbs (← a.interLBRA m b)
  | lbs a, lbs b => do return .lbs (← a.interLBSA m b)
  | lbs a, ubr b => do return .bs (← a.interUBRA m b)
  | lbs a, ubs b => do return .bs (← a.interUBSA m b)
  | lbs a, us b => do return .lbs (← a.interUSA m b)
  -- upper_bounded_range.rs
  | ubr a, br b => do return .br (← a.interBRA m b)
  | ubr a, bs b => do return .bs (← b.interUBRA m a)
  | ubr a, lbr b => .done (.br ⟨b.start, a.stop⟩)
  | ubr a, lbs b => do return .bs (← b.interUBRA m a)
  | ubr a, ubr b => do return .ubr (← a.interUBRA m b)
  | ubr a, ubs b => do return .ubs (← b.interUBRA m a)
  | ubr a, us b => do return .ubs (← (UpperBoundedSet.ofUBR a).interUSA m b)
  -- upper_bounded_set.rs
  | ubs a, br b => do return .bs (← a.interBRA m b)
  | ubs a, bs b => do return .bs (← b.interUBSA m a)
  | ubs a, lbr b => do return .bs (← a.interLBRA m b)
  | ubs a, lbs b => do return .bs (← b.interUBSA m a)
  | ubs a, ubr b => do return .ubs (← a.interUBRA m b)
  | ubs a, ubs b => do return .ubs (← a.interUBSA m b)
  | ubs a, us b => do return .ubs (← a.interUSA m b)
  -- unbounded_set.rs
  | us a, br b => do return .bs (← (← BoundedSet.ofBRA b).interUSA m a)
  | us a, bs b => do return .bs (← b.interUSA m a)
  | us a, lbr b => do return .lbs (← (LowerBoundedSet.ofLBR b).interUSA m a)
  | us a, lbs b => do return .lbs (← b.interUSA m a)
  | us a, ubr b => do return .ubs (← (UpperBoundedSet.ofUBR b).interUSA m a)
  | us a, ubs b => do return .ubs (← b.interUSA m a)
  | us a, us b => do return .us (← a.interUSA m b)

/-- The impls for `Range`, `RangeInclusive`, `RangeTo`, `RangeToInclusive` (see `Inner.interFromStd`). -/
def Inner.interFromStdA (m : MaxVia) (selfInner otherInner : Inner T) : Asks T (Inner T) :=
  match otherInner with
  | er => .done .er
  | br _ | lbr _ | ubr _ | ur => selfInner.interA m otherInner
  | bs _ | lbs _ | ubs _ | us _ => otherInner.interA m selfInner

/-- `Rangetools::intersection`, /repo/src/lib.rs:143-149 (see `Any.inter`). -/
def Any.interA (m : MaxVia) (self other : Any T) : Asks T (Inner T) :=
  match self with
  | range _ | rangeInclusive _ | rangeTo _ | rangeToInclusive _ => self.toInner.interFromStdA m other.toInner
  | rangeFrom _ | rangeFull =>
      match other.toInner with
      | .er => .done .er
      | o => self.toInner.interA m o
  | inner i => i.interA m other.toInner

/-- `Rangetools::disjoint`, /repo/src/lib.rs:160-167. -/
def Any.disjointA (m : MaxVia) (self other : Any T) : Asks T Bool := do
  (← self.interA m other).isEmptyA

/-- `Rangetools::intersects`, /repo/src/lib.rs:178-185. -/
def Any.intersectsA (m : MaxVia) (self other : Any T) : Asks T Bool := do
  return !(← self.disjointA m other)

/-- `RangeUnion` between sets, /repo/src/implementations/union/*.rs (see `SetVal.union`). -/
def SetVal.unionA (m : MaxVia) (self other : SetVal T) : Asks T (SetVal T) :=
  match self, other with
  | er, o => .done o
  | ur, _ => .done .ur
  | _, ur => .done .ur
  | a, er => .done a
  | bs a, bs b => do return .bs (← a.addSetA m b)
  | bs a, lbs b => do return .lbs (← b.addSetA m a)
  | bs a, ubs b => do return .ubs (← b.addSetA m a)
  | bs a, us b => do return .us (← b.addSetA m a)
  | lbs a, bs b => do return .lbs (← a.addSetA m b)
  | lbs a, lbs b => do return .lbs (← a.unionLBSA m b)
  | lbs a, ubs b => do return .us (← a.unionUBSA m b)
  | lbs a, us b => do return .us (← a.unionUSA m b)
  | ubs a, bs b => do return .ubs (← a.addSetA m b)
  | ubs a, lbs b => do return .us (← b.unionUBSA m a)
  | ubs a, ubs b => do return .ubs (← a.unionUBSA m b)
  | ubs a, us b => do return .us (← a.unionUSA m b)
  | us a, bs b => do return .us (← a.addSetA m b)
  | us a, lbs b => do return .us (← b.unionUSA m a)
  | us a, ubs b => do return .us (← b.unionUSA m a)
  | us a, us b => do return .us (← a.addUnboundedSetA m b)

/-- `Rangetools::union`, /repo/src/lib.rs:216-222 (see `Any.union`).  Beside an `EmptyRange`, an `UnboundedRange` or a
`RangeFull` nothing is converted.  Otherwise `self.to_set()` is evaluated first: the impls for ranges forward to
`RangeUnion::union(self.to_set(), other)`, and those for sets convert `other` (union/*.rs). -/
def Any.unionA (m : MaxVia) (self other : Any T) : Asks T (Any T) :=
  match self, other with
  | inner .er, o => .done o
  | inner .ur, _ => .done (.inner .ur)
  | _, inner .ur => .done (.inner .ur)
  | _, rangeFull => .done (.inner .ur)
  | s, inner .er => .done s
  | rangeFull, _ => .done (.inner .ur)
  | s, o => do
      let s ← s.toSetA
      let o ← o.toSetA
      return .inner (← s.unionA m o).toInner

/-- `RangeComplement` for the crate types, /repo/src/implementations/complement/*.rs. -/
def Inner.complementA (m : MaxVia) (self : Inner T) : Asks T (Inner T) :=
  match self with
  | br r => do return .us (← r.complementA m)
  | bs s => do return .us (← s.complementA m)
  | lbr r => .done (.ubr ⟨.ofBound r.start.b.flipped⟩)
  | lbs s => do return .ubs (← s.complementA m)
  | ubr r => .done (.lbr ⟨.ofBound r.stop.b.flipped⟩)
  | ubs s => do return .lbs (← s.complementA m)
  | ur => .done .er
  | us s => do return .bs (← s.complementA m)
  | er => .done .ur

/-- `Rangetools::complement`, /repo/src/lib.rs:107-112 (see `Any.complement`). -/
def Any.complementA (m : MaxVia) (self : Any T) : Asks T (Inner T) :=
  match self with
  | rangeFull => .done .er
  | a => a.toInner.complementA m

end Rangetools
