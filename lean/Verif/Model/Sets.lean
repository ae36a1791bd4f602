import Verif.Model.Ranges

/-!
# Model of the set types

`src/bounded_set.rs`, `src/lower_bounded_set.rs`, `src/upper_bounded_set.rs`,
`src/unbounded_set.rs` (without the iterators, which are in `Iter.lean`).
-/

set_option linter.unusedVariables false

namespace Rangetools

/-- `pub struct BoundedSet<T>`, /repo/src/bounded_set.rs:15-20; the `VecDeque` is a list. -/
structure BoundedSet (T : Type) where
  ranges : List (BoundedRange T)
  deriving DecidableEq, Repr

/-- `pub struct LowerBoundedSet<T>`, /repo/src/lower_bounded_set.rs:18-24. -/
structure LowerBoundedSet (T : Type) where
  ranges : BoundedSet T
  lowerBoundedRange : LowerBoundedRange T
  deriving DecidableEq, Repr

/-- `pub struct UpperBoundedSet<T>`, /repo/src/upper_bounded_set.rs:14-20. -/
structure UpperBoundedSet (T : Type) where
  upperBoundedRange : UpperBoundedRange T
  ranges : BoundedSet T
  deriving DecidableEq, Repr

/-- `pub struct PiecewiseUnboundedSet<T>`, /repo/src/unbounded_set.rs:22-29. -/
structure PiecewiseUnboundedSet (T : Type) where
  upperBoundedRange : UpperBoundedRange T
  ranges : BoundedSet T
  lowerBoundedRange : LowerBoundedRange T
  deriving DecidableEq, Repr

/-- `pub enum UnboundedSet<T>`, /repo/src/unbounded_set.rs:83-90. -/
inductive UnboundedSet (T : Type) where
  | full
  | piecewise (p : PiecewiseUnboundedSet T)
  deriving DecidableEq, Repr

variable {T : Type}

/-- `BoundedSet::empty`, /repo/src/bounded_set.rs:56-60. -/
def BoundedSet.empty : BoundedSet T := ⟨[]⟩

/-- `From<LowerBoundedRange<T>> for LowerBoundedSet<T>`, /repo/src/lower_bounded_set.rs:26-33. -/
def LowerBoundedSet.ofLBR (r : LowerBoundedRange T) : LowerBoundedSet T :=
  { lowerBoundedRange := r, ranges := BoundedSet.empty }

/-- `From<UpperBoundedRange<T>> for UpperBoundedSet<T>`, /repo/src/upper_bounded_set.rs:22-29. -/
def UpperBoundedSet.ofUBR (r : UpperBoundedRange T) : UpperBoundedSet T :=
  { upperBoundedRange := r, ranges := BoundedSet.empty }

variable [LE T] [LT T] [DecidableLE T] [DecidableLT T] [Ord T] [BEq T]

namespace BoundedSet

/-- `From<BoundedRange<T>> for BoundedSet<T>`, /repo/src/bounded_set.rs:22-30. -/
def ofBR (r : BoundedRange T) : BoundedSet T :=
  if r.isEmpty then empty else ⟨[r]⟩

/-- `BoundedSet::add_range`, /repo/src/bounded_set.rs:64-79.  The recursion is on the set after
`VecDeque::remove`, which is one shorter. -/
def addRange (self : BoundedSet T) (r : BoundedRange T) : Res (BoundedSet T) :=
  if !r.isEmpty then
    match h : self.ranges.findIdx? (fun range => range.intersectsBR r) with
    | some index => do
        let newRange ← r.combine (← vdIndex self.ranges index)
        addRange ⟨self.ranges.eraseIdx index⟩ newRange
    | none => do
        let index := (self.ranges.findIdx? (fun range => range.start.gt r.start)).getD
          self.ranges.length
        return ⟨← vdInsert self.ranges index r⟩
  else
    .ok self
termination_by self.ranges.length
decreasing_by
  have := (List.findIdx?_eq_some_iff_findIdx_eq.mp h).1
  rw [List.length_eraseIdx_of_lt this]
  omega

/-- `BoundedSet::add_set`, /repo/src/bounded_set.rs:80-84. -/
def addSet (self : BoundedSet T) (other : BoundedSet T) : Res (BoundedSet T) :=
  other.ranges.foldlM (fun s range => s.addRange range) self

/-- `BoundedSet::contains`, /repo/src/bounded_set.rs:96-98. -/
def contains (self : BoundedSet T) (t : T) : Bool :=
  self.ranges.any (fun r => r.contains t)

/-- `<BoundedSet<T> as Rangetools>::is_empty`,
/repo/src/implementations/rangetools/bounded_set.rs:4-6. -/
def isEmpty (self : BoundedSet T) : Bool :=
  self.ranges.all (fun r => r.isEmpty)

/-- `set.ranges.retain(|r| !r.is_empty())`, e.g.
/repo/src/implementations/intersection/bounded_set.rs:18. -/
def retainNonEmpty (self : BoundedSet T) : BoundedSet T :=
  ⟨self.ranges.filter (fun r => !r.isEmpty)⟩

end BoundedSet

namespace LowerBoundedSet

/-- `LowerBoundedSet::defragment`, /repo/src/lower_bounded_set.rs:50-66. -/
def defragment (self : LowerBoundedSet T) : Res (LowerBoundedSet T) :=
  if !self.ranges.isEmpty then
    match h : self.ranges.ranges.getLast? with
    | none => .panic "called `Option::unwrap()` on a `None` value"
    | some range =>
        if (range.interLBR self.lowerBoundedRange).isEmpty then .ok self
        else
          defragment
            { ranges := ⟨self.ranges.ranges.dropLast⟩
              lowerBoundedRange := ⟨self.lowerBoundedRange.start.min range.start⟩ }
  else
    .ok self
termination_by self.ranges.ranges.length
decreasing_by
  have : self.ranges.ranges ≠ [] := by
    intro h0; simp [h0] at h
  have := List.length_pos_iff.mpr this
  simp only [List.length_dropLast]
  omega

/-- `LowerBoundedSet::add_range`, /repo/src/lower_bounded_set.rs:68-71. -/
def addRange (self : LowerBoundedSet T) (range : BoundedRange T) : Res (LowerBoundedSet T) := do
  let ranges ← self.ranges.addRange range
  defragment { self with ranges := ranges }

/-- `LowerBoundedSet::add_lower_bounded_range`, /repo/src/lower_bounded_set.rs:72-76. -/
def addLowerBoundedRange (self : LowerBoundedSet T) (range : LowerBoundedRange T) :
    Res (LowerBoundedSet T) :=
  defragment
    { self with lowerBoundedRange := ⟨self.lowerBoundedRange.start.min range.start⟩ }

/-- `LowerBoundedSet::add_set`, /repo/src/lower_bounded_set.rs:77-81. -/
def addSet (self : LowerBoundedSet T) (set : BoundedSet T) : Res (LowerBoundedSet T) :=
  set.ranges.foldlM (fun s range => s.addRange range) self

/-- `LowerBoundedSet::contains`, /repo/src/lower_bounded_set.rs:93-95. -/
def contains (self : LowerBoundedSet T) (t : T) : Bool :=
  self.lowerBoundedRange.contains t || self.ranges.contains t

end LowerBoundedSet

namespace UpperBoundedSet

/-- `UpperBoundedSet::defragment`, /repo/src/upper_bounded_set.rs:32-48. -/
def defragment (self : UpperBoundedSet T) : Res (UpperBoundedSet T) :=
  if !self.ranges.isEmpty then
    match h : self.ranges.ranges with
    | [] => .panic "called `Option::unwrap()` on a `None` value"
    | range :: rest =>
        if (range.interUBR self.upperBoundedRange).isEmpty then .ok self
        else
          defragment
            { ranges := ⟨rest⟩
              upperBoundedRange := ⟨self.upperBoundedRange.stop.max range.stop⟩ }
  else
    .ok self
termination_by self.ranges.ranges.length
decreasing_by simp [h]

/-- `UpperBoundedSet::add_range`, /repo/src/upper_bounded_set.rs:49-52. -/
def addRange (self : UpperBoundedSet T) (range : BoundedRange T) : Res (UpperBoundedSet T) := do
  let ranges ← self.ranges.addRange range
  defragment { self with ranges := ranges }

/-- `UpperBoundedSet::add_upper_bounded_range`, /repo/src/upper_bounded_set.rs:53-56. -/
def addUpperBoundedRange (self : UpperBoundedSet T) (range : UpperBoundedRange T) :
    Res (UpperBoundedSet T) :=
  defragment
    { self with upperBoundedRange := ⟨self.upperBoundedRange.stop.max range.stop⟩ }

/-- `UpperBoundedSet::add_set`, /repo/src/upper_bounded_set.rs:57-61. -/
def addSet (self : UpperBoundedSet T) (set : BoundedSet T) : Res (UpperBoundedSet T) :=
  set.ranges.foldlM (fun s range => s.addRange range) self

/-- `UpperBoundedSet::contains`, /repo/src/upper_bounded_set.rs:73-75. -/
def contains (self : UpperBoundedSet T) (t : T) : Bool :=
  self.upperBoundedRange.contains t || self.ranges.contains t

end UpperBoundedSet

namespace PiecewiseUnboundedSet

/-- `PiecewiseUnboundedSet::contains`, /repo/src/unbounded_set.rs:43-47. -/
def contains (self : PiecewiseUnboundedSet T) (t : T) : Bool :=
  self.upperBoundedRange.contains t || self.lowerBoundedRange.contains t || self.ranges.contains t

/-- `PiecewiseUnboundedSet::defragment`, /repo/src/unbounded_set.rs:49-69.  The index comes from
`position`, so `VecDeque::remove(index).unwrap()` is modelled as indexing followed by erasing. -/
def defragment (self : PiecewiseUnboundedSet T) : Res (PiecewiseUnboundedSet T) :=
  match h : self.ranges.ranges.findIdx? (fun r => self.upperBoundedRange.intersectsBR r) with
  | some index => do
      let range ← unwrap "called `Option::unwrap()` on a `None` value" self.ranges.ranges[index]?
      defragment
        { self with
          ranges := ⟨self.ranges.ranges.eraseIdx index⟩
          upperBoundedRange := ⟨self.upperBoundedRange.stop.max range.stop⟩ }
  | none =>
      match h' : self.ranges.ranges.findIdx? (fun r => self.lowerBoundedRange.intersectsBR r) with
      | some index => do
          let range ← unwrap "called `Option::unwrap()` on a `None` value" self.ranges.ranges[index]?
          defragment
            { self with
              ranges := ⟨self.ranges.ranges.eraseIdx index⟩
              lowerBoundedRange := ⟨self.lowerBoundedRange.start.min range.start⟩ }
      | none => .ok self
termination_by self.ranges.ranges.length
decreasing_by
  · have := (List.findIdx?_eq_some_iff_findIdx_eq.mp h).1
    simp only [List.length_eraseIdx_of_lt this]
    omega
  · have := (List.findIdx?_eq_some_iff_findIdx_eq.mp h').1
    simp only [List.length_eraseIdx_of_lt this]
    omega

end PiecewiseUnboundedSet

namespace UnboundedSet

/-- `UnboundedSet::new`, /repo/src/unbounded_set.rs:107-120. -/
def new (upper : UpperBoundedRange T) (lower : LowerBoundedRange T) : UnboundedSet T :=
  if (upper.interLBR lower).isEmpty then
    piecewise { upperBoundedRange := upper, ranges := BoundedSet.empty, lowerBoundedRange := lower }
  else
    full

/-- `UnboundedSet::contains`, /repo/src/unbounded_set.rs:135-140. -/
def contains (self : UnboundedSet T) (t : T) : Bool :=
  match self with
  | full => true
  | piecewise p => p.contains t

/-- `UnboundedSet::map_piecewise`, /repo/src/unbounded_set.rs:141-146. -/
def mapPiecewise (self : UnboundedSet T)
    (f : PiecewiseUnboundedSet T → Res (PiecewiseUnboundedSet T)) : Res (UnboundedSet T) :=
  match self with
  | full => .ok full
  | piecewise p => do return piecewise (← f p)

/-- `UnboundedSet::defragment`, /repo/src/unbounded_set.rs:147-159. -/
def defragment (self : UnboundedSet T) : Res (UnboundedSet T) := do
  match ← self.mapPiecewise PiecewiseUnboundedSet.defragment with
  | full => return full
  | piecewise p =>
      if p.upperBoundedRange.intersectsLBR p.lowerBoundedRange then return full
      else return piecewise p

/-- `UnboundedSet::add_range`, /repo/src/unbounded_set.rs:161-164. -/
def addRange (self : UnboundedSet T) (range : BoundedRange T) : Res (UnboundedSet T) := do
  let s ← self.mapPiecewise (fun p => do return { p with ranges := ← p.ranges.addRange range })
  s.defragment

/-- `UnboundedSet::add_lower_bounded_range`, /repo/src/unbounded_set.rs:165-170. -/
def addLowerBoundedRange (self : UnboundedSet T) (range : LowerBoundedRange T) :
    Res (UnboundedSet T) := do
  let s ← self.mapPiecewise (fun p =>
    .ok { p with lowerBoundedRange := ⟨p.lowerBoundedRange.start.min range.start⟩ })
  s.defragment

/-- `UnboundedSet::add_upper_bounded_range`, /repo/src/unbounded_set.rs:171-176. -/
def addUpperBoundedRange (self : UnboundedSet T) (range : UpperBoundedRange T) :
    Res (UnboundedSet T) := do
  let s ← self.mapPiecewise (fun p =>
    .ok { p with upperBoundedRange := ⟨p.upperBoundedRange.stop.max range.stop⟩ })
  s.defragment

/-- `UnboundedSet::add_set`, /repo/src/unbounded_set.rs:177-181. -/
def addSet (self : UnboundedSet T) (set : BoundedSet T) : Res (UnboundedSet T) :=
  set.ranges.foldlM (fun s range => s.addRange range) self

/-- `UnboundedSet::add_unbounded_set`, /repo/src/unbounded_set.rs:182-196. -/
def addUnboundedSet (self : UnboundedSet T) (range : UnboundedSet T) : Res (UnboundedSet T) :=
  match range with
  | piecewise p => do
      let s ← self.addLowerBoundedRange p.lowerBoundedRange
      let s ← s.addUpperBoundedRange p.upperBoundedRange
      let s ← s.addSet p.ranges
      s.defragment
  | full => .ok full

end UnboundedSet
end Rangetools
