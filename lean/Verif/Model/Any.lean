import Verif.Model.Complement

/-!
# The public API: `Rangetools` and trait dispatch over all 15 types

Rust picks an `impl` statically from the types of `self` and of `R::Inner` / `R::Set`.  The model
makes the types into constructors and follows the same choice, so one function covers all
15 x 15 combinations.
-/

namespace Rangetools

/-- The nine types that occur as `Rangetools::Inner`: the crate's own ranges and sets. -/
inductive Inner (T : Type) where
  | br (r : BoundedRange T)
  | bs (s : BoundedSet T)
  | lbr (r : LowerBoundedRange T)
  | lbs (s : LowerBoundedSet T)
  | ubr (r : UpperBoundedRange T)
  | ubs (s : UpperBoundedSet T)
  /-- `UnboundedRange`, /repo/src/unbounded_range.rs:16-18. -/
  | ur
  | us (s : UnboundedSet T)
  /-- `EmptyRange<T>`, /repo/src/empty_range.rs:16-20. -/
  | er
  deriving DecidableEq, Repr

/-- The six types that occur as `Rangetools::Set`. -/
inductive SetVal (T : Type) where
  | bs (s : BoundedSet T)
  | lbs (s : LowerBoundedSet T)
  | ubs (s : UpperBoundedSet T)
  | us (s : UnboundedSet T)
  | ur
  | er
  deriving DecidableEq, Repr

/-- All fifteen types implementing `Rangetools`: six from std and the nine of `Inner`. -/
inductive Any (T : Type) where
  | range (r : Range T)
  | rangeInclusive (r : RangeInclusive T)
  | rangeFrom (r : RangeFrom T)
  | rangeTo (r : RangeTo T)
  | rangeToInclusive (r : RangeToInclusive T)
  /-- `std::ops::RangeFull`. -/
  | rangeFull
  | inner (i : Inner T)
  deriving DecidableEq, Repr

variable {T : Type}

/-- Forget that a value came from `to_set`. -/
def SetVal.toInner : SetVal T → Inner T
  | bs s => .bs s
  | lbs s => .lbs s
  | ubs s => .ubs s
  | us s => .us s
  | ur => .ur
  | er => .er

variable [LE T] [LT T] [DecidableLE T] [DecidableLT T] [Ord T] [BEq T]

/-! ### `contains` -/

/-- The nine `contains` methods: bounded_range.rs:128, bounded_set.rs:96, lower_bounded_range.rs:85,
lower_bounded_set.rs:93, upper_bounded_range.rs:88, upper_bounded_set.rs:73,
unbounded_range.rs:60-62, unbounded_set.rs:135, empty_range.rs:81-83 (all under /repo/src). -/
def Inner.contains (self : Inner T) (t : T) : Bool :=
  match self with
  | br r => r.contains t
  | bs s => s.contains t
  | lbr r => r.contains t
  | lbs s => s.contains t
  | ubr r => r.contains t
  | ubs s => s.contains t
  | ur => true
  | us s => s.contains t
  | er => false

/-- `contains` of any of the 15 types (std's own for the std ranges; `..` contains everything). -/
def Any.contains (self : Any T) (t : T) : Bool :=
  match self with
  | range r => r.contains t
  | rangeInclusive r => r.contains t
  | rangeFrom r => r.contains t
  | rangeTo r => r.contains t
  | rangeToInclusive r => r.contains t
  | rangeFull => true
  | inner i => i.contains t

/-! ### `is_empty`, `to_inner`, `to_set` -/

/-- `Rangetools::is_empty` of the nine crate types,
/repo/src/implementations/rangetools/{bounded_range,bounded_set,lower_bounded_range,
lower_bounded_set,upper_bounded_range,upper_bounded_set,unbounded_range,unbounded_set,
empty_range}.rs:4-6. -/
def Inner.isEmpty (self : Inner T) : Bool :=
  match self with
  | br r => r.isEmpty
  | bs s => s.isEmpty
  | lbr _ => false
  | lbs _ => false
  | ubr _ => false
  | ubs _ => false
  | ur => false
  | us _ => false
  | er => true

/-- `Rangetools::is_empty`, /repo/src/implementations/rangetools/*.rs:4-6. -/
def Any.isEmpty (self : Any T) : Bool :=
  match self with
  | range r => r.isEmpty
  | rangeInclusive r => r.isEmpty
  | rangeFrom _ => false
  | rangeTo _ => false
  | rangeToInclusive _ => false
  | rangeFull => false
  | inner i => i.isEmpty

/-- `Rangetools::to_inner`, /repo/src/implementations/rangetools/*.rs:8-11. -/
def Any.toInner (self : Any T) : Inner T :=
  match self with
  | range r => .br (.ofRange r)
  | rangeInclusive r => .br (.ofRangeInclusive r)
  | rangeFrom r => .lbr (.ofRangeFrom r)
  | rangeTo r => .ubr (.ofRangeTo r)
  | rangeToInclusive r => .ubr (.ofRangeToInclusive r)
  | rangeFull => .ur
  | inner i => i

/-- `Rangetools::to_set` of the crate types, /repo/src/implementations/rangetools/*.rs:13-16. -/
def Inner.toSet (self : Inner T) : SetVal T :=
  match self with
  | br r => .bs (.ofBR r)
  | bs s => .bs s
  | lbr r => .lbs (.ofLBR r)
  | lbs s => .lbs s
  | ubr r => .ubs (.ofUBR r)
  | ubs s => .ubs s
  | ur => .ur
  | us s => .us s
  | er => .er

/-- `Rangetools::to_set`, /repo/src/implementations/rangetools/*.rs:13-16: the std ranges use
`self.to_inner().to_set()`, `RangeFull` uses `self.into()` (an `UnboundedRange`). -/
def Any.toSet (self : Any T) : SetVal T :=
  match self with
  | rangeFull => .ur
  | a => a.toInner.toSet

/-! ### Intersection -/

/-- The 9 x 9 impls of `RangeIntersection` for the crate types,
/repo/src/implementations/intersection/{bounded_range,bounded_set,lower_bounded_range,
lower_bounded_set,upper_bounded_range,upper_bounded_set,unbounded_range,unbounded_set,
empty_range}.rs. -/
def Inner.inter (self other : Inner T) : Res (Inner T) :=
  match self, other with
  -- empty_range.rs:3-11
  | er, _ => .ok .er
  -- unbounded_range.rs:3-8
  | ur, o => .ok o
  -- `EmptyRange` on the right: bounded_range.rs:95-104, bounded_set.rs:143-152, ...
  | br _, er => .ok .er
  | bs _, er => .ok .er
  | lbr _, er => .ok .er
  | lbs _, er => .ok .er
  | ubr _, er => .ok .er
  | ubs _, er => .ok .er
  | us _, er => .ok .er
  -- `UnboundedRange` on the right: bounded_range.rs:73-82, bounded_set.rs:106-115, ...
  | br a, ur => .ok (.br a)
  | bs a, ur => .ok (.bs a)
  | lbr a, ur => .ok (.lbr a)
  | lbs a, ur => .ok (.lbs a)
  | ubr a, ur => .ok (.ubr a)
  | ubs a, ur => .ok (.ubs a)
  | us a, ur => .ok (.us a)
  -- bounded_range.rs
  | br a, br b => .ok (.br (a.interBR b))
  | br a, bs b => .ok (.bs (a.interBS b))
  | br a, lbr b => .ok (.br (a.interLBR b))
  | br a, lbs b => do return .bs (← a.interLBS b)
  | br a, ubr b => .ok (.br (a.interUBR b))
  | br a, ubs b => do return .bs (← a.interUBS b)
  | br a, us b => do return .bs (← a.interUS b)
  -- bounded_set.rs
  | bs a, br b => .ok (.bs (a.interBR b))
  | bs a, bs b => do return .bs (← a.interBS b)
  | bs a, lbr b => .ok (.bs (a.interLBR b))
  | bs a, lbs b => do return .bs (← a.interLBS b)
  | bs a, ubr b => .ok (.bs (a.interUBR b))
  | bs a, ubs b => do return .bs (← a.interUBS b)
  | bs a, us b => do return .bs (← a.interUS b)
  -- lower_bounded_range.rs
  | lbr a, br b => .ok (.br (a.interBR b))
  | lbr a, bs b => .ok (.bs (a.interBS b))
  | lbr a, lbr b => .ok (.lbr (a.interLBR b))
  | lbr a, lbs b => .ok (.lbs (a.interLBS b))
  | lbr a, ubr b => .ok (.br (a.interUBR b))
  | lbr a, ubs b => do return .bs (← a.interUBS b)
  | lbr a, us b => do return .lbs (← a.interUS b)
  -- lower_bounded_set.rs
  | lbs a, br b => do return .bs (← a.interBR b)
  | lbs a, bs b => do return .bs (← a.interBS b)
  | lbs a, lbr b => .ok (.lbs (a.interLBR b))
  | lbs a, lbs b => do return .lbs (← a.interLBS b)
  | lbs a, ubr b => do return .bs (← a.interUBR b)
  | lbs a, ubs b => do return .bs (← a.interUBS b)
  | lbs a, us b => do return .lbs (← a.interUS b)
  -- upper_bounded_range.rs
  | ubr a, br b => .ok (.br (a.interBR b))
  | ubr a, bs b => .ok (.bs (a.interBS b))
  | ubr a, lbr b => .ok (.br (a.interLBR b))
  | ubr a, lbs b => do return .bs (← a.interLBS b)
  | ubr a, ubr b => .ok (.ubr (a.interUBR b))
  | ubr a, ubs b => do return .ubs (← a.interUBS b)
  | ubr a, us b => do return .ubs (← a.interUS b)
  -- upper_bounded_set.rs
  | ubs a, br b => do return .bs (← a.interBR b)
  | ubs a, bs b => do return .bs (← a.interBS b)
  | ubs a, lbr b => do return .bs (← a.interLBR b)
  | ubs a, lbs b => do return .bs (← a.interLBS b)
  | ubs a, ubr b => do return .ubs (← a.interUBR b)
  | ubs a, ubs b => do return .ubs (← a.interUBS b)
  | ubs a, us b => do return .ubs (← a.interUS b)
  -- unbounded_set.rs
  | us a, br b => do return .bs (← a.interBR b)
  | us a, bs b => do return .bs (← a.interBS b)
  | us a, lbr b => do return .lbs (← a.interLBR b)
  | us a, lbs b => do return .lbs (← a.interLBS b)
  | us a, ubr b => do return .ubs (← a.interUBR b)
  | us a, ubs b => do return .ubs (← a.interUBS b)
  | us a, us b => do return .us (← a.interUS b)

/-- The impls for `Range`, `RangeInclusive`, `RangeTo`, `RangeToInclusive`
(/repo/src/implementations/intersection/{range,range_inclusive,range_to,range_to_inclusive}.rs):
forward to `self.to_inner()` when the other side is a range, flip when it is a set, and return the
other side when it is an `EmptyRange`. -/
def Inner.interFromStd (selfInner otherInner : Inner T) : Res (Inner T) :=
  match otherInner with
  | er => .ok .er
  | br _ | lbr _ | ubr _ | ur => selfInner.inter otherInner
  | bs _ | lbs _ | ubs _ | us _ => otherInner.inter selfInner

/-- `Rangetools::intersection`, /repo/src/lib.rs:143-149, dispatched to the impl for the type of
`self`; every impl uses `other` only through `to_inner`.  `RangeFrom` and `RangeFull` always forward
`self.to_inner()` (intersection/range_from.rs, intersection/range_full.rs). -/
def Any.inter (self other : Any T) : Res (Inner T) :=
  match self with
  | range _ | rangeInclusive _ | rangeTo _ | rangeToInclusive _ =>
      self.toInner.interFromStd other.toInner
  | rangeFrom _ | rangeFull =>
      match other.toInner with
      | .er => .ok .er
      | o => self.toInner.inter o
  | inner i => i.inter other.toInner

/-- `Rangetools::disjoint`, /repo/src/lib.rs:160-167. -/
def Any.disjoint (self other : Any T) : Res Bool := do
  return (← self.inter other).isEmpty

/-- `Rangetools::intersects`, /repo/src/lib.rs:178-185. -/
def Any.intersects (self other : Any T) : Res Bool := do
  return !(← self.disjoint other)

/-! ### Union -/

/-- `RangeUnion` where `self` is one of the six set types,
/repo/src/implementations/union/{bounded_set,lower_bounded_set,upper_bounded_set,unbounded_set,
unbounded_range,empty_range}.rs, for `other` already converted by `to_set`.  For an `EmptyRange` on
the left see `Any.union`, which returns `other` unconverted. -/
def SetVal.union (self other : SetVal T) : Res (SetVal T) :=
  match self, other with
  -- empty_range.rs:3-11
  | er, o => .ok o
  -- unbounded_range.rs:3-8
  | ur, _ => .ok .ur
  -- `UnboundedRange` on the right flips
  | bs _, ur => .ok .ur
  | lbs _, ur => .ok .ur
  | ubs _, ur => .ok .ur
  | us _, ur => .ok .ur
  -- `EmptyRange` on the right flips
  | bs a, er => .ok (.bs a)
  | lbs a, er => .ok (.lbs a)
  | ubs a, er => .ok (.ubs a)
  | us a, er => .ok (.us a)
  -- bounded_set.rs
  | bs a, bs b => do return .bs (← a.unionBS b)
  | bs a, lbs b => do return .lbs (← a.unionLBS b)
  | bs a, ubs b => do return .ubs (← a.unionUBS b)
  | bs a, us b => do return .us (← a.unionUS b)
  -- lower_bounded_set.rs
  | lbs a, bs b => do return .lbs (← a.unionBS b)
  | lbs a, lbs b => do return .lbs (← a.unionLBS b)
  | lbs a, ubs b => do return .us (← a.unionUBS b)
  | lbs a, us b => do return .us (← a.unionUS b)
  -- upper_bounded_set.rs
  | ubs a, bs b => do return .ubs (← a.unionBS b)
  | ubs a, lbs b => do return .us (← a.unionLBS b)
  | ubs a, ubs b => do return .ubs (← a.unionUBS b)
  | ubs a, us b => do return .us (← a.unionUS b)
  -- unbounded_set.rs
  | us a, bs b => do return .us (← a.unionBS b)
  | us a, lbs b => do return .us (← a.unionLBS b)
  | us a, ubs b => do return .us (← a.unionUBS b)
  | us a, us b => do return .us (← a.unionUS b)

/-- `Rangetools::union`, /repo/src/lib.rs:216-222, dispatched over
/repo/src/implementations/union/*.rs.  An `EmptyRange` on the left returns `other` itself
(empty_range.rs:3-11), an `UnboundedRange` on the left itself (unbounded_range.rs:3-8).  With an
`EmptyRange` on the right every impl returns `self` unconverted
(`RangeUnion::union(other.to_set(), self)`); with an `UnboundedRange` on the right the result is the
`UnboundedRange`; otherwise both sides are converted by `to_set`. -/
def Any.union (self other : Any T) : Res (Any T) :=
  match self with
  | inner .er => .ok other
  | inner .ur => .ok (.inner .ur)
  | _ =>
      match other.toSet with
      | .ur => .ok (.inner .ur)
      | .er => .ok self
      | o => do return .inner (← self.toSet.union o).toInner

/-! ### Complement -/

/-- The impls of `RangeComplement` for the crate types, /repo/src/implementations/complement/*.rs. -/
def Inner.complement (self : Inner T) : Res (Inner T) :=
  match self with
  | br r => do return .us (← r.complement)
  | bs s => do return .us (← s.complement)
  | lbr r => .ok (.ubr r.complement)
  | lbs s => do return .ubs (← s.complement)
  | ubr r => .ok (.lbr r.complement)
  | ubs s => do return .lbs (← s.complement)
  | ur => .ok .er
  | us s => do return .bs (← s.complement)
  | er => .ok .ur

/-- `Rangetools::complement`, /repo/src/lib.rs:107-112: the std ranges go through `to_inner`
(/repo/src/implementations/complement/range*.rs); `RangeFull` gives an `EmptyRange`
(complement/range_full.rs:3-7). -/
def Any.complement (self : Any T) : Res (Inner T) :=
  match self with
  | rangeFull => .ok .er
  | a => a.toInner.complement

end Rangetools
