import Verif.Model.TraitImpls

/-!
# The fifteen types, as data

Names for the types that implement `Rangetools`, the type a name stands for, and the result types the
operations are documented to have: a union is a set, an intersection of two ranges is a range, and so on.
-/

namespace Rangetools

/-- Names of the fifteen types. -/
inductive Ty where
  | range | rangeInclusive | rangeFrom | rangeTo | rangeToInclusive | rangeFull
  | br | bs | lbr | lbs | ubr | ubs | ur | us | er
  deriving DecidableEq, Repr

namespace Ty

/-- The type a name stands for, with element type `T`. -/
abbrev Val (T : Type) : Ty → Type
  | range => Range T
  | rangeInclusive => RangeInclusive T
  | rangeFrom => RangeFrom T
  | rangeTo => RangeTo T
  | rangeToInclusive => RangeToInclusive T
  | rangeFull => RangeFull
  | br => BoundedRange T
  | bs => BoundedSet T
  | lbr => LowerBoundedRange T
  | lbs => LowerBoundedSet T
  | ubr => UpperBoundedRange T
  | ubs => UpperBoundedSet T
  | ur => UnboundedRange
  | us => UnboundedSet T
  | er => EmptyRange T

/-- A value of a named type, with its type forgotten. -/
def embed {T : Type} : (a : Ty) → a.Val T → Any T
  | range, x => .range x
  | rangeInclusive, x => .rangeInclusive x
  | rangeFrom, x => .rangeFrom x
  | rangeTo, x => .rangeTo x
  | rangeToInclusive, x => .rangeToInclusive x
  | rangeFull, _ => .rangeFull
  | br, x => .inner (.br x)
  | bs, x => .inner (.bs x)
  | lbr, x => .inner (.lbr x)
  | lbs, x => .inner (.lbs x)
  | ubr, x => .inner (.ubr x)
  | ubs, x => .inner (.ubs x)
  | ur, _ => .inner .ur
  | us, x => .inner (.us x)
  | er, _ => .inner .er

/-- `Rangetools::Inner`. -/
abbrev inner : Ty → Ty
  | range | rangeInclusive | br => br
  | rangeFrom | lbr => lbr
  | rangeTo | rangeToInclusive | ubr => ubr
  | rangeFull | ur => ur
  | bs => bs
  | lbs => lbs
  | ubs => ubs
  | us => us
  | er => er

/-- `Rangetools::Set`. -/
abbrev set : Ty → Ty
  | range | rangeInclusive | br | bs => bs
  | rangeFrom | lbr | lbs => lbs
  | rangeTo | rangeToInclusive | ubr | ubs => ubs
  | rangeFull | ur => ur
  | us => us
  | er => er

/-- Type of `a.union(b)`: unbounded in whichever directions `a` or `b` is; with `EmptyRange` the other. -/
abbrev union (a b : Ty) : Ty :=
  match a, b with
  | er, b => b
  | ur, _ => ur
  | a, b =>
    match a.set, b.set with
    | _, ur => ur
    | _, er => a
    | ur, _ => ur
    | er, _ => er
    | bs, s => s
    | s, bs => s
    | lbs, lbs => lbs
    | ubs, ubs => ubs
    | _, _ => us

/-- Type of `a.intersection(b)`: a set if either is a set, unbounded in the directions in which both are. -/
abbrev inter (a b : Ty) : Ty :=
  match a.inner, b.inner with
  | er, _ => er
  | _, er => er
  | ur, i => i
  | i, ur => i
  | br, br | br, lbr | br, ubr | lbr, br | ubr, br | lbr, ubr | ubr, lbr => br
  | lbr, lbr => lbr
  | ubr, ubr => ubr
  | i, j =>
    match i.set, j.set with
    | us, s => s
    | s, us => s
    | lbs, lbs => lbs
    | ubs, ubs => ubs
    | _, _ => bs

/-- Type of `a.complement()`: unbounded in the directions in which `a` is not. -/
abbrev complement (a : Ty) : Ty :=
  match a.inner with
  | br | bs => us
  | lbr => ubr
  | ubr => lbr
  | lbs => ubs
  | ubs => lbs
  | us => bs
  | ur => er
  | _ => ur

end Ty

variable {T : Type} [LE T] [LT T] [DecidableLE T] [DecidableLT T] [Ord T] [BEq T]

/-- The `contains` methods: std's for the std ranges (`RangeFull` is `RangeBounds` and contains everything),
and the inherent ones of the crate, where those of `UnboundedRange` and `EmptyRange` are
/repo/src/unbounded_range.rs:60-62, /repo/src/empty_range.rs:81-83. -/
def Ty.contains : (a : Ty) → a.Val T → T → Bool
  | range, x, t => x.contains t
  | rangeInclusive, x, t => x.contains t
  | rangeFrom, x, t => x.contains t
  | rangeTo, x, t => x.contains t
  | rangeToInclusive, x, t => x.contains t
  | rangeFull, _, _ => true
  | br, x, t => BoundedRange.contains x t
  | bs, x, t => BoundedSet.contains x t
  | lbr, x, t => LowerBoundedRange.contains x t
  | lbs, x, t => LowerBoundedSet.contains x t
  | ubr, x, t => UpperBoundedRange.contains x t
  | ubs, x, t => UpperBoundedSet.contains x t
  | ur, _, _ => true
  | us, x, t => UnboundedSet.contains x t
  | er, _, _ => false

/-- The `impl Rangetools` instance search finds for each of the types. -/
@[instance_reducible] def Ty.tools (a : Ty) : Tools (a.Val T) (a.inner.Val T) (a.set.Val T) := by
  cases a <;> exact inferInstance

/-- The `impl RangeUnion` instance search finds for each pair of types. -/
@[instance_reducible] def Ty.unionImpl (a b : Ty) : RangeUnion (a.Val T) (b.Val T) (b.set.Val T) ((a.union b).Val T) := by
  cases a <;> cases b <;> exact inferInstance

/-- The `impl RangeIntersection` instance search finds for each pair of types. -/
@[instance_reducible] def Ty.interImpl (a b : Ty) : RangeIntersection (a.Val T) (b.Val T) (b.inner.Val T) ((a.inter b).Val T) := by
  cases a <;> cases b <;> exact inferInstance

/-- The `impl RangeComplement` instance search finds for each type. -/
@[instance_reducible] def Ty.complementImpl (a : Ty) : RangeComplement (a.Val T) (a.complement.Val T) := by
  cases a <;> exact inferInstance

end Rangetools
