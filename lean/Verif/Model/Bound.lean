import Verif.Model.Res
import Mathlib.Order.Defs.LinearOrder

/-!
# Model of `src/bound.rs`
-/

namespace Rangetools

/-- `pub enum Bound<T>`, /repo/src/bound.rs:9-16. -/
inductive Bound (T : Type) where
  | excluded (t : T)
  | included (t : T)
  deriving DecidableEq, Repr

/-- `pub struct LowerBound<T>(pub(crate) Bound<T>)`, /repo/src/bound.rs:62-64. -/
structure LowerBound (T : Type) where
  b : Bound T
  deriving DecidableEq, Repr

/-- `pub struct UpperBound<T>(pub(crate) Bound<T>)`, /repo/src/bound.rs:163-165. -/
structure UpperBound (T : Type) where
  b : Bound T
  deriving DecidableEq, Repr

namespace Bound

/-- `Bound::map`, /repo/src/bound.rs:29-37. -/
def map {T : Type} {U : Type} (self : Bound T) (f : T → U) : Bound U :=
  match self with
  | excluded t => excluded (f t)
  | included t => included (f t)

/-- `Bound::flipped`, /repo/src/bound.rs:51-56. -/
def flipped {T : Type} (self : Bound T) : Bound T :=
  match self with
  | excluded t => included t
  | included t => excluded t

end Bound

namespace LowerBound

/-- `From<Bound<T>> for LowerBound<T>`, /repo/src/bound.rs:66-70. -/
def ofBound {T : Type} (b : Bound T) : LowerBound T := ⟨b⟩

/-- `LowerBound::excluded`, /repo/src/bound.rs:113-115. -/
def excluded {T : Type} (t : T) : LowerBound T := ⟨.excluded t⟩

/-- `LowerBound::included`, /repo/src/bound.rs:127-129. -/
def included {T : Type} (t : T) : LowerBound T := ⟨.included t⟩

/-- `LowerBound::to_bound`, /repo/src/bound.rs:135-140. -/
def toBound {T : Type} (self : LowerBound T) : Bound T := self.b

/-- `LowerBound::map`, /repo/src/bound.rs:152-157. -/
def map {T : Type} {U : Type} (self : LowerBound T) (f : T → U) : LowerBound U :=
  ⟨self.b.map f⟩

/-- `<LowerBound<T> as PartialOrd>::partial_cmp`, /repo/src/bound.rs:72-94, for an arbitrary
`PartialOrd` implementation of `T` given by its `partial_cmp` and `==`. -/
def partialCmpWith {T : Type} (pc : T → T → Option Ordering) (eq : T → T → Bool)
    (self other : LowerBound T) : Option Ordering :=
  match self.b, other.b with
  | .included a, .included b => pc a b
  | .excluded a, .excluded b => pc a b
  | .included a, .excluded b => if eq a b then some .lt else pc a b
  | .excluded a, .included b => if eq a b then some .gt else pc a b

end LowerBound

namespace UpperBound

/-- `From<Bound<T>> for UpperBound<T>`, /repo/src/bound.rs:167-171. -/
def ofBound {T : Type} (b : Bound T) : UpperBound T := ⟨b⟩

/-- `UpperBound::excluded`, /repo/src/bound.rs:214-216. -/
def excluded {T : Type} (t : T) : UpperBound T := ⟨.excluded t⟩

/-- `UpperBound::included`, /repo/src/bound.rs:228-230. -/
def included {T : Type} (t : T) : UpperBound T := ⟨.included t⟩

/-- `UpperBound::to_bound`, /repo/src/bound.rs:236-241. -/
def toBound {T : Type} (self : UpperBound T) : Bound T := self.b

/-- `UpperBound::map`, /repo/src/bound.rs:253-258. -/
def map {T : Type} {U : Type} (self : UpperBound T) (f : T → U) : UpperBound U :=
  ⟨self.b.map f⟩

/-- `<UpperBound<T> as PartialOrd>::partial_cmp`, /repo/src/bound.rs:173-195. -/
def partialCmpWith {T : Type} (pc : T → T → Option Ordering) (eq : T → T → Bool)
    (self other : UpperBound T) : Option Ordering :=
  match self.b, other.b with
  | .included a, .included b => pc a b
  | .excluded a, .excluded b => pc a b
  | .included a, .excluded b => if eq a b then some .gt else pc a b
  | .excluded a, .included b => if eq a b then some .lt else pc a b

end UpperBound

section Ord
variable {T : Type} [Ord T] [BEq T]

/-- `PartialOrd::partial_cmp` of a totally ordered element type: for a lawful `Ord` it is
`Some(cmp)`.  (The element type's own implementation is not in the crate.) -/
def elemPartialCmp (a b : T) : Option Ordering := some (compare a b)

/-- `==` of the element type. -/
def elemEq (a b : T) : Bool := a == b

namespace LowerBound

/-- `partial_cmp` over a totally ordered `T`, /repo/src/bound.rs:72-94. -/
def partialCmp (self other : LowerBound T) : Option Ordering :=
  partialCmpWith elemPartialCmp elemEq self other

theorem partialCmp_isSome (a b : LowerBound T) : (a.partialCmp b).isSome = true := by
  rcases a with ⟨a | a⟩ <;> rcases b with ⟨b | b⟩ <;>
    simp only [partialCmp, partialCmpWith, elemPartialCmp] <;> try split <;> rfl
  all_goals rfl

/-- `<LowerBound<T> as Ord>::cmp` with its `unwrap`, /repo/src/bound.rs:96-100. -/
def cmpRes (self other : LowerBound T) : Res Ordering :=
  unwrap "called `Option::unwrap()` on a `None` value" (self.partialCmp other)

/-- The value returned by `Ord::cmp`, /repo/src/bound.rs:96-100; `Bound.lean` proves the
`unwrap` succeeds (`partialCmp_isSome`), so the panic branch is dropped here. -/
def cmp (self other : LowerBound T) : Ordering :=
  (self.partialCmp other).get (partialCmp_isSome self other)

/-- `a > b` on lower bounds: std's `PartialOrd::gt` through `partial_cmp`
(used at /repo/src/bounded_set.rs:74). -/
def gt (self other : LowerBound T) : Bool := self.partialCmp other == some .gt

/-- std `Ord::max`: the second argument unless the first is greater. -/
def max (self other : LowerBound T) : LowerBound T :=
  match self.cmp other with
  | .gt => self
  | _ => other

/-- std `Ord::min`: the first argument unless it is greater. -/
def min (self other : LowerBound T) : LowerBound T :=
  match self.cmp other with
  | .gt => other
  | _ => self

end LowerBound

namespace UpperBound

/-- `partial_cmp` over a totally ordered `T`, /repo/src/bound.rs:173-195. -/
def partialCmp (self other : UpperBound T) : Option Ordering :=
  partialCmpWith elemPartialCmp elemEq self other

theorem partialCmp_isSome (a b : UpperBound T) : (a.partialCmp b).isSome = true := by
  rcases a with ⟨a | a⟩ <;> rcases b with ⟨b | b⟩ <;>
    simp only [partialCmp, partialCmpWith, elemPartialCmp] <;> try split <;> rfl
  all_goals rfl

/-- `<UpperBound<T> as Ord>::cmp` with its `unwrap`, /repo/src/bound.rs:197-201. -/
def cmpRes (self other : UpperBound T) : Res Ordering :=
  unwrap "called `Option::unwrap()` on a `None` value" (self.partialCmp other)

/-- The value returned by `Ord::cmp`, /repo/src/bound.rs:197-201; the `unwrap` succeeds by
`partialCmp_isSome`. -/
def cmp (self other : UpperBound T) : Ordering :=
  (self.partialCmp other).get (partialCmp_isSome self other)

/-- std `Ord::max`: the second argument unless the first is greater. -/
def max (self other : UpperBound T) : UpperBound T :=
  match self.cmp other with
  | .gt => self
  | _ => other

/-- std `Ord::min`: the first argument unless it is greater. -/
def min (self other : UpperBound T) : UpperBound T :=
  match self.cmp other with
  | .gt => other
  | _ => self

end UpperBound
end Ord
end Rangetools
