import Verif.Spec.Region

/-!
# What membership can tell apart

A context is an expression with holes.  Two values are told apart if some context, filled with one and with the
other, evaluates to values with different members.
-/

namespace Rangetools
variable {T : Type}

/-- An expression with any number of holes. -/
inductive Ctx (T : Type) where
  | hole
  | leaf (a : Any T)
  | toInner (c : Ctx T)
  | toSet (c : Ctx T)
  | union (c d : Ctx T)
  | inter (c d : Ctx T)
  | complement (c : Ctx T)

/-- Put `e` in the holes. -/
def Ctx.fill (e : Expr T) : Ctx T → Expr T
  | .hole => e
  | .leaf a => .leaf a
  | .toInner c => .toInner (c.fill e)
  | .toSet c => .toSet (c.fill e)
  | .union c d => .union (c.fill e) (d.fill e)
  | .inter c d => .inter (c.fill e) (d.fill e)
  | .complement c => .complement (c.fill e)

/-- The leaves satisfy `P`. -/
def Ctx.AllLeaves (P : Any T → Prop) : Ctx T → Prop
  | .hole => True
  | .leaf a => P a
  | .toInner c => c.AllLeaves P
  | .toSet c => c.AllLeaves P
  | .union c d => c.AllLeaves P ∧ d.AllLeaves P
  | .inter c d => c.AllLeaves P ∧ d.AllLeaves P
  | .complement c => c.AllLeaves P

variable [LinearOrder T]

/-- No context gives the two values different members. -/
def Indistinguishable (a b : Any T) : Prop :=
  ∀ c : Ctx T, c.AllLeaves (fun a => a.toInner.Normal) → c.AllLeaves Any.Fresh →
    ∀ v w, (c.fill (.leaf a)).eval = .ok v → (c.fill (.leaf b)).eval = .ok w → ∀ t, v.contains t = w.contains t

/-- All spots but the two to the left of a least element. -/
def Visible (p : Spot T) : Prop := ¬(IsMin (ofLex p).1 ∧ (ofLex p).2 ≤ 1)

/-- Bounded on both sides: a `BoundedRange` or a `BoundedSet`. -/
def Bounded (k : Option Shape) : Prop := ∃ s, k = some ⟨s, true, true⟩

/-- The same type, the same visible spots inside and outside; except that a `BoundedRange` and a `BoundedSet` may
stand for each other if nothing is inside and everything outside. -/
structure Region.Same (a b : Region T) : Prop where
  inside : ∀ p, Visible p → (p ∈ a.inside ↔ p ∈ b.inside)
  outside : ∀ p, Visible p → (p ∈ a.outside ↔ p ∈ b.outside)
  shape : a.shape = b.shape ∨ Bounded a.shape ∧ Bounded b.shape ∧ ∀ p, Visible p → p ∉ a.inside ∧ p ∈ a.outside

end Rangetools
