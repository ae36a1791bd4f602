import Mathlib.Order.Defs.LinearOrder

/-!
# Definable sets

What can be said about an element by comparing it with finitely many others.
-/

namespace Rangetools
variable {T : Type} [LinearOrder T]

/-- The Boolean combinations of half-lines. -/
inductive Definable : (T → Prop) → Prop
  | all : Definable (fun _ => True)
  | less (a : T) : Definable (fun t => t < a)
  | atMost (a : T) : Definable (fun t => t ≤ a)
  | or {P Q : T → Prop} : Definable P → Definable Q → Definable (fun t => P t ∨ Q t)
  | not {P : T → Prop} : Definable P → Definable (fun t => ¬ P t)

/-- No gaps. -/
def Convex (P : T → Prop) : Prop := ∀ ⦃a t b⦄, P a → P b → a ≤ t → t ≤ b → P t

/-- Everything above a member is a member. -/
def UpClosed (P : T → Prop) : Prop := ∀ ⦃a t⦄, P a → a ≤ t → P t

/-- Everything below a member is a member. -/
def DownClosed (P : T → Prop) : Prop := ∀ ⦃a t⦄, P a → t ≤ a → P t

/-- Nothing is smaller than some fixed element. -/
def HasFloor (P : T → Prop) : Prop := ∃ lo, ∀ t, P t → lo ≤ t

/-- Nothing is greater than some fixed element. -/
def HasCeiling (P : T → Prop) : Prop := ∃ hi, ∀ t, P t → t ≤ hi

/-- Everything is in from some point on. -/
def Eventually (P : T → Prop) : Prop := ∃ a, ∀ t, a < t → P t

/-- Everything is in up to some point. -/
def Initially (P : T → Prop) : Prop := ∃ a, ∀ t, t < a → P t

end Rangetools
