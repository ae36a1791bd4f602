import Verif.Spec.Unwind

/-!
# What order alone asks of a `Step` implementation

`LawfulStep` says which value each step reaches.  Far less is needed for the iterators to deliver elements of the
collection, in order and once: a step that returns must go in the right direction.
-/

namespace Rangetools
variable {T : Type} [LinearOrder T]

/-- Steps that return go up (`forward`) or down (`backward`), a single step strictly.  Nothing is said about how far they
go, about when they panic, or about `steps_between`. -/
structure Step.Climbs (p : Platform) (S : Step T) : Prop where
  forward_le : ∀ a n b, n < p.usizeCount → S.forward a n = .ok b → a ≤ b
  forward_lt : ∀ a b, S.forward a 1 = .ok b → a < b
  backward_le : ∀ a n b, n < p.usizeCount → S.backward a n = .ok b → b ≤ a
  backward_lt : ∀ a b, S.backward a 1 = .ok b → b < a

/-- `steps_between` never promises a step that leads past the end. -/
structure Step.Promises (p : Platform) (S : Step T) : Prop where
  le : ∀ a b k, S.stepsBetween a b = .ok (some k) → a ≤ b
  forward : ∀ a b k n c, n < p.usizeCount → S.stepsBetween a b = .ok (some k) → n ≤ k → S.forward a n = .ok c → c ≤ b

end Rangetools
