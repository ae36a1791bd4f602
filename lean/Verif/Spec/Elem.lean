import Mathlib.Order.Defs.LinearOrder

/-!
# Lawful element types

What Rust's documentation of `Ord` asks of an implementation, without asking that `==` be identity: elements
may compare equal and still be told apart (a case-insensitive string, a record ordered by one field).
-/

namespace Rangetools

/-- `<=`, `<`, `cmp` and `==` agree and `<=` is total and transitive. -/
class LawfulElem (T : Type) [LE T] [LT T] [DecidableLE T] [DecidableLT T] [Ord T] [BEq T] : Prop where
  total (a b : T) : a ≤ b ∨ b ≤ a
  trans (a b c : T) : a ≤ b → b ≤ c → a ≤ c
  lt_iff (a b : T) : a < b ↔ ¬ b ≤ a
  cmp_lt (a b : T) : compare a b = .lt ↔ a < b
  cmp_gt (a b : T) : compare a b = .gt ↔ b < a
  beq_iff (a b : T) : (a == b) = true ↔ a ≤ b ∧ b ≤ a

end Rangetools
