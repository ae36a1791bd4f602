import Verif.Model.AnyIter
import Verif.Spec.Algebra

/-!
# What it is to iterate over a value
-/

namespace Rangetools
variable {T : Type} [LinearOrder T]

/-- `n` calls of `next`. -/
def AnyIter.nexts (p : Platform) (S : Step T) : AnyIter T → Nat → Res (List (Option T) × AnyIter T)
  | it, 0 => .ok ([], it)
  | it, n + 1 => do
      let (t, it) ← it.next p S
      let (ts, it) ← it.nexts p S n
      return (t :: ts, it)

/-- `into_iter` turns excluded bounds into included ones.  The neighbours it needs exist: above an excluded start, below
an excluded end.  (The pieces of a set are not empty, so theirs do.) -/
def Any.CanStart : Any T → Prop
  | .inner (.br r) =>
      (∀ a, r.start.b = .excluded a → ∃ t, a < t) ∧ ∀ b, r.stop.b = .excluded b → ∃ t, t < b
  | .inner (.lbr r) => ∀ a, r.start.b = .excluded a → ∃ t, a < t
  | .inner (.lbs s) => ∀ a, s.lowerBoundedRange.start.b = .excluded a → ∃ t, a < t
  | _ => True

/-- `f` is an iteration over the elements with `P`: in increasing order, all of them, each once, and nothing after the
end. -/
structure Iteration (f : Nat → Option T) (P : T → Bool) : Prop where
  sound : ∀ n t, f n = some t → P t = true
  complete : ∀ t, P t = true → ∃ n, f n = some t
  increasing : ∀ n m s t, n < m → f n = some s → f m = some t → s < t
  ended : ∀ n, f n = none → f (n + 1) = none

end Rangetools
