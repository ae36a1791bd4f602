import Verif.Model.Asks
import Verif.Spec.Map

/-!
# What happens when a program that compares is run

The surroundings of a comparison are any state `S`; a comparison may read and change it, and may panic.
-/

namespace Rangetools
variable {S T α : Type}

/-- An implementation of the comparison operators and of `partial_cmp` with side effects on a state `S`.  `none` stands for
a panic inside the comparison. -/
structure World (S T : Type) where
  test : S → Test → T → T → Option Bool × S
  cmp : S → T → T → Option (Option Ordering) × S

/-- Run a program: its outcome (`none` if a comparison panicked), the pairs compared in order, and the state left behind. -/
def Asks.exec (w : World S T) : Asks T α → S → Option (Res α) × List (T × T) × S
  | .done a, s => (some (.ok a), [], s)
  | .panic m, s => (some (.panic m), [], s)
  | .test q a b k, s =>
      match w.test s q a b with
      | (none, s) => (none, [(a, b)], s)
      | (some r, s) =>
          match (k r).exec w s with
          | (o, l, s) => (o, (a, b) :: l, s)
  | .cmp a b k, s =>
      match w.cmp s a b with
      | (none, s) => (none, [(a, b)], s)
      | (some r, s) =>
          match (k r).exec w s with
          | (o, l, s) => (o, (a, b) :: l, s)

/-- What an operator answers in a linear order. -/
def Test.holds [LinearOrder T] (q : Test) (a b : T) : Bool :=
  match q with
  | .lt => decide (a < b)
  | .le => decide (a ≤ b)
  | .gt => decide (b < a)
  | .ge => decide (b ≤ a)
  | .eq => decide (a = b)

/-- Every comparison answers what the linear order says, or panics.  What else it does is left open. -/
def World.Truthful [LinearOrder T] (w : World S T) : Prop :=
  (∀ s q a b, (w.test s q a b).1 = none ∨ (w.test s q a b).1 = some (q.holds a b)) ∧
  (∀ s a b, (w.cmp s a b).1 = none ∨ (w.cmp s a b).1 = some (some (compare a b)))

/-- No comparison panics. -/
def World.Returns (w : World S T) : Prop :=
  (∀ s q a b, (w.test s q a b).1 ≠ none) ∧ (∀ s a b, (w.cmp s a b).1 ≠ none)

/-- `partial_cmp` never answers `None`, as the documentation of `Ord` asks. -/
def World.Total (w : World S T) : Prop := ∀ s a b, (w.cmp s a b).1 ≠ some none

/-- The assertion of `BoundedRange::combine`, /repo/src/bounded_range.rs:147. -/
def assertMessage : String := "assertion failed: self.intersects(*other)"

/-- `partial_cmp(..).unwrap()`, /repo/src/bound.rs:98 and 199. -/
def unwrapMessage : String := "called `Option::unwrap()` on a `None` value"

/-- The only ways in which the code itself may panic: the assertion of `combine`, or – when `max` and `min` go through `cmp` –
the `unwrap` of a `partial_cmp` that answered `None`. -/
def World.MayPanic (w : World S T) (m : MaxVia) (msg : String) : Prop :=
  msg = assertMessage ∨ (msg = unwrapMessage ∧ m = .cmp ∧ ¬ w.Total)

/-- The comparisons of the instances, without side effects.  No law is assumed. -/
def World.ofInstances [LE T] [LT T] [DecidableLE T] [DecidableLT T] [Ord T] [BEq T] : World Unit T where
  test s q a b :=
    (some (match q with
      | .lt => decide (a < b)
      | .le => decide (a ≤ b)
      | .gt => decide (b < a)
      | .ge => decide (b ≤ a)
      | .eq => a == b), s)
  cmp s a b := (some (some (compare a b)), s)

/-- Comparisons that ignore what they compare and read their answers from a list. -/
def World.script : World (List (Bool × Ordering)) T where
  test s _ _ _ := (some (s.head?.elim false Prod.fst), s.tail)
  cmp s _ _ := (some (some (s.head?.elim .eq Prod.snd)), s.tail)

/-- A `partial_cmp` that always answers `None`, and operators that always answer `false`. -/
def World.partial : World Unit T where
  test s _ _ _ := (some false, s)
  cmp s _ _ := (some none, s)

/-- The number of bounded pieces written in a value. -/
def Any.pieces : Any T → Nat
  | .range _ => 1
  | .rangeInclusive _ => 1
  | .inner (.br _) => 1
  | .inner (.bs s) => s.ranges.length
  | .inner (.lbs s) => s.ranges.ranges.length
  | .inner (.ubs s) => s.ranges.ranges.length
  | .inner (.us (.piecewise p)) => p.ranges.ranges.length
  | _ => 0

end Rangetools
