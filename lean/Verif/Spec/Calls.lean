import Verif.Model.Calls
import Verif.Spec.Unwind

/-!
# What a program that calls `Step` and compares may do
-/

namespace Rangetools
variable {T α σ : Type}

/-- A call of a method of `Step`, or of `>`. -/
inductive StepCall (T : Type) where
  | between (a b : T)
  | forward (a : T) (n : Nat)
  | backward (a : T) (n : Nat)
  | greater (a b : T)
  deriving DecidableEq, Repr

/-- The call asks for a distance. -/
def StepCall.asks : StepCall T → Bool
  | .between _ _ => true
  | _ => false

/-- The call compares. -/
def StepCall.compares : StepCall T → Bool
  | .greater _ _ => true
  | _ => false

/-- How many calls ask for a distance. -/
def asksIn (cs : List (StepCall T)) : Nat := cs.countP StepCall.asks

/-- How many calls step. -/
def stepsIn (cs : List (StepCall T)) : Nat := cs.countP fun c => !c.asks && !c.compares

/-- How many calls compare. -/
def comparesIn (cs : List (StepCall T)) : Nat := cs.countP StepCall.compares

/-- How many steps a move may take on one range: `nth(n)` takes `n` at once and then one more. -/
def Move.steps : Move → Nat
  | .next | .nextBack => 1
  | _ => 2

/-- Which answers a `Step` implementation and a `>` may give. -/
structure Answers (T : Type) where
  between : T → T → Res (Option Nat) → Prop
  forward : T → Nat → Res T → Prop
  backward : T → Nat → Res T → Prop
  greater : T → T → Res Bool → Prop

/-- A `Step` implementation and a `>` with side effects: each may change a state that all of them share. -/
structure Effects (σ T : Type) where
  stepsBetween : T → T → σ → Res (Option Nat) × σ
  forward : T → Nat → σ → Res T × σ
  backward : T → Nat → σ → Res T × σ
  greater : T → T → σ → Res Bool × σ

/-- The program with this implementation. -/
def Calls.exec (E : Effects σ T) : Calls T α → σ → α × σ
  | .done a, s => (a, s)
  | .between a b k, s => (k (E.stepsBetween a b s).1).exec E (E.stepsBetween a b s).2
  | .forward a n k, s => (k (E.forward a n s).1).exec E (E.forward a n s).2
  | .backward a n k, s => (k (E.backward a n s).1).exec E (E.backward a n s).2
  | .greater a b k, s => (k (E.greater a b s).1).exec E (E.greater a b s).2

/-- The calls it makes then. -/
def Calls.trace (E : Effects σ T) : Calls T α → σ → List (StepCall T)
  | .done _, _ => []
  | .between a b k, s => .between a b :: (k (E.stepsBetween a b s).1).trace E (E.stepsBetween a b s).2
  | .forward a n k, s => .forward a n :: (k (E.forward a n s).1).trace E (E.forward a n s).2
  | .backward a n k, s => .backward a n :: (k (E.backward a n s).1).trace E (E.backward a n s).2
  | .greater a b k, s => .greater a b :: (k (E.greater a b s).1).trace E (E.greater a b s).2

/-- An implementation without side effects, and the `>` of an order. -/
def Step.effects [LinearOrder T] (S : Step T) : Effects Unit T :=
  ⟨fun a b s => (S.stepsBetween a b, s), fun a n s => (S.forward a n, s), fun a n s => (S.backward a n, s),
    fun a b s => (.ok (decide (a > b)), s)⟩

/-- All answers it gives in any state. -/
def Effects.answers (E : Effects σ T) : Answers T :=
  ⟨fun a b r => ∃ s, r = (E.stepsBetween a b s).1, fun a n r => ∃ s, r = (E.forward a n s).1,
    fun a n r => ∃ s, r = (E.backward a n s).1, fun a b r => ∃ s, r = (E.greater a b s).1⟩

/-- How many ends of the range are excluded. -/
def BoundedRange.openEnds (r : BoundedRange T) : Nat :=
  (match r.start.b with | .excluded _ => 1 | .included _ => 0) + match r.stop.b with | .excluded _ => 1 | .included _ => 0

/-- The same of a half-line. -/
def LowerBoundedRange.openEnds (r : LowerBoundedRange T) : Nat :=
  match r.start.b with | .excluded _ => 1 | .included _ => 0

/-- All moves in turn, whether or not they panic, as `caught` in `Spec/Unwind.lean`. -/
def caughtC {τ : Type} (call : τ → Move → Calls T (Res (Option T) × τ)) :
    τ → List Move → Calls T (List (Move × Res (Option T)) × τ)
  | s, [] => .done ([], s)
  | s, m :: ms => do
      let r ← call s m
      let rs ← caughtC call r.2 ms
      return ((m, r.1) :: rs.1, rs.2)

/-- The method of `BoundedRangeIter` named by the move. -/
def BoundedRangeIter.moveC (it : BoundedRangeIter T) : Move → Calls T (Res (Option T) × BoundedRangeIter T)
  | .next => it.nextC
  | .nextBack => it.nextBackC
  | .nth n => it.nthC n
  | .nthBack n => it.nthBackC n

/-- The method of `BoundedSetIter` named by the move. -/
def BoundedSetIter.moveC (p : Platform) (it : BoundedSetIter T) : Move → Calls T (Res (Option T) × BoundedSetIter T)
  | .next => it.nextC p
  | .nextBack => it.nextBackC p
  | .nth n => it.nthC p n
  | .nthBack n => it.nthBackC p n

/-- The method of `LowerBoundedSetIter` named by the move; it has none at the back. -/
def LowerBoundedSetIter.moveC (p : Platform) (it : LowerBoundedSetIter T) :
    Move → Calls T (Res (Option T) × LowerBoundedSetIter T)
  | .next => it.nextC p
  | .nth n => it.nthC p n
  | _ => .done (.ok none, it)

/-- The method of `LowerBoundedRangeIter` named by the move; it has none at the back. -/
def LowerBoundedRangeIter.moveC (it : LowerBoundedRangeIter T) : Move → Calls T (Res (Option T) × LowerBoundedRangeIter T)
  | .next => it.nextC
  | .nth n => it.nthC n
  | _ => .done (.ok none, it)

/-! ### Steps that go in the right direction -/

variable [LinearOrder T]

/-- As `Step.Climbs` in `Spec/Climb.lean`, of answers; and what is said not to be greater is not. -/
structure Answers.Climbs (p : Platform) (A : Answers T) : Prop where
  forward_le : ∀ a n b, n < p.usizeCount → A.forward a n (.ok b) → a ≤ b
  forward_lt : ∀ a b, A.forward a 1 (.ok b) → a < b
  backward_le : ∀ a n b, n < p.usizeCount → A.backward a n (.ok b) → b ≤ a
  backward_lt : ∀ a b, A.backward a 1 (.ok b) → b < a
  not_greater : ∀ a b, A.greater a b (.ok false) → a ≤ b

/-- As `Step.Promises` in `Spec/Climb.lean`, of answers; and what is said to be greater is. -/
structure Answers.Promises (p : Platform) (A : Answers T) : Prop where
  le : ∀ a b k, A.between a b (.ok (some k)) → a ≤ b
  forward : ∀ a b k n c, n < p.usizeCount → A.between a b (.ok (some k)) → n ≤ k → A.forward a n (.ok c) → c ≤ b
  greater : ∀ a b, A.greater a b (.ok true) → b < a

end Rangetools
