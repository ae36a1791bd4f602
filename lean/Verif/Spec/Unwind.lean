import Verif.Model.Unwind
import Verif.Spec.Iter

/-!
# Driving an iterator and catching its panics

A program makes a list of moves; a move that panics is caught, and the program goes on with the iterator as the panic left
it.
-/

namespace Rangetools
variable {T : Type}

/-- The methods that take `&mut self`. -/
inductive Move where
  | next
  | nextBack
  | nth (n : Nat)
  | nthBack (n : Nat)
  deriving DecidableEq, Repr

/-- The call takes from the front. -/
def Move.isFront : Move → Bool
  | .next | .nth _ => true
  | _ => false

/-- The argument of the call. -/
def Move.arg : Move → Nat
  | .nth n | .nthBack n => n
  | _ => 0

/-- All moves in turn, whether or not they panic: what each returned, and the last state. -/
def caught {σ : Type} (call : σ → Move → Res (Option T) × σ) : σ → List Move → List (Move × Res (Option T)) × σ
  | s, [] => ([], s)
  | s, m :: ms =>
      let r := call s m
      let rs := caught call r.2 ms
      ((m, r.1) :: rs.1, rs.2)

/-- The elements a program has got at the front, in order. -/
def fronts : List (Move × Res (Option T)) → List T
  | [] => []
  | (m, .ok (some t)) :: rs => if m.isFront then t :: fronts rs else fronts rs
  | _ :: rs => fronts rs

/-- The elements a program has got at the back, in order. -/
def backs : List (Move × Res (Option T)) → List T
  | [] => []
  | (m, .ok (some t)) :: rs => if m.isFront then backs rs else t :: backs rs
  | _ :: rs => backs rs

/-- All elements, those from the back in reverse: in increasing order if each comes from its end and none comes twice. -/
def delivered (rs : List (Move × Res (Option T))) : List T := fronts rs ++ (backs rs).reverse

/-- An element that was left (`R`) before a call with the outcome and state `r`, is not left after it, and was not given to the
caller. -/
def Lost {σ : Type} (R : σ → T → Prop) (s : σ) (r : Res (Option T) × σ) (t : T) : Prop :=
  R s t ∧ ¬R r.2 t ∧ r.1 ≠ .ok (some t)

/-- What a program that started with the elements `P` may have lost after the moves `ms`: of the elements neither given to it
nor left, there are no more than the arguments of its `nth` and `nth_back` calls add up to; and whatever the next move loses
lies before all the move returns or leaves, if it takes from the front, and behind it, if it takes from the back. -/
structure LosesOnlySkipped [LT T] {σ : Type} (p : Platform) (R : σ → T → Prop) (call : σ → Move → Res (Option T) × σ)
    (P : T → Bool) (s : σ) (ms : List Move) : Prop where
  count : ∀ l : List T, l.Nodup →
    (∀ t ∈ l, P t = true ∧ t ∉ delivered (caught call s ms).1 ∧ ¬R (caught call s ms).2 t) → l.length ≤ (ms.map Move.arg).sum
  side : ∀ m : Move, m.arg < p.usizeCount → ∀ t, Lost R (caught call s ms).2 (call (caught call s ms).2 m) t →
    ∀ u, (R (call (caught call s ms).2 m).2 u ∨ (call (caught call s ms).2 m).1 = .ok (some u)) →
      if m.isFront then t < u else u < t

section
variable [LinearOrder T]

/-- The method of `BoundedRangeIter` named by the move. -/
def BoundedRangeIter.move (S : Step T) (it : BoundedRangeIter T) : Move → Res (Option T) × BoundedRangeIter T
  | .next => it.nextU S
  | .nextBack => it.nextBackU S
  | .nth n => it.nthU S n
  | .nthBack n => it.nthBackU S n

/-- The method of `BoundedSetIter` named by the move. -/
def BoundedSetIter.move (p : Platform) (S : Step T) (it : BoundedSetIter T) : Move → Res (Option T) × BoundedSetIter T
  | .next => it.nextU p S
  | .nextBack => it.nextBackU p S
  | .nth n => it.nthU p S n
  | .nthBack n => it.nthBackU p S n

/-- The method of `LowerBoundedSetIter` named by the move; it has none at the back. -/
def LowerBoundedSetIter.move (p : Platform) (S : Step T) (it : LowerBoundedSetIter T) :
    Move → Res (Option T) × LowerBoundedSetIter T
  | .next => it.nextU p S
  | .nth n => it.nthU p S n
  | _ => (.ok none, it)

/-- What is left: the values from `current` to `last`. -/
def BoundedRangeIter.Left (it : BoundedRangeIter T) (t : T) : Prop := it.current ≤ t ∧ t ≤ it.last

/-- What is left of any of the ranges. -/
def BoundedSetIter.Left (it : BoundedSetIter T) (t : T) : Prop := ∃ i ∈ it.rangeIters, i.Left t

/-- What is left: everything from `current` on. -/
def LowerBoundedRangeIter.Left (it : LowerBoundedRangeIter T) (t : T) : Prop := it.current ≤ t

/-- What is left of the pieces or of the half-line. -/
def LowerBoundedSetIter.Left (it : LowerBoundedSetIter T) (t : T) : Prop := it.setIter.Left t ∨ it.rangeIter.Left t

end

/-- The method of `LowerBoundedRangeIter` named by the move; it has none at the back. -/
def LowerBoundedRangeIter.move (S : Step T) (it : LowerBoundedRangeIter T) : Move → Res (Option T) × LowerBoundedRangeIter T
  | .next => it.nextU S
  | .nth n => it.nthU S n
  | _ => (.ok none, it)

end Rangetools
