import Verif.Spec.Iter

/-!
# Programs that use an iterator

A schedule (`List Op`) is fixed in advance.  A program decides on its next call when it has seen the answers so far; here
it is a tree.  Adapters and loops of std are such programs.
-/

namespace Rangetools
variable {T O A R : Type}

/-- A program that makes calls `O`, sees answers `A` and ends with a result `R`. -/
inductive Client (O A R : Type) where
  | done (r : R)
  | ask (o : O) (k : A → Client O A R)

namespace Client

/-- The program on an iterator with state `σ`. -/
def run {σ : Type} (call : σ → O → Res (A × σ)) : Client O A R → σ → Res R
  | done r, _ => .ok r
  | ask o k, s => do
      let (a, s') ← call s o
      (k a).run call s'

/-- The program on a list. -/
def onList (call : List T → O → A × List T) : Client O A R → List T → R
  | done r, _ => r
  | ask o k, l => (k (call l o).1).onList call (call l o).2

/-- The calls the program makes on a list. -/
def trace (call : List T → O → A × List T) : Client O A R → List T → List O
  | done _, _ => []
  | ask o k, l => o :: (k (call l o).1).trace call (call l o).2

/-- Does something with the result. -/
def map {R' : Type} (f : R → R') : Client O A R → Client O A R'
  | done r => done (f r)
  | ask o k => ask o fun a => (k a).map f

/-- Makes the call `o` until it answers `None`, and collects the items; gives up (`none`) after `fuel` calls. -/
def drain (o : O) : Nat → Client O (Out T) (Option (List T))
  | 0 => done none
  | fuel + 1 => ask o fun
      | .item (some t) => (drain o fuel).map (Option.map (t :: ·))
      | _ => done (some [])

/-- Makes the call `o`, and if it answers with an item, goes on with `c`. -/
def andThen (o : O) (c : Client O (Out T) (Option (List T))) : Client O (Out T) (Option (List T)) :=
  ask o fun
    | .item (some t) => c.map (Option.map (t :: ·))
    | _ => done (some [])

/-- `for x in it { v.push(x) }` -/
def forLoop (fuel : Nat) : Client Op (Out T) (Option (List T)) := drain .next fuel

/-- `for x in it.rev() { v.push(x) }`: `Rev::next` is `next_back`. -/
def forRev (fuel : Nat) : Client Op (Out T) (Option (List T)) := drain .nextBack fuel

/-- `for x in it.skip(n) { v.push(x) }`: `Skip::next` calls `nth(n)` the first time if `n > 0`, and then `next`. -/
def forSkip (n fuel : Nat) : Client Op (Out T) (Option (List T)) :=
  if n = 0 then drain .next fuel else andThen (.nth n) (drain .next fuel)

/-- `for x in it.step_by(k) { v.push(x) }`, `k > 0`: `StepBy::next` calls `nth(0)` the first time, and then
`nth(k - 1)`. -/
def forStepBy (k fuel : Nat) : Client Op (Out T) (Option (List T)) :=
  andThen (.nth 0) (drain (.nth (k - 1)) fuel)

/-- `for x in it.rev().step_by(k) { v.push(x) }`: `Rev::nth` is `nth_back`. -/
def forRevStepBy (k fuel : Nat) : Client Op (Out T) (Option (List T)) :=
  andThen (.nthBack 0) (drain (.nthBack (k - 1)) fuel)

/-- `for x in it.take(n) { v.push(x) }`: `Take::next` calls `next`, but not more than `n` times. -/
def forTake (o : O) : Nat → Client O (Out T) (List T)
  | 0 => done []
  | n + 1 => ask o fun
      | .item (some t) => (forTake o n).map (t :: ·)
      | _ => done []

end Client

/-- One call on a list, for iterators that are not double-ended. -/
def listFront (l : List T) (o : FrontOp) : Out T × List T := listCall l o.toOp

/-- `r` lists every `k`-th element of `l`, beginning with the first. -/
def EveryNth (k : Nat) (l r : List T) : Prop := ∀ j, r[j]? = l[j * k]?

end Rangetools
