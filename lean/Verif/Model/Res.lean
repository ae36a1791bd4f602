/-!
# Results that may panic, and the `VecDeque`/`Option` primitives used by the crate

The Rust code has no `Result`s: a function either returns or panics.  `Res` makes the
panic an explicit value so that "never panics" is a statement and not a modelling choice.
-/

namespace Rangetools

/-- Outcome of running a Rust function: a value, or a panic with its message. -/
inductive Res (α : Type) where
  | ok (a : α)
  | panic (msg : String)
  deriving Repr, DecidableEq

namespace Res

/-- Sequencing: a panic stops the computation. -/
protected def bind {α : Type} {β : Type} (x : Res α) (f : α → Res β) : Res β :=
  match x with
  | ok a => f a
  | panic m => panic m

instance : Monad Res where
  pure := ok
  bind := Res.bind

/-- Did the computation return normally? -/
def isOk {α : Type} : Res α → Bool
  | ok _ => true
  | panic _ => false

end Res

/-- `Option::unwrap`, `Option::expect` (std). -/
def unwrap {α : Type} (msg : String) : Option α → Res α
  | some a => .ok a
  | none => .panic msg

/-- The `assert!` macro (std). -/
def assert (msg : String) (b : Bool) : Res Unit :=
  if b then .ok () else .panic msg

/-- `VecDeque` indexing `v[i]` (std): panics when out of bounds. -/
def vdIndex {α : Type} (v : List α) (i : Nat) : Res α :=
  unwrap "Out of bounds access" v[i]?

/-- `VecDeque::insert` (std): panics when the index is greater than the length. -/
def vdInsert {α : Type} (v : List α) (i : Nat) (a : α) : Res (List α) :=
  if i ≤ v.length then .ok (v.take i ++ a :: v.drop i) else .panic "index out of bounds"

end Rangetools
