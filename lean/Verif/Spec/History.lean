import Verif.Spec.Algebra
import Verif.Spec.Ty
import Verif.Model.Iter

/-!
# A set that a program keeps changing

The crate has no mutating operations.  A program that wants to insert into a set writes `s = s.union(r)`, and to remove,
`s = s.intersection(r.complement())`.  For bounded `r` the type of `s` does not change, so this works in a loop.
-/

namespace Rangetools
variable {T : Type}

/-- One change: `add` says whether `arg` is inserted or removed. -/
structure Write (T : Type) where
  add : Bool
  ty : Ty
  arg : ty.Val T

namespace Write
variable [LinearOrder T]

/-- `s.union(arg)` or `s.intersection(arg.complement())`. -/
def run (w : Write T) (s : Any T) : Res (Any T) :=
  if w.add then s.union (w.ty.embed w.arg)
  else do
    let c ← (w.ty.embed w.arg).complement
    return .inner (← s.inter (.inner c))

/-- The change is about `t`. -/
def touches (t : T) (w : Write T) : Bool := w.ty.contains w.arg t

/-- All changes in turn. -/
def runAll : List (Write T) → Any T → Res (Any T)
  | [], s => .ok s
  | w :: ws, s => do runAll ws (← w.run s)

/-- Whether `t` is in a collection after the changes, if it was in it at first or not: the last change about `t` decides. -/
def lastWord (ws : List (Write T)) (t : T) (first : Bool) : Bool :=
  match (ws.filter (touches t)).getLast? with
  | some w => w.add
  | none => first

/-- The operand may be one of these types without the set changing its type. -/
def Spot (w : Write T) : Prop := w.ty ∈ [Ty.range, .rangeInclusive, .br, .bs, .er]

end Write

/-- The four set types. -/
def Ty.IsSet (a : Ty) : Prop := a ∈ [Ty.bs, .lbs, .ubs, .us]

/-! ### Taking the least element, again and again -/

variable [LinearOrder T]

/-- `let x = s.clone().into_iter().next()`, and if there is one, `s = s.intersection((x..=x).complement())`. -/
def takeLeast (p : Platform) (S : Step T) (s : BoundedSet T) : Res (Option T × Any T) := do
  let it ← s.intoIter S
  match (← it.next p S).1 with
  | none => return (none, .inner (.bs s))
  | some x => return (some x, ← Write.run ⟨false, .rangeInclusive, ⟨x, x, false⟩⟩ (.inner (.bs s)))

/-- `n` times, or until the set is exhausted. -/
def takeMany (p : Platform) (S : Step T) : Nat → Any T → Res (List T × Any T)
  | n + 1, .inner (.bs s) => do
      match ← takeLeast p S s with
      | (none, s) => return ([], s)
      | (some x, s) =>
          let (xs, s) ← takeMany p S n s
          return (x :: xs, s)
  | _, s => .ok ([], s)

end Rangetools
