import Verif.Model.AsksEq
import Verif.Spec.Asks

/-!
# In which order two values are compared by `==`

A value is written as a list of marks: which type and variant it is, how many ranges it has, and its ends in the order of the
fields.  Two values are read side by side, as long as they have the same form.
-/

namespace Rangetools
variable {S T : Type}

/-- What is written of a value. -/
inductive Mark (T : Type) where
  | variant (n : Nat)
  | len (n : Nat)
  | ends (included : Bool) (t : T)
  deriving DecidableEq, Repr

/-- A bound. -/
def Bound.mark : Bound T → Mark T
  | .excluded t => .ends false t
  | .included t => .ends true t

/-- The number of ranges, and then the ends of each. -/
def BoundedSet.marks (s : BoundedSet T) : List (Mark T) :=
  .len s.ranges.length :: s.ranges.flatMap fun r => [r.start.b.mark, r.stop.b.mark]

/-- The type of a value, and then its fields in the order of their declaration. -/
def Inner.marks : Inner T → List (Mark T)
  | .br r => [.variant 0, r.start.b.mark, r.stop.b.mark]
  | .bs s => .variant 1 :: s.marks
  | .lbr r => [.variant 2, r.start.b.mark]
  | .lbs s => .variant 3 :: s.ranges.marks ++ [s.lowerBoundedRange.start.b.mark]
  | .ubr r => [.variant 4, r.stop.b.mark]
  | .ubs s => .variant 5 :: s.upperBoundedRange.stop.b.mark :: s.ranges.marks
  | .ur => [.variant 6]
  | .us .full => [.variant 7]
  | .us (.piecewise p) =>
      .variant 8 :: p.upperBoundedRange.stop.b.mark :: p.ranges.marks ++ [p.lowerBoundedRange.start.b.mark]
  | .er => [.variant 9]

/-- Reading two lists side by side: the elements in the same places before the first difference of form, and whether there is
none. -/
def sideBySide : List (Mark T) → List (Mark T) → List (T × T) × Bool
  | [], [] => ([], true)
  | .variant m :: xs, .variant n :: ys => if m = n then sideBySide xs ys else ([], false)
  | .len m :: xs, .len n :: ys => if m = n then sideBySide xs ys else ([], false)
  | .ends i a :: xs, .ends j b :: ys =>
      if i = j then ((a, b) :: (sideBySide xs ys).1, (sideBySide xs ys).2) else ([], false)
  | _, _ => ([], false)

/-- Comparing pairs with `==`, one after the other, until one differs or the comparison panics; `same` if all are equal. -/
def World.eqAll (w : World S T) (same : Bool) : List (T × T) → S → Option (Res Bool) × List (T × T) × S
  | [], s => (some (.ok same), [], s)
  | p :: ps, s =>
      match w.test s .eq p.1 p.2 with
      | (none, s) => (none, [p], s)
      | (some false, s) => (some (.ok false), [p], s)
      | (some true, s) =>
          let r := w.eqAll same ps s
          (r.1, p :: r.2.1, r.2.2)

/-- What is written at a place, without the element. -/
def Mark.form : Mark T → Mark Unit
  | .variant n => .variant n
  | .len n => .len n
  | .ends i _ => .ends i ()

/-- The elements among marks. -/
def markedEnds (xs : List (Mark T)) : List T := xs.filterMap fun
  | .ends _ t => some t
  | _ => none

/-- The elements written in a value, in order. -/
def Inner.ends (a : Inner T) : List T := markedEnds a.marks

/-- Comparisons without side effects, of which only `==` matters. -/
def World.ofEq (eq : T → T → Bool) : World Unit T where
  test s _ a b := (some (eq a b), s)
  cmp s _ _ := (some none, s)

end Rangetools
