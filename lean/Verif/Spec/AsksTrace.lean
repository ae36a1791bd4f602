import Verif.Spec.AsksOrder

/-!
# Which questions are asked, and in which order
-/

namespace Rangetools
variable {S T α : Type}

/-- A question put to the element type. -/
inductive Question (T : Type) where
  /-- `a < b` and the like -/
  | test (q : Test) (a b : T)
  /-- `a.partial_cmp(&b)` -/
  | cmp (a b : T)
  deriving DecidableEq, Repr

/-- The two elements of a question. -/
def Question.pair : Question T → T × T
  | test _ a b => (a, b)
  | cmp a b => (a, b)

/-- The same comparisons, with a record of the questions in the order in which they are asked. -/
def World.recording (w : World S T) : World (S × List (Question T)) T where
  test s q a b := ((w.test s.1 q a b).1, (w.test s.1 q a b).2, s.2 ++ [.test q a b])
  cmp s a b := ((w.cmp s.1 a b).1, (w.cmp s.1 a b).2, s.2 ++ [.cmp a b])

/-- The record after running a program. -/
def Asks.asked (w : World S T) (x : Asks T α) (s : S) : List (Question T) := (x.exec w.recording (s, [])).2.2.2

section
variable [LinearOrder T]

/-- Comparisons that answer what the linear order says, whatever else they do, are asked exactly `qs`, in this order; if one of
them panics, a beginning of `qs`. -/
def Asks.Poses (x : Asks T α) (qs : List (Question T)) : Prop :=
  ∀ (S : Type) (w : World S T) (s : S), w.Truthful →
    x.asked w s <+: qs ∧ ((x.exec w s).1 ≠ none → x.asked w s = qs)

/-- The questions asked when every answer is that of the linear order and no comparison panics. -/
def Asks.trail : Asks T α → List (Question T)
  | .done _ => []
  | .panic _ => []
  | .test q a b k => .test q a b :: (k (q.holds a b)).trail
  | .cmp a b k => .cmp a b :: (k (some (compare a b))).trail

/-! ### Bounds -/

/-- Whether two bounds are both included or both excluded. -/
def Bound.sameKind : Bound T → Bound T → Bool
  | .included _, .included _ => true
  | .excluded _, .excluded _ => true
  | _, _ => false

/-- Whether the element belongs to the bound. -/
def Bound.isIncluded : Bound T → Bool
  | .included _ => true
  | .excluded _ => false

/-- To order two bounds: their elements are ordered; if the kinds differ, they are first tested for equality. -/
def Bound.orderQs (a b : Bound T) : List (Question T) :=
  if a.sameKind b then [.cmp a.value b.value]
  else .test .eq a.value b.value :: if a.value = b.value then [] else [.cmp a.value b.value]

/-- To find the greater or the lesser of two bounds: `a.cmp(&b)`, or `b < a`. -/
def MaxVia.pickQs (m : MaxVia) (a b : Bound T) : List (Question T) :=
  match m with
  | .cmp => a.orderQs b
  | .lt => b.orderQs a

/-- Of two starts the one that begins later: the greater element, or the excluded one. -/
def Bound.laterStart (a b : Bound T) : Bound T :=
  if a.value < b.value then b else if b.value < a.value then a else
    match b with | .excluded _ => b | .included _ => a

/-- Of two starts the one that begins earlier. -/
def Bound.earlierStart (a b : Bound T) : Bound T :=
  if a.value < b.value then a else if b.value < a.value then b else
    match b with | .excluded _ => a | .included _ => b

/-- Whether the start `a` begins after the start `b`. -/
def Bound.startsAfter (a b : Bound T) : Bool :=
  decide (b.value < a.value) || (decide (a.value = b.value) && !a.isIncluded && b.isIncluded)

/-- Of two ends the one that ends earlier: the lesser element, or the excluded one. -/
def Bound.earlierStop (a b : Bound T) : Bound T :=
  if a.value < b.value then a else if b.value < a.value then b else
    match b with | .excluded _ => b | .included _ => a

/-- Of two ends the one that ends later. -/
def Bound.laterStop (a b : Bound T) : Bound T :=
  if a.value < b.value then b else if b.value < a.value then a else
    match b with | .excluded _ => a | .included _ => b

/-! ### Ranges -/

/-- To find out whether a range is empty: `start > end` if both ends are included, else `start >= end`. -/
def BoundedRange.emptyQ (r : BoundedRange T) : Question T :=
  match r.start.b, r.stop.b with
  | .included a, .included b => .test .gt a b
  | a, b => .test .ge a.value b.value

/-- Empty: the end lies before the start, or at the start and one of them is excluded. -/
def BoundedRange.Hollow (r : BoundedRange T) : Prop :=
  r.stop.b.value < r.start.b.value ∨
    (r.stop.b.value = r.start.b.value ∧ ¬ (r.start.b.isIncluded ∧ r.stop.b.isIncluded))

instance (r : BoundedRange T) : Decidable r.Hollow := by unfold BoundedRange.Hollow; infer_instance

/-- What two ranges have in common. -/
def BoundedRange.common (p r : BoundedRange T) : BoundedRange T :=
  ⟨⟨p.start.b.laterStart r.start.b⟩, ⟨p.stop.b.earlierStop r.stop.b⟩⟩

/-- The range from the earlier start to the later end. -/
def BoundedRange.hull (p r : BoundedRange T) : BoundedRange T :=
  ⟨⟨p.start.b.earlierStart r.start.b⟩, ⟨p.stop.b.laterStop r.stop.b⟩⟩

/-- Starts first, then ends. -/
def BoundedRange.endsQs (m : MaxVia) (p r : BoundedRange T) : List (Question T) :=
  m.pickQs p.start.b r.start.b ++ m.pickQs p.stop.b r.stop.b

/-- To find out whether two ranges overlap: the starts, the ends, and whether what is common is empty. -/
def BoundedRange.overlapQs (m : MaxVia) (p r : BoundedRange T) : List (Question T) :=
  p.endsQs m r ++ [(p.common r).emptyQ]

/-- To merge `r` with a range `p` that overlaps it: is `p` empty, is `r`, do they overlap; then the starts and the ends. -/
def BoundedRange.mergeQs (m : MaxVia) (r p : BoundedRange T) : List (Question T) :=
  p.emptyQ :: r.emptyQ :: (r.overlapQs m p ++ r.endsQs m p)

/-! ### Ranges and half-lines -/

/-- What a range has in common with a half-line that has a start. -/
def BoundedRange.commonFrom (p : BoundedRange T) (l : LowerBoundedRange T) : BoundedRange T :=
  ⟨⟨p.start.b.laterStart l.start.b⟩, p.stop⟩

/-- What a range has in common with a half-line that has an end. -/
def BoundedRange.commonTo (p : BoundedRange T) (u : UpperBoundedRange T) : BoundedRange T :=
  ⟨p.start, ⟨p.stop.b.earlierStop u.stop.b⟩⟩

/-- To find out whether a range meets a half-line: the starts, and whether what is common is empty. -/
def BoundedRange.fromQs (m : MaxVia) (p : BoundedRange T) (l : LowerBoundedRange T) : List (Question T) :=
  m.pickQs p.start.b l.start.b ++ [(p.commonFrom l).emptyQ]

/-- To find out whether a range meets a half-line: the ends, and whether what is common is empty. -/
def BoundedRange.toQs (m : MaxVia) (p : BoundedRange T) (u : UpperBoundedRange T) : List (Question T) :=
  m.pickQs p.stop.b u.stop.b ++ [(p.commonTo u).emptyQ]

/-- To find out whether a set is empty: its ranges in order, up to the first that is not. -/
def BoundedSet.emptyQs (s : BoundedSet T) : List (Question T) :=
  (upToFirst (fun r => !decide r.Hollow) s.ranges).map BoundedRange.emptyQ

end
/-- The questions of a loop: what each turn asks, given what the turns before it have made, until one of them panics. -/
def loopQs {T α β : Type} (qs : β → α → List (Question T)) (next : β → α → Res β) : β → List α → List (Question T)
  | _, [] => []
  | b, x :: l => qs b x ++ match next b x with
      | .ok b' => loopQs qs next b' l
      | .panic _ => []

end Rangetools
