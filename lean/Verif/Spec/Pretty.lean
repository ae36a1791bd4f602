import Verif.Model.Debug

/-!
# The layout of `{:#?}`, line by line

Every line has a depth and a text without indentation.  A value that takes several lines begins behind the text `pre` that
stands on the same line, and its last line is followed by `post`; nothing here adds indentation to text that is already there.
-/

namespace Rangetools
variable {T : Type}

/-- The lines as text: four spaces for each level, and the end of the line. -/
def block (ls : List (Nat × List Char)) : List Char :=
  (ls.map fun l => List.replicate (4 * l.1) ' ' ++ l.2 ++ ['\n']).flatten

/-- The lines of a value at depth `d`, between `pre` and `post`. -/
abbrev Layout := (d : Nat) → (pre post : List Char) → List (Nat × List Char)

/-- A text on one line. -/
def Layout.word (t : List Char) : Layout := fun d pre post => [(d, pre ++ t ++ post)]

/-- Parentheses around a value that stands one level deeper. -/
def Layout.tuple (name : List Char) (v : Layout) : Layout := fun d pre post =>
  [(d, pre ++ name ++ ['('])] ++ v (d + 1) [] [','] ++ [(d, [')'] ++ post)]

/-- Braces around fields that stand one level deeper. -/
def Layout.struct (name : String) (fs : List (String × Layout)) : Layout := fun d pre post =>
  [(d, pre ++ name.toList ++ [' ', '{'])] ++ (fs.map fun f => f.2 (d + 1) (f.1.toList ++ [':', ' ']) [',']).flatten ++
    [(d, ['}'] ++ post)]

/-- Brackets around values that stand one level deeper; on one line if there is none. -/
def Layout.list (vs : List Layout) : Layout := fun d pre post =>
  if vs.isEmpty then [(d, pre ++ ['[', ']'] ++ post)]
  else [(d, pre ++ ['['])] ++ (vs.map fun v => v (d + 1) [] [',']).flatten ++ [(d, [']'] ++ post)]

variable (h : T → List Char)

/-- Three lines. -/
def Bound.layout : Bound T → Layout
  | .excluded t => .tuple "Excluded".toList (.word (h t))
  | .included t => .tuple "Included".toList (.word (h t))

/-- Five lines. -/
def LowerBound.layout (b : LowerBound T) : Layout := .tuple "LowerBound".toList (b.b.layout h)

/-- Five lines. -/
def UpperBound.layout (b : UpperBound T) : Layout := .tuple "UpperBound".toList (b.b.layout h)

/-- Twelve lines. -/
def BoundedRange.layout (r : BoundedRange T) : Layout :=
  .struct "BoundedRange" [("start", r.start.layout h), ("end", r.stop.layout h)]

/-- Seven lines. -/
def LowerBoundedRange.layout (r : LowerBoundedRange T) : Layout := .struct "LowerBoundedRange" [("start", r.start.layout h)]

/-- Seven lines. -/
def UpperBoundedRange.layout (r : UpperBoundedRange T) : Layout := .struct "UpperBoundedRange" [("end", r.stop.layout h)]

/-- Twelve lines for each range, and three or four. -/
def BoundedSet.layout (s : BoundedSet T) : Layout :=
  .struct "BoundedSet" [("ranges", .list (s.ranges.map (BoundedRange.layout h)))]

/-- The nine types. -/
def Inner.layout (ty : List Char) : Inner T → Layout
  | .br r => r.layout h
  | .bs s => s.layout h
  | .lbr r => r.layout h
  | .lbs s => .struct "LowerBoundedSet" [("ranges", s.ranges.layout h), ("lower_bounded_range", s.lowerBoundedRange.layout h)]
  | .ubr r => r.layout h
  | .ubs s => .struct "UpperBoundedSet" [("upper_bounded_range", s.upperBoundedRange.layout h), ("ranges", s.ranges.layout h)]
  | .ur => .word "UnboundedRange".toList
  | .us .full => .word "Full".toList
  | .us (.piecewise s) => .tuple "Piecewise".toList (.struct "PiecewiseUnboundedSet"
      [("upper_bounded_range", s.upperBoundedRange.layout h), ("ranges", s.ranges.layout h),
        ("lower_bounded_range", s.lowerBoundedRange.layout h)])
  | .er => .struct "EmptyRange" [("t", .word ("PhantomData<".toList ++ ty ++ ['>']))]

end Rangetools
