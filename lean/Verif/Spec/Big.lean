import Verif.Spec.Iter

/-!
# Pieces with more elements than `usize::MAX`
-/

namespace Rangetools
variable {T : Type}

/-- The pieces that have at most `usize::MAX` elements. -/
def BoundedSet.fitting (p : Platform) (idx : T → Int) (s : BoundedSet T) : BoundedSet T :=
  ⟨s.ranges.filter fun r => decide (r.size idx < p.usizeCount)⟩

/-- The same for the pieces in front of a half-line. -/
def LowerBoundedSet.fitting (p : Platform) (idx : T → Int) (s : LowerBoundedSet T) : LowerBoundedSet T :=
  ⟨s.ranges.fitting p idx, s.lowerBoundedRange⟩

/-- Stepping up from the greatest value, whose number is `hi`, gives the least, whose number is `lo`, and conversely. -/
structure Step.Wraps (S : Step T) (idx : T → Int) (lo hi : Int) : Prop where
  least : Has idx lo
  greatest : Has idx hi
  bounds : ∀ t, lo ≤ idx t ∧ idx t ≤ hi
  forward : ∀ t, idx t = hi → ∃ t', S.forward t 1 = .ok t' ∧ idx t' = lo
  backward : ∀ t, idx t = lo → ∃ t', S.backward t 1 = .ok t' ∧ idx t' = hi

end Rangetools
