import Mathlib.Data.List.Forall2
import Verif.Spec.Iter

/-!
# Iterating over sets that break the private invariant

A deserialized set may have pieces in any order, overlapping or empty (C62).  What iterating over it yields is, by C115,
a concatenation.
-/

namespace Rangetools
variable {T : Type} [LinearOrder T]

/-- `l` is the elements of the first piece, in increasing order, then those of the second, and so on. -/
def ListsPieces (rs : List (BoundedRange T)) (l : List T) : Prop :=
  ∃ ls : List (List T), List.Forall₂ (fun r l => Lists l (BoundedRange.contains r)) rs ls ∧ l = ls.flatten

/-- Every element of a piece is less than every element of a later piece. -/
def Ascending (rs : List (BoundedRange T)) : Prop :=
  rs.Pairwise fun r r' => ∀ x y, r.contains x = true → r'.contains y = true → x < y

/-- No element is in two pieces. -/
def Apart (rs : List (BoundedRange T)) : Prop :=
  rs.Pairwise fun r r' => ∀ x, ¬ (r.contains x = true ∧ r'.contains x = true)

end Rangetools
