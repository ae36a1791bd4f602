import Verif.Props.Algebra

/-!
# C60: `contains` says what the bounds say

The membership theorems (C01 to C05) relate `contains` of a result to `contains` of the operands.  Here
`contains` itself is tied to the order of the elements, for each of the fifteen types.
-/

namespace Rangetools
variable {T : Type} [LinearOrder T]

/-- C60. A crate range contains what lies beyond its lower and before its upper bound; an included bound
contains itself, an excluded one does not. -/
theorem C60_ranges (a b t : T) :
    ((⟨.included a, .included b⟩ : BoundedRange T).contains t = true ↔ a ≤ t ∧ t ≤ b) ∧
    ((⟨.included a, .excluded b⟩ : BoundedRange T).contains t = true ↔ a ≤ t ∧ t < b) ∧
    ((⟨.excluded a, .included b⟩ : BoundedRange T).contains t = true ↔ a < t ∧ t ≤ b) ∧
    ((⟨.excluded a, .excluded b⟩ : BoundedRange T).contains t = true ↔ a < t ∧ t < b) ∧
    ((⟨.included a⟩ : LowerBoundedRange T).contains t = true ↔ a ≤ t) ∧
    ((⟨.excluded a⟩ : LowerBoundedRange T).contains t = true ↔ a < t) ∧
    ((⟨.included b⟩ : UpperBoundedRange T).contains t = true ↔ t ≤ b) ∧
    ((⟨.excluded b⟩ : UpperBoundedRange T).contains t = true ↔ t < b) ∧
    (Inner.ur : Inner T).contains t = true ∧ (Inner.er : Inner T).contains t = false := by
  simp [BoundedRange.contains, LowerBoundedRange.contains, UpperBoundedRange.contains,
    LowerBound.included, LowerBound.excluded, UpperBound.included, UpperBound.excluded, Inner.contains]

/-- C60. The std ranges; a `RangeInclusive` that has been iterated to its end loses its end. -/
theorem C60_std (a b t : T) :
    ((Any.range ⟨a, b⟩).contains t = true ↔ a ≤ t ∧ t < b) ∧
    ((Any.rangeInclusive ⟨a, b, false⟩).contains t = true ↔ a ≤ t ∧ t ≤ b) ∧
    ((Any.rangeInclusive ⟨a, b, true⟩).contains t = true ↔ a ≤ t ∧ t < b) ∧
    ((Any.rangeFrom ⟨a⟩).contains t = true ↔ a ≤ t) ∧
    ((Any.rangeTo ⟨b⟩).contains t = true ↔ t < b) ∧
    ((Any.rangeToInclusive ⟨b⟩).contains t = true ↔ t ≤ b) ∧
    (Any.rangeFull : Any T).contains t = true := by
  simp [Any.contains, Range.contains, RangeInclusive.contains, RangeFrom.contains, RangeTo.contains,
    RangeToInclusive.contains]

/-- C60. A set contains what one of its pieces contains. -/
theorem C60_sets (l : List (BoundedRange T)) (u : UpperBoundedRange T) (h : LowerBoundedRange T) (t : T) :
    ((Inner.bs ⟨l⟩).contains t = true ↔ ∃ r ∈ l, r.contains t = true) ∧
    ((Inner.lbs ⟨⟨l⟩, h⟩).contains t = true ↔ (∃ r ∈ l, r.contains t = true) ∨ h.contains t = true) ∧
    ((Inner.ubs ⟨u, ⟨l⟩⟩).contains t = true ↔ u.contains t = true ∨ ∃ r ∈ l, r.contains t = true) ∧
    ((Inner.us (.piecewise ⟨u, ⟨l⟩, h⟩)).contains t = true ↔
      u.contains t = true ∨ (∃ r ∈ l, r.contains t = true) ∨ h.contains t = true) ∧
    (Inner.us .full : Inner T).contains t = true := by
  refine ⟨?_, ?_, ?_, ?_, rfl⟩ <;>
    simp only [Inner.contains, BoundedSet.contains, LowerBoundedSet.contains, UpperBoundedSet.contains,
      UnboundedSet.contains, PiecewiseUnboundedSet.contains, Bool.or_eq_true, List.any_eq_true]
  · rw [or_comm]
  · rw [or_assoc, or_comm (a := h.contains t = true)]

/-- C60. In a normal set no element belongs to two pieces, and elements of a later piece are greater. -/
theorem C60_one_piece {l : List (BoundedRange T)} (hl : Pieces l) :
    l.Pairwise (fun r r' => ∀ t t', r.contains t = true → r'.contains t' = true → t < t') := by
  refine hl.2.imp ?_
  rintro ⟨s, ⟨e⟩⟩ ⟨⟨s'⟩, e'⟩ h t t' ht ht'
  have h1 : match e with | .included x => t ≤ x | .excluded x => t < x := by
    simp only [BoundedRange.contains, Bool.and_eq_true] at ht
    cases e <;> simpa using ht.2
  have h2 : match s' with | .included x => x ≤ t' | .excluded x => x < t' := by
    simp only [BoundedRange.contains, Bool.and_eq_true] at ht'
    cases s' <;> simpa using ht'.1
  cases e <;> cases s' <;> simp only [NoOverlap] at h h1 h2
  · exact lt_of_lt_of_le h1 (le_trans h (le_of_lt h2))
  · exact lt_of_lt_of_le h1 (le_trans h h2)
  · exact lt_of_le_of_lt h1 (lt_of_le_of_lt h h2)
  · exact lt_of_le_of_lt h1 (lt_of_lt_of_le h h2)

example : Pieces [Samples.co 0 3, Samples.cc 3 9] ∧ (Samples.co 0 3).contains 2 = true ∧
    (Samples.cc 3 9).contains 3 = true := by decide

end Rangetools
