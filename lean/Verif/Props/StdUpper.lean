import Verif.Props.Emptiness

/-!
# C22: std ranges without a lower bound
-/

namespace Rangetools
variable {T : Type} [LinearOrder T]

/-- C22. Two std ranges without lower bounds always intersect, according to `intersects`. -/
theorem C22_unbounded_below (a b : Any T) (ha : a.IsStd) (hb : b.IsStd)
    (h : ¬ a.toInner.BoundedBelow) (h' : ¬ b.toInner.BoundedBelow) : a.intersects b = .ok true := by
  cases a <;> first
    | exact ha.elim
    | exact absurd trivial h
    | (cases b <;> first
        | exact hb.elim
        | exact absurd trivial h'
        | rfl)

/-- C22. So for them `intersects` is exact precisely if the element type has no least element. -/
theorem C22_unbounded_below_iff [Nonempty T] :
    (∀ a b : Any T, a.IsStd → b.IsStd → ¬ a.toInner.BoundedBelow → ¬ b.toInner.BoundedBelow →
      ∃ r, a.intersects b = .ok r ∧ (r = true ↔ ∃ t, a.contains t = true ∧ b.contains t = true)) ↔ NoMinOrder T := by
  constructor
  · refine fun h => ⟨fun t => ?_⟩
    obtain ⟨r, hr, he⟩ := h (.rangeTo ⟨t⟩) (.rangeTo ⟨t⟩) trivial trivial id id
    rw [C22_unbounded_below (.rangeTo ⟨t⟩) (.rangeTo ⟨t⟩) trivial trivial id id] at hr
    obtain ⟨s, hs, -⟩ := he.mp (Res.ok.inj hr).symm
    exact ⟨s, by simpa [Any.contains, RangeTo.contains] using hs⟩
  · intro _ a b ha hb h h'
    refine ⟨true, C22_unbounded_below a b ha hb h h', iff_of_true rfl ?_⟩
    have low : ∀ c : Any T, c.IsStd → ¬ c.toInner.BoundedBelow → ∃ x, ∀ t, t < x → c.contains t = true := by
      intro c hc hn
      cases c <;> first | exact hc.elim | exact absurd trivial hn | skip
      case rangeTo r => exact ⟨r.stop, fun t ht => by simpa [Any.contains, RangeTo.contains] using ht⟩
      case rangeToInclusive r => exact ⟨r.stop, fun t ht => by simpa [Any.contains, RangeToInclusive.contains] using ht.le⟩
      case rangeFull => exact ⟨Classical.arbitrary T, fun _ _ => rfl⟩
    obtain ⟨x, hx⟩ := low a ha h
    obtain ⟨y, hy⟩ := low b hb h'
    obtain ⟨t, ht⟩ := exists_lt (min x y)
    exact ⟨t, hx t (lt_of_lt_of_le ht (min_le_left _ _)), hy t (lt_of_lt_of_le ht (min_le_right _ _))⟩

theorem UpperBoundedRange.exists_contains [NoMinOrder T] (r : UpperBoundedRange T) : ∃ t, r.contains t = true := by
  obtain ⟨⟨_ | _⟩⟩ := r
  all_goals
    rename_i x
    obtain ⟨t, ht⟩ := exists_lt x
    exact ⟨t, by simp [UpperBoundedRange.contains, ht, ht.le]⟩

/-- C22. If the element type has no least element, `is_empty` is exact for whatever is built from std ranges by `union` and
`intersection`, whether or not the result has a lower bound. -/
theorem C22_isEmpty_exact_no_min [Nonempty T] [NoMinOrder T] (e : Expr T) (h : e.AllLeaves Any.IsStd) (hp : e.Positive) :
    ∃ c, e.eval = .ok c ∧ (c.isEmpty = false ↔ ∃ t, c.contains t = true) := by
  obtain ⟨c, hc, hx⟩ := C22_isEmpty_exact e h hp
  refine ⟨c, hc, ?_⟩
  by_cases hb : c.toInner.BoundedBelow
  · exact hx hb
  · have hf := (e.eval_std h hp hc).1
    simp only [← Any.isEmpty_toInner, ← Any.contains_toInner c hf]
    revert hb
    generalize c.toInner = i
    intro hb
    cases i <;> first | exact absurd trivial hb | skip
    case ubr r => exact iff_of_true rfl r.exists_contains
    case ubs s =>
      obtain ⟨t, ht⟩ := s.upperBoundedRange.exists_contains
      exact iff_of_true rfl ⟨t, by simp [Inner.contains, UpperBoundedSet.contains, ht]⟩
    case ur => exact iff_of_true rfl ⟨Classical.arbitrary T, rfl⟩
    case us s =>
      cases s with
      | full => exact iff_of_true rfl ⟨Classical.arbitrary T, rfl⟩
      | piecewise q =>
        obtain ⟨t, ht⟩ := q.upperBoundedRange.exists_contains
        exact iff_of_true rfl ⟨t, by simp [Inner.contains, UnboundedSet.contains, PiecewiseUnboundedSet.contains, ht]⟩

/-- `..3 ∪ 5..` over the integers meets the hypotheses, and has no lower bound. -/
example : (Expr.union (.leaf (.rangeTo ⟨3⟩)) (.leaf (.rangeFrom ⟨5⟩)) : Expr Int).AllLeaves Any.IsStd ∧
    (Expr.union (.leaf (.rangeTo ⟨3⟩)) (.leaf (.rangeFrom ⟨5⟩)) : Expr Int).Positive := ⟨⟨trivial, trivial⟩, ⟨trivial, trivial⟩⟩

/-- `..0` and `..5` over the natural numbers: said to intersect, but the first has no elements. -/
example : (Any.rangeTo ⟨0⟩ : Any Nat).intersects (.rangeTo ⟨5⟩) = .ok true ∧
    ∀ t, (Any.rangeTo ⟨0⟩ : Any Nat).contains t = false := ⟨by decide, fun t => by simp [Any.contains, RangeTo.contains]⟩

end Rangetools
