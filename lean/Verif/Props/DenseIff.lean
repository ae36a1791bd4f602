import Verif.Props.Bounds
import Verif.Props.Lattice
import Verif.Props.Misjudged
import Verif.Props.DenseOnly

/-!
# C25, C58: for which element types the tests are exact
-/

namespace Rangetools
open Iv

variable {T : Type} [LinearOrder T]

/-- C25. The order of lower bounds is exactly inclusion of what they admit precisely if the element type is dense, and so is
that of upper bounds. Ends do not matter. -/
theorem C25_dense_iff :
    ((∀ a b : LowerBound T, a.cmp b ≠ .gt ↔ ∀ t, (⟨b⟩ : LowerBoundedRange T).contains t = true →
      (⟨a⟩ : LowerBoundedRange T).contains t = true) ↔ DenselyOrdered T) ∧
    ((∀ a b : UpperBound T, a.cmp b ≠ .gt ↔ ∀ t, (⟨a⟩ : UpperBoundedRange T).contains t = true →
      (⟨b⟩ : UpperBoundedRange T).contains t = true) ↔ DenselyOrdered T) := by
  have cuts : ∀ b : Bound T, ∃ x s, lo ⟨b⟩ = cut x s := by
    rintro (x | x) <;> exact ⟨_, _, rfl⟩
  have cuts' : ∀ b : Bound T, ∃ x s, hi ⟨b⟩ = cut x s := by
    rintro (x | x) <;> exact ⟨_, _, rfl⟩
  refine ⟨⟨fun h => ⟨fun x y hxy => ?_⟩, fun _ a b => ⟨fun h t => (C25_lowerBound a b t).1 h, fun h => ?_⟩⟩,
    ⟨fun h => ⟨fun x y hxy => ?_⟩, fun _ a b => ⟨fun h t => (C25_upperBound a b t).1 h, fun h => ?_⟩⟩⟩
  · by_contra hc
    push Not at hc
    have := (h (.included y) (.excluded x)).mpr fun t ht => by
      simp only [LowerBoundedRange.contains, LowerBound.excluded, LowerBound.included, decide_eq_true_eq] at ht ⊢
      exact hc t ht
    rw [LowerBound.cmp_eq, compare_ne_gt_iff_le] at this
    exact absurd (show lo (.excluded x) < lo (.included y) from cut_lt.mpr (Or.inl hxy)) this.not_gt
  · rw [LowerBound.cmp_eq, compare_ne_gt_iff_le]
    by_contra hc
    rw [not_le] at hc
    obtain ⟨x, s, ex⟩ := cuts a.b
    obtain ⟨y, r, ey⟩ := cuts b.b
    obtain ⟨t, h1, h2⟩ := exists_elem_between_cuts (show cut y r < cut x s by rw [← ex, ← ey]; exact hc)
    have := h t (by rw [LowerBoundedRange.contains_iff]; exact ey.le.trans h1)
    rw [LowerBoundedRange.contains_iff] at this
    exact absurd (h2.trans_le ex.ge) this.not_gt
  · by_contra hc
    push Not at hc
    have := (h (.excluded y) (.included x)).mpr fun t ht => by
      simp only [UpperBoundedRange.contains, UpperBound.excluded, UpperBound.included, decide_eq_true_eq] at ht ⊢
      by_contra hn
      exact absurd ht (not_lt.2 (hc t (not_le.1 hn)))
    rw [UpperBound.cmp_eq, compare_ne_gt_iff_le] at this
    exact absurd (show hi (.included x) < hi (.excluded y) from cut_lt.mpr (Or.inl hxy)) this.not_gt
  · rw [UpperBound.cmp_eq, compare_ne_gt_iff_le]
    by_contra hc
    rw [not_le] at hc
    obtain ⟨x, s, ex⟩ := cuts' a.b
    obtain ⟨y, r, ey⟩ := cuts' b.b
    obtain ⟨t, h1, h2⟩ := exists_elem_between_cuts (show cut y r < cut x s by rw [← ex, ← ey]; exact hc)
    have := h t (by rw [UpperBoundedRange.contains_iff]; exact h2.trans_le ex.ge)
    rw [UpperBoundedRange.contains_iff] at this
    exact absurd this (ey.le.trans h1).not_gt

/-- Over the rationals `(0, ..` is strictly after `[0, ..`, and the element zero is what tells them apart. -/
example : DenselyOrdered ℚ ∧ (LowerBound.excluded (0 : ℚ)).cmp (.included 0) = .gt ∧
    (⟨.included 0⟩ : LowerBoundedRange ℚ).contains 0 = true ∧ (⟨.excluded 0⟩ : LowerBoundedRange ℚ).contains 0 = false :=
  ⟨inferInstance, by decide +kernel, by decide +kernel, by decide +kernel⟩

/-- C58. The subset test `a.disjoint(b.complement())` is exact for all values precisely if the element type is dense and has
elements but neither a least nor a greatest. -/
theorem C58_subset_iff :
    (∀ a b : Any T, a.Fresh → b.Fresh → ∃ c d, b.complement = .ok c ∧ a.disjoint (.inner c) = .ok d ∧
      (d = true ↔ ∀ t, a.contains t = true → b.contains t = true)) ↔
      DenselyOrdered T ∧ NoMinOrder T ∧ NoMaxOrder T ∧ Nonempty T := by
  constructor
  · intro h
    have no : ∀ i : Inner T, (Any.inner i).disjoint (.inner .ur) = .ok i.isEmpty → ¬ i.Misjudged := by
      intro i hr hi
      obtain ⟨h1, h2⟩ := (C19_wrong_iff (.inner i) trivial).mpr hi
      obtain ⟨c, d, hc, hd, he⟩ := h (.inner i) (.inner .er) trivial trivial
      obtain rfl : Inner.ur = c := Res.ok.inj hc
      rw [hr, show i.isEmpty = false from h1] at hd
      have := he.mpr fun t ht => by rw [h2 t] at ht; cases ht
      rw [← Res.ok.inj hd] at this
      cases this
    refine ⟨⟨fun a b hab => ?_⟩, ⟨fun m => ?_⟩, ⟨fun m => ?_⟩, ?_⟩
    · by_contra hc
      push Not at hc
      exact no (.br ⟨.excluded a, .excluded b⟩) rfl ⟨a, b, ⟨hab, fun c h1 h2 => absurd h2 (not_lt.2 (hc c h1))⟩, rfl⟩
    · by_contra hc
      push Not at hc
      exact no (.ubr ⟨.excluded m⟩) rfl ⟨m, fun t _ => hc t, rfl⟩
    · by_contra hc
      push Not at hc
      exact no (.lbr ⟨.excluded m⟩) rfl ⟨m, fun t _ => hc t, rfl⟩
    · by_contra hc
      exact no .ur rfl (not_nonempty_iff.mp hc)
  · rintro ⟨_, _, _, _⟩ a b ha hb
    exact C58_subset_dense a b ha hb

/-- A dense type with ends: the bounds are ordered exactly, the test is not exact. -/
example : DenselyOrdered UnitQ ∧ ¬ NoMinOrder UnitQ :=
  ⟨inferInstance, fun h => by
    obtain ⟨t, ht⟩ := h.exists_lt (⟨0, by norm_num⟩ : UnitQ)
    exact absurd t.2.1 (not_le.2 ht)⟩

end Rangetools
