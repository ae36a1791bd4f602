import Verif.Props.Misjudged
import Mathlib.Order.Fin.Basic

/-!
# C21: exactly the pairs about which `intersects` is wrong
-/

namespace Rangetools
variable {T : Type} [LinearOrder T]

/-- C21. If `intersects` says of two values without a common element that they have one, then the intersection is a value about
which `is_empty` is wrong; and, where the intersection loses nothing, the other way round. -/
theorem C21_wrong_iff (a b : Any T) (ha : a.Fresh) (hb : b.Fresh) : ∃ c, a.inter b = .ok c ∧
    (a.intersects b = .ok true → (∀ t, ¬ (a.contains t = true ∧ b.contains t = true)) → c.Misjudged) ∧
    (Lossless a b → ((a.intersects b = .ok true ∧ ∀ t, ¬ (a.contains t = true ∧ b.contains t = true)) ↔ c.Misjudged)) := by
  obtain ⟨c, hc, hs⟩ := C02_inter_subset a b ha hb
  have hi : a.intersects b = .ok (!c.isEmpty) := by simp [Any.intersects, Any.disjoint, hc]
  have hw := C19_wrong_iff (.inner c) trivial
  have fwd : a.intersects b = .ok true → (∀ t, ¬ (a.contains t = true ∧ b.contains t = true)) → c.Misjudged := by
    intro h hn
    rw [hi] at h
    exact hw.mp ⟨by simpa [Any.isEmpty] using Res.ok.inj h, fun t => by
      by_contra ht
      exact hn t (hs t (by simpa [Any.contains] using ht))⟩
  refine ⟨c, hc, fwd, fun hl => ⟨fun h => fwd h.1 h.2, fun hm => ?_⟩⟩
  obtain ⟨h1, h2⟩ := hw.mpr hm
  obtain ⟨c', hc', hx⟩ := C02_inter_contains_partial a b ha hb hl
  obtain rfl : c = c' := Res.ok.inj (hc.symm.trans hc')
  refine ⟨by rw [hi, show c.isEmpty = false from h1]; rfl, fun t ht => ?_⟩
  have := hx t
  rw [ht.1, ht.2, show c.contains t = false from h2 t] at this
  cases this

/-- C21, what is asked of the pair is needed: an intersection that loses elements can be misjudged, and `intersects` be right. -/
theorem C21_lossless_needed : ∃ (a b : Any (Fin 10)) (c : Inner (Fin 10)), a.Fresh ∧ b.Fresh ∧ a.inter b = .ok c ∧
    c.Misjudged ∧ a.intersects b = .ok true ∧ ∃ t, a.contains t = true ∧ b.contains t = true :=
  ⟨.inner (.lbs ⟨⟨[]⟩, ⟨.included 0⟩⟩), .inner (.lbs ⟨⟨[⟨.included 3, .excluded 5⟩]⟩, ⟨.excluded 9⟩⟩),
    .lbs ⟨⟨[]⟩, ⟨.excluded 9⟩⟩, trivial, trivial, by decide +kernel,
    ⟨⟨9, fun t _ => Fin.le_last t, rfl⟩, fun r hr => by cases hr⟩, by decide +kernel, 3, by decide +kernel, by decide +kernel⟩

theorem LowerBound.max_excluded_iff (a b : LowerBound T) (n : T) : a.max b = .excluded n ↔
    (a = .excluded n ∧ ∀ m, b = .excluded m ∨ b = .included m → m ≤ n) ∨
      (b = .excluded n ∧ ∀ m, a = .excluded m ∨ a = .included m → m ≤ n) := by
  have ft : ¬ (true < false) := by decide
  have hm : a.max b = if a.cmp b = .gt then a else b := by
    rw [LowerBound.max]; split <;> simp_all
  rw [hm]
  obtain ⟨x | x⟩ := a <;> obtain ⟨y | y⟩ := b <;> split <;> rename_i h <;>
    rw [LowerBound.cmp_eq, compare_gt_iff_gt] at h <;> simp [LowerBound.excluded, LowerBound.included, lo, cut_lt] at h ⊢ <;>
    grind

theorem UpperBound.min_excluded_iff (a b : UpperBound T) (n : T) : a.min b = .excluded n ↔
    (a = .excluded n ∧ ∀ m, b = .excluded m ∨ b = .included m → n ≤ m) ∨
      (b = .excluded n ∧ ∀ m, a = .excluded m ∨ a = .included m → n ≤ m) := by
  have ft : ¬ (true < false) := by decide
  have hm : a.min b = if a.cmp b = .gt then b else a := by
    rw [UpperBound.min]; split <;> simp_all
  rw [hm]
  obtain ⟨x | x⟩ := a <;> obtain ⟨y | y⟩ := b <;> split <;> rename_i h <;>
    rw [UpperBound.cmp_eq, compare_gt_iff_gt] at h <;> simp [UpperBound.excluded, UpperBound.included, hi, cut_lt] at h ⊢ <;>
    grind

/-- C21. Two bounded ranges of integers: `intersects` is wrong precisely if the later start excludes a number and the earlier
end excludes the next one. -/
theorem C21_wrong_int (a b : BoundedRange Int) :
    ((Any.inner (.br a)).intersects (.inner (.br b)) = .ok true ∧ ∀ t, ¬ (a.contains t = true ∧ b.contains t = true)) ↔
      ∃ n : Int, ((a.start = .excluded n ∧ ∀ m, b.start = .excluded m ∨ b.start = .included m → m ≤ n) ∨
          (b.start = .excluded n ∧ ∀ m, a.start = .excluded m ∨ a.start = .included m → m ≤ n)) ∧
        ((a.stop = .excluded (n + 1) ∧ ∀ m, b.stop = .excluded m ∨ b.stop = .included m → n + 1 ≤ m) ∨
          (b.stop = .excluded (n + 1) ∧ ∀ m, a.stop = .excluded m ∨ a.stop = .included m → n + 1 ≤ m)) := by
  obtain ⟨c, hc, -, h⟩ := C21_wrong_iff (.inner (.br a)) (.inner (.br b)) trivial trivial
  have hl : Lossless (.inner (.br a)) (.inner (.br b)) := by trivial
  refine (h hl).trans ?_
  obtain rfl : Inner.br (a.interBR b) = c := Res.ok.inj hc
  have gap : ∀ r : BoundedRange Int, r.Gap ↔ ∃ n, r.start = .excluded n ∧ r.stop = .excluded (n + 1) := by
    rintro ⟨s, e⟩
    constructor
    · rintro ⟨x, y, hxy, he⟩
      injection he with h1 h2
      have hy : y = x + 1 := (C19_gap_int x y).mp ⟨x, y, hxy, rfl⟩
      exact ⟨x, h1, hy ▸ h2⟩
    · rintro ⟨n, h1, h2⟩
      simp only at h1 h2
      rw [h1, h2]
      exact (C19_gap_int n (n + 1)).mpr rfl
  refine (gap _).trans (exists_congr fun n => and_congr ?_ ?_)
  · exact LowerBound.max_excluded_iff _ _ n
  · exact UpperBound.min_excluded_iff _ _ (n + 1)

/-- The hypotheses of `C21_wrong_iff`, with a pair about which `intersects` is wrong. -/
example : (Any.inner (.br ⟨.excluded 3, .included 9⟩) : Any Int).Fresh ∧
    Lossless (.inner (.br ⟨.excluded 3, .included 9⟩) : Any Int) (.inner (.br ⟨.included 0, .excluded 4⟩)) ∧
    (Inner.br ⟨.excluded 3, .excluded 4⟩ : Inner Int).Misjudged := ⟨trivial, trivial, (C19_gap_int 3 4).mpr rfl⟩

/-- Two overlapping-looking ranges of integers without a common number. -/
example : (Any.inner (.br ⟨.excluded 3, .included 9⟩) : Any Int).intersects (.inner (.br ⟨.included 0, .excluded 4⟩)) =
    .ok true := by decide +kernel

end Rangetools
