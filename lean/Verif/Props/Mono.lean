import Verif.Spec.Mono
import Verif.Props.Algebra

/-!
# C71: growing the operands
-/

namespace Rangetools
open Samples
variable {T : Type} [LinearOrder T]

/-- C71. Union and complement are monotone and antitone; intersection is monotone unless the larger pair is
lossy (C02). -/
theorem C71_ops_partial (a a' b b' : Any T) (fa : a.Fresh) (fa' : a'.Fresh) (fb : b.Fresh) (fb' : b'.Fresh)
    (ha : a.Subset a') (hb : b.Subset b') :
    (∃ c c', a.union b = .ok c ∧ a'.union b' = .ok c' ∧ c.Subset c') ∧
    (∃ c c', a.complement = .ok c ∧ a'.complement = .ok c' ∧ (Any.inner c').Subset (.inner c)) ∧
    ∃ c c', a.inter b = .ok c ∧ a'.inter b' = .ok c' ∧
      (Lossless a' b' → (Any.inner c).Subset (.inner c')) := by
  refine ⟨?_, ?_, ?_⟩
  · obtain ⟨c, hc, h⟩ := C01_union_contains a b fa fb
    obtain ⟨c', hc', h'⟩ := C01_union_contains a' b' fa' fb'
    refine ⟨c, c', hc, hc', fun t ht => ?_⟩
    rw [h, Bool.or_eq_true] at ht
    rw [h', Bool.or_eq_true]
    exact ht.imp (ha t) (hb t)
  · obtain ⟨c, hc, h⟩ := C03_complement_contains a fa
    obtain ⟨c', hc', h'⟩ := C03_complement_contains a' fa'
    refine ⟨c, c', hc, hc', fun t ht => ?_⟩
    rw [Any.contains_inner, h', Bool.not_eq_true'] at ht
    rw [Any.contains_inner, h, Bool.not_eq_true', Bool.eq_false_iff]
    exact fun hn => Bool.eq_false_iff.mp ht (ha t hn)
  · obtain ⟨c, hc, h⟩ := C02_inter_subset a b fa fb
    obtain ⟨c', hc', -⟩ := C02_inter_subset a' b' fa' fb'
    refine ⟨c, c', hc, hc', fun hl t ht => ?_⟩
    obtain ⟨d, hd, h'⟩ := C02_inter_contains_partial a' b' fa' fb' hl
    obtain rfl : c' = d := by rw [hc'] at hd; injection hd
    rw [Any.contains_inner] at ht ⊢
    rw [h', Bool.and_eq_true]
    exact ⟨ha t (h t ht).1, hb t (h t ht).2⟩

theorem Expr.denotes_grows {e e' : Expr T} (h : e.Grows e') (t : T) (ht : e.denotes t = true) :
    e'.denotes t = true := by
  induction h with
  | leaf h => exact h t ht
  | toInner _ ih => exact ih ht
  | toSet _ ih => exact ih ht
  | union _ _ ih ih' =>
    simp only [denotes, Bool.or_eq_true] at ht ⊢
    exact ht.imp ih ih'
  | inter _ _ ih ih' =>
    simp only [denotes, Bool.and_eq_true] at ht ⊢
    exact ht.imp ih ih'
  | complement _ ih =>
    simp only [denotes, Bool.not_eq_true', Bool.eq_false_iff] at ht ⊢
    exact fun hn => ht (ih hn)

/-- C71 for expressions whose intersections are not lossy. -/
theorem C71_expr_partial (e e' : Expr T) (h : e.Grows e') (fe : e.AllLeaves Any.Fresh) (fe' : e'.AllLeaves Any.Fresh)
    (hl : e.LosslessInter) (hl' : e'.LosslessInter) :
    ∃ c c', e.eval = .ok c ∧ e'.eval = .ok c' ∧ c.Subset c' := by
  obtain ⟨c, hc, s⟩ := C05_expr_contains_partial e fe hl
  obtain ⟨c', hc', s'⟩ := C05_expr_contains_partial e' fe' hl'
  exact ⟨c, c', hc, hc', fun t ht => (s' t).trans (Expr.denotes_grows h t ((s t).symm.trans ht))⟩

/-- C71 for expressions without complements: only the larger one must not be lossy. -/
theorem C71_positive_partial (e e' : Expr T) (h : e.Grows e') (fe : e.AllLeaves Any.Fresh)
    (fe' : e'.AllLeaves Any.Fresh) (hp : e.Positive) (hl' : e'.LosslessInter) :
    ∃ c c', e.eval = .ok c ∧ e'.eval = .ok c' ∧ c.Subset c' := by
  obtain ⟨c, hc, s⟩ := C05_expr_positive_subset e fe hp
  obtain ⟨c', hc', s'⟩ := C05_expr_contains_partial e' fe' hl'
  exact ⟨c, c', hc, hc', fun t ht => (s' t).trans (Expr.denotes_grows h t (s t ht))⟩

/-- C71 is false of `intersection`: `(0..).intersection((1..3).union(10..))` contains 1.  After adding `-5..-3`
to the first operand it does not. -/
theorem C71_counterexample :
    ∃ (a a' b : Any Int) (c c' : Inner Int), Reachable a ∧ Reachable a' ∧ Reachable b ∧ a.Subset a' ∧
      a.inter b = .ok c ∧ a'.inter b = .ok c' ∧ c.contains 1 = true ∧ c'.contains 1 = false := by
  refine ⟨.rangeFrom ⟨0⟩, .inner lbs, .inner lbs', .lbs ⟨⟨[co 1 3]⟩, ci 10⟩, .lbs ⟨⟨[]⟩, ci 10⟩,
    .rangeFrom _, lbs_reachable, lbs'_reachable, fun t ht => ?_, by decide +kernel, by decide +kernel, by decide,
    by decide⟩
  simp only [Any.contains, RangeFrom.contains, decide_eq_true_eq] at ht
  simp only [Any.contains, lbs, Inner.contains, LowerBoundedSet.contains, Bool.or_eq_true]
  left
  simpa [LowerBoundedRange.contains, ci, LowerBound.included] using ht

-- `(0..5).union(7..9)` minus `2..4`, and the same with `0..6` for `0..5` and `3..4` for `2..4`
example : let e (a c : Range Int) : Expr Int :=
      .inter (.union (.leaf (.range a)) (.leaf (.range ⟨7, 9⟩))) (.complement (.leaf (.range c)))
    (e ⟨0, 5⟩ ⟨2, 4⟩).Grows (e ⟨0, 6⟩ ⟨3, 4⟩) ∧
      (e ⟨0, 5⟩ ⟨2, 4⟩).eval = .ok (.inner (.bs ⟨[co 0 2, co 4 5, co 7 9]⟩)) ∧
      (e ⟨0, 6⟩ ⟨3, 4⟩).eval = .ok (.inner (.bs ⟨[co 0 3, co 4 6, co 7 9]⟩)) := by
  refine ⟨.inter (.union (.leaf fun t => ?_) (.leaf fun t => id)) (.complement (.leaf fun t => ?_)), by decide +kernel,
    by decide +kernel⟩ <;> simp only [Any.contains, Range.contains, Bool.and_eq_true, decide_eq_true_eq] <;> omega

end Rangetools
