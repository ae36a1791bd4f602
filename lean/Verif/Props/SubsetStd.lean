import Verif.Props.Lattice
import Verif.Props.WrongPairs

/-!
# C58: the subset test between std ranges
-/

namespace Rangetools
open Iv Samples

variable {T : Type} [LinearOrder T]

/-- Std ranges whose end, if any, is not part of them. -/
def Any.OpenEnd : Any T → Prop
  | .range _ | .rangeFrom _ | .rangeTo _ | .rangeFull => True
  | _ => False

theorem Any.OpenEnd.csem_inclStarts {b : Any T} (h : b.OpenEnd) : InclStarts (csem b.toInner.ivs) := by
  have one : ∀ p : ECut T × ECut T, (∀ a : T, p.2 ≠ cut a true) → InclStarts (csem [p]) := by
    intro p hp
    have : csem [p] = sem [(⊥, p.1), (p.2, ⊤)] := by rw [csem_one]; simp [csem1]
    rw [this]
    refine InclStarts.of_pieces fun q hq a => ?_
    rcases List.mem_cons.mp hq with rfl | hq
    · exact bot_lt_cut.ne
    · obtain rfl := List.mem_singleton.mp hq
      exact hp a
  cases b with
  | range r => exact one _ (fun a => by simp [BoundedRange.iv, BoundedRange.ofRange, UpperBound.excluded, hi, cut_inj])
  | rangeFrom r => exact one _ fun a => cut_lt_top.ne'
  | rangeTo r => exact one _ (fun a => by simp [UpperBoundedRange.iv, UpperBoundedRange.ofRangeTo, UpperBound.excluded, hi, cut_inj])
  | rangeFull => exact one _ fun a => cut_lt_top.ne'
  | _ => exact h.elim

/-- C58. Is a std range with a lower bound within a std range whose end, if any, is excluded?  Over every totally ordered element
type `a.disjoint(b.complement())` says so precisely if it is. -/
theorem C58_subset_std (a b : Any T) (ha : a.IsStd) (hb : b.OpenEnd) (hl : a.toInner.BoundedBelow) :
    ∃ c d, b.complement = .ok c ∧ a.disjoint (.inner c) = .ok d ∧
      (d = true ↔ ∀ t, a.contains t = true → b.contains t = true) := by
  have fb : b.Fresh := by cases b <;> first | exact hb.elim | trivial
  obtain ⟨c, hc, sc, wc, kc⟩ := Any.complement_comp b
  obtain ⟨e, he, se, we, ke⟩ := Any.inter_comp a (.inner c)
  have hn : Lossless a (.inner c) := Inner.Lossless.of_not_both (by
    rintro ⟨h1, _⟩
    cases a <;> first | exact ha.elim | exact h1)
  obtain ⟨e', he', hm⟩ := C02_inter_contains_partial a (.inner c) ha.fresh trivial hn
  obtain rfl : e = e' := Res.ok.inj (he.symm.trans he')
  obtain ⟨c', hc', hcc⟩ := C03_complement_contains b fb
  obtain rfl : c = c' := Res.ok.inj (hc.symm.trans hc')
  have hi : InclStarts (sem e.ivs) := by
    rw [se]
    exact interSem_inclStarts ha.spec.1 (wc trivial) ha.spec.2 (by rw [Any.toInner_inner, sc]; exact hb.csem_inclStarts)
  have hbb : e.BoundedBelow := by
    have : e.kind = .br ∨ e.kind = .bs ∨ e.kind = .lbr ∨ e.kind = .lbs ∨ e.kind = .er := by
      rw [ke, Any.toInner_inner, kc]
      cases a <;> first | exact ha.elim | exact hl.elim | (cases b <;> first
        | exact hb.elim
        | exact Or.inl rfl
        | exact Or.inr (Or.inl rfl)
        | exact Or.inr (Or.inr (Or.inl rfl))
        | exact Or.inr (Or.inr (Or.inr (Or.inl rfl)))
        | exact Or.inr (Or.inr (Or.inr (Or.inr rfl))))
    clear hi he he' ke se we hm
    cases e <;> simp_all [Inner.kind, Inner.BoundedBelow]
  refine ⟨c, e.isEmpty, hc, by simp [Any.disjoint, he], ?_⟩
  rw [← Bool.not_eq_false, Inner.isEmpty_exact hi hbb, not_exists]
  refine forall_congr' fun t => ?_
  rw [hm, Any.contains_inner, hcc]
  cases a.contains t <;> cases b.contains t <;> simp

/-- `2..=4` and `0..5` over the integers: within.  `2..=5` is not. -/
example : (Any.rangeInclusive ⟨2, 4, false⟩ : Any Int).IsStd ∧ (Any.range ⟨0, 5⟩ : Any Int).OpenEnd ∧
    (Any.rangeInclusive ⟨2, 4, false⟩ : Any Int).toInner.BoundedBelow ∧
    ∃ c, (Any.range ⟨0, 5⟩ : Any Int).complement = .ok c ∧
      (Any.rangeInclusive ⟨2, 4, false⟩ : Any Int).disjoint (.inner c) = .ok true ∧
      (Any.rangeInclusive ⟨2, 5, false⟩ : Any Int).disjoint (.inner c) = .ok false :=
  ⟨rfl, trivial, trivial, .us (.piecewise ⟨io 0, ⟨[]⟩, ci 5⟩), by decide +kernel, by decide +kernel, by decide +kernel⟩

/-- C58, what is asked of the ends is needed: with an included end of `b`, or without a lower bound of `a`, the test can fail of
a range that is within the other. -/
theorem C58_subset_std_needed :
    (∃ (a b : Any Int) (c : Inner Int), a.IsStd ∧ b.IsStd ∧ a.toInner.BoundedBelow ∧ b.complement = .ok c ∧
      a.disjoint (.inner c) = .ok false ∧ ∀ t, a.contains t = true → b.contains t = true) ∧
    (∃ (a b : Any Nat) (c : Inner Nat), a.IsStd ∧ b.OpenEnd ∧ b.complement = .ok c ∧
      a.disjoint (.inner c) = .ok false ∧ ∀ t, a.contains t = true → b.contains t = true) := by
  refine ⟨⟨.range ⟨3, 5⟩, .rangeInclusive ⟨3, 4, false⟩, .us (.piecewise ⟨io 3, ⟨[]⟩, ⟨.excluded 4⟩⟩), trivial, rfl, trivial,
    by decide +kernel, by decide +kernel, fun t => ?_⟩,
    ⟨.rangeTo ⟨5⟩, .rangeFrom ⟨0⟩, .ubr ⟨.excluded 0⟩, trivial, trivial, by decide +kernel, by decide +kernel, fun t _ => ?_⟩⟩
  · simp only [Any.contains, Range.contains, RangeInclusive.contains]
    simp
    omega
  · simp [Any.contains, RangeFrom.contains]

/-- C58. The test fails of a value that is within the other precisely if the part of it outside is misjudged by `is_empty`,
where that part loses nothing. -/
theorem C58_subset_wrong_iff (a b : Any T) (ha : a.Fresh) (hb : b.Fresh) :
    ∃ c e, b.complement = .ok c ∧ a.inter (.inner c) = .ok e ∧ (Lossless a (.inner c) →
      ((a.disjoint (.inner c) = .ok false ∧ ∀ t, a.contains t = true → b.contains t = true) ↔ e.Misjudged)) := by
  obtain ⟨c, hc, hx⟩ := C03_complement_contains b hb
  obtain ⟨e, he, -, h⟩ := C21_wrong_iff a (.inner c) ha trivial
  refine ⟨c, e, hc, he, fun hl => ?_⟩
  rw [← h hl]
  refine and_congr ?_ (forall_congr' fun t => ?_)
  · obtain ⟨d, hd, hi, -⟩ := C20_disjoint_sound a (.inner c)
    rw [hd, hi]
    cases d <;> simp
  · rw [Any.contains_inner, hx]
    cases a.contains t <;> cases b.contains t <;> simp

/-- `3..5` is within `3..=4` over the integers, and what is said to be outside is the gap between 4 and 5. -/
example : ∃ c, (Any.rangeInclusive ⟨3, 4, false⟩ : Any Int).complement = .ok c ∧
    (Any.range ⟨3, 5⟩ : Any Int).inter (.inner c) = .ok (.bs ⟨[⟨.excluded 4, .excluded 5⟩]⟩) ∧
    (Inner.bs ⟨[⟨.excluded 4, .excluded 5⟩]⟩ : Inner Int).Misjudged := by
  have g : (⟨.excluded 4, .excluded 5⟩ : BoundedRange Int).Gap := (C19_gap_int 4 5).mpr rfl
  refine ⟨.us (.piecewise ⟨io 3, ⟨[]⟩, ⟨.excluded 4⟩⟩), by decide +kernel, by decide +kernel,
    ⟨_, List.mem_singleton.mpr rfl, g⟩, fun r hr => ?_⟩
  obtain rfl := List.mem_singleton.mp hr
  exact Or.inr g

end Rangetools
