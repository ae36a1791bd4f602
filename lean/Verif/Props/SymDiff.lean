import Verif.Spec.SymDiff
import Verif.Props.TypeLaws

/-!
# C118: which ways to write a symmetric difference are right
-/

namespace Rangetools

variable {T : Type} [LinearOrder T]

omit [LinearOrder T] in
theorem Inner.IsLBS.bounds {i : Inner T} (h : i.IsLBS) : i.BoundedBelow ∧ ¬ i.BoundedAbove := by
  cases i <;> first | exact h.elim | exact ⟨trivial, id⟩

/-- What C01 and C56 say about a union, together. -/
theorem union_all (a b : Any T) (ha : a.Fresh) (hb : b.Fresh) :
    ∃ u, a.union b = .ok u ∧ u.Fresh ∧ (∀ t, u.contains t = (a.contains t || b.contains t)) ∧
      (u.toInner.BoundedBelow ↔ a.toInner.BoundedBelow ∧ b.toInner.BoundedBelow) ∧
      (u.toInner.BoundedAbove ↔ a.toInner.BoundedAbove ∧ b.toInner.BoundedAbove) := by
  obtain ⟨u, hu, h1, h2⟩ := C56_union_type a b
  obtain ⟨v, hv, h3⟩ := C01_union_contains a b ha hb
  obtain ⟨w, hw, -, -, h4⟩ := Any.union_comp a b
  rw [hu] at hv hw
  cases hv
  cases hw
  refine ⟨u, hu, ?_, h3, h1, h2⟩
  rcases h4 with rfl | rfl | ⟨i, rfl⟩ <;> first | assumption | trivial

/-- What C03 and C56 say about a complement, together. -/
theorem complement_all (a : Any T) (ha : a.Fresh) :
    ∃ c, a.complement = .ok c ∧ (∀ t, c.contains t = !a.contains t) ∧
      (c.BoundedBelow ↔ ¬ a.toInner.BoundedBelow) ∧ (c.BoundedAbove ↔ ¬ a.toInner.BoundedAbove) := by
  obtain ⟨c, hc, h1, h2⟩ := C56_complement_type a
  obtain ⟨d, hd, h3⟩ := C03_complement_contains a ha
  rw [hc] at hd
  cases hd
  exact ⟨c, hc, h3, h1, h2⟩

/-- C118. `a.union(b).intersection(a.complement().union(b.complement()))` is right for all types. -/
theorem C118_third (a b : Any T) (ha : a.Fresh) (hb : b.Fresh) :
    ∃ d, symDiff3 a b = .ok d ∧ OneOfTwo a b d.contains := by
  obtain ⟨u, hu, fu, mu, bu, -⟩ := union_all a b ha hb
  obtain ⟨ca, hca, mca, bca, -⟩ := complement_all a ha
  obtain ⟨cb, hcb, mcb, bcb, -⟩ := complement_all b hb
  obtain ⟨v, hv, fv, mv, bv, -⟩ := union_all (.inner ca) (.inner cb) trivial trivial
  obtain ⟨d, hd, md⟩ := C02_inter_contains_partial u v fu fv (Inner.Lossless.of_not_both (by
    rintro ⟨h1, h2⟩
    exact bca.mp (bv.mp h2.bounds.1).1 (bu.mp h1.bounds.1).1))
  refine ⟨d, by simp only [symDiff3, hu, hca, hcb, hv, hd, Res.ok_bind], fun t => ?_⟩
  rw [md, mu, mv]
  simp only [Any.contains_inner, mca, mcb]
  cases a.contains t <;> cases b.contains t <;> rfl

example : (Any.inner Samples.lbs).Fresh ∧ (Any.inner Samples.lbs').Fresh ∧
    symDiff3 (.inner Samples.lbs) (.inner Samples.lbs') =
      .ok (.bs ⟨[Samples.co (-5) (-3), Samples.co 0 1, Samples.co 3 10]⟩) :=
  ⟨trivial, trivial, by decide +kernel⟩

theorem agree_prop {p q : Prop} : (p ∧ q ∨ ¬ p ∧ ¬ q) ↔ (p ↔ q) := by
  by_cases p <;> by_cases q <;> simp [*]

/-- C118. The type of that symmetric difference has a lower bound exactly if both or neither of the operands'
types have one, and likewise above. -/
theorem C118_third_type (a b : Any T) :
    ∃ d, symDiff3 a b = .ok d ∧ (d.BoundedBelow ↔ (a.toInner.BoundedBelow ↔ b.toInner.BoundedBelow)) ∧
      (d.BoundedAbove ↔ (a.toInner.BoundedAbove ↔ b.toInner.BoundedAbove)) := by
  obtain ⟨u, hu, bu, au⟩ := C56_union_type a b
  obtain ⟨ca, hca, bca, aca⟩ := C56_complement_type a
  obtain ⟨cb, hcb, bcb, acb⟩ := C56_complement_type b
  obtain ⟨v, hv, bv, av⟩ := C56_union_type (.inner ca) (.inner cb)
  obtain ⟨d, hd, bd, ad⟩ := C56_inter_type u v
  refine ⟨d, by simp only [symDiff3, hu, hca, hcb, hv, hd, Res.ok_bind], ?_, ?_⟩
  · rw [bd, bu, bv, Any.toInner_inner, Any.toInner_inner, bca, bcb, agree_prop]
  · rw [ad, au, av, Any.toInner_inner, Any.toInner_inner, aca, acb, agree_prop]

example : ¬ (Any.inner Samples.us).toInner.BoundedBelow ∧ (Any.inner Samples.lbs).toInner.BoundedBelow := ⟨id, trivial⟩

/-- C118. `a.union(b).intersection(a.intersection(b).complement())` contains every element of exactly one of
`a` and `b`, and no others exactly if `a.intersection(b)` has the right members. -/
theorem C118_first_iff (a b : Any T) (ha : a.Fresh) (hb : b.Fresh) :
    ∃ d, symDiff1 a b = .ok d ∧ (∀ t, (a.contains t ^^ b.contains t) = true → d.contains t = true) ∧
      (OneOfTwo a b d.contains ↔ MeetsRight a b) := by
  obtain ⟨u, hu, fu, mu, bu, -⟩ := union_all a b ha hb
  obtain ⟨i, hi, bi, -⟩ := C56_inter_type a b
  obtain ⟨i', hi', si⟩ := C02_inter_subset a b ha hb
  rw [hi] at hi'
  cases hi'
  obtain ⟨c, hc, mc, bc, -⟩ := complement_all (.inner i) trivial
  obtain ⟨d, hd, md⟩ := C02_inter_contains_partial u (.inner c) fu trivial (Inner.Lossless.of_not_both (by
    rintro ⟨h1, h2⟩
    exact bc.mp h2.bounds.1 (bi.mpr (.inl (bu.mp h1.bounds.1).1))))
  have key : ∀ t, d.contains t = ((a.contains t || b.contains t) && !i.contains t) := fun t => by
    rw [md, mu]
    simp only [Any.contains_inner, mc]
  refine ⟨d, by simp only [symDiff1, hu, hi, hc, hd, Res.ok_bind], fun t h => ?_, ?_⟩
  · have := si t
    rw [key]
    revert h this
    cases a.contains t <;> cases b.contains t <;> cases i.contains t <;> simp
  · constructor
    · intro h
      refine ⟨i, hi, fun t => ?_⟩
      have h1 := h t
      have h2 := si t
      rw [key] at h1
      revert h1 h2
      cases a.contains t <;> cases b.contains t <;> cases i.contains t <;> simp
    · rintro ⟨i', hi', mi⟩ t
      rw [hi] at hi'
      cases hi'
      rw [key, mi]
      cases a.contains t <;> cases b.contains t <;> rfl

example : (Any.inner Samples.lbs).Fresh ∧ (Any.inner Samples.lbs').Fresh ∧
    symDiff1 (.inner Samples.lbs) (.inner Samples.lbs') =
      .ok (.bs ⟨[Samples.co (-5) (-3), Samples.co 0 10]⟩) :=
  ⟨trivial, trivial, by decide +kernel⟩

/-- C118. `a.intersection(b.complement()).union(b.intersection(a.complement()))` contains only elements of exactly
one of `a` and `b`, and all of them exactly if both differences have the right members. -/
theorem C118_second_iff (a b : Any T) (ha : a.Fresh) (hb : b.Fresh) :
    ∃ d, symDiff2 a b = .ok d ∧ (∀ t, d.contains t = true → (a.contains t ^^ b.contains t) = true) ∧
      (OneOfTwo a b d.contains ↔ DiffRight a b ∧ DiffRight b a) := by
  obtain ⟨cb, x, hcb, hx, -, -, sx⟩ := C58_difference_partial a b ha hb
  obtain ⟨ca, y, hca, hy, -, -, sy⟩ := C58_difference_partial b a hb ha
  obtain ⟨d, hd, -, md, -⟩ := union_all (.inner x) (.inner y) trivial trivial
  simp only [Any.contains_inner] at md
  refine ⟨d, by simp only [symDiff2, hcb, hx, hca, hy, hd, Res.ok_bind], fun t h => ?_, ?_⟩
  · have h1 := sx t
    have h2 := sy t
    rw [md] at h
    revert h h1 h2
    cases a.contains t <;> cases b.contains t <;> cases x.contains t <;> cases y.contains t <;> simp
  · constructor
    · intro h
      refine ⟨⟨cb, x, hcb, hx, fun t => ?_⟩, ⟨ca, y, hca, hy, fun t => ?_⟩⟩ <;>
      · have h0 := h t
        have h1 := sx t
        have h2 := sy t
        rw [md] at h0
        revert h0 h1 h2
        cases a.contains t <;> cases b.contains t <;> cases x.contains t <;> cases y.contains t <;> simp
    · rintro ⟨⟨c1, d1, e1, e2, e3⟩, ⟨c2, d2, e4, e5, e6⟩⟩ t
      rw [hcb] at e1; cases e1
      rw [hx] at e2; cases e2
      rw [hca] at e4; cases e4
      rw [hy] at e5; cases e5
      rw [md, e3, e6]
      cases a.contains t <;> cases b.contains t <;> rfl

example : (Any.inner Samples.lbs).Fresh ∧ (Any.inner Samples.us).Fresh ∧
    DiffRight (.inner Samples.lbs) (.inner Samples.us) ∧ DiffRight (.inner Samples.us) (.inner Samples.lbs) :=
  ⟨trivial, trivial, C117_difference _ _ trivial trivial rfl, C117_difference _ _ trivial trivial rfl⟩

/-- C118. The first way can be wrong exactly for two `LowerBoundedSet`s. -/
theorem C118_first_types (a b : Inner Int) :
    InterFails a b = true ↔ ∃ x y d : Inner Int, x.SameType a ∧ y.SameType b ∧ x.Normal ∧ y.Normal ∧
      symDiff1 (.inner x) (.inner y) = .ok d ∧ ¬ OneOfTwo (.inner x) (.inner y) d.contains := by
  rw [C117_inter_members_iff]
  constructor
  · rintro ⟨x, y, h1, h2, h3, h4, h5⟩
    obtain ⟨d, hd, -, h⟩ := C118_first_iff (.inner x) (.inner y) trivial trivial
    exact ⟨x, y, d, h1, h2, h3, h4, hd, fun h' => h5 (h.mp h')⟩
  · rintro ⟨x, y, d, h1, h2, h3, h4, hd, h5⟩
    obtain ⟨d', hd', -, h⟩ := C118_first_iff (.inner x) (.inner y) trivial trivial
    rw [hd] at hd'
    cases hd'
    exact ⟨x, y, h1, h2, h3, h4, fun h' => h5 (h.mpr h')⟩

/-- C118. The second way can be wrong exactly for a `LowerBoundedSet` and an `UpperBoundedSet`, in either
order. -/
theorem C118_second_types (a b : Inner Int) :
    (DiffFails a b = true ∨ DiffFails b a = true) ↔ ∃ (x y : Inner Int) (d : Any Int), x.SameType a ∧ y.SameType b ∧
      x.Normal ∧ y.Normal ∧ symDiff2 (.inner x) (.inner y) = .ok d ∧
      ¬ OneOfTwo (.inner x) (.inner y) d.contains := by
  rw [C117_difference_iff, C117_difference_iff]
  constructor
  · rintro (⟨x, y, h1, h2, h3, h4, h5⟩ | ⟨y, x, h2, h1, h4, h3, h5⟩)
    · obtain ⟨d, hd, -, h⟩ := C118_second_iff (.inner x) (.inner y) trivial trivial
      exact ⟨x, y, d, h1, h2, h3, h4, hd, fun h' => h5 (h.mp h').1⟩
    · obtain ⟨d, hd, -, h⟩ := C118_second_iff (.inner x) (.inner y) trivial trivial
      exact ⟨x, y, d, h1, h2, h3, h4, hd, fun h' => h5 (h.mp h').2⟩
  · rintro ⟨x, y, d, h1, h2, h3, h4, hd, h5⟩
    obtain ⟨d', hd', -, h⟩ := C118_second_iff (.inner x) (.inner y) trivial trivial
    rw [hd] at hd'
    cases hd'
    by_cases h6 : DiffRight (.inner x) (.inner y)
    · exact .inr ⟨y, x, h2, h1, h4, h3, fun h' => h5 (h.mpr ⟨h6, h'⟩)⟩
    · exact .inl ⟨x, y, h1, h2, h3, h4, h6⟩

example : DiffFails (.ubs ⟨Samples.io 0, ⟨[]⟩⟩) (.lbs ⟨⟨[]⟩, Samples.ci 0⟩) = false ∧
    DiffFails (.lbs ⟨⟨[]⟩, Samples.ci 0⟩) (.ubs ⟨Samples.io 0, ⟨[]⟩⟩) = true := ⟨rfl, rfl⟩

end Rangetools
