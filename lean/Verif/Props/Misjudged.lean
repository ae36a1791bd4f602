import Verif.Spec.Misjudged
import Verif.Props.Emptiness

/-!
# C19: exactly where `is_empty` is wrong
-/

namespace Rangetools
variable {T : Type} [LinearOrder T]

theorem BoundedRange.void_iff (r : BoundedRange T) : r.Void ↔ ∀ t, r.contains t = false := by
  obtain ⟨⟨s⟩, ⟨e⟩⟩ := r
  constructor
  · rintro (h | ⟨a, b, hab, h⟩) t
    · have := C18_isEmpty_sound (.inner (.br ⟨⟨s⟩, ⟨e⟩⟩)) h t
      exact this
    · rw [h]
      simp only [BoundedRange.contains, LowerBound.excluded, UpperBound.excluded, Bool.and_eq_false_iff, decide_eq_false_iff_not]
      by_contra hc
      push Not at hc
      exact hab.2 hc.1 hc.2
  · intro h
    by_cases he : (⟨⟨s⟩, ⟨e⟩⟩ : BoundedRange T).isEmpty = true
    · exact Or.inl he
    right
    rw [Bool.not_eq_true] at he
    rcases s with a | a <;> rcases e with b | b <;> simp only [BoundedRange.isEmpty, decide_eq_false_iff_not, ge_iff_le, gt_iff_lt,
      not_le, not_lt] at he
    · refine ⟨a, b, ⟨he, fun c h1 h2 => ?_⟩, rfl⟩
      have := h c
      simp [BoundedRange.contains, h1, h2] at this
    · have := h b
      simp [BoundedRange.contains, he] at this
    · have := h a
      simp [BoundedRange.contains, he] at this
    · have := h a
      simp [BoundedRange.contains, he] at this

theorem BoundedRange.gap_iff (r : BoundedRange T) : r.Gap ↔ r.isEmpty = false ∧ ∀ t, r.contains t = false := by
  rw [← r.void_iff]
  constructor
  · intro h
    refine ⟨?_, Or.inr h⟩
    obtain ⟨a, b, hab, rfl⟩ := h
    simpa [BoundedRange.isEmpty, LowerBound.excluded, UpperBound.excluded] using hab.1
  · rintro ⟨h, h' | h'⟩
    · rw [h] at h'; cases h'
    · exact h'

theorem LowerBoundedRange.beyond_iff (r : LowerBoundedRange T) : r.Beyond ↔ ∀ t, r.contains t = false := by
  obtain ⟨⟨a | a⟩⟩ := r
  · constructor
    · rintro ⟨m, hm, h⟩ t
      injection h with h; injection h with h; injection h with h
      subst h
      simpa [LowerBoundedRange.contains] using hm.isTop t
    · intro h
      refine ⟨a, fun t _ => ?_, rfl⟩
      simpa [LowerBoundedRange.contains] using h t
  · constructor
    · rintro ⟨m, hm, h⟩ t
      injection h with h; injection h with h; cases h
    · intro h
      have := h a
      simp [LowerBoundedRange.contains] at this

theorem UpperBoundedRange.beyond_iff (r : UpperBoundedRange T) : r.Beyond ↔ ∀ t, r.contains t = false := by
  obtain ⟨⟨a | a⟩⟩ := r
  · constructor
    · rintro ⟨m, hm, h⟩ t
      injection h with h; injection h with h; injection h with h
      subst h
      simpa [UpperBoundedRange.contains] using hm.isBot t
    · intro h
      refine ⟨a, fun t _ => ?_, rfl⟩
      simpa [UpperBoundedRange.contains] using h t
  · constructor
    · rintro ⟨m, hm, h⟩ t
      injection h with h; injection h with h; cases h
    · intro h
      have := h a
      simp [UpperBoundedRange.contains] at this

theorem BoundedSet.void_iff (s : BoundedSet T) : (∀ r ∈ s.ranges, r.Void) ↔ ∀ t, s.contains t = false := by
  simp only [BoundedRange.void_iff, BoundedSet.contains, List.any_eq_false, Bool.not_eq_true]
  exact ⟨fun h t r hr => h r hr t, fun h r hr t => h t r hr⟩

/-- C19. Exactly the values for which `is_empty` is false although they have no element: those made of gaps between neighbours
and of what lies beyond the ends of the element type. -/
theorem C19_wrong_iff (a : Any T) (ha : a.Fresh) :
    (a.isEmpty = false ∧ ∀ t, a.contains t = false) ↔ a.toInner.Misjudged := by
  simp only [← Any.isEmpty_toInner, ← Any.contains_toInner a ha]
  generalize a.toInner = i
  cases i with
  | br r => exact r.gap_iff.symm
  | bs s =>
    simp only [Inner.isEmpty, Inner.contains, Inner.Misjudged, BoundedSet.void_iff]
    refine and_congr_left fun h => ?_
    rw [BoundedSet.isEmpty, List.all_eq_false]
    refine exists_congr fun r => and_congr_right fun hr => ?_
    rw [BoundedRange.gap_iff, Bool.not_eq_true, ← r.void_iff]
    exact ⟨fun e => ⟨e, (BoundedSet.void_iff s).mpr h r hr⟩, And.left⟩
  | lbr r => exact (and_iff_right rfl).trans r.beyond_iff.symm
  | ubr r => exact (and_iff_right rfl).trans r.beyond_iff.symm
  | lbs s =>
    refine (and_iff_right rfl).trans ?_
    simp only [Inner.contains, Inner.Misjudged, BoundedSet.void_iff, LowerBoundedRange.beyond_iff, LowerBoundedSet.contains,
      Bool.or_eq_false_iff, forall_and]
  | ubs s =>
    refine (and_iff_right rfl).trans ?_
    simp only [Inner.contains, Inner.Misjudged, BoundedSet.void_iff, UpperBoundedRange.beyond_iff, UpperBoundedSet.contains,
      Bool.or_eq_false_iff, forall_and]
  | ur => exact (and_iff_right rfl).trans ⟨fun h => ⟨fun t => by cases h t⟩, fun h t => (h.false t).elim⟩
  | us s =>
    refine (and_iff_right rfl).trans ?_
    cases s with
    | full => exact ⟨fun h => ⟨fun t => by cases h t⟩, fun h t => (h.false t).elim⟩
    | piecewise q =>
      simp only [Inner.contains, Inner.Misjudged, BoundedSet.void_iff, UpperBoundedRange.beyond_iff,
        LowerBoundedRange.beyond_iff, UnboundedSet.contains, PiecewiseUnboundedSet.contains, Bool.or_eq_false_iff, forall_and]
      tauto
  | er => exact ⟨fun h => (by cases h.1), False.elim⟩

/-- C19. `is_empty` is right about all values of all fifteen types precisely if the element type is dense and has elements but
neither a least nor a greatest. -/
theorem C19_exact_types :
    (∀ a : Any T, a.Fresh → (a.isEmpty = false ↔ ∃ t, a.contains t = true)) ↔
      DenselyOrdered T ∧ NoMinOrder T ∧ NoMaxOrder T ∧ Nonempty T := by
  constructor
  · intro h
    have no : ∀ i : Inner T, ¬ i.Misjudged := by
      intro i hi
      obtain ⟨h1, h2⟩ := (C19_wrong_iff (.inner i) trivial).mpr hi
      obtain ⟨t, ht⟩ := (h (.inner i) trivial).mp h1
      rw [h2 t] at ht
      cases ht
    refine ⟨⟨fun a b hab => ?_⟩, ⟨fun m => ?_⟩, ⟨fun m => ?_⟩, ?_⟩
    · by_contra hc
      push Not at hc
      exact no (.br ⟨.excluded a, .excluded b⟩) ⟨a, b, ⟨hab, fun c h1 h2 => absurd h2 (not_lt.2 (hc c h1))⟩, rfl⟩
    · by_contra hc
      push Not at hc
      exact no (.ubr ⟨.excluded m⟩) ⟨m, fun t _ => hc t, rfl⟩
    · by_contra hc
      push Not at hc
      exact no (.lbr ⟨.excluded m⟩) ⟨m, fun t _ => hc t, rfl⟩
    · by_contra hc
      exact no .ur (not_nonempty_iff.mp hc)
  · rintro ⟨_, _, _, _⟩ a ha
    exact C19_isEmpty_dense a ha

/-- C21. Likewise `intersects` is right about all pairs of values precisely for those element types. -/
theorem C21_exact_types :
    (∀ a b : Any T, a.Fresh → b.Fresh → ∃ r, a.intersects b = .ok r ∧
      (r = true ↔ ∃ t, a.contains t = true ∧ b.contains t = true)) ↔
      DenselyOrdered T ∧ NoMinOrder T ∧ NoMaxOrder T ∧ Nonempty T := by
  constructor
  · intro h
    have no : ∀ i : Inner T, (Any.inner i).intersects (.inner .ur) = .ok !i.isEmpty → ¬ i.Misjudged := by
      intro i hr hi
      obtain ⟨h1, h2⟩ := (C19_wrong_iff (.inner i) trivial).mpr hi
      obtain ⟨r, hr', he⟩ := h (.inner i) (.inner .ur) trivial trivial
      rw [hr, show i.isEmpty = false from h1] at hr'
      obtain ⟨t, ht, -⟩ := he.mp (Res.ok.inj hr').symm
      rw [h2 t] at ht
      cases ht
    refine ⟨⟨fun a b hab => ?_⟩, ⟨fun m => ?_⟩, ⟨fun m => ?_⟩, ?_⟩
    · by_contra hc
      push Not at hc
      exact no (.br ⟨.excluded a, .excluded b⟩) rfl ⟨a, b, ⟨hab, fun c h1 h2 => absurd h2 (not_lt.2 (hc c h1))⟩, rfl⟩
    · by_contra hc
      push Not at hc
      exact no (.ubr ⟨.excluded m⟩) rfl ⟨m, fun t _ => hc t, rfl⟩
    · by_contra hc
      push Not at hc
      exact no (.lbr ⟨.excluded m⟩) rfl ⟨m, fun t _ => hc t, rfl⟩
    · by_contra hc
      exact no .ur rfl (not_nonempty_iff.mp hc)
  · rintro ⟨_, _, _, _⟩ a b ha hb
    exact C21_intersects_dense a b ha hb

/-- The rational numbers are such a type. -/
example : DenselyOrdered ℚ ∧ NoMinOrder ℚ ∧ NoMaxOrder ℚ ∧ Nonempty ℚ :=
  ⟨inferInstance, inferInstance, inferInstance, inferInstance⟩

/-- C19. A gap over the integers: neighbouring numbers, both excluded. -/
theorem C19_gap_int (a b : Int) : (⟨.excluded a, .excluded b⟩ : BoundedRange Int).Gap ↔ b = a + 1 := by
  constructor
  · rintro ⟨c, d, hcd, h⟩
    injection h with h1 h2
    injection h1 with h1; injection h1 with h1
    injection h2 with h2; injection h2 with h2
    subst h1 h2
    have := hcd.1
    by_contra hne
    exact hcd.2 (c := a + 1) (by omega) (by omega)
  · rintro rfl
    exact ⟨a, a + 1, ⟨by omega, fun c h1 h2 => by omega⟩, rfl⟩

/-- A set with a gap and a piece that is the wrong way round. -/
example : (Inner.bs ⟨[⟨.excluded 3, .excluded 4⟩, ⟨.included 9, .excluded 7⟩]⟩ : Inner Int).Misjudged := by
  refine ⟨⟨_, List.mem_cons_self, (C19_gap_int 3 4).mpr rfl⟩, fun r hr => ?_⟩
  rcases List.mem_cons.mp hr with rfl | hr
  · exact Or.inr ((C19_gap_int 3 4).mpr rfl)
  · obtain rfl := List.mem_singleton.mp hr
    exact Or.inl (by decide)

/-- A half-line beyond the greatest element of a type with two. -/
example : (Inner.lbr ⟨.excluded true⟩ : Inner Bool).Misjudged := ⟨true, fun t _ => Bool.le_true t, rfl⟩

end Rangetools
