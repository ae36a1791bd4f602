import Verif.Props.Edge

/-!
# C55 – C58: absorption, result types, normal results, differences and subsets
-/

namespace Rangetools
open Iv Samples

variable {T : Type} [LinearOrder T]

/-! ### C55 Absorption -/

/-- Union with a set on the left. -/
theorem Any.union_set_left {a : Inner T} (b : Any T) (ha : a.IsSet) (na : a.WF)
    (nb : b.toInner.WF) :
    ∃ c : Inner T, (Any.inner a).union b = .ok (.inner c) ∧
      sem c.ivs = sem a.ivs ∪ sem b.toInner.ivs ∧ c.WF ∧
      c.kind = unionKind a.kind (setKind b.toInner.kind) := by
  have hea : (Any.inner a).isER = false := by cases a <;> simp_all [Inner.IsSet, Any.isER]
  have hsk : setKind a.kind = a.kind := by cases a <;> first | rfl | exact ha.elim
  by_cases heb : b.isER = true
  · obtain rfl := Any.eq_of_isER heb
    have : (Any.inner a).union (.inner .er) = .ok (.inner a) := by
      rcases Any.union_cases (.inner a) (.inner .er : Any T) with ⟨h, _⟩ | ⟨_, h⟩ | ⟨_, h, _⟩
      · rw [h] at hea; cases hea
      · exact h
      · rw [heb] at h; cases h
    refine ⟨a, this, by simp [Any.toInner, Inner.ivs], na, ?_⟩
    cases a <;> rfl
  · obtain ⟨c, hc, hs, hw, hk⟩ := Any.union_spec (a := .inner a) (b := b)
      ((Inner.normal_iff _).mpr na) ((Inner.normal_iff _).mpr nb) hea (by simpa using heb)
    refine ⟨c.toInner, hc, hs, hw, ?_⟩
    rw [hk, Any.toInner_inner, hsk]

/-- The half-line of a `LowerBoundedSet` lies inside the half-line of any normalised
`LowerBoundedSet` that covers it. -/
theorem halfLine_subset {a b : LowerBoundedSet T} (hb : Canon b.ivs)
    (h : sem a.ivs ⊆ sem b.ivs) : sem1 a.lowerBoundedRange.iv ⊆ sem1 b.lowerBoundedRange.iv := by
  have hle : lo b.lowerBoundedRange.start ≤ lo a.lowerBoundedRange.start := by
    by_contra hc
    rw [not_le] at hc
    have h1 : (lo b.lowerBoundedRange.start, Side.at) ∈ sem a.ivs := by
      rw [LowerBoundedSet.ivs, sem_append, sem_one]
      exact Or.inr (mem_at.mpr ⟨hc, lo_lt_top _⟩)
    obtain ⟨p, hp, h2⟩ := h h1
    rw [mem_at] at h2
    rw [LowerBoundedSet.ivs, canon_append] at hb
    rcases List.mem_append.mp hp with hp | hp
    · exact absurd h2.2 (hb.2.2 p hp _ (List.mem_singleton.mpr rfl)).not_gt
    · obtain rfl := List.mem_singleton.mp hp
      exact absurd h2.1 (lt_irrefl _)
  rintro ⟨x, s⟩ hx
  cases s
  · exact ⟨hle.trans_lt hx.1, hx.2⟩
  · exact ⟨hle.trans_lt hx.1, hx.2⟩
  · exact ⟨hle.trans hx.1, hx.2⟩

/-- Intersection with something that covers the left operand loses nothing, whatever the types. -/
theorem interSem_of_subset {a b : Inner T} (hb : b.WF) (h : sem a.ivs ⊆ sem b.ivs) :
    interSem a b = sem a.ivs := by
  by_cases hl : BothLBS a b
  · cases a with
    | lbs a =>
      cases b with
      | lbs b =>
        have hh := halfLine_subset (a := a) (b := b) hb h
        refine Set.Subset.antisymm (fun q hq => (interSem_subset (.lbs a) (.lbs b) hq).1)
          fun q hq => ?_
        have hq' := hq
        rw [Inner.ivs, LowerBoundedSet.ivs, sem_append, sem_one] at hq'
        rcases hq' with h1 | h1
        · exact Or.inr ⟨h1, h hq⟩
        · exact Or.inl ⟨hq, hh h1⟩
      | _ => simp [BothLBS, Inner.kind] at hl
    | _ => simp [BothLBS, Inner.kind] at hl
  · rw [interSem_eq hl]
    exact Set.inter_eq_left.mpr h

/-- C55. `a ∪ (a ∩ b) == a`, for every set `a` and every `b`, two `LowerBoundedSet`s included. -/
theorem C55_union_inter_absorb (a : Inner T) (b : Any T) (ha : a.IsSet) (na : a.Normal)
    (nb : b.toInner.Normal) :
    ∃ i, (Any.inner a).inter b = .ok i ∧ (Any.inner a).union (.inner i) = .ok (.inner a) := by
  rw [Inner.normal_iff] at na nb
  obtain ⟨i, hi, si, wi, ki⟩ := Any.inter_comp (.inner a) b
  simp only [Any.toInner_inner] at si wi ki
  obtain ⟨c, hc, sc, wc, kc⟩ := Any.union_set_left (.inner i) ha na (wi ⟨na, nb⟩)
  refine ⟨i, hi, ?_⟩
  rw [hc]
  congr 2
  have hk : c.kind = a.kind := by
    rw [kc, Any.toInner_inner, ki]
    cases a <;> first | exact ha.elim | (cases b.toInner <;> rfl)
  refine Inner.eq_of_sem hk (hk ▸ Inner.isSet_iff.mp ha) wc na ?_
  rw [sc, Any.toInner_inner, si]
  exact Set.union_eq_left.mpr fun q hq => (interSem_subset a b.toInner hq).1

example : lbs.IsSet ∧ lbs.Normal ∧ lbs'.Normal := by decide
example : (Any.inner lbs).inter (.inner lbs') = .ok (.lbs ⟨⟨[]⟩, ci 10⟩) ∧
    (Any.inner lbs).union (.inner (.lbs ⟨⟨[]⟩, ci 10⟩)) = .ok (.inner lbs) := by decide +kernel

/-- C55. `a ∩ (a ∪ b) == a`, for every set `a` and every `b`, two `LowerBoundedSet`s included. -/
theorem C55_inter_union_absorb (a : Inner T) (b : Any T) (ha : a.IsSet) (na : a.Normal)
    (nb : b.toInner.Normal) :
    ∃ u, (Any.inner a).union b = .ok (.inner u) ∧ (Any.inner a).inter (.inner u) = .ok a := by
  rw [Inner.normal_iff] at na nb
  obtain ⟨u, hu, su, wu, ku⟩ := Any.union_set_left b ha na nb
  obtain ⟨i, hi, si, wi, ki⟩ := Any.inter_comp (.inner a) (.inner u)
  simp only [Any.toInner_inner] at si wi ki
  refine ⟨u, hu, ?_⟩
  rw [hi]
  congr 1
  have hk : i.kind = a.kind := by
    rw [ki, ku]
    cases a <;> first | exact ha.elim | (cases b.toInner <;> rfl)
  refine Inner.eq_of_sem hk (hk ▸ Inner.isSet_iff.mp ha) (wi ⟨na, wu⟩) na ?_
  rw [si, interSem_of_subset wu]
  rw [su]
  exact Set.subset_union_left

example : (Any.inner lbs').union (.inner lbs) = .ok (.inner lbs) ∧
    (Any.inner lbs').inter (.inner lbs) = .ok lbs' := by decide +kernel

/-! ### C56 Result types -/

omit [LinearOrder T] in
theorem Inner.boundedBelow_iff {i : Inner T} : i.BoundedBelow ↔
    i.kind = .br ∨ i.kind = .bs ∨ i.kind = .lbr ∨ i.kind = .lbs ∨ i.kind = .er := by
  cases i <;> simp [Inner.BoundedBelow, Inner.kind]

omit [LinearOrder T] in
theorem Inner.boundedAbove_iff {i : Inner T} : i.BoundedAbove ↔
    i.kind = .br ∨ i.kind = .bs ∨ i.kind = .ubr ∨ i.kind = .ubs ∨ i.kind = .er := by
  cases i <;> simp [Inner.BoundedAbove, Inner.kind]

/-- C56. A union's type is bounded on a side exactly when both operands' types are. -/
theorem C56_union_type (a b : Any T) :
    ∃ c, a.union b = .ok c ∧
      (c.toInner.BoundedBelow ↔ a.toInner.BoundedBelow ∧ b.toInner.BoundedBelow) ∧
      (c.toInner.BoundedAbove ↔ a.toInner.BoundedAbove ∧ b.toInner.BoundedAbove) := by
  rcases Any.union_cases a b with ⟨h, hu⟩ | ⟨h, hu⟩ | ⟨h1, h2, c, hu, hc⟩
  · obtain rfl := Any.eq_of_isER h
    exact ⟨b, hu, by simp [Any.toInner, Inner.BoundedBelow], by simp [Any.toInner, Inner.BoundedAbove]⟩
  · obtain rfl := Any.eq_of_isER h
    exact ⟨a, hu, by simp [Any.toInner, Inner.BoundedBelow], by simp [Any.toInner, Inner.BoundedAbove]⟩
  · refine ⟨_, hu, ?_⟩
    obtain ⟨c', hc', _, _, hk⟩ := SetVal.union_comp a.toSet b.toSet
    obtain rfl : c = c' := by rw [hc] at hc'; injection hc'
    rw [Any.toSet_eq, Any.toSet_eq, Inner.toSet_kind, Inner.toSet_kind] at hk
    have e1 : a.toInner.kind ≠ .er := fun h => by
      have := Any.isER_false.mp h1
      exact this h
    have e2 : b.toInner.kind ≠ .er := fun h => Any.isER_false.mp h2 h
    simp only [Any.toInner_inner, Inner.boundedBelow_iff, Inner.boundedAbove_iff, hk]
    revert e1 e2
    generalize a.toInner.kind = j
    generalize b.toInner.kind = k
    intro e1 e2
    cases j <;> cases k <;> simp_all [unionKind, setKind]

/-- C56. An intersection's type is bounded on a side exactly when one of the operands' types is. -/
theorem C56_inter_type (a b : Any T) :
    ∃ c, a.inter b = .ok c ∧
      (c.BoundedBelow ↔ a.toInner.BoundedBelow ∨ b.toInner.BoundedBelow) ∧
      (c.BoundedAbove ↔ a.toInner.BoundedAbove ∨ b.toInner.BoundedAbove) := by
  obtain ⟨c, hc, _, _, hk⟩ := Any.inter_comp a b
  refine ⟨c, hc, ?_⟩
  simp only [Inner.boundedBelow_iff, Inner.boundedAbove_iff, hk]
  generalize a.toInner.kind = j
  generalize b.toInner.kind = k
  cases j <;> cases k <;> simp [interKind]

/-- C56. A complement's type is bounded on a side exactly when the operand's type is not. -/
theorem C56_complement_type (a : Any T) :
    ∃ c, a.complement = .ok c ∧ (c.BoundedBelow ↔ ¬ a.toInner.BoundedBelow) ∧
      (c.BoundedAbove ↔ ¬ a.toInner.BoundedAbove) := by
  obtain ⟨c, hc, _, _, hk⟩ := Any.complement_comp a
  refine ⟨c, hc, ?_⟩
  simp only [Inner.boundedBelow_iff, Inner.boundedAbove_iff, hk]
  generalize a.toInner.kind = j
  cases j <;> simp [complKind]

example : (Any.rangeFrom ⟨3⟩ : Any Int).toInner.BoundedBelow ∧ ¬ ubs.BoundedBelow ∧
    ubs.BoundedAbove := by simp [Any.toInner, Inner.BoundedBelow, Inner.BoundedAbove, ubs]

/-- C56. Conversions keep the sides. -/
theorem C56_toSet_type (a : Any T) :
    (a.toSet.toInner.BoundedBelow ↔ a.toInner.BoundedBelow) ∧
      (a.toSet.toInner.BoundedAbove ↔ a.toInner.BoundedAbove) := by
  rw [Any.toSet_eq]
  simp only [Inner.boundedBelow_iff, Inner.boundedAbove_iff, Inner.toSet_kind]
  generalize a.toInner.kind = j
  cases j <;> simp [setKind]

/-! ### C57 Normal results from any input -/

/-- C57. The complement of any value whatever is normal. -/
theorem C57_complement_normal (a : Any T) : ∃ c, a.complement = .ok c ∧ c.Normal := by
  obtain ⟨c, hc, _, hw, _⟩ := Any.complement_comp a
  exact ⟨c, hc, (Inner.normal_iff c).mpr (hw trivial)⟩

/-- C57. Complementing twice repairs any set value: the result is normal, of the same type, and has
the same members. -/
theorem C57_repair (s : Inner T) (hs : s.IsSet) :
    ∃ c d, (Any.inner s).complement = .ok c ∧ (Any.inner c).complement = .ok d ∧ d.Normal ∧
      d.SameType s ∧ ∀ t, d.contains t = s.contains t := by
  obtain ⟨c, d, hc, hd, hm⟩ := C15_complement_complement (.inner s) trivial
  obtain ⟨d', hd', hn⟩ := C57_complement_normal (.inner c)
  obtain rfl : d = d' := by rw [hd] at hd'; injection hd'
  refine ⟨c, d, hc, hd, hn, ?_, hm⟩
  obtain ⟨c', hc', _, _, kc⟩ := Any.complement_comp (.inner s)
  obtain rfl : c = c' := by rw [hc] at hc'; injection hc'
  obtain ⟨d', hd', _, _, kd⟩ := Any.complement_comp (.inner c)
  obtain rfl : d = d' := by rw [hd] at hd'; injection hd'
  rw [Inner.sameType_iff, kd, Any.toInner_inner, kc]
  cases s <;> first | exact hs.elim | rfl

/-- an unsorted, overlapping piece list with an empty piece -/
def broken : Inner Int := .bs ⟨[co 5 9, co 3 3, co 0 7]⟩

example : broken.IsSet ∧ ¬ broken.Normal := by decide
example : (Any.inner broken).complement = .ok (.us (.piecewise ⟨io 0, ⟨[]⟩, ci 9⟩)) := by decide +kernel

/-- C57. The intersection of two `BoundedSet`s is normal, whatever the operands, and so is the union of
a normal bounded operand with any `BoundedSet`. -/
theorem C57_bounded (s s' : BoundedSet T) (a : Inner T) (ha : a.Normal)
    (hb : a.BoundedBelow ∧ a.BoundedAbove ∧ a ≠ .er) :
    (∃ c, (Any.inner (.bs s)).inter (.inner (.bs s')) = .ok (.bs c) ∧ Pieces c.ranges) ∧
    ∃ c, (Any.inner a).union (.inner (.bs s)) = .ok (.inner (.bs c)) ∧ Pieces c.ranges := by
  constructor
  · obtain ⟨c, hc, _, hw⟩ := BoundedSet.interBS_comp s s'
    refine ⟨c, ?_, (Inner.normal_iff (.bs c)).mpr (hw trivial)⟩
    show (do return Inner.bs (← s.interBS s')) = _
    rw [hc]; rfl
  · rw [Inner.normal_iff] at ha
    obtain ⟨hb1, hb2, hb3⟩ := hb
    obtain ⟨x, hx, hxc⟩ : ∃ x : BoundedSet T, (Any.inner a).toSet = .bs x ∧ Canon x.ivs := by
      cases a with
      | br r => exact ⟨_, rfl, BoundedSet.ofBR_canon r⟩
      | bs s => exact ⟨s, rfl, ha⟩
      | er => exact absurd rfl hb3
      | _ => first | exact hb1.elim | exact hb2.elim
    obtain ⟨c, hc, _, hw⟩ := BoundedSet.addSet_comp x s
    refine ⟨c, ?_, (Inner.normal_iff (.bs c)).mpr (hw hxc)⟩
    rw [Any.union_dispatch (by simpa using hb3) (by rintro ⟨⟩; exact hb1), hx]
    show (do return Any.inner (SetVal.toInner (← (do return SetVal.bs (← x.addSet s))))) = _
    rw [hc]; rfl

example : (Inner.br (co 2 2)).Normal ∧ (Inner.br (co 2 2)).BoundedBelow ∧
    (Inner.br (co 2 2)).BoundedAbove ∧ Inner.br (co 2 2) ≠ .er :=
  ⟨trivial, trivial, trivial, by decide⟩
example : (Any.inner (.br (co 2 2))).union (.inner broken) = .ok (.inner (.bs ⟨[co 0 9]⟩)) := by
  decide +kernel

/-! ### C58 Difference and subset idioms -/

/-- C58. `a.intersection(b.complement())` is the difference, unless that intersection is lossy, which
can only happen when a `LowerBoundedSet` is reduced by an `UpperBoundedSet`. -/
theorem C58_difference_partial (a b : Any T) (ha : a.Fresh) (hb : b.Fresh) :
    ∃ c d, b.complement = .ok c ∧ a.inter (.inner c) = .ok d ∧
      (Lossless a (.inner c) → ∀ t, d.contains t = (a.contains t && !b.contains t)) ∧
      (¬ (a.toInner.IsLBS ∧ b.toInner.IsUBS) → Lossless a (.inner c)) ∧
      ∀ t, d.contains t = true → a.contains t = true ∧ b.contains t = false := by
  obtain ⟨c, hc, sc⟩ := C03_complement_contains b hb
  obtain ⟨c', hc', _, _, kc⟩ := Any.complement_comp b
  obtain rfl : c = c' := by rw [hc] at hc'; injection hc'
  obtain ⟨d, hd, sd⟩ := C02_inter_subset a (.inner c) ha trivial
  refine ⟨c, d, hc, hd, fun hl => ?_, fun h => Inner.Lossless.of_not_both ?_, fun t ht => ?_⟩
  · obtain ⟨d', hd', sd'⟩ := C02_inter_contains_partial a (.inner c) ha trivial hl
    obtain rfl : d = d' := by rw [hd] at hd'; injection hd'
    intro t
    rw [sd']
    simp only [Any.contains_inner]
    rw [sc]
  · rintro ⟨h1, h2⟩
    refine h ⟨h1, ?_⟩
    rw [Inner.isLBS_iff, Any.toInner_inner, kc] at h2
    revert h2
    cases b.toInner <;> simp [Inner.kind, complKind, Inner.IsUBS]
  · obtain ⟨h1, h2⟩ := sd t ht
    simp only [Any.contains_inner] at h2
    rw [sc] at h2
    exact ⟨h1, by simpa using h2⟩

example : ¬ ((Any.inner lbs).toInner.IsLBS ∧ (Any.inner lbs').toInner.IsUBS) := by decide

/-- C58. A difference that loses elements, of reachable values:
`((-5..-3) ∪ (0..)) \ ((..1) ∪ (3..10))` lacks 1. -/
theorem C58_counterexample :
    ∃ (a b : Any Int) (c d : Inner Int) (t : Int), Reachable a ∧ Reachable b ∧
      b.complement = .ok c ∧ a.inter (.inner c) = .ok d ∧ a.contains t = true ∧
      b.contains t = false ∧ d.contains t = false := by
  refine ⟨.inner lbs, .inner (.ubs ⟨io 1, ⟨[co 3 10]⟩⟩), lbs', .lbs ⟨⟨[]⟩, ci 10⟩, 1, lbs_reachable,
    .union (.rangeTo ⟨1⟩) (.range ⟨3, 10⟩) ?_, ?_, ?_, ?_, ?_, ?_⟩ <;> decide +kernel

/-- C58. `a.disjoint(b.complement())` implies that every element of `a` is in `b`, for all types and
values. -/
theorem C58_subset (a b : Any T) (hb : b.Fresh) :
    ∃ c d, b.complement = .ok c ∧ a.disjoint (.inner c) = .ok d ∧
      (d = true → ∀ t, a.contains t = true → b.contains t = true) := by
  obtain ⟨c, hc, sc⟩ := C03_complement_contains b hb
  obtain ⟨d, hd, _, h, _⟩ := C20_disjoint_sound a (.inner c)
  refine ⟨c, d, hc, hd, fun e t ht => ?_⟩
  by_contra hn
  refine h e t ⟨ht, ?_⟩
  simp only [Any.contains_inner]
  rw [sc]
  simpa using hn

/-- C58. Over a dense order without endpoints the test is exact. -/
theorem C58_subset_dense [DenselyOrdered T] [NoMinOrder T] [NoMaxOrder T] [Nonempty T]
    (a b : Any T) (ha : a.Fresh) (hb : b.Fresh) :
    ∃ c d, b.complement = .ok c ∧ a.disjoint (.inner c) = .ok d ∧
      (d = true ↔ ∀ t, a.contains t = true → b.contains t = true) := by
  obtain ⟨c, d, hc, hd, h⟩ := C58_subset a b hb
  refine ⟨c, d, hc, hd, h, fun hs => ?_⟩
  obtain ⟨r, hr, hex⟩ := C21_intersects_dense a (.inner c) ha trivial
  obtain ⟨d', hd', hi, _⟩ := C20_disjoint_sound a (.inner c)
  obtain rfl : d = d' := by rw [hd] at hd'; injection hd'
  obtain rfl : r = !d := by rw [hr] at hi; injection hi
  by_contra hn
  obtain ⟨t, h1, h2⟩ := hex.mp (by simpa using hn)
  obtain ⟨c', hc', sc⟩ := C03_complement_contains b hb
  obtain rfl : c = c' := by rw [hc] at hc'; injection hc'
  simp only [Any.contains_inner] at h2
  rw [sc, hs t h1] at h2
  simp at h2

example : ∃ c, (Any.rangeInclusive ⟨0, 9, false⟩ : Any Int).complement = .ok c ∧
    (Any.inner bs).disjoint (.inner c) = .ok true :=
  ⟨.us (.piecewise ⟨io 0, ⟨[]⟩, ⟨.excluded 9⟩⟩), by decide +kernel⟩

/-- C58. On integers the test is not complete: `3..5` and `3..=4` have the same members, but the test
sees the gap between 4 and 5. -/
theorem C58_subset_discrete :
    ∃ (a b : Any Int) (c : Inner Int), (∀ t, a.contains t = true → b.contains t = true) ∧
      b.complement = .ok c ∧ a.disjoint (.inner c) = .ok false := by
  refine ⟨.range ⟨3, 5⟩, .rangeInclusive ⟨3, 4, false⟩,
    .us (.piecewise ⟨io 3, ⟨[]⟩, ⟨.excluded 4⟩⟩), fun t => ?_, by decide +kernel, by decide +kernel⟩
  simp only [Any.contains, Range.contains, RangeInclusive.contains]
  simp
  omega

end Rangetools
