import Verif.Spec.Definable
import Verif.Props.Members
import Verif.Props.Lattice
import Verif.Props.Bounds
import Verif.Props.Reach

/-!
# C80: which sets of elements the types can represent
-/

namespace Rangetools
open Samples
variable {T : Type} [LinearOrder T]

theorem Definable.congr {P Q : T → Prop} (h : Definable P) (e : ∀ t, P t ↔ Q t) : Definable Q := by
  obtain rfl : P = Q := funext fun t => propext (e t)
  exact h

theorem Definable.none : Definable (fun _ : T => False) := Definable.all.not.congr fun _ => by simp

theorem Definable.and {P Q : T → Prop} (h : Definable P) (h' : Definable Q) : Definable (fun t => P t ∧ Q t) :=
  (h.not.or h'.not).not.congr fun t => by rw [not_or, not_not, not_not]

theorem Definable.atLeast (a : T) : Definable (fun t => a ≤ t) := (Definable.less a).not.congr fun _ => not_lt

theorem Definable.greater (a : T) : Definable (fun t => a < t) := (Definable.atMost a).not.congr fun _ => not_le

theorem definable_lbr : ∀ r : LowerBoundedRange T, Definable (fun t => r.contains t = true)
  | ⟨⟨.included a⟩⟩ => (Definable.atLeast a).congr fun t => ((C60_ranges a a t).2.2.2.2.1).symm
  | ⟨⟨.excluded a⟩⟩ => (Definable.greater a).congr fun t => ((C60_ranges a a t).2.2.2.2.2.1).symm

theorem definable_ubr : ∀ r : UpperBoundedRange T, Definable (fun t => r.contains t = true)
  | ⟨⟨.included a⟩⟩ => (Definable.atMost a).congr fun t => ((C60_ranges a a t).2.2.2.2.2.2.1).symm
  | ⟨⟨.excluded a⟩⟩ => (Definable.less a).congr fun t => ((C60_ranges a a t).2.2.2.2.2.2.2.1).symm

/-- A bounded range is what its two half-lines have in common. -/
theorem BoundedRange.contains_halves (r : BoundedRange T) (t : T) :
    r.contains t = true ↔ (LowerBoundedRange.mk r.start).contains t = true ∧
      (UpperBoundedRange.mk r.stop).contains t = true := by
  rcases r with ⟨⟨s | s⟩, ⟨e | e⟩⟩ <;>
    simp [BoundedRange.contains, LowerBoundedRange.contains, UpperBoundedRange.contains]

theorem definable_br (r : BoundedRange T) : Definable (fun t => r.contains t = true) :=
  ((definable_lbr _).and (definable_ubr _)).congr fun t => (r.contains_halves t).symm

theorem definable_pieces (l : List (BoundedRange T)) : Definable (fun t => ∃ r ∈ l, r.contains t = true) := by
  induction l with
  | nil => exact Definable.none.congr fun t => by simp
  | cons r l ih => exact ((definable_br r).or ih).congr fun t => by simp

theorem definable_inner (i : Inner T) : Definable (fun t => i.contains t = true) := by
  cases i with
  | br r => exact definable_br r
  | bs s => exact (definable_pieces s.ranges).congr fun t => (by simp [Inner.contains, BoundedSet.contains])
  | lbr r => exact definable_lbr r
  | lbs s =>
    exact ((definable_lbr s.lowerBoundedRange).or (definable_pieces s.ranges.ranges)).congr fun t => by
      simp [Inner.contains, LowerBoundedSet.contains, BoundedSet.contains]
  | ubr r => exact definable_ubr r
  | ubs s =>
    exact ((definable_ubr s.upperBoundedRange).or (definable_pieces s.ranges.ranges)).congr fun t => by
      simp [Inner.contains, UpperBoundedSet.contains, BoundedSet.contains]
  | ur => exact Definable.all.congr fun t => by simp [Inner.contains]
  | us u =>
    cases u with
    | full => exact Definable.all.congr fun t => by simp [Inner.contains, UnboundedSet.contains]
    | piecewise p =>
      exact (((definable_ubr p.upperBoundedRange).or (definable_lbr p.lowerBoundedRange)).or
        (definable_pieces p.ranges.ranges)).congr fun t => by
        simp [Inner.contains, UnboundedSet.contains, PiecewiseUnboundedSet.contains, BoundedSet.contains, or_assoc]
  | er => exact Definable.none.congr fun t => by simp [Inner.contains]

theorem definable_any (a : Any T) : Definable (fun t => a.contains t = true) := by
  cases a with
  | range r =>
    exact ((Definable.atLeast r.start).and (Definable.less r.stop)).congr fun t => ((C60_std r.start r.stop t).1).symm
  | rangeInclusive r =>
    rcases r with ⟨a, b, _ | _⟩
    · exact ((Definable.atLeast a).and (Definable.atMost b)).congr fun t => ((C60_std a b t).2.1).symm
    · exact ((Definable.atLeast a).and (Definable.less b)).congr fun t => ((C60_std a b t).2.2.1).symm
  | rangeFrom r => exact (Definable.atLeast r.start).congr fun t => ((C60_std r.start r.start t).2.2.2.1).symm
  | rangeTo r => exact (Definable.less r.stop).congr fun t => ((C60_std r.stop r.stop t).2.2.2.2.1).symm
  | rangeToInclusive r => exact (Definable.atMost r.stop).congr fun t => ((C60_std r.stop r.stop t).2.2.2.2.2.1).symm
  | rangeFull => exact Definable.all.congr fun t => by simp [Any.contains]
  | inner i => exact definable_inner i

theorem Definable.inner {P : T → Prop} (h : Definable P) :
    ∃ i : Inner T, Reachable (.inner i) ∧ ∀ t, P t ↔ i.contains t = true := by
  induction h with
  | all => exact ⟨.ur, .unboundedRange, fun t => by simp [Inner.contains]⟩
  | less a =>
    exact ⟨.ubr ⟨.excluded a⟩, .upperBoundedRange _, fun t => ((C60_ranges a a t).2.2.2.2.2.2.2.1).symm⟩
  | atMost a =>
    exact ⟨.ubr ⟨.included a⟩, .upperBoundedRange _, fun t => ((C60_ranges a a t).2.2.2.2.2.2.1).symm⟩
  | or _ _ ih ih' =>
    obtain ⟨i, hi, ei⟩ := ih
    obtain ⟨j, hj, ej⟩ := ih'
    obtain ⟨c, hc, ec⟩ := C01_union_contains (.inner i) (.inner j) trivial trivial
    refine ⟨c.toInner, (Reachable.union hi hj hc).toInner, fun t => ?_⟩
    have hf : c.Fresh := by
      obtain ⟨c', hc', _, _, hf⟩ := Any.union_comp (.inner i) (.inner j)
      obtain rfl : c = c' := by rw [hc] at hc'; injection hc'
      rcases hf with rfl | rfl | ⟨k, rfl⟩ <;> trivial
    rw [c.contains_toInner hf, ec, Bool.or_eq_true]
    exact or_congr (ei t) (ej t)
  | not _ ih =>
    obtain ⟨i, hi, ei⟩ := ih
    obtain ⟨c, hc, ec⟩ := C03_complement_contains (.inner i) trivial
    refine ⟨c, .complement hi hc, fun t => ?_⟩
    rw [ec, Bool.not_eq_true', ← Bool.not_eq_true]
    exact not_congr (ei t)

/-- C80. The values of all types represent exactly the Boolean combinations of half-lines. -/
theorem C80_definable (P : T → Prop) :
    Definable P ↔ ∃ a : Any T, Reachable a ∧ ∀ t, P t ↔ a.contains t = true := by
  constructor
  · intro h
    obtain ⟨i, hi, ei⟩ := h.inner
    exact ⟨.inner i, hi, ei⟩
  · rintro ⟨a, _, ha⟩
    exact (definable_any a).congr fun t => (ha t).symm

/-- The union of values of crate types is a value of a crate type. -/
theorem union_inner_inner (i j : Inner T) : ∃ k, (Any.inner i).union (.inner j) = .ok (.inner k) ∧
    ∀ t, k.contains t = (i.contains t || j.contains t) := by
  obtain ⟨c, hc, ec⟩ := C01_union_contains (.inner i) (.inner j) trivial trivial
  obtain ⟨c', hc', _, _, hf⟩ := Any.union_comp (.inner i) (.inner j)
  obtain rfl : c = c' := by rw [hc] at hc'; injection hc'
  rcases hf with rfl | rfl | ⟨k, rfl⟩ <;> exact ⟨_, hc, ec⟩

theorem contains_lower (r : LowerBoundedRange T) : HasFloor (fun t => r.contains t = true) ∧
    Eventually (fun t => r.contains t = true) := by
  rcases r with ⟨⟨a | a⟩⟩
  · exact ⟨⟨a, fun t h => le_of_lt ((C60_ranges a a t).2.2.2.2.2.1.1 h)⟩,
      a, fun t h => (C60_ranges a a t).2.2.2.2.2.1.2 h⟩
  · exact ⟨⟨a, fun t h => (C60_ranges a a t).2.2.2.2.1.1 h⟩,
      a, fun t h => (C60_ranges a a t).2.2.2.2.1.2 (le_of_lt h)⟩

theorem contains_upper (r : UpperBoundedRange T) : HasCeiling (fun t => r.contains t = true) ∧
    Initially (fun t => r.contains t = true) := by
  rcases r with ⟨⟨a | a⟩⟩
  · exact ⟨⟨a, fun t h => le_of_lt ((C60_ranges a a t).2.2.2.2.2.2.2.1.1 h)⟩,
      a, fun t h => (C60_ranges a a t).2.2.2.2.2.2.2.1.2 h⟩
  · exact ⟨⟨a, fun t h => (C60_ranges a a t).2.2.2.2.2.2.1.1 h⟩,
      a, fun t h => (C60_ranges a a t).2.2.2.2.2.2.1.2 (le_of_lt h)⟩

theorem HasFloor.or {P Q : T → Prop} : HasFloor P → HasFloor Q → HasFloor (fun t => P t ∨ Q t)
  | ⟨a, ha⟩, ⟨b, hb⟩ => ⟨min a b, fun t h => h.elim (fun h => (min_le_left a b).trans (ha t h))
      fun h => (min_le_right a b).trans (hb t h)⟩

theorem HasCeiling.or {P Q : T → Prop} : HasCeiling P → HasCeiling Q → HasCeiling (fun t => P t ∨ Q t)
  | ⟨a, ha⟩, ⟨b, hb⟩ => ⟨max a b, fun t h => h.elim (fun h => (ha t h).trans (le_max_left a b))
      fun h => (hb t h).trans (le_max_right a b)⟩

/-- Given any element at all, the members of a list of pieces lie between two elements. -/
theorem pieces_between (z : T) (l : List (BoundedRange T)) :
    HasFloor (fun t => ∃ r ∈ l, r.contains t = true) ∧ HasCeiling (fun t => ∃ r ∈ l, r.contains t = true) := by
  induction l with
  | nil => exact ⟨⟨z, fun t h => by simp at h⟩, z, fun t h => by simp at h⟩
  | cons r l ih =>
    have h1 := (contains_lower ⟨r.start⟩).1.or ih.1
    have h2 := (contains_upper ⟨r.stop⟩).1.or ih.2
    simp only [List.mem_cons, exists_eq_or_imp, r.contains_halves]
    obtain ⟨a, ha⟩ := h1
    obtain ⟨b, hb⟩ := h2
    exact ⟨⟨a, fun t h => ha t (h.imp_left And.left)⟩, b, fun t h => hb t (h.imp_left And.right)⟩

/-- C80. `BoundedSet`s represent exactly the definable sets that lie between two elements (or are empty). -/
theorem C80_bounded_set (P : T → Prop) :
    (∃ s : BoundedSet T, Reachable (.inner (.bs s)) ∧ ∀ t, P t ↔ s.contains t = true) ↔
      Definable P ∧ ((∀ t, ¬ P t) ∨ HasFloor P ∧ HasCeiling P) := by
  constructor
  · rintro ⟨s, _, hs⟩
    refine ⟨(definable_inner (.bs s)).congr fun t => (hs t).symm, ?_⟩
    rcases isEmpty_or_nonempty T with h | ⟨⟨z⟩⟩
    · exact .inl fun t => (h.false t).elim
    · obtain ⟨⟨a, ha⟩, b, hb⟩ := pieces_between z s.ranges
      have e : ∀ t, P t → ∃ r ∈ s.ranges, r.contains t = true := fun t h => by
        simpa [BoundedSet.contains] using (hs t).1 h
      exact .inr ⟨⟨a, fun t h => ha t (e t h)⟩, b, fun t h => hb t (e t h)⟩
  · rintro ⟨hd, he | ⟨⟨a, ha⟩, b, hb⟩⟩
    · exact ⟨BoundedSet.empty, .boundedSetEmpty, fun t => by simp [he t, BoundedSet.empty, BoundedSet.contains]⟩
    · obtain ⟨i, hi, ei⟩ := hd.inner
      obtain ⟨c, hc, ec⟩ := C02_inter_contains_partial (.inner i) (.inner (.br ⟨.included a, .included b⟩)) trivial
        trivial (by cases i <;> trivial)
      obtain ⟨c', hc', h1, h2⟩ := C56_inter_type (.inner i) (.inner (.br ⟨.included a, .included b⟩))
      obtain rfl : c = c' := by rw [hc] at hc'; injection hc'
      have e : ∀ t, P t ↔ c.contains t = true := fun t => by
        rw [ec, Bool.and_eq_true]
        exact ⟨fun h => ⟨(ei t).1 h, (C60_ranges a b t).1.2 ⟨ha t h, hb t h⟩⟩, fun h => (ei t).2 h.1⟩
      have hr : Reachable (.inner c) := .inter hi (.boundedRange _) hc
      have b1 := h1.2 (.inr trivial)
      have b2 := h2.2 (.inr trivial)
      have hset := (C29_conversions (.inner c) trivial).2.1
      cases c with
      | br r => exact ⟨BoundedSet.ofBR r, hr.toSet, fun t => (e t).trans (Bool.eq_iff_iff.1 (hset t).symm)⟩
      | bs s => exact ⟨s, hr, e⟩
      | er => exact ⟨BoundedSet.empty, .boundedSetEmpty, e⟩
      | _ => first | exact b1.elim | exact b2.elim

/-- C80. `LowerBoundedSet`s represent exactly the definable sets with a floor that have everything from some point
on. -/
theorem C80_lower_bounded_set (P : T → Prop) :
    (∃ s : LowerBoundedSet T, Reachable (.inner (.lbs s)) ∧ ∀ t, P t ↔ s.contains t = true) ↔
      Definable P ∧ HasFloor P ∧ Eventually P := by
  constructor
  · rintro ⟨s, _, hs⟩
    refine ⟨(definable_inner (.lbs s)).congr fun t => (hs t).symm, ?_, ?_⟩
    · obtain ⟨h1, h2⟩ := contains_lower s.lowerBoundedRange
      obtain ⟨a, ha⟩ := h1.or (pieces_between h1.choose s.ranges.ranges).1
      exact ⟨a, fun t h => ha t (by simpa [LowerBoundedSet.contains, BoundedSet.contains] using (hs t).1 h)⟩
    · obtain ⟨a, ha⟩ := (contains_lower s.lowerBoundedRange).2
      exact ⟨a, fun t h => (hs t).2 (by simp [LowerBoundedSet.contains, ha t h])⟩
  · rintro ⟨hd, ⟨a, ha⟩, b, hb⟩
    obtain ⟨i, hi, ei⟩ := hd.inner
    obtain ⟨c, hc, ec⟩ := C02_inter_contains_partial (.inner i) (.inner (.lbr ⟨.included a⟩)) trivial
      trivial (by cases i <;> trivial)
    obtain ⟨c', hc', h1, h2⟩ := C56_inter_type (.inner i) (.inner (.lbr ⟨.included a⟩))
    obtain rfl : c = c' := by rw [hc] at hc'; injection hc'
    obtain ⟨k, hk, ek⟩ := union_inner_inner c (.lbr ⟨.excluded b⟩)
    obtain ⟨k', hk', h3, h4⟩ := C56_union_type (.inner c) (.inner (.lbr ⟨.excluded b⟩))
    obtain rfl : Any.inner k = k' := by rw [hk] at hk'; injection hk'
    have e : ∀ t, P t ↔ k.contains t = true := fun t => by
      rw [ek, Bool.or_eq_true, ec, Bool.and_eq_true]
      constructor
      · exact fun h => .inl ⟨(ei t).1 h, (C60_ranges a a t).2.2.2.2.1.2 (ha t h)⟩
      · rintro (h | h)
        · exact (ei t).2 h.1
        · exact hb t ((C60_ranges b b t).2.2.2.2.2.1.1 h)
    have hr : Reachable (.inner k) := .union (.inter hi (.lowerBoundedRange _) hc) (.lowerBoundedRange _) hk
    have b1 : k.BoundedBelow := h3.2 ⟨h1.2 (.inr trivial), trivial⟩
    have b2 : ¬ k.BoundedAbove := fun h => (h4.1 h).2
    have hset := (C29_conversions (.inner k) trivial).2.1
    cases k with
    | lbr r => exact ⟨LowerBoundedSet.ofLBR r, hr.toSet, fun t => (e t).trans (Bool.eq_iff_iff.1 (hset t).symm)⟩
    | lbs s => exact ⟨s, hr, e⟩
    | _ => first | exact b1.elim | exact (b2 trivial).elim

/-- C80. `UpperBoundedSet`s represent exactly the definable sets with a ceiling that have everything up to some
point. -/
theorem C80_upper_bounded_set (P : T → Prop) :
    (∃ s : UpperBoundedSet T, Reachable (.inner (.ubs s)) ∧ ∀ t, P t ↔ s.contains t = true) ↔
      Definable P ∧ HasCeiling P ∧ Initially P := by
  constructor
  · rintro ⟨s, _, hs⟩
    refine ⟨(definable_inner (.ubs s)).congr fun t => (hs t).symm, ?_, ?_⟩
    · obtain ⟨h1, h2⟩ := contains_upper s.upperBoundedRange
      obtain ⟨a, ha⟩ := h1.or (pieces_between h1.choose s.ranges.ranges).2
      exact ⟨a, fun t h => ha t (by simpa [UpperBoundedSet.contains, BoundedSet.contains] using (hs t).1 h)⟩
    · obtain ⟨a, ha⟩ := (contains_upper s.upperBoundedRange).2
      exact ⟨a, fun t h => (hs t).2 (by simp [UpperBoundedSet.contains, ha t h])⟩
  · rintro ⟨hd, ⟨a, ha⟩, b, hb⟩
    obtain ⟨i, hi, ei⟩ := hd.inner
    obtain ⟨c, hc, ec⟩ := C02_inter_contains_partial (.inner i) (.inner (.ubr ⟨.included a⟩)) trivial
      trivial (by cases i <;> trivial)
    obtain ⟨c', hc', h1, h2⟩ := C56_inter_type (.inner i) (.inner (.ubr ⟨.included a⟩))
    obtain rfl : c = c' := by rw [hc] at hc'; injection hc'
    obtain ⟨k, hk, ek⟩ := union_inner_inner c (.ubr ⟨.excluded b⟩)
    obtain ⟨k', hk', h3, h4⟩ := C56_union_type (.inner c) (.inner (.ubr ⟨.excluded b⟩))
    obtain rfl : Any.inner k = k' := by rw [hk] at hk'; injection hk'
    have e : ∀ t, P t ↔ k.contains t = true := fun t => by
      rw [ek, Bool.or_eq_true, ec, Bool.and_eq_true]
      constructor
      · exact fun h => .inl ⟨(ei t).1 h, (C60_ranges a a t).2.2.2.2.2.2.1.2 (ha t h)⟩
      · rintro (h | h)
        · exact (ei t).2 h.1
        · exact hb t ((C60_ranges b b t).2.2.2.2.2.2.2.1.1 h)
    have hr : Reachable (.inner k) := .union (.inter hi (.upperBoundedRange _) hc) (.upperBoundedRange _) hk
    have b1 : ¬ k.BoundedBelow := fun h => (h3.1 h).2
    have b2 : k.BoundedAbove := h4.2 ⟨h2.2 (.inr trivial), trivial⟩
    have hset := (C29_conversions (.inner k) trivial).2.1
    cases k with
    | ubr r => exact ⟨UpperBoundedSet.ofUBR r, hr.toSet, fun t => (e t).trans (Bool.eq_iff_iff.1 (hset t).symm)⟩
    | ubs s => exact ⟨s, hr, e⟩
    | _ => first | exact b2.elim | exact (b1 trivial).elim

/-- C80. `UnboundedSet`s represent exactly the definable sets that have everything up to some point and everything
from some point on, and the set of everything. -/
theorem C80_unbounded_set (P : T → Prop) :
    (∃ s : UnboundedSet T, Reachable (.inner (.us s)) ∧ ∀ t, P t ↔ s.contains t = true) ↔
      Definable P ∧ ((∀ t, P t) ∨ Initially P ∧ Eventually P) := by
  constructor
  · rintro ⟨s, _, hs⟩
    refine ⟨(definable_inner (.us s)).congr fun t => (hs t).symm, ?_⟩
    cases s with
    | full => exact .inl fun t => (hs t).2 rfl
    | piecewise p =>
      obtain ⟨a, ha⟩ := (contains_upper p.upperBoundedRange).2
      obtain ⟨b, hb⟩ := (contains_lower p.lowerBoundedRange).2
      exact .inr ⟨⟨a, fun t h => (hs t).2 (by simp [UnboundedSet.contains, PiecewiseUnboundedSet.contains, ha t h])⟩,
        b, fun t h => (hs t).2 (by simp [UnboundedSet.contains, PiecewiseUnboundedSet.contains, hb t h])⟩
  · rintro ⟨hd, h | ⟨⟨a, ha⟩, b, hb⟩⟩
    · exact ⟨.full, .unboundedSetFull, fun t => by simp [h t, UnboundedSet.contains]⟩
    · obtain ⟨i, hi, ei⟩ := hd.inner
      obtain ⟨c, hc, ec⟩ := union_inner_inner i (.ubr ⟨.excluded a⟩)
      obtain ⟨c', hc', h1, h2⟩ := C56_union_type (.inner i) (.inner (.ubr ⟨.excluded a⟩))
      obtain rfl : Any.inner c = c' := by rw [hc] at hc'; injection hc'
      obtain ⟨k, hk, ek⟩ := union_inner_inner c (.lbr ⟨.excluded b⟩)
      obtain ⟨k', hk', h3, h4⟩ := C56_union_type (.inner c) (.inner (.lbr ⟨.excluded b⟩))
      obtain rfl : Any.inner k = k' := by rw [hk] at hk'; injection hk'
      have e : ∀ t, P t ↔ k.contains t = true := fun t => by
        rw [ek, Bool.or_eq_true, ec, Bool.or_eq_true, ← ei]
        constructor
        · exact fun h => .inl (.inl h)
        · rintro ((h | h) | h)
          · exact h
          · exact ha t ((C60_ranges a a t).2.2.2.2.2.2.2.1.1 h)
          · exact hb t ((C60_ranges b b t).2.2.2.2.2.1.1 h)
      have hr : Reachable (.inner k) := .union (.union hi (.upperBoundedRange _) hc) (.lowerBoundedRange _) hk
      have b1 : ¬ k.BoundedBelow := fun h => (h1.1 (h3.1 h).1).2
      have b2 : ¬ k.BoundedAbove := fun h => (h4.1 h).2
      cases k with
      | ur => exact ⟨.full, .unboundedSetFull, fun t => (e t).trans (by simp [Inner.contains, UnboundedSet.contains])⟩
      | us s => exact ⟨s, hr, e⟩
      | _ => first | exact (b1 trivial).elim | exact (b2 trivial).elim

/-! ### Ranges -/

theorem br_convex (r : BoundedRange T) : Convex (fun t => r.contains t = true) := by
  rcases r with ⟨⟨s | s⟩, ⟨e | e⟩⟩ <;> intro a t b ha hb h1 h2 <;>
    simp only [BoundedRange.contains, Bool.and_eq_true, decide_eq_true_eq] at ha hb ⊢
  · exact ⟨ha.1.trans_le h1, h2.trans_lt hb.2⟩
  · exact ⟨ha.1.trans_le h1, h2.trans hb.2⟩
  · exact ⟨ha.1.trans h1, h2.trans_lt hb.2⟩
  · exact ⟨ha.1.trans h1, h2.trans hb.2⟩

theorem lbr_up (r : LowerBoundedRange T) {a t : T} (ha : r.contains a = true) (h : a ≤ t) : r.contains t = true := by
  rcases r with ⟨⟨s | s⟩⟩ <;> simp only [LowerBoundedRange.contains, decide_eq_true_eq] at ha ⊢
  · exact ha.trans_le h
  · exact ha.trans h

theorem ubr_down (r : UpperBoundedRange T) {a t : T} (ha : r.contains a = true) (h : t ≤ a) : r.contains t = true := by
  rcases r with ⟨⟨s | s⟩⟩ <;> simp only [UpperBoundedRange.contains, decide_eq_true_eq] at ha ⊢
  · exact h.trans_lt ha
  · exact h.trans ha

/-- Of two lower half-lines one contains the other. -/
theorem lbr_total (r r' : LowerBoundedRange T) :
    (∀ t, r.contains t = true → r'.contains t = true) ∨ ∀ t, r'.contains t = true → r.contains t = true := by
  by_contra h
  rw [not_or, not_forall, not_forall] at h
  obtain ⟨⟨x, hx⟩, y, hy⟩ := h
  rw [Classical.not_imp] at hx hy
  rcases le_total x y with h | h
  · exact hy.2 (lbr_up r hx.1 h)
  · exact hx.2 (lbr_up r' hy.1 h)

theorem ubr_total (r r' : UpperBoundedRange T) :
    (∀ t, r.contains t = true → r'.contains t = true) ∨ ∀ t, r'.contains t = true → r.contains t = true := by
  by_contra h
  rw [not_or, not_forall, not_forall] at h
  obtain ⟨⟨x, hx⟩, y, hy⟩ := h
  rw [Classical.not_imp] at hx hy
  rcases le_total x y with h | h
  · exact hx.2 (ubr_down r' hy.1 h)
  · exact hy.2 (ubr_down r hx.1 h)

omit [LinearOrder T] in
theorem widest {α : Type} (f : α → T → Prop)
    (tot : ∀ a b, (∀ t, f a t → f b t) ∨ ∀ t, f b t → f a t) (l : List α) (hl : l ≠ []) :
    ∃ a ∈ l, ∀ b ∈ l, ∀ t, f b t → f a t := by
  induction l with
  | nil => exact absurd rfl hl
  | cons a l ih =>
    cases l with
    | nil => exact ⟨a, by simp, by simp⟩
    | cons b l =>
      obtain ⟨c, hc, h⟩ := ih (by simp)
      rcases tot a c with h' | h'
      · refine ⟨c, List.mem_cons_of_mem _ hc, fun d hd t ht => ?_⟩
        rcases List.mem_cons.1 hd with rfl | hd
        · exact h' t ht
        · exact h d hd t ht
      · refine ⟨a, List.mem_cons_self, fun d hd t ht => ?_⟩
        rcases List.mem_cons.1 hd with rfl | hd
        · exact ht
        · exact h' t (h d hd t ht)

/-- C80. `BoundedRange`s represent exactly the definable sets without gaps that lie between two elements. -/
theorem C80_bounded_range (P : T → Prop) :
    (∃ r : BoundedRange T, ∀ t, P t ↔ r.contains t = true) ↔ Definable P ∧ Convex P ∧ HasFloor P ∧ HasCeiling P := by
  constructor
  · rintro ⟨r, hr⟩
    obtain ⟨a, ha⟩ := (contains_lower ⟨r.start⟩).1
    obtain ⟨b, hb⟩ := (contains_upper ⟨r.stop⟩).1
    refine ⟨(definable_br r).congr fun t => (hr t).symm, fun x t y hx hy h1 h2 => ?_, ⟨a, fun t h => ?_⟩, b, fun t h => ?_⟩
    · exact (hr t).2 (br_convex r ((hr x).1 hx) ((hr y).1 hy) h1 h2)
    · exact ha t ((r.contains_halves t).1 ((hr t).1 h)).1
    · exact hb t ((r.contains_halves t).1 ((hr t).1 h)).2
  · rintro ⟨hd, hc, hf, hg⟩
    obtain ⟨s, _, hs⟩ := (C80_bounded_set P).2 ⟨hd, .inr ⟨hf, hg⟩⟩
    have hs : ∀ t, P t ↔ ∃ r ∈ s.ranges, r.contains t = true := fun t => by
      rw [hs]; simp [BoundedSet.contains]
    classical
    let l := s.ranges.filter fun r => decide (∃ t, r.contains t = true)
    have hl : ∀ r, r ∈ l ↔ r ∈ s.ranges ∧ ∃ t, r.contains t = true := fun r => by simp [l]
    have hs : ∀ t, P t ↔ ∃ r ∈ l, r.contains t = true := fun t => by
      rw [hs]
      exact ⟨fun ⟨r, h, h'⟩ => ⟨r, (hl r).2 ⟨h, t, h'⟩, h'⟩, fun ⟨r, h, h'⟩ => ⟨r, ((hl r).1 h).1, h'⟩⟩
    by_cases hn : l = []
    · obtain ⟨a, _⟩ := hf
      refine ⟨⟨.excluded a, .excluded a⟩, fun t => ?_⟩
      rw [hs, (C60_ranges a a t).2.2.2.1]
      simp only [hn, List.not_mem_nil, false_and, exists_false, false_iff, not_and, not_lt]
      exact le_of_lt
    · obtain ⟨r, hr, hr'⟩ := widest (fun (r : BoundedRange T) t => (LowerBoundedRange.mk r.start).contains t = true)
        (fun _ _ => lbr_total _ _) l hn
      obtain ⟨u, hu, hu'⟩ := widest (fun (r : BoundedRange T) t => (UpperBoundedRange.mk r.stop).contains t = true)
        (fun _ _ => ubr_total _ _) l hn
      refine ⟨⟨r.start, u.stop⟩, fun t => ?_⟩
      rw [BoundedRange.contains_halves]
      constructor
      · intro h
        obtain ⟨q, hq, h⟩ := (hs t).1 h
        have := (q.contains_halves t).1 h
        exact ⟨hr' q hq t this.1, hu' q hq t this.2⟩
      · rintro ⟨h1, h2⟩
        obtain ⟨x, hx⟩ := ((hl r).1 hr).2
        obtain ⟨y, hy⟩ := ((hl u).1 hu).2
        rcases le_total x t with hxt | hxt
        · rcases le_total t y with hty | hty
          · exact hc ((hs x).2 ⟨r, hr, hx⟩) ((hs y).2 ⟨u, hu, hy⟩) hxt hty
          · exact (hs t).2 ⟨u, hu, (u.contains_halves t).2 ⟨lbr_up _ ((u.contains_halves y).1 hy).1 hty, h2⟩⟩
        · exact (hs t).2 ⟨r, hr, (r.contains_halves t).2 ⟨h1, ubr_down _ ((r.contains_halves x).1 hx).2 hxt⟩⟩

/-- C80. `LowerBoundedRange`s represent exactly the definable sets with a floor that are closed upwards and have
everything from some point on. -/
theorem C80_lower_bounded_range (P : T → Prop) :
    (∃ r : LowerBoundedRange T, ∀ t, P t ↔ r.contains t = true) ↔
      Definable P ∧ UpClosed P ∧ HasFloor P ∧ Eventually P := by
  constructor
  · rintro ⟨r, hr⟩
    obtain ⟨⟨a, ha⟩, b, hb⟩ := contains_lower r
    exact ⟨(definable_lbr r).congr fun t => (hr t).symm, fun x t hx h => (hr t).2 (lbr_up r ((hr x).1 hx) h),
      ⟨a, fun t h => ha t ((hr t).1 h)⟩, b, fun t h => (hr t).2 (hb t h)⟩
  · rintro ⟨hd, hc, hf, hg⟩
    obtain ⟨s, _, hs⟩ := (C80_lower_bounded_set P).2 ⟨hd, hf, hg⟩
    have hs : ∀ t, P t ↔ s.lowerBoundedRange.contains t = true ∨ ∃ r ∈ s.ranges.ranges, r.contains t = true :=
      fun t => by rw [hs]; simp [LowerBoundedSet.contains, BoundedSet.contains]
    classical
    let l := s.ranges.ranges.filter fun r => decide (∃ t, r.contains t = true)
    have hl : ∀ r, r ∈ l ↔ r ∈ s.ranges.ranges ∧ ∃ t, r.contains t = true := fun r => by simp [l]
    obtain ⟨r, hr, hr'⟩ := widest (fun (r : LowerBoundedRange T) t => r.contains t = true)
      (fun _ _ => lbr_total _ _) (s.lowerBoundedRange :: l.map fun r => ⟨r.start⟩) (by simp)
    refine ⟨r, fun t => ⟨fun h => ?_, fun h => ?_⟩⟩
    · rcases (hs t).1 h with h | ⟨q, hq, h⟩
      · exact hr' _ List.mem_cons_self t h
      · refine hr' _ (List.mem_cons_of_mem _ (List.mem_map_of_mem ((hl q).2 ⟨hq, t, h⟩))) t ?_
        exact ((q.contains_halves t).1 h).1
    · rcases List.mem_cons.1 hr with rfl | hr
      · exact (hs t).2 (.inl h)
      · obtain ⟨q, hq, rfl⟩ := List.mem_map.1 hr
        obtain ⟨hq, x, hx⟩ := (hl q).1 hq
        rcases le_total x t with hxt | hxt
        · exact hc ((hs x).2 (.inr ⟨q, hq, hx⟩)) hxt
        · exact (hs t).2 (.inr ⟨q, hq, (q.contains_halves t).2 ⟨h, ubr_down _ ((q.contains_halves x).1 hx).2 hxt⟩⟩)

/-- C80. `UpperBoundedRange`s represent exactly the definable sets with a ceiling that are closed downwards and have
everything up to some point. -/
theorem C80_upper_bounded_range (P : T → Prop) :
    (∃ r : UpperBoundedRange T, ∀ t, P t ↔ r.contains t = true) ↔
      Definable P ∧ DownClosed P ∧ HasCeiling P ∧ Initially P := by
  constructor
  · rintro ⟨r, hr⟩
    obtain ⟨⟨a, ha⟩, b, hb⟩ := contains_upper r
    exact ⟨(definable_ubr r).congr fun t => (hr t).symm, fun x t hx h => (hr t).2 (ubr_down r ((hr x).1 hx) h),
      ⟨a, fun t h => ha t ((hr t).1 h)⟩, b, fun t h => (hr t).2 (hb t h)⟩
  · rintro ⟨hd, hc, hf, hg⟩
    obtain ⟨s, _, hs⟩ := (C80_upper_bounded_set P).2 ⟨hd, hf, hg⟩
    have hs : ∀ t, P t ↔ s.upperBoundedRange.contains t = true ∨ ∃ r ∈ s.ranges.ranges, r.contains t = true :=
      fun t => by rw [hs]; simp [UpperBoundedSet.contains, BoundedSet.contains]
    classical
    let l := s.ranges.ranges.filter fun r => decide (∃ t, r.contains t = true)
    have hl : ∀ r, r ∈ l ↔ r ∈ s.ranges.ranges ∧ ∃ t, r.contains t = true := fun r => by simp [l]
    obtain ⟨r, hr, hr'⟩ := widest (fun (r : UpperBoundedRange T) t => r.contains t = true)
      (fun _ _ => ubr_total _ _) (s.upperBoundedRange :: l.map fun r => ⟨r.stop⟩) (by simp)
    refine ⟨r, fun t => ⟨fun h => ?_, fun h => ?_⟩⟩
    · rcases (hs t).1 h with h | ⟨q, hq, h⟩
      · exact hr' _ List.mem_cons_self t h
      · refine hr' _ (List.mem_cons_of_mem _ (List.mem_map_of_mem ((hl q).2 ⟨hq, t, h⟩))) t ?_
        exact ((q.contains_halves t).1 h).2
    · rcases List.mem_cons.1 hr with rfl | hr
      · exact (hs t).2 (.inl h)
      · obtain ⟨q, hq, rfl⟩ := List.mem_map.1 hr
        obtain ⟨hq, x, hx⟩ := (hl q).1 hq
        rcases le_total t x with hxt | hxt
        · exact hc ((hs x).2 (.inr ⟨q, hq, hx⟩)) hxt
        · exact (hs t).2 (.inr ⟨q, hq, (q.contains_halves t).2 ⟨lbr_up _ ((q.contains_halves x).1 hx).1 hxt, h⟩⟩)

/-! ### Cases that meet the hypotheses -/

/-- `0 <= t < 3` or `t = 7`: definable, between two elements, with a gap. -/
example : Definable (fun t : Int => (¬ t < 0 ∧ t < 3) ∨ (t ≤ 7 ∧ ¬ t < 7)) ∧
    HasFloor (fun t : Int => (¬ t < 0 ∧ t < 3) ∨ (t ≤ 7 ∧ ¬ t < 7)) ∧
    HasCeiling (fun t : Int => (¬ t < 0 ∧ t < 3) ∨ (t ≤ 7 ∧ ¬ t < 7)) ∧
    ¬ Convex (fun t : Int => (¬ t < 0 ∧ t < 3) ∨ (t ≤ 7 ∧ ¬ t < 7)) :=
  ⟨((Definable.less 0).not.and (.less 3)).or ((Definable.atMost 7).and (Definable.less 7).not),
    ⟨0, fun t h => by omega⟩, ⟨7, fun t h => by omega⟩,
    fun h => by have := @h 0 5 7 (by omega) (by omega) (by omega) (by omega); omega⟩

/-- The even numbers are not definable: no value contains exactly them. -/
example : ¬ Definable (fun t : Int => t % 2 = 0) := by
  have key : ∀ P : Int → Prop, Definable P → ∃ a, (∀ t, a < t → P t) ∨ ∀ t, a < t → ¬ P t := by
    intro P h
    induction h with
    | all => exact ⟨0, .inl fun _ _ => trivial⟩
    | less a => exact ⟨a, .inr fun t h => by omega⟩
    | atMost a => exact ⟨a, .inr fun t h => by omega⟩
    | or _ _ ih ih' =>
      obtain ⟨a, h⟩ := ih
      obtain ⟨b, h'⟩ := ih'
      refine ⟨max a b, ?_⟩
      rcases h with h | h
      · exact .inl fun t ht => .inl (h t (by omega))
      · rcases h' with h' | h'
        · exact .inl fun t ht => .inr (h' t (by omega))
        · exact .inr fun t ht hn => hn.elim (h t (by omega)) (h' t (by omega))
    | not _ ih =>
      obtain ⟨a, h | h⟩ := ih
      · exact ⟨a, .inr fun t ht hn => hn (h t ht)⟩
      · exact ⟨a, .inl fun t ht => h t ht⟩
  intro h
  obtain ⟨a, h | h⟩ := key _ h
  · have h1 := h (a + 1) (by omega)
    have h2 := h (a + 2) (by omega)
    omega
  · have h1 := h (a + 1) (by omega)
    have h2 := h (a + 2) (by omega)
    omega

end Rangetools
