import Verif.Model.Convert
import Verif.Props.IterLimits

/-!
# C30 – C32: conversions between std ranges and crate ranges
-/

namespace Rangetools
variable {T : Type} [LinearOrder T] {p : Platform} {S : Step T} {idx : T → Int}

/-! ## C30 -/

/-- Converting a std range to the crate type preserves membership; of a `RangeInclusive` this is claimed
when it has not been iterated to its end. -/
theorem C30_members (t : T) :
    (∀ r : Range T, (BoundedRange.ofRange r).contains t = r.contains t) ∧
    (∀ r : RangeInclusive T, r.exhausted = false →
      (BoundedRange.ofRangeInclusive r).contains t = r.contains t) ∧
    (∀ r : RangeFrom T, (LowerBoundedRange.ofRangeFrom r).contains t = r.contains t) ∧
    (∀ r : RangeTo T, (UpperBoundedRange.ofRangeTo r).contains t = r.contains t) ∧
    (∀ r : RangeToInclusive T, (UpperBoundedRange.ofRangeToInclusive r).contains t = r.contains t) := by
  refine ⟨fun r => rfl, fun r h => ?_, fun r => rfl, fun r => rfl, fun r => rfl⟩
  simp only [BoundedRange.contains, BoundedRange.ofRangeInclusive, LowerBound.included,
    UpperBound.included, RangeInclusive.contains, h]
  rfl

omit [LinearOrder T] in
/-- Converting back gives the same range, for every `Step` implementation, without panic. -/
theorem C30_round_trip (S : Step T) :
    (∀ r : Range T, (BoundedRange.ofRange r).toRange S = .ok r) ∧
    (∀ r : RangeInclusive T, r.exhausted = false →
      (BoundedRange.ofRangeInclusive r).toRangeInclusive S = .ok r) ∧
    (∀ r : RangeFrom T, (LowerBoundedRange.ofRangeFrom r).toRangeFrom S = .ok r) ∧
    (∀ r : RangeTo T, (UpperBoundedRange.ofRangeTo r).toRangeTo S = .ok r) ∧
    (∀ r : RangeToInclusive T,
      (UpperBoundedRange.ofRangeToInclusive r).toRangeToInclusive S = .ok r) ∧
    (∀ r : RangeFull, (UnboundedRange.ofRangeFull r).toRangeFull = r) := by
  refine ⟨fun r => rfl, fun r h => ?_, fun r => rfl, fun r => rfl, fun r => rfl, fun r => rfl⟩
  obtain ⟨a, b, e⟩ := r
  cases h
  rfl

/-- `0..=255u8`, at both ends of the type. -/
example : (BoundedRange.ofRangeInclusive ⟨byte 0, byte 255, false⟩).toRangeInclusive
    (IntTy.step debug64 u8) = .ok ⟨byte 0, byte 255, false⟩ := by decide

/-- An exhausted `RangeInclusive` gets its last element back. -/
theorem C30_exhausted_counterexample :
    (⟨3, 3, true⟩ : RangeInclusive Int).contains 3 = false ∧
    (BoundedRange.ofRangeInclusive (⟨3, 3, true⟩ : RangeInclusive Int)).contains 3 = true := by decide

/-! ## C31 -/

/-- There is a greater value. -/
def HasAbove (a : T) : Prop := ∃ c, a < c
/-- There is a smaller value. -/
def HasBelow (a : T) : Prop := ∃ c, c < a

/-- The step up that a conversion of this lower bound to an included one needs is possible. -/
def LowerBound.CanInclude (b : LowerBound T) : Prop := ∀ a, b = .excluded a → HasAbove a
/-- The step down that a conversion of this upper bound to an included one needs is possible. -/
def UpperBound.CanInclude (b : UpperBound T) : Prop := ∀ a, b = .excluded a → HasBelow a
/-- The step up that a conversion of this upper bound to an excluded one needs is possible. -/
def UpperBound.CanExclude (b : UpperBound T) : Prop := ∀ a, b = .included a → HasAbove a

namespace LawfulStep

theorem hasAbove (L : LawfulStep p S idx) (a : T) : HasAbove a ↔ ∃ b, idx b = idx a + 1 := by
  constructor
  · rintro ⟨c, hc⟩
    rw [L.lt_iff] at hc
    exact L.convex a c _ (by omega) (by omega)
  · rintro ⟨b, hb⟩
    exact ⟨b, by rw [L.lt_iff]; omega⟩

theorem hasBelow (L : LawfulStep p S idx) (a : T) : HasBelow a ↔ ∃ b, idx b = idx a - 1 := by
  constructor
  · rintro ⟨c, hc⟩
    rw [L.lt_iff] at hc
    exact L.convex c a _ (by omega) (by omega)
  · rintro ⟨b, hb⟩
    exact ⟨b, by rw [L.lt_iff]; omega⟩

theorem one_lt (p : Platform) : 1 < p.usizeCount := by have := p.le_usizeCount; omega

/-- One step up. -/
theorem up (L : LawfulStep p S idx) {a : T} (h : HasAbove a) :
    ∃ c, S.forward a 1 = .ok c ∧ idx c = idx a + 1 := by
  obtain ⟨b, hb⟩ := (L.hasAbove a).1 h
  exact ⟨b, L.forward_some a 1 b (one_lt p) (by simpa using hb), hb⟩

/-- One step down. -/
theorem down (L : LawfulStep p S idx) {a : T} (h : HasBelow a) :
    ∃ c, S.backward a 1 = .ok c ∧ idx c = idx a - 1 := by
  obtain ⟨b, hb⟩ := (L.hasBelow a).1 h
  exact ⟨b, L.backward_some a 1 b (one_lt p) (by simpa using hb), hb⟩

theorem no_up (L : LawfulStep p S idx) (C : S.Checked p idx) {a : T} (h : ¬ HasAbove a) :
    ∃ m, S.forward a 1 = .panic m :=
  C.forward a 1 (one_lt p) (fun b hb => h ((L.hasAbove a).2 ⟨b, by simpa using hb⟩))

theorem no_down (L : LawfulStep p S idx) (C : S.Checked p idx) {a : T} (h : ¬ HasBelow a) :
    ∃ m, S.backward a 1 = .panic m :=
  C.backward a 1 (one_lt p) (fun b hb => h ((L.hasBelow a).2 ⟨b, by simpa using hb⟩))

end LawfulStep

theorem LowerBound.canInclude_included (a : T) : (LowerBound.mk (.included a)).CanInclude :=
  fun _ h => by cases h
theorem UpperBound.canInclude_included (a : T) : (UpperBound.mk (.included a)).CanInclude :=
  fun _ h => by cases h
theorem UpperBound.canExclude_excluded (a : T) : (UpperBound.mk (.excluded a)).CanExclude :=
  fun _ h => by cases h

/-- `BoundedRange` to `Range`. -/
theorem C31_range (L : LawfulStep p S idx) (r : BoundedRange T) (h1 : r.start.CanInclude)
    (h2 : r.stop.CanExclude) : ∃ q, r.toRange S = .ok q ∧ ∀ t, q.contains t = r.contains t := by
  obtain ⟨⟨s⟩, ⟨e⟩⟩ := r
  cases s with
  | excluded a =>
    obtain ⟨c, hc, ic⟩ := L.up (h1 a rfl)
    cases e with
    | excluded b =>
      refine ⟨⟨c, b⟩, by simp only [BoundedRange.toRange, LowerBound.toBound, UpperBound.toBound, hc]; rfl,
        fun t => ?_⟩
      rw [Bool.eq_iff_iff]
      simp only [Range.contains, BoundedRange.contains, Bool.and_eq_true, decide_eq_true_eq, gt_iff_lt,
        L.le_iff, L.lt_iff]
      omega
    | included b =>
      obtain ⟨d, hd, id⟩ := L.up (h2 b rfl)
      refine ⟨⟨c, d⟩, by
        simp only [BoundedRange.toRange, LowerBound.toBound, UpperBound.toBound, hc, hd]; rfl,
        fun t => ?_⟩
      rw [Bool.eq_iff_iff]
      simp only [Range.contains, BoundedRange.contains, Bool.and_eq_true, decide_eq_true_eq, gt_iff_lt,
        L.le_iff, L.lt_iff]
      omega
  | included a =>
    cases e with
    | excluded b => exact ⟨⟨a, b⟩, rfl, fun t => rfl⟩
    | included b =>
      obtain ⟨d, hd, id⟩ := L.up (h2 b rfl)
      refine ⟨⟨a, d⟩, by
        simp only [BoundedRange.toRange, LowerBound.toBound, UpperBound.toBound, hd]; rfl,
        fun t => ?_⟩
      rw [Bool.eq_iff_iff]
      simp only [Range.contains, BoundedRange.contains, Bool.and_eq_true, decide_eq_true_eq, 
        ge_iff_le, L.le_iff, L.lt_iff]
      omega

/-- `BoundedRange` to `RangeInclusive`; the result is fresh. -/
theorem C31_range_inclusive (L : LawfulStep p S idx) (r : BoundedRange T) (h1 : r.start.CanInclude)
    (h2 : r.stop.CanInclude) :
    ∃ q, r.toRangeInclusive S = .ok q ∧ q.exhausted = false ∧ ∀ t, q.contains t = r.contains t := by
  obtain ⟨⟨s⟩, ⟨e⟩⟩ := r
  cases s with
  | excluded a =>
    obtain ⟨c, hc, ic⟩ := L.up (h1 a rfl)
    cases e with
    | excluded b =>
      obtain ⟨d, hd, id⟩ := L.down (h2 b rfl)
      refine ⟨⟨c, d, false⟩, by
        simp only [BoundedRange.toRangeInclusive, LowerBound.toBound, UpperBound.toBound, hc, hd]; rfl,
        rfl, fun t => ?_⟩
      rw [Bool.eq_iff_iff]
      simp only [RangeInclusive.contains, BoundedRange.contains, Bool.and_eq_true, decide_eq_true_eq,
        gt_iff_lt, L.le_iff, L.lt_iff, Bool.false_eq_true, if_false]
      omega
    | included b =>
      refine ⟨⟨c, b, false⟩, by
        simp only [BoundedRange.toRangeInclusive, LowerBound.toBound, UpperBound.toBound, hc]; rfl,
        rfl, fun t => ?_⟩
      rw [Bool.eq_iff_iff]
      simp only [RangeInclusive.contains, BoundedRange.contains, Bool.and_eq_true, decide_eq_true_eq,
        gt_iff_lt, L.le_iff, L.lt_iff, Bool.false_eq_true, if_false]
      omega
  | included a =>
    cases e with
    | excluded b =>
      obtain ⟨d, hd, id⟩ := L.down (h2 b rfl)
      refine ⟨⟨a, d, false⟩, by
        simp only [BoundedRange.toRangeInclusive, LowerBound.toBound, UpperBound.toBound, hd]; rfl,
        rfl, fun t => ?_⟩
      rw [Bool.eq_iff_iff]
      simp only [RangeInclusive.contains, BoundedRange.contains, Bool.and_eq_true, decide_eq_true_eq,
        ge_iff_le, L.le_iff, L.lt_iff, Bool.false_eq_true, if_false]
      omega
    | included b => exact ⟨⟨a, b, false⟩, rfl, rfl, fun t => rfl⟩

/-- `LowerBoundedRange` to `RangeFrom`. -/
theorem C31_range_from (L : LawfulStep p S idx) (r : LowerBoundedRange T) (h : r.start.CanInclude) :
    ∃ q, r.toRangeFrom S = .ok q ∧ ∀ t, q.contains t = r.contains t := by
  obtain ⟨⟨s⟩⟩ := r
  cases s with
  | excluded a =>
    obtain ⟨c, hc, ic⟩ := L.up (h a rfl)
    refine ⟨⟨c⟩, by simp only [LowerBoundedRange.toRangeFrom, LowerBound.toBound, hc]; rfl, fun t => ?_⟩
    rw [Bool.eq_iff_iff]
    simp only [RangeFrom.contains, LowerBoundedRange.contains, decide_eq_true_eq, gt_iff_lt, L.le_iff,
      L.lt_iff]
    omega
  | included a => exact ⟨⟨a⟩, rfl, fun t => rfl⟩

/-- `UpperBoundedRange` to `RangeTo`. -/
theorem C31_range_to (L : LawfulStep p S idx) (r : UpperBoundedRange T) (h : r.stop.CanExclude) :
    ∃ q, r.toRangeTo S = .ok q ∧ ∀ t, q.contains t = r.contains t := by
  obtain ⟨⟨s⟩⟩ := r
  cases s with
  | excluded a => exact ⟨⟨a⟩, rfl, fun t => rfl⟩
  | included a =>
    obtain ⟨c, hc, ic⟩ := L.up (h a rfl)
    refine ⟨⟨c⟩, by simp only [UpperBoundedRange.toRangeTo, UpperBound.toBound, hc]; rfl, fun t => ?_⟩
    rw [Bool.eq_iff_iff]
    simp only [RangeTo.contains, UpperBoundedRange.contains, decide_eq_true_eq, L.le_iff, L.lt_iff]
    omega

/-- `UpperBoundedRange` to `RangeToInclusive`. -/
theorem C31_range_to_inclusive (L : LawfulStep p S idx) (r : UpperBoundedRange T)
    (h : r.stop.CanInclude) :
    ∃ q, r.toRangeToInclusive S = .ok q ∧ ∀ t, q.contains t = r.contains t := by
  obtain ⟨⟨s⟩⟩ := r
  cases s with
  | excluded a =>
    obtain ⟨c, hc, ic⟩ := L.down (h a rfl)
    refine ⟨⟨c⟩, by simp only [UpperBoundedRange.toRangeToInclusive, UpperBound.toBound, hc]; rfl,
      fun t => ?_⟩
    rw [Bool.eq_iff_iff]
    simp only [RangeToInclusive.contains, UpperBoundedRange.contains, decide_eq_true_eq, L.le_iff,
      L.lt_iff]
    omega
  | included a => exact ⟨⟨a⟩, rfl, fun t => rfl⟩

/-- Where stepping out of the type panics, a conversion panics exactly when a step it needs is
impossible (and so, with the theorems above, a returned range is never wrong). -/
theorem C31_panics (L : LawfulStep p S idx) (C : S.Checked p idx) :
    (∀ r : BoundedRange T, (∃ m, r.toRange S = .panic m) ↔
      ¬ (r.start.CanInclude ∧ r.stop.CanExclude)) ∧
    (∀ r : BoundedRange T, (∃ m, r.toRangeInclusive S = .panic m) ↔
      ¬ (r.start.CanInclude ∧ r.stop.CanInclude)) ∧
    (∀ r : LowerBoundedRange T, (∃ m, r.toRangeFrom S = .panic m) ↔ ¬ r.start.CanInclude) ∧
    (∀ r : UpperBoundedRange T, (∃ m, r.toRangeTo S = .panic m) ↔ ¬ r.stop.CanExclude) ∧
    (∀ r : UpperBoundedRange T, (∃ m, r.toRangeToInclusive S = .panic m) ↔ ¬ r.stop.CanInclude) := by
  have up : ∀ a : T, HasAbove a ∨ ∃ m, S.forward a 1 = .panic m := fun a => by
    by_cases h : HasAbove a
    · exact .inl h
    · exact .inr (L.no_up C h)
  have dn : ∀ a : T, HasBelow a ∨ ∃ m, S.backward a 1 = .panic m := fun a => by
    by_cases h : HasBelow a
    · exact .inl h
    · exact .inr (L.no_down C h)
  refine ⟨fun r => ⟨fun ⟨m, hm⟩ hx => ?_, fun hx => ?_⟩, fun r => ⟨fun ⟨m, hm⟩ hx => ?_, fun hx => ?_⟩,
    fun r => ⟨fun ⟨m, hm⟩ hx => ?_, fun hx => ?_⟩, fun r => ⟨fun ⟨m, hm⟩ hx => ?_, fun hx => ?_⟩,
    fun r => ⟨fun ⟨m, hm⟩ hx => ?_, fun hx => ?_⟩⟩
  · obtain ⟨q, hq, _⟩ := C31_range L r hx.1 hx.2
    rw [hq] at hm; cases hm
  · obtain ⟨⟨s⟩, ⟨e⟩⟩ := r
    by_cases h1 : (LowerBound.mk s).CanInclude
    · have h2 : ¬ (UpperBound.mk e).CanExclude := fun h => hx ⟨h1, h⟩
      cases e with
      | excluded b => exact absurd (UpperBound.canExclude_excluded b) h2
      | included b =>
        obtain h | ⟨m, hm⟩ := up b
        · exact absurd (fun _ he => by cases he; exact h) h2
        · cases s with
          | excluded a =>
            obtain ⟨c, hc, _⟩ := L.up (h1 a rfl)
            exact ⟨m, by simp only [BoundedRange.toRange, LowerBound.toBound, UpperBound.toBound, hc, hm]; rfl⟩
          | included a =>
            exact ⟨m, by simp only [BoundedRange.toRange, LowerBound.toBound, UpperBound.toBound, hm]; rfl⟩
    · cases s with
      | included a => exact absurd (LowerBound.canInclude_included a) h1
      | excluded a =>
        obtain h | ⟨m, hm⟩ := up a
        · exact absurd (fun _ he => by cases he; exact h) h1
        · exact ⟨m, by simp only [BoundedRange.toRange, LowerBound.toBound, UpperBound.toBound, hm]; rfl⟩
  · obtain ⟨q, hq, _⟩ := C31_range_inclusive L r hx.1 hx.2
    rw [hq] at hm; cases hm
  · obtain ⟨⟨s⟩, ⟨e⟩⟩ := r
    by_cases h1 : (LowerBound.mk s).CanInclude
    · have h2 : ¬ (UpperBound.mk e).CanInclude := fun h => hx ⟨h1, h⟩
      cases e with
      | included b => exact absurd (UpperBound.canInclude_included b) h2
      | excluded b =>
        obtain h | ⟨m, hm⟩ := dn b
        · exact absurd (fun _ he => by cases he; exact h) h2
        · cases s with
          | excluded a =>
            obtain ⟨c, hc, _⟩ := L.up (h1 a rfl)
            exact ⟨m, by simp only [BoundedRange.toRangeInclusive, LowerBound.toBound, UpperBound.toBound, hc, hm]; rfl⟩
          | included a =>
            exact ⟨m, by simp only [BoundedRange.toRangeInclusive, LowerBound.toBound, UpperBound.toBound, hm]; rfl⟩
    · cases s with
      | included a => exact absurd (LowerBound.canInclude_included a) h1
      | excluded a =>
        obtain h | ⟨m, hm⟩ := up a
        · exact absurd (fun _ he => by cases he; exact h) h1
        · exact ⟨m, by simp only [BoundedRange.toRangeInclusive, LowerBound.toBound, UpperBound.toBound, hm]; rfl⟩
  · obtain ⟨q, hq, _⟩ := C31_range_from L r hx
    rw [hq] at hm; cases hm
  · obtain ⟨⟨s⟩⟩ := r
    cases s with
    | included a => exact absurd (LowerBound.canInclude_included a) hx
    | excluded a =>
      obtain h | ⟨m, hm⟩ := up a
      · exact absurd (fun _ he => by cases he; exact h) hx
      · exact ⟨m, by simp only [LowerBoundedRange.toRangeFrom, LowerBound.toBound, hm]; rfl⟩
  · obtain ⟨q, hq, _⟩ := C31_range_to L r hx
    rw [hq] at hm; cases hm
  · obtain ⟨⟨s⟩⟩ := r
    cases s with
    | excluded a => exact absurd (UpperBound.canExclude_excluded a) hx
    | included a =>
      obtain h | ⟨m, hm⟩ := up a
      · exact absurd (fun _ he => by cases he; exact h) hx
      · exact ⟨m, by simp only [UpperBoundedRange.toRangeTo, UpperBound.toBound, hm]; rfl⟩
  · obtain ⟨q, hq, _⟩ := C31_range_to_inclusive L r hx
    rw [hq] at hm; cases hm
  · obtain ⟨⟨s⟩⟩ := r
    cases s with
    | included a => exact absurd (UpperBound.canInclude_included a) hx
    | excluded a =>
      obtain h | ⟨m, hm⟩ := dn a
      · exact absurd (fun _ he => by cases he; exact h) hx
      · exact ⟨m, by simp only [UpperBoundedRange.toRangeToInclusive, UpperBound.toBound, hm]; rfl⟩

/-- `C31_panics` applies to every integer type with overflow checks and to `char` in every build. -/
theorem C31_applies (p : Platform) :
    (p.overflowChecks = true → ∀ τ : IntTy, (IntTy.step p τ).Checked p IntTy.idx) ∧
    (Scalar.step p).Checked p Scalar.idx :=
  ⟨fun hp τ => IntTy.checked p τ hp, Scalar.checked p⟩

/-- The range `3 <.. =254` of `u8` is `4..255`. -/
example : (⟨.excluded (byte 3), .included (byte 254)⟩ : BoundedRange u8.Val).toRange
    (IntTy.step debug64 u8) = .ok ⟨byte 4, byte 255⟩ := by decide
example : (LowerBound.excluded (byte 3)).CanInclude ∧ (UpperBound.included (byte 254)).CanExclude :=
  ⟨fun a h => ⟨byte 255, by cases h; decide⟩, fun a h => ⟨byte 255, by cases h; decide⟩⟩
example : ¬ (UpperBound.included (byte 255)).CanExclude := fun h => by
  obtain ⟨c, hc⟩ := h _ rfl
  exact absurd hc (not_lt.2 c.2.2)

/-- Without overflow checks, `RangeTo::from(UpperBoundedRange::from(..=255u8))` is `..0`. -/
theorem C31_unchecked_counterexample :
    (UpperBoundedRange.mk (.included (byte 255))).toRangeTo (IntTy.step release64 u8) = .ok ⟨byte 0⟩ ∧
    (UpperBoundedRange.mk (.included (byte 255))).contains (byte 7) = true ∧
    (RangeTo.mk (byte 0)).contains (byte 7) = false := by decide

/-! ## C32 -/

/-- `EmptyRange` to `Range`. -/
theorem C32_range (dflt t : T) : (EmptyRange.toRange dflt).contains t = false := by
  rw [Range.contains, EmptyRange.toRange, Bool.and_eq_false_iff]
  exact (lt_or_ge t dflt).imp (fun h => decide_eq_false (not_le.2 h)) (fun h => decide_eq_false (not_lt.2 h))

/-- The second half of C32 is false: with overflow checks the conversion to `RangeInclusive` panics for
every unsigned type, and for `char` in every build; without, the result contains every value. -/
theorem C32_inclusive_counterexample :
    (∀ (p : Platform) (bits : Nat), p.overflowChecks = true → ∃ m, EmptyRange.toRangeInclusive
        (IntTy.step p ⟨false, bits⟩) (IntTy.bot ⟨false, bits⟩) = .panic m) ∧
    (∀ (p : Platform) (bits : Nat), p.overflowChecks = false → ∃ q, EmptyRange.toRangeInclusive
        (IntTy.step p ⟨false, bits⟩) (IntTy.bot ⟨false, bits⟩) = .ok q ∧ ∀ t, q.contains t = true) ∧
    (∀ p : Platform, ∃ m, EmptyRange.toRangeInclusive (Scalar.step p) ⟨0, by decide⟩ = .panic m) := by
  refine ⟨fun p bits hp => ?_, fun p bits hp => ?_, fun p => ?_⟩
  · refine ⟨"attempt to compute with overflow", ?_⟩
    simp only [EmptyRange.toRangeInclusive, BoundedRange.toRangeInclusive, LowerBound.toBound,
      UpperBound.toBound, LowerBound.included, UpperBound.excluded, IntTy.backward_bot, hp]
    rfl
  · refine ⟨⟨IntTy.bot _, IntTy.top _, false⟩, ?_, fun t => ?_⟩
    · simp only [EmptyRange.toRangeInclusive, BoundedRange.toRangeInclusive, LowerBound.toBound,
        UpperBound.toBound, LowerBound.included, UpperBound.excluded, IntTy.backward_bot, hp]
      rfl
    · simp only [RangeInclusive.contains, Bool.false_eq_true, if_false, Bool.and_eq_true,
        decide_eq_true_eq]
      exact t.2
  · have h : ¬ HasBelow (⟨0, by decide⟩ : Scalar) := fun ⟨c, hc⟩ => absurd hc (not_lt.2 c.2.1)
    obtain ⟨m, hm⟩ := (Scalar.lawful p).no_down (Scalar.checked p) h
    refine ⟨m, ?_⟩
    simp only [EmptyRange.toRangeInclusive, BoundedRange.toRangeInclusive, LowerBound.toBound,
      UpperBound.toBound, LowerBound.included, UpperBound.excluded, hm]
    rfl

/-- What remains: if the default value has a predecessor, as in the signed integer types, the
`RangeInclusive` is empty.  Missing: types whose default is their least value. -/
theorem C32_inclusive_partial (L : LawfulStep p S idx) (dflt : T) (h : HasBelow dflt) :
    ∃ q, EmptyRange.toRangeInclusive S dflt = .ok q ∧ ∀ t, q.contains t = false := by
  obtain ⟨q, hq, _, hc⟩ := C31_range_inclusive L
    { start := LowerBound.included dflt, stop := UpperBound.excluded dflt }
    (LowerBound.canInclude_included dflt) (fun a e => by cases e; exact h)
  refine ⟨q, hq, fun t => ?_⟩
  rw [hc]
  exact C32_range dflt t

example : HasBelow (⟨0, by decide⟩ : i8.Val) := ⟨⟨-1, by decide⟩, by decide⟩

end Rangetools
