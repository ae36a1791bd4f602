import Verif.Props.Algebra
import Mathlib.Order.Monotone.Basic
import Mathlib.Algebra.Order.Field.Rat
import Mathlib.Algebra.Order.Field.Basic
import Mathlib.Tactic.NormNum

/-!
# C24 – C29: bounds and conversions to the crate's types
-/

namespace Rangetools
open Iv Samples

variable {T : Type} [LinearOrder T]

/-! ### C24 Bounds are totally ordered -/

theorem compare_ne_gt_iff_le {C : Type} [LinearOrder C] {a b : C} : compare a b ≠ .gt ↔ a ≤ b := by
  rw [Ne, compare_gt_iff_gt, not_lt]

theorem compare_swap {C : Type} [LinearOrder C] (a b : C) :
    compare b a = (compare a b).swap := by
  rcases lt_trichotomy a b with h | h | h
  · rw [compare_lt_iff_lt.mpr h, compare_gt_iff_gt.mpr h]; rfl
  · subst h; rw [compare_eq_iff_eq.mpr rfl]; rfl
  · rw [compare_gt_iff_gt.mpr h, compare_lt_iff_lt.mpr h]; rfl

/-- A comparison function is a total order whose `eq` is equality. -/
structure IsTotalCmp {B : Type} (cmp : B → B → Ordering) : Prop where
  refl : ∀ a, cmp a a = .eq
  swap : ∀ a b, cmp b a = (cmp a b).swap
  eq : ∀ a b, cmp a b = .eq → a = b
  trans : ∀ a b c, cmp a b ≠ .gt → cmp b c ≠ .gt → cmp a c ≠ .gt

theorem isTotalCmp_of {B : Type} {C : Type} [LinearOrder C] (f : B → C) (hf : f.Injective)
    {cmp : B → B → Ordering} (h : ∀ a b, cmp a b = compare (f a) (f b)) : IsTotalCmp cmp where
  refl a := by rw [h, compare_eq_iff_eq]
  swap a b := by rw [h, h]; exact compare_swap _ _
  eq a b hab := by rw [h, compare_eq_iff_eq] at hab; exact hf hab
  trans a b c hab hbc := by
    rw [h, compare_ne_gt_iff_le] at hab hbc ⊢
    exact hab.trans hbc

/-- C24 for `LowerBound`: `cmp` never panics, is a total order, and `partial_cmp` agrees with it. -/
theorem C24_lowerBound_order :
    IsTotalCmp (LowerBound.cmp (T := T)) ∧
      ∀ a b : LowerBound T, a.cmpRes b = .ok (a.cmp b) ∧ a.partialCmp b = some (a.cmp b) := by
  refine ⟨isTotalCmp_of lo (fun _ _ => lo_inj.mp) fun a b => a.cmp_eq b, fun a b => ?_⟩
  have : a.partialCmp b = some (a.cmp b) := by simp [LowerBound.cmp]
  exact ⟨by simp [LowerBound.cmpRes, this, unwrap], this⟩

/-- C24 for `UpperBound`. -/
theorem C24_upperBound_order :
    IsTotalCmp (UpperBound.cmp (T := T)) ∧
      ∀ a b : UpperBound T, a.cmpRes b = .ok (a.cmp b) ∧ a.partialCmp b = some (a.cmp b) := by
  refine ⟨isTotalCmp_of hi (fun _ _ => hi_inj.mp) fun a b => a.cmp_eq b, fun a b => ?_⟩
  have : a.partialCmp b = some (a.cmp b) := by simp [UpperBound.cmp]
  exact ⟨by simp [UpperBound.cmpRes, this, unwrap], this⟩

/-- C24. Ties on the value are broken by inclusiveness: an included lower bound is the smaller, an
included upper bound the greater; otherwise the values decide. -/
theorem C24_order_explicit (x y : T) :
    (LowerBound.included x).cmp (.excluded x) = .lt ∧
    (UpperBound.included x).cmp (.excluded x) = .gt ∧
    ∀ (p q : Bound T), (p = .included x ∨ p = .excluded x) → (q = .included y ∨ q = .excluded y) →
      x ≠ y → (LowerBound.ofBound p).cmp (.ofBound q) = compare x y ∧
        (UpperBound.ofBound p).cmp (.ofBound q) = compare x y := by
  refine ⟨?_, ?_, ?_⟩
  · simp [LowerBound.cmp, LowerBound.partialCmp, LowerBound.partialCmpWith, LowerBound.included,
      LowerBound.excluded, elemEq]
  · simp [UpperBound.cmp, UpperBound.partialCmp, UpperBound.partialCmpWith, UpperBound.included,
      UpperBound.excluded, elemEq]
  · rintro p q (rfl | rfl) (rfl | rfl) h <;>
      simp [LowerBound.cmp, LowerBound.partialCmp, LowerBound.partialCmpWith, LowerBound.ofBound,
        UpperBound.cmp, UpperBound.partialCmp, UpperBound.partialCmpWith, UpperBound.ofBound, elemEq,
        elemPartialCmp, h]

example : ∃ x y : Int, x ≠ y ∧ ((Bound.included x) = .included x ∨ (Bound.included x) = .excluded x)
    ∧ ((Bound.excluded y) = .included y ∨ (Bound.excluded y) = .excluded y) :=
  ⟨1, 2, by decide, Or.inl rfl, Or.inr rfl⟩

/-! ### C25 Bound order and containment -/

/-- C25, lower bounds: a smaller bound admits more, `max` is "and", `min` is "or". -/
theorem C25_lowerBound (a b : LowerBound T) (t : T) :
    (a.cmp b ≠ .gt → (⟨b⟩ : LowerBoundedRange T).contains t = true →
      (⟨a⟩ : LowerBoundedRange T).contains t = true) ∧
    (⟨a.max b⟩ : LowerBoundedRange T).contains t =
      ((⟨a⟩ : LowerBoundedRange T).contains t && (⟨b⟩ : LowerBoundedRange T).contains t) ∧
    (⟨a.min b⟩ : LowerBoundedRange T).contains t =
      ((⟨a⟩ : LowerBoundedRange T).contains t || (⟨b⟩ : LowerBoundedRange T).contains t) := by
  refine ⟨fun h hb => ?_, ?_, ?_⟩
  · rw [LowerBound.cmp_eq, compare_ne_gt_iff_le] at h
    rw [LowerBoundedRange.contains_iff] at hb ⊢
    exact h.trans hb
  · rw [Bool.eq_iff_iff, Bool.and_eq_true]
    simp only [LowerBoundedRange.contains_iff, lo_max, max_le_iff]
  · rw [Bool.eq_iff_iff, Bool.or_eq_true]
    simp only [LowerBoundedRange.contains_iff, lo_min, min_le_iff]

example : (LowerBound.included (3 : Int)).cmp (.excluded 3) ≠ .gt ∧
    (⟨.excluded 3⟩ : LowerBoundedRange Int).contains 4 = true := by decide

/-- C25, upper bounds. -/
theorem C25_upperBound (a b : UpperBound T) (t : T) :
    (a.cmp b ≠ .gt → (⟨a⟩ : UpperBoundedRange T).contains t = true →
      (⟨b⟩ : UpperBoundedRange T).contains t = true) ∧
    (⟨a.max b⟩ : UpperBoundedRange T).contains t =
      ((⟨a⟩ : UpperBoundedRange T).contains t || (⟨b⟩ : UpperBoundedRange T).contains t) ∧
    (⟨a.min b⟩ : UpperBoundedRange T).contains t =
      ((⟨a⟩ : UpperBoundedRange T).contains t && (⟨b⟩ : UpperBoundedRange T).contains t) := by
  refine ⟨fun h ha => ?_, ?_, ?_⟩
  · rw [UpperBound.cmp_eq, compare_ne_gt_iff_le] at h
    rw [UpperBoundedRange.contains_iff] at ha ⊢
    exact ha.trans_le h
  · rw [Bool.eq_iff_iff, Bool.or_eq_true]
    simp only [UpperBoundedRange.contains_iff, hi_max, lt_max_iff]
  · rw [Bool.eq_iff_iff, Bool.and_eq_true]
    simp only [UpperBoundedRange.contains_iff, hi_min, lt_min_iff]

example : (UpperBound.excluded (3 : Int)).cmp (.included 3) ≠ .gt ∧
    (⟨.excluded 3⟩ : UpperBoundedRange Int).contains 2 = true := by decide

/-- C25. Over a dense order without endpoints the order of bounds is exactly inclusion. -/
theorem C25_dense [DenselyOrdered T] [NoMinOrder T] [NoMaxOrder T] [Nonempty T] :
    (∀ a b : LowerBound T, a.cmp b ≠ .gt ↔ ∀ t, (⟨b⟩ : LowerBoundedRange T).contains t = true →
      (⟨a⟩ : LowerBoundedRange T).contains t = true) ∧
    (∀ a b : UpperBound T, a.cmp b ≠ .gt ↔ ∀ t, (⟨a⟩ : UpperBoundedRange T).contains t = true →
      (⟨b⟩ : UpperBoundedRange T).contains t = true) := by
  refine ⟨fun a b => ⟨fun h t => (C25_lowerBound a b t).1 h, fun h => ?_⟩,
    fun a b => ⟨fun h t => (C25_upperBound a b t).1 h, fun h => ?_⟩⟩
  · rw [LowerBound.cmp_eq, compare_ne_gt_iff_le]
    by_contra hc
    rw [not_le] at hc
    obtain ⟨t, h1, h2⟩ := exists_elem_between hc
    have := h t (by rw [LowerBoundedRange.contains_iff]; exact h1)
    rw [LowerBoundedRange.contains_iff] at this
    exact absurd h2 this.not_gt
  · rw [UpperBound.cmp_eq, compare_ne_gt_iff_le]
    by_contra hc
    rw [not_le] at hc
    obtain ⟨t, h1, h2⟩ := exists_elem_between hc
    have := h t (by rw [UpperBoundedRange.contains_iff]; exact h2)
    rw [UpperBoundedRange.contains_iff] at this
    exact absurd this h1.not_gt

example : DenselyOrdered ℚ ∧ NoMinOrder ℚ ∧ NoMaxOrder ℚ ∧ Nonempty ℚ :=
  ⟨inferInstance, inferInstance, inferInstance, inferInstance⟩
-- density is needed: over the integers `Excluded(3)` and `Included(4)` admit the same elements
example : (LowerBound.included (4 : Int)).cmp (.excluded 3) = .gt ∧
    ∀ t, (⟨.excluded 3⟩ : LowerBoundedRange Int).contains t = true →
      (⟨.included 4⟩ : LowerBoundedRange Int).contains t = true := by
  refine ⟨by decide, fun t => ?_⟩
  simp only [LowerBoundedRange.contains, LowerBound.excluded, LowerBound.included,
    decide_eq_true_eq]
  omega

/-! ### C26 Partially ordered elements -/

/-- What Rust asks of `PartialOrd` (with `PartialEq`): `==` is `partial_cmp == Some(Equal)`, and
swapping operands reverses the result. -/
structure LawfulPartialCmp {E : Type} (pc : E → E → Option Ordering) (eq : E → E → Bool) : Prop where
  eq_iff : ∀ a b, eq a b = true ↔ pc a b = some .eq
  swap : ∀ a b, pc b a = (pc a b).map Ordering.swap

/-- C26, lower bounds: `None` exactly for incomparable elements; swapping reverses; different
elements compare as themselves; equal elements compare by inclusiveness (included first). -/
theorem C26_lowerBound {E : Type} {pc : E → E → Option Ordering} {eq : E → E → Bool}
    (h : LawfulPartialCmp pc eq) (p q : Bound E) (a b : E) (hp : p = .included a ∨ p = .excluded a)
    (hq : q = .included b ∨ q = .excluded b) :
    let r := LowerBound.partialCmpWith pc eq ⟨p⟩ ⟨q⟩
    (r = none ↔ pc a b = none) ∧
    LowerBound.partialCmpWith pc eq ⟨q⟩ ⟨p⟩ = r.map Ordering.swap ∧
    (pc a b ≠ some .eq → r = pc a b) ∧
    (pc a b = some .eq → (r = some .lt ↔ p = .included a ∧ q = .excluded b) ∧
      (r = some .gt ↔ p = .excluded a ∧ q = .included b)) := by
  have e1 := h.eq_iff a b
  have e2 := h.eq_iff b a
  have s := h.swap a b
  rcases hp with rfl | rfl <;> rcases hq with rfl | rfl <;>
    simp only [LowerBound.partialCmpWith] <;>
    cases hab : eq a b <;> cases hba : eq b a <;>
    rcases hpc : pc a b with _ | o <;> rcases hpc' : pc b a with _ | o' <;>
    simp_all

/-- C26, upper bounds: the same with excluded first. -/
theorem C26_upperBound {E : Type} {pc : E → E → Option Ordering} {eq : E → E → Bool}
    (h : LawfulPartialCmp pc eq) (p q : Bound E) (a b : E) (hp : p = .included a ∨ p = .excluded a)
    (hq : q = .included b ∨ q = .excluded b) :
    let r := UpperBound.partialCmpWith pc eq ⟨p⟩ ⟨q⟩
    (r = none ↔ pc a b = none) ∧
    UpperBound.partialCmpWith pc eq ⟨q⟩ ⟨p⟩ = r.map Ordering.swap ∧
    (pc a b ≠ some .eq → r = pc a b) ∧
    (pc a b = some .eq → (r = some .lt ↔ p = .excluded a ∧ q = .included b) ∧
      (r = some .gt ↔ p = .included a ∧ q = .excluded b)) := by
  have e1 := h.eq_iff a b
  have e2 := h.eq_iff b a
  have s := h.swap a b
  rcases hp with rfl | rfl <;> rcases hq with rfl | rfl <;>
    simp only [UpperBound.partialCmpWith] <;>
    cases hab : eq a b <;> cases hba : eq b a <;>
    rcases hpc : pc a b with _ | o <;> rcases hpc' : pc b a with _ | o' <;>
    simp_all

/-- Integers with a NaN (`none`): a lawful `PartialOrd` that is not total. -/
def nanCmp (a b : Option Int) : Option Ordering :=
  match a, b with
  | some x, some y => some (compare x y)
  | _, _ => none

/-- `==` with a NaN different from itself. -/
def nanEq (a b : Option Int) : Bool :=
  match a, b with
  | some x, some y => x == y
  | _, _ => false

example : LawfulPartialCmp nanCmp nanEq ∧ nanCmp none none = none := by
  refine ⟨⟨?_, ?_⟩, rfl⟩
  · rintro (_ | a) (_ | b) <;> simp [nanCmp, nanEq]
  · rintro (_ | a) (_ | b) <;> simp [nanCmp]
    exact compare_swap _ _

/-! ### C27 `flipped` -/

omit [LinearOrder T] in
/-- C27. Involution, keeps the value, changes the inclusiveness. -/
theorem C27_flipped_bound (b : Bound T) : b.flipped.flipped = b ∧
    ∀ x, (b = .included x ↔ b.flipped = .excluded x) ∧ (b = .excluded x ↔ b.flipped = .included x) := by
  cases b <;> simp [Bound.flipped]

/-- C27. The half-line above a flipped upper bound is the complement of the half-line below it, and
dually. -/
theorem C27_flipped_complement (b : Bound T) (t : T) :
    (⟨.ofBound b.flipped⟩ : LowerBoundedRange T).contains t =
      !(⟨.ofBound b⟩ : UpperBoundedRange T).contains t ∧
    (⟨.ofBound b.flipped⟩ : UpperBoundedRange T).contains t =
      !(⟨.ofBound b⟩ : LowerBoundedRange T).contains t := by
  cases b <;> simp [Bound.flipped, LowerBoundedRange.contains, UpperBoundedRange.contains,
    LowerBound.ofBound, UpperBound.ofBound, ← decide_not]

/-! ### C28 `map` -/

/-- C28. `map` preserves inclusiveness and satisfies the functor laws. -/
theorem C28_map_functor {A B C : Type} (b : Bound A) (f : A → B) (g : B → C) :
    b.map id = b ∧ (b.map f).map g = b.map (g ∘ f) ∧
      (∀ x, b = .included x → b.map f = .included (f x)) ∧
      (∀ x, b = .excluded x → b.map f = .excluded (f x)) ∧
      (∀ l : LowerBound A, l.map id = l ∧ (l.map f).map g = l.map (g ∘ f) ∧
        (l.map f).toBound = l.toBound.map f) ∧
      (∀ u : UpperBound A, u.map id = u ∧ (u.map f).map g = u.map (g ∘ f) ∧
        (u.map f).toBound = u.toBound.map f) := by
  refine ⟨?_, ?_, ?_, ?_, ?_, ?_⟩
  · cases b <;> rfl
  · cases b <;> rfl
  · rintro x rfl; rfl
  · rintro x rfl; rfl
  · rintro ⟨_ | _⟩ <;> exact ⟨rfl, rfl, rfl⟩
  · rintro ⟨_ | _⟩ <;> exact ⟨rfl, rfl, rfl⟩

theorem _root_.StrictMono.compare_map {A B : Type} [LinearOrder A] [LinearOrder B] {f : A → B}
    (hf : StrictMono f) (a b : A) : compare (f a) (f b) = compare a b := by
  rcases lt_trichotomy a b with h | h | h
  · rw [compare_lt_iff_lt.mpr h, compare_lt_iff_lt.mpr (hf h)]
  · subst h; rw [compare_eq_iff_eq.mpr rfl, compare_eq_iff_eq.mpr rfl]
  · rw [compare_gt_iff_gt.mpr h, compare_gt_iff_gt.mpr (hf h)]

/-- C28. For strictly increasing `f`, `map` preserves the order of bounds and membership. -/
theorem C28_map_strictMono {U : Type} [LinearOrder U] (f : T → U) (hf : StrictMono f) :
    (∀ a b : LowerBound T, (a.map f).cmp (b.map f) = a.cmp b) ∧
    (∀ a b : UpperBound T, (a.map f).cmp (b.map f) = a.cmp b) ∧
    (∀ (s : LowerBound T) (e : UpperBound T) (t : T),
      (⟨s.map f, e.map f⟩ : BoundedRange U).contains (f t) = (⟨s, e⟩ : BoundedRange T).contains t ∧
      (⟨s.map f⟩ : LowerBoundedRange U).contains (f t) = (⟨s⟩ : LowerBoundedRange T).contains t ∧
      (⟨e.map f⟩ : UpperBoundedRange U).contains (f t) = (⟨e⟩ : UpperBoundedRange T).contains t) := by
  refine ⟨?_, ?_, ?_⟩
  · rintro ⟨a | a⟩ ⟨b | b⟩ <;>
      simp [LowerBound.cmp, LowerBound.partialCmp, LowerBound.partialCmpWith, LowerBound.map,
        Bound.map, elemEq, elemPartialCmp, hf.compare_map, hf.injective.eq_iff]
  · rintro ⟨a | a⟩ ⟨b | b⟩ <;>
      simp [UpperBound.cmp, UpperBound.partialCmp, UpperBound.partialCmpWith, UpperBound.map,
        Bound.map, elemEq, elemPartialCmp, hf.compare_map, hf.injective.eq_iff]
  · rintro ⟨s | s⟩ ⟨e | e⟩ t <;>
      simp [BoundedRange.contains, LowerBoundedRange.contains, UpperBoundedRange.contains,
        LowerBound.map, UpperBound.map, Bound.map, hf.lt_iff_lt, hf.le_iff_le]

example : StrictMono (fun x : Int => 2 * x) := fun a b h => by
  show 2 * a < 2 * b
  omega

/-! ### C29 `to_inner` and `to_set` -/

/-- C29. `to_inner` and `to_set` keep the members; `to_set` of a range is normal. -/
theorem C29_conversions (a : Any T) (ha : a.Fresh) :
    (∀ t, a.toInner.contains t = a.contains t) ∧
      (∀ t, a.toSet.toInner.contains t = a.contains t) ∧
      (¬ a.toInner.IsSet → a.toSet.toInner.Normal) := by
  refine ⟨fun t => a.contains_toInner ha t, fun t => ?_, fun h => ?_⟩
  · rw [← a.contains_toInner ha t, Bool.eq_iff_iff, Inner.contains_probe, Inner.contains_probe,
      Any.toSet_eq, Inner.toSet_sem]
  · rw [Inner.normal_iff, Any.toSet_eq]
    refine Inner.toSet_WF ?_
    generalize a.toInner = i at h
    cases i <;> first | trivial | exact absurd trivial h

example : (Any.range ⟨5, 3⟩ : Any Int).Fresh ∧ ¬ (Any.range ⟨5, 3⟩ : Any Int).toInner.IsSet :=
  ⟨trivial, id⟩

/-- C29. `to_set` of a set is that set, so it is normal exactly when the set is. -/
theorem C29_toSet_idempotent (a : Any T) :
    (Any.inner a.toSet.toInner).toSet = a.toSet ∧ (Any.inner a.toInner).toInner = a.toInner := by
  refine ⟨?_, rfl⟩
  rw [Any.toSet_eq, Any.toInner_inner, Any.toSet_eq]
  cases a.toInner <;> rfl

end Rangetools
