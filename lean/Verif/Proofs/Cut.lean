import Verif.Model.Any
import Verif.Proofs.Interval
import Mathlib.Order.WithBot
import Mathlib.Data.Prod.Lex

/-!
# Bounds as cuts

A cut of `T` is a position between elements: just before `a` is `(a, false)`, just after `a` is
`(a, true)`.  Lower and upper bounds are cuts, and Rust's comparison of bounds is the order on cuts.
-/

namespace Rangetools

/-- Cuts of `T`, with a bottom and a top cut. -/
abbrev ECut (T : Type) := WithBot (WithTop (T ×ₗ Bool))

section
variable {T : Type}

/-- The cut just before (`false`) or just after (`true`) `a`. -/
def cut (a : T) (s : Bool) : ECut T := ((toLex (a, s) : T ×ₗ Bool) : WithTop (T ×ₗ Bool))

/-- The cut at which a lower bound starts. -/
def lo (b : LowerBound T) : ECut T :=
  match b.b with
  | .included a => cut a false
  | .excluded a => cut a true

/-- The cut at which an upper bound ends. -/
def hi (b : UpperBound T) : ECut T :=
  match b.b with
  | .included a => cut a true
  | .excluded a => cut a false

theorem cut_inj {a b : T} {s t : Bool} : cut a s = cut b t ↔ a = b ∧ s = t := by
  simp [cut]

theorem lo_inj {a b : LowerBound T} : lo a = lo b ↔ a = b := by
  rcases a with ⟨a | a⟩ <;> rcases b with ⟨b | b⟩ <;> simp [lo, cut_inj]

theorem hi_inj {a b : UpperBound T} : hi a = hi b ↔ a = b := by
  rcases a with ⟨a | a⟩ <;> rcases b with ⟨b | b⟩ <;> simp [hi, cut_inj]

@[simp] theorem hi_ofBound_flipped (a : LowerBound T) : hi (.ofBound a.b.flipped) = lo a := by
  rcases a with ⟨a | a⟩ <;> rfl

@[simp] theorem lo_ofBound_flipped (a : UpperBound T) : lo (.ofBound a.b.flipped) = hi a := by
  rcases a with ⟨a | a⟩ <;> rfl

end

section
variable {T : Type} [LinearOrder T]

theorem cut_lt {a b : T} {s t : Bool} : cut a s < cut b t ↔ a < b ∨ a = b ∧ s < t := by
  simp only [cut, WithBot.coe_lt_coe, WithTop.coe_lt_coe, Prod.Lex.toLex_lt_toLex]

theorem cut_le {a b : T} {s t : Bool} : cut a s ≤ cut b t ↔ a < b ∨ a = b ∧ s ≤ t := by
  simp only [cut, WithBot.coe_le_coe, WithTop.coe_le_coe, Prod.Lex.toLex_le_toLex]

theorem cut_false_lt_true (a : T) : cut a false < cut a true :=
  cut_lt.mpr (Or.inr ⟨rfl, Bool.false_lt_true⟩)

@[simp] theorem bot_lt_cut {a : T} {s : Bool} : (⊥ : ECut T) < cut a s := WithBot.bot_lt_coe _

@[simp] theorem cut_lt_top {a : T} {s : Bool} : cut a s < (⊤ : ECut T) :=
  WithBot.coe_lt_coe.mpr (WithTop.coe_lt_top _)

omit [LinearOrder T] in
theorem cases_ecut (x : ECut T) : x = ⊥ ∨ x = ⊤ ∨ ∃ a s, x = cut a s := by
  rcases x with _ | _ | x
  · exact Or.inl rfl
  · exact Or.inr (Or.inl rfl)
  · exact Or.inr (Or.inr ⟨(ofLex x).1, (ofLex x).2, rfl⟩)

@[simp] theorem bot_lt_lo (b : LowerBound T) : (⊥ : ECut T) < lo b := by
  rcases b with ⟨a | a⟩ <;> exact bot_lt_cut
@[simp] theorem bot_lt_hi (b : UpperBound T) : (⊥ : ECut T) < hi b := by
  rcases b with ⟨a | a⟩ <;> exact bot_lt_cut
@[simp] theorem lo_lt_top (b : LowerBound T) : lo b < (⊤ : ECut T) := by
  rcases b with ⟨a | a⟩ <;> exact cut_lt_top
@[simp] theorem hi_lt_top (b : UpperBound T) : hi b < (⊤ : ECut T) := by
  rcases b with ⟨a | a⟩ <;> exact cut_lt_top

/-- Rust's comparison of lower bounds is the order of cuts. -/
theorem LowerBound.partialCmp_eq (a b : LowerBound T) :
    a.partialCmp b = some (compare (lo a) (lo b)) := by
  rcases a with ⟨a | a⟩ <;> rcases b with ⟨b | b⟩ <;>
    simp only [LowerBound.partialCmp, LowerBound.partialCmpWith, elemPartialCmp, elemEq, lo]
  all_goals
    rcases lt_trichotomy a b with h | h | h
    · have h' : a ≠ b := h.ne
      simp [h', compare_lt_iff_lt.mpr h, compare_lt_iff_lt.mpr (cut_lt.mpr (Or.inl h))]
    · subst h
      simp [compare_lt_iff_lt.mpr (cut_false_lt_true a),
        compare_gt_iff_gt.mpr (cut_false_lt_true a)]
    · have h' : a ≠ b := h.ne'
      simp [h', compare_gt_iff_gt.mpr h, compare_gt_iff_gt.mpr (cut_lt.mpr (Or.inl h))]

/-- Rust's comparison of upper bounds is the order of cuts. -/
theorem UpperBound.partialCmp_eq (a b : UpperBound T) :
    a.partialCmp b = some (compare (hi a) (hi b)) := by
  rcases a with ⟨a | a⟩ <;> rcases b with ⟨b | b⟩ <;>
    simp only [UpperBound.partialCmp, UpperBound.partialCmpWith, elemPartialCmp, elemEq, hi]
  all_goals
    rcases lt_trichotomy a b with h | h | h
    · have h' : a ≠ b := h.ne
      simp [h', compare_lt_iff_lt.mpr h, compare_lt_iff_lt.mpr (cut_lt.mpr (Or.inl h))]
    · subst h
      simp [compare_lt_iff_lt.mpr (cut_false_lt_true a),
        compare_gt_iff_gt.mpr (cut_false_lt_true a)]
    · have h' : a ≠ b := h.ne'
      simp [h', compare_gt_iff_gt.mpr h, compare_gt_iff_gt.mpr (cut_lt.mpr (Or.inl h))]

theorem LowerBound.cmp_eq (a b : LowerBound T) : a.cmp b = compare (lo a) (lo b) := by
  simp [LowerBound.cmp, LowerBound.partialCmp_eq]

theorem UpperBound.cmp_eq (a b : UpperBound T) : a.cmp b = compare (hi a) (hi b) := by
  simp [UpperBound.cmp, UpperBound.partialCmp_eq]

theorem LowerBound.gt_iff (a b : LowerBound T) : a.gt b = true ↔ lo b < lo a := by
  simp [LowerBound.gt, LowerBound.partialCmp_eq, compare_gt_iff_gt]

@[simp] theorem lo_max (a b : LowerBound T) : lo (a.max b) = max (lo a) (lo b) := by
  unfold LowerBound.max
  rw [LowerBound.cmp_eq]
  rcases lt_trichotomy (lo a) (lo b) with h | h | h
  · simp [compare_lt_iff_lt.mpr h, max_eq_right h.le]
  · simp [h]
  · simp [compare_gt_iff_gt.mpr h, max_eq_left h.le]

@[simp] theorem lo_min (a b : LowerBound T) : lo (a.min b) = min (lo a) (lo b) := by
  unfold LowerBound.min
  rw [LowerBound.cmp_eq]
  rcases lt_trichotomy (lo a) (lo b) with h | h | h
  · simp [compare_lt_iff_lt.mpr h, min_eq_left h.le]
  · simp [h]
  · simp [compare_gt_iff_gt.mpr h, min_eq_right h.le]

@[simp] theorem hi_max (a b : UpperBound T) : hi (a.max b) = max (hi a) (hi b) := by
  unfold UpperBound.max
  rw [UpperBound.cmp_eq]
  rcases lt_trichotomy (hi a) (hi b) with h | h | h
  · simp [compare_lt_iff_lt.mpr h, max_eq_right h.le]
  · simp [h]
  · simp [compare_gt_iff_gt.mpr h, max_eq_left h.le]

@[simp] theorem hi_min (a b : UpperBound T) : hi (a.min b) = min (hi a) (hi b) := by
  unfold UpperBound.min
  rw [UpperBound.cmp_eq]
  rcases lt_trichotomy (hi a) (hi b) with h | h | h
  · simp [compare_lt_iff_lt.mpr h, min_eq_left h.le]
  · simp [h]
  · simp [compare_gt_iff_gt.mpr h, min_eq_right h.le]

/-- The interval of a bounded range. -/
def BoundedRange.iv (r : BoundedRange T) : ECut T × ECut T := (lo r.start, hi r.stop)

theorem BoundedRange.isEmpty_iff (r : BoundedRange T) :
    r.isEmpty = true ↔ hi r.stop ≤ lo r.start := by
  rcases r with ⟨⟨a | a⟩, ⟨b | b⟩⟩ <;>
    simp only [BoundedRange.isEmpty, lo, hi, cut_le, decide_eq_true_eq, ge_iff_le, gt_iff_lt,
      le_refl, and_true, le_iff_lt_or_eq (a := b) (b := a)] <;>
    simp

theorem BoundedRange.isEmpty_eq_false_iff (r : BoundedRange T) :
    r.isEmpty = false ↔ lo r.start < hi r.stop := by
  rw [← not_le, ← BoundedRange.isEmpty_iff, Bool.not_eq_true]

theorem start_ok_iff (b : LowerBound T) (t : T) :
    (match b.b with | .excluded s => decide (t > s) | .included s => decide (t ≥ s)) = true ↔
      lo b ≤ cut t false := by
  rcases b with ⟨a | a⟩ <;>
    simp [lo, cut_le, le_iff_lt_or_eq (a := a)]

theorem stop_ok_iff (b : UpperBound T) (t : T) :
    (match b.b with | .excluded s => decide (t < s) | .included s => decide (t ≤ s)) = true ↔
      cut t false < hi b := by
  rcases b with ⟨a | a⟩ <;>
    simp [hi, cut_lt, le_iff_lt_or_eq]

theorem BoundedRange.contains_iff (r : BoundedRange T) (t : T) :
    r.contains t = true ↔ lo r.start ≤ cut t false ∧ cut t false < hi r.stop := by
  rw [← start_ok_iff, ← stop_ok_iff, ← Bool.and_eq_true]
  rfl

theorem LowerBoundedRange.contains_iff (r : LowerBoundedRange T) (t : T) :
    r.contains t = true ↔ lo r.start ≤ cut t false := by
  rw [← start_ok_iff]
  rfl

theorem UpperBoundedRange.contains_iff (r : UpperBoundedRange T) (t : T) :
    r.contains t = true ↔ cut t false < hi r.stop := by
  rw [← stop_ok_iff]
  rfl

end
end Rangetools
