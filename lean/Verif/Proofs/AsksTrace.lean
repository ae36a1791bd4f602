import Verif.Proofs.AsksAll
import Verif.Proofs.Sem
import Verif.Spec.AsksTrace

/-!
# Programs that compare: the questions asked under a linear order
-/

set_option linter.unusedSimpArgs false

namespace Rangetools
open Asks

namespace Asks
variable {S T α β : Type}

/-- Recording changes nothing else. -/
theorem exec_recording (w : World S T) (x : Asks T α) (s : S) (l : List (Question T)) :
    ∃ qs, x.exec w.recording (s, l) = ((x.exec w s).1, (x.exec w s).2.1, (x.exec w s).2.2, l ++ qs) ∧
      qs.map Question.pair = (x.exec w s).2.1 := by
  induction x generalizing s l with
  | done a => exact ⟨[], by simp [exec], rfl⟩
  | panic m => exact ⟨[], by simp [exec], rfl⟩
  | test q a b k ih =>
    simp only [exec, World.recording]
    rcases w.test s q a b with ⟨_ | r, s'⟩
    · exact ⟨[.test q a b], rfl, rfl⟩
    · obtain ⟨qs, h1, h2⟩ := ih r s' (l ++ [.test q a b])
      refine ⟨.test q a b :: qs, ?_, by simp [h2, Question.pair]⟩
      simp only [World.recording] at h1
      simp only [h1]
      simp
  | cmp a b k ih =>
    simp only [exec, World.recording]
    rcases w.cmp s a b with ⟨_ | r, s'⟩
    · exact ⟨[.cmp a b], rfl, rfl⟩
    · obtain ⟨qs, h1, h2⟩ := ih r s' (l ++ [.cmp a b])
      refine ⟨.cmp a b :: qs, ?_, by simp [h2, Question.pair]⟩
      simp only [World.recording] at h1
      simp only [h1]
      simp

theorem exec_asked (w : World S T) (x : Asks T α) (s : S) (l : List (Question T)) :
    x.exec w.recording (s, l) = ((x.exec w s).1, (x.exec w s).2.1, (x.exec w s).2.2, l ++ x.asked w s) := by
  induction x generalizing s l with
  | done a => simp [exec, asked]
  | panic m => simp [exec, asked]
  | test q a b k ih =>
    simp only [exec, World.recording, asked]
    rcases w.test s q a b with ⟨_ | r, s'⟩
    · rfl
    · have h1 := ih r s' (l ++ [.test q a b])
      have h2 := ih r s' ([] ++ [.test q a b])
      simp only [World.recording] at h1 h2
      simp only [h1, h2]
      simp
  | cmp a b k ih =>
    simp only [exec, World.recording, asked]
    rcases w.cmp s a b with ⟨_ | r, s'⟩
    · rfl
    · have h1 := ih r s' (l ++ [.cmp a b])
      have h2 := ih r s' ([] ++ [.cmp a b])
      simp only [World.recording] at h1 h2
      simp only [h1, h2]
      simp

theorem asked_pairs (w : World S T) (x : Asks T α) (s : S) : (x.asked w s).map Question.pair = (x.exec w s).2.1 := by
  obtain ⟨qs, h1, h2⟩ := exec_recording w x s []
  rw [← h2, asked, h1]
  simp

theorem asked_test (w : World S T) (q a b) (k : Bool → Asks T α) (s : S) :
    (test q a b k).asked w s = .test q a b :: match w.test s q a b with
      | (none, _) => []
      | (some r, s') => (k r).asked w s' := by
  rw [asked]
  simp only [exec, World.recording]
  rcases w.test s q a b with ⟨_ | r, s'⟩
  · rfl
  · have := exec_asked w (k r) s' ([] ++ [.test q a b])
    simp only [World.recording] at this
    simp only [this]
    simp

theorem asked_cmp (w : World S T) (a b) (k : Option Ordering → Asks T α) (s : S) :
    (cmp a b k).asked w s = .cmp a b :: match w.cmp s a b with
      | (none, _) => []
      | (some r, s') => (k r).asked w s' := by
  rw [asked]
  simp only [exec, World.recording]
  rcases w.cmp s a b with ⟨_ | r, s'⟩
  · rfl
  · have := exec_asked w (k r) s' ([] ++ [.cmp a b])
    simp only [World.recording] at this
    simp only [this]
    simp

section
variable [LinearOrder T]

theorem poses_trail (x : Asks T α) : x.Poses x.trail := by
  intro S w s hw
  induction x generalizing s with
  | done a => exact ⟨List.prefix_rfl, fun _ => rfl⟩
  | panic m => exact ⟨List.prefix_rfl, fun _ => rfl⟩
  | test q a b k ih =>
    have h := hw.1 s q a b
    rw [asked_test]
    simp only [exec, trail]
    rcases hr : w.test s q a b with ⟨_ | r, s'⟩
    · exact ⟨by simp, fun h => absurd rfl h⟩
    · rw [hr] at h
      rcases h with h | h <;> cases h
      obtain ⟨h1, h2⟩ := ih (q.holds a b) s'
      exact ⟨(List.prefix_cons_inj _).mpr h1, fun h => congrArg (_ :: ·) (h2 h)⟩
  | cmp a b k ih =>
    have h := hw.2 s a b
    rw [asked_cmp]
    simp only [exec, trail]
    rcases hr : w.cmp s a b with ⟨_ | r, s'⟩
    · exact ⟨by simp, fun h => absurd rfl h⟩
    · rw [hr] at h
      rcases h with h | h <;> cases h
      obtain ⟨h1, h2⟩ := ih (some (compare a b)) s'
      exact ⟨(List.prefix_cons_inj _).mpr h1, fun h => congrArg (_ :: ·) (h2 h)⟩

/-- Comparisons without side effects. -/
def worldOrder (T : Type) [LinearOrder T] : World Unit T where
  test s q a b := (some (q.holds a b), s)
  cmp s a b := (some (some (compare a b)), s)

theorem worldOrder_truthful : (worldOrder T).Truthful := ⟨fun _ _ _ _ => .inr rfl, fun _ _ _ => .inr rfl⟩
theorem worldOrder_returns : (worldOrder T).Returns := ⟨fun _ _ _ _ => by simp [worldOrder], fun _ _ _ => by simp [worldOrder]⟩

/-- The questions are determined. -/
theorem poses_iff {x : Asks T α} {qs : List (Question T)} : x.Poses qs ↔ x.trail = qs := by
  constructor
  · intro h
    rw [← (x.poses_trail Unit (worldOrder T) () worldOrder_truthful).2 (exec_returns worldOrder_returns x ()),
      (h Unit (worldOrder T) () worldOrder_truthful).2 (exec_returns worldOrder_returns x ())]
  · rintro rfl
    exact x.poses_trail

@[simp] theorem trail_done (a : α) : (done a : Asks T α).trail = [] := rfl
@[simp] theorem trail_pure (a : α) : (pure a : Asks T α).trail = [] := rfl
@[simp] theorem trail_ofRes (r : Res α) : (ofRes r : Asks T α).trail = [] := by cases r <;> rfl
@[simp] theorem trail_test (q a b) (k : Bool → Asks T α) :
    (test q a b k).trail = .test q a b :: (k (pureTest q a b)).trail := by rw [trail, Test.holds_eq]
@[simp] theorem trail_cmp (a b) (k : Option Ordering → Asks T α) :
    (cmp a b k).trail = .cmp a b :: (k (elemPartialCmp a b)).trail := rfl
@[simp] theorem trail_ite (c : Prop) [Decidable c] (x y : Asks T α) :
    (if c then x else y).trail = if c then x.trail else y.trail := by split <;> rfl

theorem trail_bind (x : Asks T α) (f : α → Asks T β) :
    (x >>= f).trail = x.trail ++ match x.run with | .ok a => (f a).trail | .panic _ => [] := by
  induction x with
  | done a => rfl
  | panic m => rfl
  | test q a b k ih =>
    have := ih (pureTest q a b)
    simp only [trail_test, run_test, List.cons_append, ← this]; exact trail_test ..
  | cmp a b k ih =>
    have := ih (elemPartialCmp a b)
    simp only [trail_cmp, run_cmp, List.cons_append, ← this]; rfl

theorem trail_bind_ok {x : Asks T α} {f : α → Asks T β} {a : α} (h : x.run = .ok a) :
    (x >>= f).trail = x.trail ++ (f a).trail := by rw [trail_bind, h]

theorem trail_fold_snoc {f : β → α → Asks T β} {b c : β} {l : List α} {x : α} (h : (fold f b l).run = .ok c) :
    (fold f b (l ++ [x])).trail = (fold f b l).trail ++ (f c x).trail := by
  induction l generalizing b with
  | nil =>
    cases h
    simp only [List.nil_append, fold, trail_done]
    rw [trail_bind]
    cases (f c x).run <;> simp
  | cons y l ih =>
    simp only [fold, run_bind] at h
    rcases hy : (f b y).run with d | m
    · rw [hy] at h
      simp only [List.cons_append, fold]
      rw [trail_bind_ok hy, trail_bind_ok hy, ih h, List.append_assoc]
    · rw [hy] at h
      cases h

theorem trail_map {f : α → Asks T β} {g : α → β} (h : ∀ x, (f x).run = .ok (g x)) (l : List α) :
    (map f l).trail = l.flatMap fun x => (f x).trail := by
  induction l with
  | nil => rfl
  | cons x l ih => rw [map, trail_bind_ok (h x), trail_bind_ok (run_map h l), ih]; simp

theorem trail_filter {f : α → Asks T Bool} {g : α → Bool} (h : ∀ x, (f x).run = .ok (g x)) (l : List α) :
    (filter f l).trail = l.flatMap fun x => (f x).trail := by
  induction l with
  | nil => rfl
  | cons x l ih =>
    rw [filter, trail_bind_ok (h x)]
    split
    · rw [trail_bind_ok (run_filter h l), ih]; simp
    · rw [ih]; simp

theorem trail_position {f : α → Asks T Bool} {g : α → Bool} (h : ∀ x, (f x).run = .ok (g x)) (l : List α) :
    (position f l).trail = (upToFirst g l).flatMap fun x => (f x).trail := by
  induction l with
  | nil => rfl
  | cons x l ih =>
    rw [position, trail_bind_ok (h x), upToFirst]
    obtain ⟨o, ho, -⟩ := run_position h l
    split
    · simp
    · rw [trail_bind_ok ho, ih]; simp

theorem trail_all {f : α → Asks T Bool} {g : α → Bool} (h : ∀ x, (f x).run = .ok (g x)) (l : List α) :
    (all f l).trail = (upToFirst (fun x => !g x) l).flatMap fun x => (f x).trail := by
  induction l with
  | nil => rfl
  | cons x l ih =>
    rw [all, trail_bind_ok (h x), upToFirst]
    cases g x
    · simp
    · simp [ih]

end
end Asks

/-! ### Bounds and ranges -/

section
variable {T : Type} [LinearOrder T] {m : MaxVia}

theorem LowerBound.partialCmpA_trail (a b : LowerBound T) : (a.partialCmpA b).trail = a.b.orderQs b.b := by
  rcases a with ⟨a | a⟩ <;> rcases b with ⟨b | b⟩ <;>
    simp only [partialCmpA, Bound.orderQs, Bound.sameKind, Bound.value, trail_cmp, trail_test, trail_done, trail_ite,
      pureTest, elemEq, beq_iff_eq, if_true, Bool.false_eq_true, if_false] <;>
    (by_cases h : a = b <;> simp [h])

theorem UpperBound.partialCmpA_trail (a b : UpperBound T) : (a.partialCmpA b).trail = a.b.orderQs b.b := by
  rcases a with ⟨a | a⟩ <;> rcases b with ⟨b | b⟩ <;>
    simp only [partialCmpA, Bound.orderQs, Bound.sameKind, Bound.value, trail_cmp, trail_test, trail_done, trail_ite,
      pureTest, elemEq, beq_iff_eq, if_true, Bool.false_eq_true, if_false] <;>
    (by_cases h : a = b <;> simp [h])

theorem LowerBound.cmpA_trail (a b : LowerBound T) : (a.cmpA b).trail = a.b.orderQs b.b := by
  rw [cmpA, trail_bind_ok (a.partialCmpA_run b), partialCmpA_trail, trail_ofRes, List.append_nil]

theorem UpperBound.cmpA_trail (a b : UpperBound T) : (a.cmpA b).trail = a.b.orderQs b.b := by
  rw [cmpA, trail_bind_ok (a.partialCmpA_run b), partialCmpA_trail, trail_ofRes, List.append_nil]

theorem LowerBound.ltA_trail (a b : LowerBound T) : (a.ltA b).trail = a.b.orderQs b.b := by
  rw [ltA, trail_bind_ok (a.partialCmpA_run b), partialCmpA_trail, trail_pure, List.append_nil]

theorem UpperBound.ltA_trail (a b : UpperBound T) : (a.ltA b).trail = a.b.orderQs b.b := by
  rw [ltA, trail_bind_ok (a.partialCmpA_run b), partialCmpA_trail, trail_pure, List.append_nil]

theorem LowerBound.gtA_trail (a b : LowerBound T) : (a.gtA b).trail = a.b.orderQs b.b := by
  rw [gtA, trail_bind_ok (a.partialCmpA_run b), partialCmpA_trail, trail_pure, List.append_nil]

theorem LowerBound.ltA_run (a b : LowerBound T) : (a.ltA b).run = .ok (a.partialCmp b == some .lt) := by
  simp [ltA, partialCmpA_run]

theorem UpperBound.ltA_run (a b : UpperBound T) : (a.ltA b).run = .ok (a.partialCmp b == some .lt) := by
  simp [ltA, partialCmpA_run]

theorem LowerBound.maxA_trail (a b : LowerBound T) : (a.maxA m b).trail = m.pickQs a.b b.b := by
  cases m
  · rw [maxA, trail_bind_ok (a.cmpA_run b), cmpA_trail]
    cases a.cmp b <;> simp [MaxVia.pickQs]
  · rw [maxA, trail_bind_ok (b.ltA_run a), ltA_trail]
    simp [MaxVia.pickQs]

theorem LowerBound.minA_trail (a b : LowerBound T) : (a.minA m b).trail = m.pickQs a.b b.b := by
  cases m
  · rw [minA, trail_bind_ok (a.cmpA_run b), cmpA_trail]
    cases a.cmp b <;> simp [MaxVia.pickQs]
  · rw [minA, trail_bind_ok (b.ltA_run a), ltA_trail]
    simp [MaxVia.pickQs]

theorem UpperBound.maxA_trail (a b : UpperBound T) : (a.maxA m b).trail = m.pickQs a.b b.b := by
  cases m
  · rw [maxA, trail_bind_ok (a.cmpA_run b), cmpA_trail]
    cases a.cmp b <;> simp [MaxVia.pickQs]
  · rw [maxA, trail_bind_ok (b.ltA_run a), ltA_trail]
    simp [MaxVia.pickQs]

theorem UpperBound.minA_trail (a b : UpperBound T) : (a.minA m b).trail = m.pickQs a.b b.b := by
  cases m
  · rw [minA, trail_bind_ok (a.cmpA_run b), cmpA_trail]
    cases a.cmp b <;> simp [MaxVia.pickQs]
  · rw [minA, trail_bind_ok (b.ltA_run a), ltA_trail]
    simp [MaxVia.pickQs]

/-- The bounds picked. -/
theorem LowerBound.pick (a b : LowerBound T) :
    a.max b = ⟨a.b.laterStart b.b⟩ ∧ a.min b = ⟨a.b.earlierStart b.b⟩ ∧
      a.gt b = a.b.startsAfter b.b := by
  rcases a with ⟨a | a⟩ <;> rcases b with ⟨b | b⟩ <;>
    simp only [LowerBound.max, LowerBound.min, LowerBound.gt, LowerBound.cmp, LowerBound.partialCmp,
      LowerBound.partialCmpWith, elemPartialCmp, elemEq, Bound.laterStart, Bound.earlierStart, Bound.value,
      Bound.startsAfter, Bound.isIncluded] <;>
    (rcases lt_trichotomy a b with h | rfl | h <;>
      [simp [h, h.ne, h.ne', h.not_gt, compare_lt_iff_lt.mpr, compare_gt_iff_gt.mpr]; simp;
        simp [h, h.ne, h.ne', h.not_gt, compare_lt_iff_lt.mpr, compare_gt_iff_gt.mpr]])

theorem UpperBound.pick (a b : UpperBound T) :
    a.max b = ⟨a.b.laterStop b.b⟩ ∧ a.min b = ⟨a.b.earlierStop b.b⟩ := by
  rcases a with ⟨a | a⟩ <;> rcases b with ⟨b | b⟩ <;>
    simp only [UpperBound.max, UpperBound.min, UpperBound.cmp, UpperBound.partialCmp,
      UpperBound.partialCmpWith, elemPartialCmp, elemEq, Bound.laterStop, Bound.earlierStop, Bound.value] <;>
    (rcases lt_trichotomy a b with h | rfl | h <;>
      [simp [h, h.ne, h.ne', h.not_gt, compare_lt_iff_lt.mpr, compare_gt_iff_gt.mpr]; simp;
        simp [h, h.ne, h.ne', h.not_gt, compare_lt_iff_lt.mpr, compare_gt_iff_gt.mpr]])

theorem BoundedRange.isEmptyA_trail (r : BoundedRange T) : r.isEmptyA.trail = [r.emptyQ] := by
  rcases r with ⟨⟨a | a⟩, ⟨b | b⟩⟩ <;> rfl

theorem BoundedRange.isEmpty_hollow (r : BoundedRange T) : r.isEmpty = decide r.Hollow := by
  rw [Bool.eq_iff_iff]
  rcases r with ⟨⟨a | a⟩, ⟨b | b⟩⟩ <;>
    simp [BoundedRange.isEmpty, BoundedRange.Hollow, Bound.value, Bound.isIncluded, le_iff_lt_or_eq]

theorem BoundedRange.interBR_common (p r : BoundedRange T) : p.interBR r = p.common r := by
  simp [BoundedRange.interBR, BoundedRange.common, (LowerBound.pick p.start r.start).1, (UpperBound.pick p.stop r.stop).2]

theorem BoundedRange.interBRA_trail (p r : BoundedRange T) : (p.interBRA m r).trail = p.endsQs m r := by
  have hm := MaxAgrees.all (T := T) m
  rw [interBRA, trail_bind_ok (hm.lmax _ _), trail_bind_ok (hm.umin _ _), LowerBound.maxA_trail, UpperBound.minA_trail,
    trail_pure, List.append_nil, endsQs]

theorem BoundedRange.interLBRA_trail (p : BoundedRange T) (r : LowerBoundedRange T) :
    (p.interLBRA m r).trail = m.pickQs p.start.b r.start.b := by
  have hm := MaxAgrees.all (T := T) m
  rw [interLBRA, trail_bind_ok (hm.lmax _ _), LowerBound.maxA_trail, trail_pure, List.append_nil]

theorem BoundedRange.interUBRA_trail (p : BoundedRange T) (r : UpperBoundedRange T) :
    (p.interUBRA m r).trail = m.pickQs p.stop.b r.stop.b := by
  have hm := MaxAgrees.all (T := T) m
  rw [interUBRA, trail_bind_ok (hm.umin _ _), UpperBound.minA_trail, trail_pure, List.append_nil]

theorem LowerBoundedRange.interLBRA_trail (p r : LowerBoundedRange T) :
    (p.interLBRA m r).trail = m.pickQs p.start.b r.start.b := by
  have hm := MaxAgrees.all (T := T) m
  rw [interLBRA, trail_bind_ok (hm.lmax _ _), LowerBound.maxA_trail, trail_pure, List.append_nil]

theorem UpperBoundedRange.interUBRA_trail (p r : UpperBoundedRange T) :
    (p.interUBRA m r).trail = m.pickQs p.stop.b r.stop.b := by
  have hm := MaxAgrees.all (T := T) m
  rw [interUBRA, trail_bind_ok (hm.umin _ _), UpperBound.minA_trail, trail_pure, List.append_nil]

theorem BoundedRange.intersectsBRA_trail (p r : BoundedRange T) : (p.intersectsBRA m r).trail = p.overlapQs m r := by
  rw [intersectsBRA, trail_bind_ok (interBRA_run (MaxAgrees.all m) p r), interBRA_trail,
    trail_bind_ok (isEmptyA_run _), isEmptyA_trail, interBR_common, trail_pure, List.append_nil, overlapQs]

theorem BoundedRange.intersectsBR_common (p r : BoundedRange T) : p.intersectsBR r = decide (¬ (p.common r).Hollow) := by
  rw [intersectsBR, interBR_common, isEmpty_hollow, decide_not]

theorem BoundedRange.combineA_trail {r p : BoundedRange T} (h : ¬ (p.common r).Hollow) :
    (r.combineA m p).trail = r.mergeQs m p := by
  have hi : p.intersectsBR r = true := by rw [intersectsBR_common]; exact decide_eq_true h
  have hi' : r.intersectsBR p = true := by rw [BoundedRange.intersectsBR_iff, max_comm, min_comm, ← BoundedRange.intersectsBR_iff, hi]
  have h1 := (p.intersectsBR_iff r).mp hi
  have h2 : r.isEmpty = false := by
    rw [BoundedRange.isEmpty_eq_false_iff]
    exact (le_max_right _ _).trans_lt (h1.trans_le (min_le_right _ _))
  have h3 : p.isEmpty = false := by
    rw [BoundedRange.isEmpty_eq_false_iff]
    exact (le_max_left _ _).trans_lt (h1.trans_le (min_le_left _ _))
  have hm := MaxAgrees.all (T := T) m
  rw [combineA, trail_bind_ok (isEmptyA_run p), isEmptyA_trail, h3]
  simp only [Bool.false_eq_true, if_false]
  rw [trail_bind_ok (isEmptyA_run r), isEmptyA_trail, h2]
  simp only [Bool.false_eq_true, if_false]
  rw [trail_bind_ok (intersectsBRA_run hm r p), intersectsBRA_trail, hi']
  simp only [if_true]
  rw [trail_bind_ok (hm.lmin _ _), trail_bind_ok (hm.umax _ _), LowerBound.minA_trail, UpperBound.maxA_trail, trail_pure,
    List.append_nil]
  rfl

/-! ### Sets -/

theorem upToFirst_none {α : Type} {p : α → Bool} {l : List α} (h : ∀ x ∈ l, p x = false) : upToFirst p l = l := by
  induction l with
  | nil => rfl
  | cons x l ih => simp [upToFirst, h x (by simp), ih fun y hy => h y (by simp [hy])]

theorem upToFirst_some {α : Type} {p : α → Bool} {l l' : List α} {x : α} (h : ∀ y ∈ l, p y = false) (hx : p x = true) :
    upToFirst p (l ++ x :: l') = l ++ [x] := by
  induction l with
  | nil => simp [upToFirst, hx]
  | cons y l ih => simp [upToFirst, h y (by simp), ih fun y hy => h y (by simp [hy])]

theorem BoundedSet.addRangeA_hollow {s : BoundedSet T} {r : BoundedRange T} (h : r.Hollow) :
    (s.addRangeA m r).trail = [r.emptyQ] := by
  rw [addRangeA, trail_bind_ok r.isEmptyA_run, r.isEmptyA_trail, r.isEmpty_hollow]
  simp [h]

theorem BoundedSet.addRangeA_apart {s : BoundedSet T} {r : BoundedRange T} (h : ¬ r.Hollow)
    (hs : ∀ p ∈ s.ranges, (p.common r).Hollow) :
    (s.addRangeA m r).trail = r.emptyQ :: (s.ranges.flatMap (fun p => p.overlapQs m r) ++
      (upToFirst (fun p => p.start.b.startsAfter r.start.b) s.ranges).flatMap fun p => p.start.b.orderQs r.start.b) := by
  have hm := MaxAgrees.all (T := T) m
  have hi : ∀ x ∈ s.ranges, x.intersectsBR r = false := by
    intro x hx; rw [BoundedRange.intersectsBR_common]; simpa using hs x hx
  obtain ⟨o, ho, hf⟩ := run_position (f := fun range : BoundedRange T => range.intersectsBRA m r)
    (g := fun range => range.intersectsBR r) (fun x => x.intersectsBRA_run hm r) s.ranges
  obtain ⟨o', ho', hf'⟩ := run_position (f := fun range : BoundedRange T => range.start.gtA r.start)
    (g := fun range => range.start.gt r.start) (fun x => x.start.gtA_run r.start) s.ranges
  have hn : o = none := by
    have : s.ranges.findIdx? (fun range => range.intersectsBR r) = none := by simpa using hi
    rw [this] at hf
    simpa using hf
  subst hn
  rw [addRangeA, trail_bind_ok r.isEmptyA_run, r.isEmptyA_trail, r.isEmpty_hollow]
  simp only [h, decide_false, Bool.not_false, if_true]
  rw [trail_bind_ok ho, trail_position (fun x => x.intersectsBRA_run hm r), upToFirst_none hi, trail_bind_ok ho',
    trail_position (fun x => x.start.gtA_run r.start), trail_bind]
  simp only [trail_ofRes, run_ofRes, BoundedRange.intersectsBRA_trail, LowerBound.gtA_trail, (LowerBound.pick _ _).2.2]
  generalize vdInsert s.ranges _ r = v
  rcases v with v | v <;> simp

theorem BoundedSet.addRangeA_merge {l l' : List (BoundedRange T)} {p r : BoundedRange T} (h : ¬ r.Hollow)
    (hl : ∀ q ∈ l, (q.common r).Hollow) (hp : ¬ (p.common r).Hollow) :
    (addRangeA m ⟨l ++ p :: l'⟩ r).trail = r.emptyQ :: ((l ++ [p]).flatMap (fun q => q.overlapQs m r) ++ r.mergeQs m p ++
      (addRangeA m ⟨l ++ l'⟩ (r.hull p)).trail) := by
  have hm := MaxAgrees.all (T := T) m
  have hi : ∀ x ∈ l, x.intersectsBR r = false := by
    intro x hx; rw [BoundedRange.intersectsBR_common]; simpa using hl x hx
  have hpi : p.intersectsBR r = true := by rw [BoundedRange.intersectsBR_common]; exact decide_eq_true hp
  obtain ⟨o, ho, hf⟩ := run_position (f := fun range : BoundedRange T => range.intersectsBRA m r)
    (g := fun range => range.intersectsBR r) (fun x => x.intersectsBRA_run hm r) (l ++ p :: l')
  have hn : o.map Fin.val = some l.length := by
    rw [hf, List.findIdx?_append, List.findIdx?_cons]
    have : l.findIdx? (fun range => range.intersectsBR r) = none := by simpa using hi
    simp [this, hpi]
  obtain ⟨i, rfl, hiv⟩ := Option.map_eq_some_iff.mp hn
  rw [addRangeA, trail_bind_ok r.isEmptyA_run, r.isEmptyA_trail, r.isEmpty_hollow]
  simp only [h, decide_false, Bool.not_false, if_true]
  rw [trail_bind_ok ho, trail_position (fun x => x.intersectsBRA_run hm r), upToFirst_some hi hpi]
  have hv : vdIndex (l ++ p :: l') i.val = .ok p := by
    simp [vdIndex, hiv, unwrap]
  have hc : (r.combineA m p).run = .ok (r.hull p) := by
    rw [BoundedRange.combineA_run hm, BoundedRange.combine_eq hpi, (LowerBound.pick _ _).2.1, (UpperBound.pick _ _).1]
    rfl
  rw [trail_bind_ok (by rw [run_ofRes]; exact hv), trail_bind_ok hc, BoundedRange.combineA_trail hp, trail_ofRes]
  have he : (l ++ p :: l').eraseIdx i.val = l ++ l' := by
    rw [hiv, List.eraseIdx_append_of_length_le le_rfl]
    simp
  simp only [he, BoundedRange.intersectsBRA_trail]
  simp

theorem BoundedSet.addSetA_trail_snoc {a c : BoundedSet T} {l : List (BoundedRange T)} {r : BoundedRange T}
    (h : a.addSet ⟨l⟩ = .ok c) :
    (a.addSetA m ⟨l ++ [r]⟩).trail = (a.addSetA m ⟨l⟩).trail ++ (c.addRangeA m r).trail :=
  trail_fold_snoc (by rw [← h, ← addSetA_run (MaxAgrees.all m)]; rfl)

theorem BoundedSet.retainNonEmptyA_trail (s : BoundedSet T) : s.retainNonEmptyA.trail = s.ranges.map BoundedRange.emptyQ := by
  have h : ∀ r : BoundedRange T, (do return !(← r.isEmptyA) : Asks T Bool).run = .ok (!r.isEmpty) := by
    intro r; simp [BoundedRange.isEmptyA_run]
  rw [retainNonEmptyA, trail_bind_ok (run_filter h s.ranges), trail_filter h]
  have h' : ∀ r : BoundedRange T, (do return !(← r.isEmptyA) : Asks T Bool).trail = [r.emptyQ] := by
    intro r; rw [trail_bind_ok r.isEmptyA_run, r.isEmptyA_trail]; rfl
  simp only [h', trail_pure, List.append_nil]
  induction s.ranges <;> simp_all

theorem BoundedSet.isEmptyA_trail (s : BoundedSet T) :
    s.isEmptyA.trail = s.emptyQs := by
  rw [isEmptyA, emptyQs, trail_all (g := fun r => r.isEmpty) (fun r => r.isEmptyA_run)]
  simp only [BoundedRange.isEmptyA_trail, BoundedRange.isEmpty_hollow]
  induction (upToFirst (fun r : BoundedRange T => !decide r.Hollow) s.ranges) <;> simp_all

theorem BoundedSet.ofBRA_trail (r : BoundedRange T) : (ofBRA r).trail = [r.emptyQ] := by
  rw [ofBRA, trail_bind_ok r.isEmptyA_run, r.isEmptyA_trail]
  simp

theorem BoundedSet.interBRA_trail (s : BoundedSet T) (r : BoundedRange T) :
    (s.interBRA m r).trail = s.ranges.flatMap (fun p => p.endsQs m r) ++ s.ranges.map fun p => (p.common r).emptyQ := by
  have hm := MaxAgrees.all (T := T) m
  rw [interBRA, trail_bind_ok (run_map (fun x => x.interBRA_run hm r) s.ranges),
    trail_map (fun x => x.interBRA_run hm r), retainNonEmptyA_trail]
  simp [BoundedRange.interBRA_trail, BoundedRange.interBR_common]

theorem BoundedSet.interLBRA_trail (s : BoundedSet T) (r : LowerBoundedRange T) :
    (s.interLBRA m r).trail = s.ranges.flatMap (fun p => m.pickQs p.start.b r.start.b) ++
      s.ranges.map fun p => (p.commonFrom r).emptyQ := by
  have hm := MaxAgrees.all (T := T) m
  rw [interLBRA, trail_bind_ok (run_map (fun x => x.interLBRA_run hm r) s.ranges),
    trail_map (fun x => x.interLBRA_run hm r), retainNonEmptyA_trail]
  simp [BoundedRange.interLBRA_trail, BoundedRange.interLBR, (LowerBound.pick _ _).1, BoundedRange.commonFrom]

theorem BoundedSet.interUBRA_trail (s : BoundedSet T) (r : UpperBoundedRange T) :
    (s.interUBRA m r).trail = s.ranges.flatMap (fun p => m.pickQs p.stop.b r.stop.b) ++
      s.ranges.map fun p => (p.commonTo r).emptyQ := by
  have hm := MaxAgrees.all (T := T) m
  rw [interUBRA, trail_bind_ok (run_map (fun x => x.interUBRA_run hm r) s.ranges),
    trail_map (fun x => x.interUBRA_run hm r), retainNonEmptyA_trail]
  simp [BoundedRange.interUBRA_trail, BoundedRange.interUBR, (UpperBound.pick _ _).2, BoundedRange.commonTo]

theorem BoundedRange.interLBR_common (p : BoundedRange T) (l : LowerBoundedRange T) : p.interLBR l = p.commonFrom l := by
  simp [BoundedRange.interLBR, BoundedRange.commonFrom, (LowerBound.pick _ _).1]

theorem BoundedRange.interUBR_common (p : BoundedRange T) (u : UpperBoundedRange T) : p.interUBR u = p.commonTo u := by
  simp [BoundedRange.interUBR, BoundedRange.commonTo, (UpperBound.pick _ _).2]

/-! ### Sets with a half-line -/

theorem BoundedSet.isEmpty_iff_hollow (s : BoundedSet T) : s.isEmpty = true ↔ ∀ r ∈ s.ranges, r.Hollow := by
  simp [BoundedSet.isEmpty, BoundedRange.isEmpty_hollow]

theorem LowerBoundedSet.defragmentA_hollow {s : LowerBoundedSet T} (h : ∀ r ∈ s.ranges.ranges, r.Hollow) :
    (s.defragmentA m).trail = s.ranges.emptyQs := by
  rw [defragmentA, trail_bind_ok s.ranges.isEmptyA_run, s.ranges.isEmptyA_trail, s.ranges.isEmpty_iff_hollow.mpr h]
  simp

theorem UpperBoundedSet.defragmentA_hollow {s : UpperBoundedSet T} (h : ∀ r ∈ s.ranges.ranges, r.Hollow) :
    (s.defragmentA m).trail = s.ranges.emptyQs := by
  rw [defragmentA, trail_bind_ok s.ranges.isEmptyA_run, s.ranges.isEmptyA_trail, s.ranges.isEmpty_iff_hollow.mpr h]
  simp

theorem LowerBoundedSet.defragmentA_last {l : List (BoundedRange T)} {p : BoundedRange T} {b : LowerBoundedRange T}
    (h : ∃ r ∈ l ++ [p], ¬ r.Hollow) :
    (defragmentA m ⟨⟨l ++ [p]⟩, b⟩).trail = BoundedSet.emptyQs ⟨l ++ [p]⟩ ++ p.fromQs m b ++
      if (p.commonFrom b).Hollow then [] else
        m.pickQs b.start.b p.start.b ++ (defragmentA m ⟨⟨l⟩, ⟨⟨b.start.b.earlierStart p.start.b⟩⟩⟩).trail := by
  have hm := MaxAgrees.all (T := T) m
  have he : BoundedSet.isEmpty (⟨l ++ [p]⟩ : BoundedSet T) = false := by
    rw [← Bool.not_eq_true, BoundedSet.isEmpty_iff_hollow]; push Not; exact h
  rw [defragmentA, trail_bind_ok (BoundedSet.isEmptyA_run _), BoundedSet.isEmptyA_trail, he]
  simp only [Bool.not_false, if_true]
  split
  · rename_i h'; simp at h'
  · rename_i p' h'
    obtain rfl : p = p' := by simpa using h'
    rw [trail_bind_ok (BoundedRange.interLBRA_run hm _ _), BoundedRange.interLBRA_trail, BoundedRange.interLBR_common,
      trail_bind_ok (BoundedRange.isEmptyA_run _), BoundedRange.isEmptyA_trail, BoundedRange.isEmpty_hollow]
    by_cases hc : (p.commonFrom b).Hollow
    · simp [hc, BoundedRange.fromQs]
    · simp only [hc, decide_false, Bool.false_eq_true, if_false, BoundedRange.fromQs]
      rw [trail_bind_ok (hm.lmin _ _), LowerBound.minA_trail, (LowerBound.pick _ _).2.1]
      simp

theorem UpperBoundedSet.defragmentA_first {l : List (BoundedRange T)} {p : BoundedRange T} {b : UpperBoundedRange T}
    (h : ∃ r ∈ p :: l, ¬ r.Hollow) :
    (defragmentA m ⟨b, ⟨p :: l⟩⟩).trail = BoundedSet.emptyQs ⟨p :: l⟩ ++ p.toQs m b ++
      if (p.commonTo b).Hollow then [] else
        m.pickQs b.stop.b p.stop.b ++ (defragmentA m ⟨⟨⟨b.stop.b.laterStop p.stop.b⟩⟩, ⟨l⟩⟩).trail := by
  have hm := MaxAgrees.all (T := T) m
  have he : BoundedSet.isEmpty (⟨p :: l⟩ : BoundedSet T) = false := by
    rw [← Bool.not_eq_true, BoundedSet.isEmpty_iff_hollow]; push Not; exact h
  rw [defragmentA, trail_bind_ok (BoundedSet.isEmptyA_run _), BoundedSet.isEmptyA_trail, he]
  simp only [Bool.not_false, if_true]
  rw [trail_bind_ok (BoundedRange.interUBRA_run hm _ _), BoundedRange.interUBRA_trail, BoundedRange.interUBR_common,
    trail_bind_ok (BoundedRange.isEmptyA_run _), BoundedRange.isEmptyA_trail, BoundedRange.isEmpty_hollow]
  by_cases hc : (p.commonTo b).Hollow
  · simp [hc, BoundedRange.toQs]
  · simp only [hc, decide_false, Bool.false_eq_true, if_false, BoundedRange.toQs]
    rw [trail_bind_ok (hm.umax _ _), UpperBound.maxA_trail, (UpperBound.pick _ _).1]
    simp

theorem UpperBoundedRange.intersectsBRA_trail (u : UpperBoundedRange T) (r : BoundedRange T) :
    (u.intersectsBRA m r).trail = r.toQs m u := by
  rw [intersectsBRA, interBRA, trail_bind_ok (BoundedRange.interUBRA_run (MaxAgrees.all m) r u), BoundedRange.interUBRA_trail,
    trail_bind_ok (BoundedRange.isEmptyA_run _), BoundedRange.isEmptyA_trail, BoundedRange.interUBR_common, trail_pure,
    List.append_nil, BoundedRange.toQs]

theorem LowerBoundedRange.intersectsBRA_trail (l : LowerBoundedRange T) (r : BoundedRange T) :
    (l.intersectsBRA m r).trail = r.fromQs m l := by
  rw [intersectsBRA, interBRA, trail_bind_ok (BoundedRange.interLBRA_run (MaxAgrees.all m) r l), BoundedRange.interLBRA_trail,
    trail_bind_ok (BoundedRange.isEmptyA_run _), BoundedRange.isEmptyA_trail, BoundedRange.interLBR_common, trail_pure,
    List.append_nil, BoundedRange.fromQs]

theorem UpperBoundedRange.intersectsBR_common (u : UpperBoundedRange T) (r : BoundedRange T) :
    u.intersectsBR r = decide (¬ (r.commonTo u).Hollow) := by
  rw [intersectsBR, interBR, BoundedRange.interUBR_common, BoundedRange.isEmpty_hollow, decide_not]

theorem LowerBoundedRange.intersectsBR_common (l : LowerBoundedRange T) (r : BoundedRange T) :
    l.intersectsBR r = decide (¬ (r.commonFrom l).Hollow) := by
  rw [intersectsBR, interBR, BoundedRange.interLBR_common, BoundedRange.isEmpty_hollow, decide_not]

/-- The first element that passes. -/
theorem position_none {α : Type} {f : α → Asks T Bool} {g : α → Bool} (hf : ∀ x, (f x).run = .ok (g x)) {l : List α}
    (h : ∀ x ∈ l, g x = false) : (position f l).run = .ok none := by
  obtain ⟨o, ho, hi⟩ := run_position hf l
  have : l.findIdx? g = none := by simpa using h
  rw [this] at hi
  rw [ho]
  simpa using hi

theorem position_some {α : Type} {f : α → Asks T Bool} {g : α → Bool} (hf : ∀ x, (f x).run = .ok (g x)) {l l' : List α} {x : α}
    (h : ∀ y ∈ l, g y = false) (hx : g x = true) :
    ∃ i : Fin (l ++ x :: l').length, i.val = l.length ∧ (position f (l ++ x :: l')).run = .ok (some i) := by
  obtain ⟨o, ho, hi⟩ := run_position hf (l ++ x :: l')
  have hn : o.map Fin.val = some l.length := by
    rw [hi, List.findIdx?_append, List.findIdx?_cons]
    have : l.findIdx? g = none := by simpa using h
    simp [this, hx]
  obtain ⟨i, rfl, hiv⟩ := Option.map_eq_some_iff.mp hn
  exact ⟨i, hiv, ho⟩

theorem PiecewiseUnboundedSet.defragmentA_apart {s : PiecewiseUnboundedSet T}
    (h : ∀ r ∈ s.ranges.ranges, (r.commonTo s.upperBoundedRange).Hollow ∧ (r.commonFrom s.lowerBoundedRange).Hollow) :
    (s.defragmentA m).trail = s.ranges.ranges.flatMap (fun r => r.toQs m s.upperBoundedRange) ++
      s.ranges.ranges.flatMap (fun r => r.fromQs m s.lowerBoundedRange) := by
  have hm := MaxAgrees.all (T := T) m
  have h1 : ∀ r ∈ s.ranges.ranges, s.upperBoundedRange.intersectsBR r = false := by
    intro r hr; rw [UpperBoundedRange.intersectsBR_common]; simpa using (h r hr).1
  have h2 : ∀ r ∈ s.ranges.ranges, s.lowerBoundedRange.intersectsBR r = false := by
    intro r hr; rw [LowerBoundedRange.intersectsBR_common]; simpa using (h r hr).2
  rw [defragmentA, trail_bind_ok (position_none (fun x => UpperBoundedRange.intersectsBRA_run hm _ x) h1),
    trail_position (fun x => UpperBoundedRange.intersectsBRA_run hm _ x), upToFirst_none h1]
  simp only
  rw [trail_bind_ok (position_none (fun x => LowerBoundedRange.intersectsBRA_run hm _ x) h2),
    trail_position (fun x => LowerBoundedRange.intersectsBRA_run hm _ x), upToFirst_none h2]
  simp [UpperBoundedRange.intersectsBRA_trail, LowerBoundedRange.intersectsBRA_trail]

theorem PiecewiseUnboundedSet.defragmentA_upper {l l' : List (BoundedRange T)} {p : BoundedRange T} {u : UpperBoundedRange T}
    {b : LowerBoundedRange T} (h : ∀ r ∈ l, (r.commonTo u).Hollow) (hp : ¬ (p.commonTo u).Hollow) :
    (defragmentA m ⟨u, ⟨l ++ p :: l'⟩, b⟩).trail = (l ++ [p]).flatMap (fun r => r.toQs m u) ++ m.pickQs u.stop.b p.stop.b ++
      (defragmentA m ⟨⟨⟨u.stop.b.laterStop p.stop.b⟩⟩, ⟨l ++ l'⟩, b⟩).trail := by
  have hm := MaxAgrees.all (T := T) m
  have h1 : ∀ r ∈ l, u.intersectsBR r = false := by
    intro r hr; rw [UpperBoundedRange.intersectsBR_common]; simpa using h r hr
  have h2 : u.intersectsBR p = true := by rw [UpperBoundedRange.intersectsBR_common]; simpa using hp
  obtain ⟨i, hi, ho⟩ := position_some (l' := l') (fun x => UpperBoundedRange.intersectsBRA_run hm u x) h1 h2
  rw [defragmentA, trail_bind_ok ho, trail_position (fun x => UpperBoundedRange.intersectsBRA_run hm _ x), upToFirst_some h1 h2]
  simp only
  have hv : unwrap "called `Option::unwrap()` on a `None` value" (l ++ p :: l')[i.val]? = .ok p := by simp [hi, unwrap]
  have he : (l ++ p :: l').eraseIdx i.val = l ++ l' := by
    rw [hi, List.eraseIdx_append_of_length_le le_rfl]
    simp
  rw [trail_bind_ok (by rw [run_ofRes]; exact hv), trail_bind_ok (hm.umax _ _), UpperBound.maxA_trail, (UpperBound.pick _ _).1,
    trail_ofRes]
  simp [he, UpperBoundedRange.intersectsBRA_trail]

theorem PiecewiseUnboundedSet.defragmentA_lower {l l' : List (BoundedRange T)} {p : BoundedRange T} {u : UpperBoundedRange T}
    {b : LowerBoundedRange T} (hu : ∀ r ∈ l ++ p :: l', (r.commonTo u).Hollow) (h : ∀ r ∈ l, (r.commonFrom b).Hollow)
    (hp : ¬ (p.commonFrom b).Hollow) :
    (defragmentA m ⟨u, ⟨l ++ p :: l'⟩, b⟩).trail = (l ++ p :: l').flatMap (fun r => r.toQs m u) ++
      (l ++ [p]).flatMap (fun r => r.fromQs m b) ++ m.pickQs b.start.b p.start.b ++
      (defragmentA m ⟨u, ⟨l ++ l'⟩, ⟨⟨b.start.b.earlierStart p.start.b⟩⟩⟩).trail := by
  have hm := MaxAgrees.all (T := T) m
  have h0 : ∀ r ∈ l ++ p :: l', u.intersectsBR r = false := by
    intro r hr; rw [UpperBoundedRange.intersectsBR_common]; simpa using hu r hr
  have h1 : ∀ r ∈ l, b.intersectsBR r = false := by
    intro r hr; rw [LowerBoundedRange.intersectsBR_common]; simpa using h r hr
  have h2 : b.intersectsBR p = true := by rw [LowerBoundedRange.intersectsBR_common]; simpa using hp
  obtain ⟨i, hi, ho⟩ := position_some (l' := l') (fun x => LowerBoundedRange.intersectsBRA_run hm b x) h1 h2
  rw [defragmentA, trail_bind_ok (position_none (fun x => UpperBoundedRange.intersectsBRA_run hm _ x) h0),
    trail_position (fun x => UpperBoundedRange.intersectsBRA_run hm _ x), upToFirst_none h0]
  simp only
  rw [trail_bind_ok ho, trail_position (fun x => LowerBoundedRange.intersectsBRA_run hm _ x), upToFirst_some h1 h2]
  simp only
  have hv : unwrap "called `Option::unwrap()` on a `None` value" (l ++ p :: l')[i.val]? = .ok p := by simp [hi, unwrap]
  have he : (l ++ p :: l').eraseIdx i.val = l ++ l' := by
    rw [hi, List.eraseIdx_append_of_length_le le_rfl]
    simp
  rw [trail_bind_ok (by rw [run_ofRes]; exact hv), trail_bind_ok (hm.lmin _ _), LowerBound.minA_trail, (LowerBound.pick _ _).2.1,
    trail_ofRes]
  simp [he, UpperBoundedRange.intersectsBRA_trail, LowerBoundedRange.intersectsBRA_trail]

end
end Rangetools
