import Verif.Spec.Asks
import Verif.Proofs.Step
import Verif.Proofs.Dispatch

/-!
# Programs that compare: running them with pure comparisons
-/

namespace Rangetools
open Asks

namespace Asks
variable {S T α β : Type}

theorem bind_def (x : Asks T α) (f : α → Asks T β) : x >>= f = x.bind f := rfl
theorem pure_def (a : α) : (pure a : Asks T α) = .done a := rfl

section
variable [LE T] [LT T] [DecidableLE T] [DecidableLT T] [Ord T] [BEq T]

/-- The answer of an operator, from the instances. -/
def pureTest (q : Test) (a b : T) : Bool :=
  match q with
  | .lt => decide (a < b)
  | .le => decide (a ≤ b)
  | .gt => decide (a > b)
  | .ge => decide (a ≥ b)
  | .eq => elemEq a b

/-- Run with pure comparisons. -/
def run : Asks T α → Res α
  | .done a => .ok a
  | .panic m => .panic m
  | .test q a b k => (k (pureTest q a b)).run
  | .cmp a b k => (k (elemPartialCmp a b)).run

@[simp] theorem run_done (a : α) : (done a : Asks T α).run = .ok a := rfl
@[simp] theorem run_pure (a : α) : (pure a : Asks T α).run = .ok a := rfl
@[simp] theorem run_panic (m : String) : (panic m : Asks T α).run = .panic m := rfl
@[simp] theorem run_test (q a b) (k : Bool → Asks T α) : (test q a b k).run = (k (pureTest q a b)).run := rfl
@[simp] theorem run_cmp (a b) (k : Option Ordering → Asks T α) :
    (cmp a b k).run = (k (elemPartialCmp a b)).run := rfl

@[simp] theorem run_bind (x : Asks T α) (f : α → Asks T β) : (x >>= f).run = x.run >>= fun a => (f a).run := by
  induction x with
  | done a => rfl
  | panic m => rfl
  | test q a b k ih => exact ih _
  | cmp a b k ih => exact ih _

@[simp] theorem run_ofRes (r : Res α) : (ofRes r : Asks T α).run = r := by cases r <;> rfl

@[simp] theorem run_ite (c : Prop) [Decidable c] (x y : Asks T α) :
    (if c then x else y).run = if c then x.run else y.run := by split <;> rfl

variable {γ : Type}

theorem run_all {f : γ → Asks T Bool} {g : γ → Bool} (h : ∀ x, (f x).run = .ok (g x)) (l : List γ) :
    (all f l).run = .ok (l.all g) := by
  induction l with
  | nil => rfl
  | cons x xs ih => simp only [all, run_bind, h, Res.bind_ok, run_ite, ih, List.all_cons, run_pure]; cases g x <;> rfl

theorem run_any {f : γ → Asks T Bool} {g : γ → Bool} (h : ∀ x, (f x).run = .ok (g x)) (l : List γ) :
    (any f l).run = .ok (l.any g) := by
  induction l with
  | nil => rfl
  | cons x xs ih => simp only [any, run_bind, h, Res.bind_ok, run_ite, ih, List.any_cons, run_pure]; cases g x <;> rfl

theorem run_map {f : γ → Asks T β} {g : γ → β} (h : ∀ x, (f x).run = .ok (g x)) (l : List γ) :
    (map f l).run = .ok (l.map g) := by
  induction l with
  | nil => rfl
  | cons x xs ih => simp only [map, run_bind, h, Res.bind_ok, ih, List.map_cons, run_pure]

theorem run_filter {f : γ → Asks T Bool} {g : γ → Bool} (h : ∀ x, (f x).run = .ok (g x)) (l : List γ) :
    (filter f l).run = .ok (l.filter g) := by
  induction l with
  | nil => rfl
  | cons x xs ih =>
    simp only [filter, run_bind, h, Res.bind_ok, run_ite, ih, List.filter_cons, run_pure]; cases g x <;> rfl

theorem run_fold {f : β → γ → Asks T β} {g : β → γ → Res β} (h : ∀ b x, (f b x).run = g b x) (b : β) (l : List γ) :
    (fold f b l).run = l.foldlM g b := by
  induction l generalizing b with
  | nil => rfl
  | cons x xs ih =>
    simp only [fold, run_bind, h, List.foldlM_cons, ih]

theorem run_position {f : γ → Asks T Bool} {g : γ → Bool} (h : ∀ x, (f x).run = .ok (g x)) (l : List γ) :
    ∃ o, (position f l).run = .ok o ∧ o.map Fin.val = l.findIdx? g := by
  induction l with
  | nil => exact ⟨none, rfl, rfl⟩
  | cons x xs ih =>
    obtain ⟨o, ho, h'⟩ := ih
    simp only [position, run_bind, h, Res.bind_ok, run_ite, ho, List.findIdx?_cons, run_pure]
    cases g x
    · refine ⟨_, rfl, ?_⟩
      rw [← h']
      cases o <;> rfl
    · exact ⟨_, rfl, rfl⟩

end
end Asks

section
variable {T : Type} [LE T] [LT T] [DecidableLE T] [DecidableLT T] [Ord T] [BEq T]

theorem LowerBound.partialCmpA_run (a b : LowerBound T) : (a.partialCmpA b).run = .ok (a.partialCmp b) := by
  rcases a with ⟨a | a⟩ <;> rcases b with ⟨b | b⟩ <;>
    simp only [partialCmpA, partialCmp, partialCmpWith, run_cmp, run_test, run_done] <;>
    have h : pureTest .eq a b = elemEq a b := rfl <;> cases hb : elemEq a b <;> simp [h, hb]

theorem UpperBound.partialCmpA_run (a b : UpperBound T) : (a.partialCmpA b).run = .ok (a.partialCmp b) := by
  rcases a with ⟨a | a⟩ <;> rcases b with ⟨b | b⟩ <;>
    simp only [partialCmpA, partialCmp, partialCmpWith, run_cmp, run_test, run_done] <;>
    have h : pureTest .eq a b = elemEq a b := rfl <;> cases hb : elemEq a b <;> simp [h, hb]

theorem LowerBound.cmpA_run (a b : LowerBound T) : (a.cmpA b).run = .ok (a.cmp b) := by
  simp only [cmpA, run_bind, partialCmpA_run, Res.bind_ok, run_ofRes, cmp]
  obtain ⟨o, ho⟩ := Option.isSome_iff_exists.mp (partialCmp_isSome a b)
  simp only [ho, unwrap, Option.get_some]

theorem UpperBound.cmpA_run (a b : UpperBound T) : (a.cmpA b).run = .ok (a.cmp b) := by
  simp only [cmpA, run_bind, partialCmpA_run, Res.bind_ok, run_ofRes, cmp]
  obtain ⟨o, ho⟩ := Option.isSome_iff_exists.mp (partialCmp_isSome a b)
  simp only [ho, unwrap, Option.get_some]

/-- Both ways of finding a maximum or minimum give the same. -/
structure MaxAgrees (T : Type) [LE T] [LT T] [DecidableLE T] [DecidableLT T] [Ord T] [BEq T] (m : MaxVia) : Prop where
  lmax : ∀ a b : LowerBound T, (a.maxA m b).run = .ok (a.max b)
  lmin : ∀ a b : LowerBound T, (a.minA m b).run = .ok (a.min b)
  umax : ∀ a b : UpperBound T, (a.maxA m b).run = .ok (a.max b)
  umin : ∀ a b : UpperBound T, (a.minA m b).run = .ok (a.min b)

theorem MaxAgrees.cmp : MaxAgrees T .cmp := by
  constructor <;> intro a b
  · simp only [LowerBound.maxA, LowerBound.max, run_bind, LowerBound.cmpA_run, Res.bind_ok]; split <;> simp_all
  · simp only [LowerBound.minA, LowerBound.min, run_bind, LowerBound.cmpA_run, Res.bind_ok]; split <;> simp_all
  · simp only [UpperBound.maxA, UpperBound.max, run_bind, UpperBound.cmpA_run, Res.bind_ok]; split <;> simp_all
  · simp only [UpperBound.minA, UpperBound.min, run_bind, UpperBound.cmpA_run, Res.bind_ok]; split <;> simp_all

theorem BoundedRange.isEmptyA_run (r : BoundedRange T) : r.isEmptyA.run = .ok r.isEmpty := by
  rcases r with ⟨⟨a | a⟩, ⟨b | b⟩⟩ <;> rfl

theorem BoundedRange.containsA_run (r : BoundedRange T) (t : T) : (r.containsA t).run = .ok (r.contains t) := by
  rcases r with ⟨⟨a | a⟩, ⟨b | b⟩⟩ <;> rfl

theorem LowerBoundedRange.containsA_run (r : LowerBoundedRange T) (t : T) : (r.containsA t).run = .ok (r.contains t) := by
  rcases r with ⟨⟨a | a⟩⟩ <;> rfl

theorem UpperBoundedRange.containsA_run (r : UpperBoundedRange T) (t : T) : (r.containsA t).run = .ok (r.contains t) := by
  rcases r with ⟨⟨a | a⟩⟩ <;> rfl

theorem BoundedSet.containsA_run (s : BoundedSet T) (t : T) : (s.containsA t).run = .ok (s.contains t) :=
  run_any (fun r => r.containsA_run t) _

theorem BoundedSet.isEmptyA_run (s : BoundedSet T) : s.isEmptyA.run = .ok s.isEmpty :=
  run_all (fun r => r.isEmptyA_run) _

theorem LowerBoundedSet.containsA_run (s : LowerBoundedSet T) (t : T) : (s.containsA t).run = .ok (s.contains t) := by
  simp only [containsA, run_bind, LowerBoundedRange.containsA_run, Res.bind_ok, run_ite, run_pure, BoundedSet.containsA_run,
    contains]
  cases s.lowerBoundedRange.contains t <;> rfl

theorem UpperBoundedSet.containsA_run (s : UpperBoundedSet T) (t : T) : (s.containsA t).run = .ok (s.contains t) := by
  simp only [containsA, run_bind, UpperBoundedRange.containsA_run, Res.bind_ok, run_ite, run_pure, BoundedSet.containsA_run,
    contains]
  cases s.upperBoundedRange.contains t <;> rfl

theorem UnboundedSet.containsA_run (s : UnboundedSet T) (t : T) : (s.containsA t).run = .ok (s.contains t) := by
  rcases s with _ | p
  · rfl
  simp only [containsA, PiecewiseUnboundedSet.containsA, run_bind, LowerBoundedRange.containsA_run,
    UpperBoundedRange.containsA_run, Res.bind_ok, run_ite, run_pure, BoundedSet.containsA_run, contains,
    PiecewiseUnboundedSet.contains]
  cases p.upperBoundedRange.contains t <;> cases p.lowerBoundedRange.contains t <;> rfl

theorem BoundedSet.ofBRA_run (r : BoundedRange T) : (ofBRA r).run = .ok (ofBR r) := by
  simp only [ofBRA, run_bind, r.isEmptyA_run, Res.bind_ok, run_ite, run_pure, ofBR]; cases r.isEmpty <;> rfl

theorem BoundedSet.retainNonEmptyA_run (s : BoundedSet T) : s.retainNonEmptyA.run = .ok s.retainNonEmpty := by
  simp only [retainNonEmptyA, run_bind]
  rw [run_filter (g := fun r => !r.isEmpty) (fun r => by simp [r.isEmptyA_run])]
  rfl

theorem LowerBound.gtA_run (a b : LowerBound T) : (a.gtA b).run = .ok (a.gt b) := by
  simp only [gtA, run_bind, partialCmpA_run, Res.bind_ok, run_pure, gt]

theorem UnboundedSet.newA_run (u : UpperBoundedRange T) (l : LowerBoundedRange T) : (newA u l).run = .ok (new u l) := by
  simp only [newA, run_bind, BoundedRange.isEmptyA_run, Res.bind_ok, run_ite, run_pure, new, UpperBoundedRange.interLBR,
    LowerBoundedRange.interUBR]
  by_cases h : (⟨l.start, u.stop⟩ : BoundedRange T).isEmpty = true <;> simp [h]

theorem UpperBoundedRange.intersectsLBRA_run (u : UpperBoundedRange T) (l : LowerBoundedRange T) :
    (u.intersectsLBRA l).run = .ok (u.intersectsLBR l) := by
  simp only [intersectsLBRA, run_bind, BoundedRange.isEmptyA_run, Res.bind_ok, run_pure, intersectsLBR, interLBR,
    LowerBoundedRange.interUBR]

variable {m : MaxVia} (hm : MaxAgrees T m)
include hm

theorem BoundedRange.interBRA_run (a b : BoundedRange T) : (a.interBRA m b).run = .ok (a.interBR b) := by
  simp only [interBRA, run_bind, hm.lmax, hm.umin, Res.bind_ok, run_pure, interBR]

theorem BoundedRange.interLBRA_run (a : BoundedRange T) (b) : (a.interLBRA m b).run = .ok (a.interLBR b) := by
  simp only [interLBRA, run_bind, hm.lmax, Res.bind_ok, run_pure, interLBR]

theorem BoundedRange.interUBRA_run (a : BoundedRange T) (b) : (a.interUBRA m b).run = .ok (a.interUBR b) := by
  simp only [interUBRA, run_bind, hm.umin, Res.bind_ok, run_pure, interUBR]

theorem LowerBoundedRange.interLBRA_run (a b : LowerBoundedRange T) : (a.interLBRA m b).run = .ok (a.interLBR b) := by
  simp only [interLBRA, run_bind, hm.lmax, Res.bind_ok, run_pure, interLBR]

theorem UpperBoundedRange.interUBRA_run (a b : UpperBoundedRange T) : (a.interUBRA m b).run = .ok (a.interUBR b) := by
  simp only [interUBRA, run_bind, hm.umin, Res.bind_ok, run_pure, interUBR]

theorem LowerBoundedRange.interBRA_run (a : LowerBoundedRange T) (b) : (a.interBRA m b).run = .ok (a.interBR b) :=
  b.interLBRA_run hm a

theorem UpperBoundedRange.interBRA_run (a : UpperBoundedRange T) (b) : (a.interBRA m b).run = .ok (a.interBR b) :=
  b.interUBRA_run hm a

theorem BoundedRange.intersectsBRA_run (a b : BoundedRange T) : (a.intersectsBRA m b).run = .ok (a.intersectsBR b) := by
  simp only [intersectsBRA, run_bind, interBRA_run hm, Res.bind_ok, isEmptyA_run, run_pure, intersectsBR]

theorem UpperBoundedRange.intersectsBRA_run (a : UpperBoundedRange T) (b) :
    (a.intersectsBRA m b).run = .ok (a.intersectsBR b) := by
  simp only [intersectsBRA, run_bind, interBRA_run hm, Res.bind_ok, BoundedRange.isEmptyA_run, run_pure, intersectsBR]

theorem LowerBoundedRange.intersectsBRA_run (a : LowerBoundedRange T) (b) :
    (a.intersectsBRA m b).run = .ok (a.intersectsBR b) := by
  simp only [intersectsBRA, run_bind, interBRA_run hm, Res.bind_ok, BoundedRange.isEmptyA_run, run_pure, intersectsBR]

theorem BoundedRange.combineA_run (a b : BoundedRange T) : (a.combineA m b).run = a.combine b := by
  simp only [combineA, run_bind, isEmptyA_run, Res.bind_ok, run_ite, run_pure, intersectsBRA_run hm, hm.lmin, hm.umax,
    run_panic, combine, assert]
  split <;> [rfl; split] <;> [rfl; split] <;> rfl

theorem BoundedSet.addRangeA_run (s : BoundedSet T) (r : BoundedRange T) : (s.addRangeA m r).run = s.addRange r := by
  induction hn : s.ranges.length using Nat.strongRecOn generalizing s r with
  | _ n ih =>
    rw [addRangeA, addRange]
    simp only [run_bind, r.isEmptyA_run, Res.bind_ok, run_ite]
    split
    · obtain ⟨o, ho, hf⟩ := run_position (f := fun range : BoundedRange T => range.intersectsBRA m r)
        (g := fun range => range.intersectsBR r) (fun x => x.intersectsBRA_run hm r) s.ranges
      rw [ho]
      rcases o with _ | i
      · simp only [Option.map_none] at hf
        obtain ⟨o', ho', hf'⟩ := run_position (f := fun range : BoundedRange T => range.start.gtA r.start)
          (g := fun range => range.start.gt r.start) (fun x => x.start.gtA_run r.start) s.ranges
        simp only [Res.bind_ok, run_bind, ho', run_ofRes, run_pure, hf']
        split
        · rename_i h; rw [← hf] at h; cases h
        · rfl
      · simp only [Option.map_some] at hf
        simp only [Res.bind_ok, run_bind, run_ofRes, BoundedRange.combineA_run hm]
        split
        · rename_i h
          rw [← hf] at h
          cases h
          refine bind_congr fun x => bind_congr fun y => ih _ ?_ _ _ rfl
          simp only [List.length_eraseIdx_of_lt i.isLt]
          have := i.isLt
          omega
        · rename_i h; rw [← hf] at h; cases h
    · rfl

theorem BoundedSet.addSetA_run (a b : BoundedSet T) : (a.addSetA m b).run = a.addSet b :=
  run_fold (fun s r => s.addRangeA_run hm r) _ _

theorem LowerBoundedSet.defragmentA_run (s : LowerBoundedSet T) : (s.defragmentA m).run = s.defragment := by
  induction hn : s.ranges.ranges.length using Nat.strongRecOn generalizing s with
  | _ n ih =>
    rw [defragmentA, defragment]
    simp only [run_bind, BoundedSet.isEmptyA_run, Res.bind_ok, run_ite]
    split
    · split
      · rename_i h
        split
        · rfl
        · rename_i h'; rw [h] at h'; cases h'
      · rename_i range h
        split
        · rename_i h'; rw [h] at h'; cases h'
        · rename_i range' h'
          rw [h] at h'
          cases h'
          simp only [run_bind, BoundedRange.interLBRA_run hm, Res.bind_ok, BoundedRange.isEmptyA_run, run_ite, hm.lmin, run_pure]
          split
          · rfl
          · refine ih _ ?_ _ rfl
            have : s.ranges.ranges ≠ [] := by intro h0; simp [h0] at h
            have := List.length_pos_iff.mpr this
            simp only [List.length_dropLast]
            omega
    · rfl

theorem UpperBoundedSet.defragmentA_run (s : UpperBoundedSet T) : (s.defragmentA m).run = s.defragment := by
  induction hn : s.ranges.ranges.length using Nat.strongRecOn generalizing s with
  | _ n ih =>
    rw [defragmentA, defragment]
    simp only [run_bind, BoundedSet.isEmptyA_run, Res.bind_ok, run_ite]
    split
    · split
      · rename_i h
        split
        · rfl
        · rename_i h'; rw [h] at h'; cases h'
      · rename_i range rest h
        split
        · rename_i h'; rw [h] at h'; cases h'
        · rename_i range' rest' h'
          rw [h] at h'
          cases h'
          simp only [run_bind, BoundedRange.interUBRA_run hm, Res.bind_ok, BoundedRange.isEmptyA_run, run_ite, hm.umax, run_pure]
          split
          · rfl
          · refine ih _ ?_ _ rfl
            simp only [h, List.length_cons] at hn
            simp only
            omega
    · rfl

theorem PiecewiseUnboundedSet.defragmentA_run (s : PiecewiseUnboundedSet T) : (s.defragmentA m).run = s.defragment := by
  induction hn : s.ranges.ranges.length using Nat.strongRecOn generalizing s with
  | _ n ih =>
    rw [defragmentA, defragment]
    obtain ⟨o, ho, hf⟩ := run_position (f := fun r : BoundedRange T => s.upperBoundedRange.intersectsBRA m r)
      (g := fun r => s.upperBoundedRange.intersectsBR r) (fun x => s.upperBoundedRange.intersectsBRA_run hm x) s.ranges.ranges
    obtain ⟨o', ho', hf'⟩ := run_position (f := fun r : BoundedRange T => s.lowerBoundedRange.intersectsBRA m r)
      (g := fun r => s.lowerBoundedRange.intersectsBR r) (fun x => s.lowerBoundedRange.intersectsBRA_run hm x) s.ranges.ranges
    simp only [run_bind, ho, Res.bind_ok]
    rcases o with _ | i
    · simp only [Option.map_none] at hf
      simp only [run_bind, ho', Res.bind_ok]
      rcases o' with _ | i
      · simp only [Option.map_none] at hf'
        change Res.ok s = _
        split
        · rename_i h; rw [← hf] at h; cases h
        · split
          · rename_i h; rw [← hf'] at h; cases h
          · rfl
      · simp only [Option.map_some] at hf'
        simp only [run_bind, run_ofRes, hm.lmin, Res.bind_ok]
        split
        · rename_i h; rw [← hf] at h; cases h
        · split
          · rename_i h
            rw [← hf'] at h; cases h
            refine bind_congr fun x => ih _ ?_ _ rfl
            simp only [List.length_eraseIdx_of_lt i.isLt]
            have := i.isLt
            omega
          · rename_i h; rw [← hf'] at h; cases h
    · simp only [Option.map_some] at hf
      simp only [run_bind, run_ofRes, hm.umax, Res.bind_ok]
      split
      · rename_i h
        rw [← hf] at h; cases h
        refine bind_congr fun x => ih _ ?_ _ rfl
        simp only [List.length_eraseIdx_of_lt i.isLt]
        have := i.isLt
        omega
      · rename_i h; rw [← hf] at h; cases h

theorem LowerBoundedSet.addRangeA_run (s : LowerBoundedSet T) (r) : (s.addRangeA m r).run = s.addRange r := by
  simp only [addRangeA, run_bind, BoundedSet.addRangeA_run hm, defragmentA_run hm, addRange]

theorem LowerBoundedSet.addLowerBoundedRangeA_run (s : LowerBoundedSet T) (r) :
    (s.addLowerBoundedRangeA m r).run = s.addLowerBoundedRange r := by
  simp only [addLowerBoundedRangeA, run_bind, hm.lmin, Res.bind_ok, defragmentA_run hm, addLowerBoundedRange]

theorem LowerBoundedSet.addSetA_run (s : LowerBoundedSet T) (b) : (s.addSetA m b).run = s.addSet b :=
  run_fold (fun s r => s.addRangeA_run hm r) _ _

theorem UpperBoundedSet.addRangeA_run (s : UpperBoundedSet T) (r) : (s.addRangeA m r).run = s.addRange r := by
  simp only [addRangeA, run_bind, BoundedSet.addRangeA_run hm, defragmentA_run hm, addRange]

theorem UpperBoundedSet.addUpperBoundedRangeA_run (s : UpperBoundedSet T) (r) :
    (s.addUpperBoundedRangeA m r).run = s.addUpperBoundedRange r := by
  simp only [addUpperBoundedRangeA, run_bind, hm.umax, Res.bind_ok, defragmentA_run hm, addUpperBoundedRange]

theorem UpperBoundedSet.addSetA_run (s : UpperBoundedSet T) (b) : (s.addSetA m b).run = s.addSet b :=
  run_fold (fun s r => s.addRangeA_run hm r) _ _

omit hm in
theorem UnboundedSet.mapPiecewiseA_run (s : UnboundedSet T) {f} {g : PiecewiseUnboundedSet T → Res _}
    (h : ∀ p, (f p : Asks T _).run = g p) : (s.mapPiecewiseA f).run = s.mapPiecewise g := by
  rcases s with _ | p
  · rfl
  · simp only [mapPiecewiseA, run_bind, h, mapPiecewise, run_pure]; rfl

theorem UnboundedSet.defragmentA_run (s : UnboundedSet T) : (s.defragmentA m).run = s.defragment := by
  simp only [defragmentA, run_bind, s.mapPiecewiseA_run (fun p => p.defragmentA_run hm), defragment]
  refine bind_congr fun s => ?_
  rcases s with _ | p
  · rfl
  · simp only [run_bind, UpperBoundedRange.intersectsLBRA_run, Res.bind_ok, run_ite, run_pure]
    split <;> rfl

theorem UnboundedSet.addRangeA_run (s : UnboundedSet T) (r) : (s.addRangeA m r).run = s.addRange r := by
  simp only [addRangeA, run_bind, addRange, defragmentA_run hm]
  rw [s.mapPiecewiseA_run (fun p => ?_)]
  simp only [run_bind, BoundedSet.addRangeA_run hm, run_pure]
  rfl

theorem UnboundedSet.addLowerBoundedRangeA_run (s : UnboundedSet T) (r) :
    (s.addLowerBoundedRangeA m r).run = s.addLowerBoundedRange r := by
  simp only [addLowerBoundedRangeA, run_bind, addLowerBoundedRange, defragmentA_run hm]
  rw [s.mapPiecewiseA_run (fun p => ?_)]
  simp only [run_bind, hm.lmin, run_pure, Res.bind_ok]

theorem UnboundedSet.addUpperBoundedRangeA_run (s : UnboundedSet T) (r) :
    (s.addUpperBoundedRangeA m r).run = s.addUpperBoundedRange r := by
  simp only [addUpperBoundedRangeA, run_bind, addUpperBoundedRange, defragmentA_run hm]
  rw [s.mapPiecewiseA_run (fun p => ?_)]
  simp only [run_bind, hm.umax, run_pure, Res.bind_ok]

theorem UnboundedSet.addSetA_run (s : UnboundedSet T) (b) : (s.addSetA m b).run = s.addSet b :=
  run_fold (fun s r => s.addRangeA_run hm r) _ _

theorem UnboundedSet.addUnboundedSetA_run (s b : UnboundedSet T) : (s.addUnboundedSetA m b).run = s.addUnboundedSet b := by
  rcases b with _ | p
  · rfl
  · simp only [addUnboundedSetA, run_bind, addLowerBoundedRangeA_run hm, addUpperBoundedRangeA_run hm, addSetA_run hm,
      defragmentA_run hm, addUnboundedSet]

/-! ### Unions and intersections -/

theorem LowerBoundedSet.unionLBSA_run (a b : LowerBoundedSet T) : (a.unionLBSA m b).run = a.unionLBS b := by
  simp only [unionLBSA, run_bind, addLowerBoundedRangeA_run hm, addSetA_run hm]; rfl

theorem LowerBoundedSet.unionUBSA_run (a : LowerBoundedSet T) (b) : (a.unionUBSA m b).run = a.unionUBS b := by
  simp only [unionUBSA, run_bind, UnboundedSet.newA_run, Res.bind_ok, UnboundedSet.addSetA_run hm]; rfl

theorem LowerBoundedSet.unionUSA_run (a : LowerBoundedSet T) (b) : (a.unionUSA m b).run = a.unionUS b := by
  simp only [unionUSA, run_bind, UnboundedSet.addLowerBoundedRangeA_run hm, UnboundedSet.addSetA_run hm]; rfl

theorem UpperBoundedSet.unionUBSA_run (a b : UpperBoundedSet T) : (a.unionUBSA m b).run = a.unionUBS b := by
  simp only [unionUBSA, run_bind, addUpperBoundedRangeA_run hm, addSetA_run hm]; rfl

theorem UpperBoundedSet.unionUSA_run (a : UpperBoundedSet T) (b) : (a.unionUSA m b).run = a.unionUS b := by
  simp only [unionUSA, run_bind, UnboundedSet.addUpperBoundedRangeA_run hm, UnboundedSet.addSetA_run hm]; rfl

theorem BoundedSet.interBRA_run (a : BoundedSet T) (b) : (a.interBRA m b).run = .ok (a.interBR b) := by
  simp only [interBRA, run_bind, run_map (fun r : BoundedRange T => r.interBRA_run hm b), Res.bind_ok, retainNonEmptyA_run]; rfl

theorem BoundedSet.interLBRA_run (a : BoundedSet T) (b) : (a.interLBRA m b).run = .ok (a.interLBR b) := by
  simp only [interLBRA, run_bind, run_map (fun r : BoundedRange T => r.interLBRA_run hm b), Res.bind_ok, retainNonEmptyA_run]; rfl

theorem BoundedSet.interUBRA_run (a : BoundedSet T) (b) : (a.interUBRA m b).run = .ok (a.interUBR b) := by
  simp only [interUBRA, run_bind, run_map (fun r : BoundedRange T => r.interUBRA_run hm b), Res.bind_ok, retainNonEmptyA_run]; rfl

theorem BoundedSet.interBSA_run (a b : BoundedSet T) : (a.interBSA m b).run = a.interBS b :=
  run_fold (fun s r => by simp only [run_bind, interBRA_run hm, Res.bind_ok, addSetA_run hm]; rfl) _ _

theorem LowerBoundedSet.interBRA_run (a : LowerBoundedSet T) (b) : (a.interBRA m b).run = a.interBR b := by
  simp only [interBRA, run_bind, LowerBoundedRange.interBRA_run hm, Res.bind_ok, BoundedSet.ofBRA_run,
    BoundedSet.interBRA_run hm, BoundedSet.addSetA_run hm]; rfl

theorem BoundedSet.interLBSA_run (a : BoundedSet T) (b) : (a.interLBSA m b).run = a.interLBS b := by
  simp only [interLBSA, run_bind, interLBRA_run hm, Res.bind_ok]
  exact run_fold (fun s r => by simp only [run_bind, LowerBoundedSet.interBRA_run hm, addSetA_run hm]; rfl) _ _

theorem LowerBoundedSet.interLBRA_run (a : LowerBoundedSet T) (b) : (a.interLBRA m b).run = .ok (a.interLBR b) := by
  simp only [interLBRA, run_bind, LowerBoundedRange.interLBRA_run hm, Res.bind_ok, BoundedSet.interLBRA_run hm, run_pure]; rfl

theorem LowerBoundedSet.interLBSA_run (a b : LowerBoundedSet T) : (a.interLBSA m b).run = a.interLBS b := by
  simp only [interLBSA, run_bind, interLBRA_run hm, Res.bind_ok, BoundedSet.interLBSA_run hm, addSetA_run hm]; rfl

theorem LowerBoundedSet.interUBRA_run (a : LowerBoundedSet T) (b) : (a.interUBRA m b).run = a.interUBR b := by
  simp only [interUBRA, run_bind, BoundedSet.ofBRA_run, Res.bind_ok, BoundedSet.interUBRA_run hm, BoundedSet.addSetA_run hm,
    BoundedSet.retainNonEmptyA_run]; rfl

theorem LowerBoundedSet.interUBSA_run (a : LowerBoundedSet T) (b) : (a.interUBSA m b).run = a.interUBS b := by
  simp only [interUBSA, run_bind, interUBRA_run hm, Res.bind_ok, BoundedSet.interLBSA_run hm, BoundedSet.addSetA_run hm,
    BoundedSet.retainNonEmptyA_run]; rfl

theorem UpperBoundedSet.interBRA_run (a : UpperBoundedSet T) (b) : (a.interBRA m b).run = a.interBR b := by
  simp only [interBRA, run_bind, UpperBoundedRange.interBRA_run hm, Res.bind_ok, BoundedSet.ofBRA_run,
    BoundedSet.interBRA_run hm, BoundedSet.addSetA_run hm, BoundedSet.retainNonEmptyA_run]; rfl

theorem BoundedSet.interUBSA_run (a : BoundedSet T) (b) : (a.interUBSA m b).run = a.interUBS b := by
  simp only [interUBSA, run_bind, interUBRA_run hm, Res.bind_ok]
  exact run_fold (fun s r => by simp only [run_bind, UpperBoundedSet.interBRA_run hm, addSetA_run hm]; rfl) _ _

theorem UpperBoundedSet.interLBRA_run (a : UpperBoundedSet T) (b) : (a.interLBRA m b).run = a.interLBR b := by
  simp only [interLBRA, run_bind, Res.bind_ok, BoundedSet.ofBRA_run,
    BoundedSet.interLBRA_run hm, BoundedSet.addSetA_run hm, BoundedSet.retainNonEmptyA_run]; rfl

theorem UpperBoundedSet.interUBRA_run (a : UpperBoundedSet T) (b) : (a.interUBRA m b).run = a.interUBR b := by
  simp only [interUBRA, run_bind, UpperBoundedRange.interUBRA_run hm, Res.bind_ok, BoundedSet.interUBRA_run hm,
    addSetA_run hm]; rfl

theorem UpperBoundedSet.interUBSA_run (a b : UpperBoundedSet T) : (a.interUBSA m b).run = a.interUBS b := by
  simp only [interUBSA, run_bind, interUBRA_run hm, BoundedSet.interUBSA_run hm, addSetA_run hm]; rfl

theorem BoundedSet.interUSA_run (a : BoundedSet T) (b) : (a.interUSA m b).run = a.interUS b := by
  rcases b with _ | p
  · rfl
  · simp only [interUSA, run_bind, interUBRA_run hm, interLBRA_run hm, interBSA_run hm, Res.bind_ok, addSetA_run hm]; rfl

theorem LowerBoundedSet.interUSA_run (a : LowerBoundedSet T) (b) : (a.interUSA m b).run = a.interUS b := by
  rcases b with _ | p
  · rfl
  · simp only [interUSA, run_bind, interLBRA_run hm, interUBRA_run hm, BoundedSet.interLBSA_run hm, Res.bind_ok,
      addSetA_run hm]; rfl

theorem UpperBoundedSet.interUSA_run (a : UpperBoundedSet T) (b) : (a.interUSA m b).run = a.interUS b := by
  rcases b with _ | p
  · rfl
  · simp only [interUSA, run_bind, interLBRA_run hm, interUBRA_run hm, BoundedSet.interUBSA_run hm,
      addSetA_run hm]; rfl

theorem UnboundedSet.interUSA_run (a b : UnboundedSet T) : (a.interUSA m b).run = a.interUS b := by
  rcases a with _ | q
  · rfl
  rcases b with _ | p
  · rfl
  · simp only [interUSA, run_bind, UpperBoundedSet.interUSA_run hm, LowerBoundedSet.interUSA_run hm,
      BoundedSet.interUSA_run hm, LowerBoundedSet.addSetA_run hm, LowerBoundedSet.unionUBSA_run hm]; rfl

theorem BoundedRange.complementA_run (a : BoundedRange T) : (a.complementA m).run = a.complement :=
  LowerBoundedSet.unionUBSA_run hm _ _

theorem BoundedSet.complementA_run (a : BoundedSet T) : (a.complementA m).run = a.complement :=
  run_fold (fun s r => by simp only [run_bind, r.complementA_run hm, UnboundedSet.interUSA_run hm]) _ _

theorem LowerBoundedSet.complementA_run (a : LowerBoundedSet T) : (a.complementA m).run = a.complement :=
  run_fold (fun s r => by simp only [run_bind, r.complementA_run hm, UpperBoundedSet.interUSA_run hm]) _ _

theorem UpperBoundedSet.complementA_run (a : UpperBoundedSet T) : (a.complementA m).run = a.complement :=
  run_fold (fun s r => by simp only [run_bind, r.complementA_run hm, LowerBoundedSet.interUSA_run hm]) _ _

theorem UnboundedSet.complementA_run (a : UnboundedSet T) : (a.complementA m).run = a.complement := by
  rcases a with _ | p
  · rfl
  · simp only [complementA, run_bind, BoundedSet.ofBRA_run, Res.bind_ok]
    exact run_fold (fun s r => by simp only [run_bind, r.complementA_run hm, BoundedSet.interUSA_run hm]) _ _

/-! ### The fifteen types -/

omit hm in
theorem Any.containsA_run (a : Any T) (t : T) : (a.containsA t).run = .ok (a.contains t) := by
  rcases a with r | r | r | r | r | _ | i
  · simp only [containsA, Range.containsA, run_test, run_ite, run_done, contains, Range.contains]
    by_cases h : r.start ≤ t <;> simp [h, pureTest]
  · simp only [containsA, RangeInclusive.containsA, run_test, run_ite, run_done, contains, RangeInclusive.contains]
    by_cases h : r.start ≤ t <;> cases r.exhausted <;> simp [h, pureTest]
  · rfl
  · rfl
  · rfl
  · rfl
  · rcases i with r | s | r | s | r | s | _ | s | _
    · exact r.containsA_run t
    · exact s.containsA_run t
    · exact r.containsA_run t
    · exact s.containsA_run t
    · exact r.containsA_run t
    · exact s.containsA_run t
    · rfl
    · exact s.containsA_run t
    · rfl

omit hm in
theorem Inner.isEmptyA_run (a : Inner T) : a.isEmptyA.run = .ok a.isEmpty := by
  rcases a with r | s | r | s | r | s | _ | s | _
  · exact r.isEmptyA_run
  · exact s.isEmptyA_run
  all_goals rfl

omit hm in
theorem Any.isEmptyA_run (a : Any T) : a.isEmptyA.run = .ok a.isEmpty := by
  rcases a with r | r | r | r | r | _ | i
  all_goals first | rfl | exact i.isEmptyA_run

omit hm in
theorem Inner.toSetA_run (a : Inner T) : a.toSetA.run = .ok a.toSet := by
  rcases a with r | s | r | s | r | s | _ | s | _
  · simp only [toSetA, run_bind, BoundedSet.ofBRA_run, Res.bind_ok, run_pure, toSet]
  all_goals rfl

omit hm in
theorem Any.toSetA_run (a : Any T) : a.toSetA.run = .ok a.toSet := by
  rcases a with r | r | r | r | r | _ | i <;> exact Inner.toSetA_run _

theorem Inner.interA_run (a b : Inner T) : (a.interA m b).run = a.inter b := by
  rcases a with r | s | r | s | r | s | _ | s | _ <;> rcases b with r' | s' | r' | s' | r' | s' | _ | s' | _ <;>
    (try simp only [interA, run_bind, run_pure, Res.bind_ok, BoundedRange.interBRA_run hm, BoundedRange.interLBRA_run hm,
      BoundedRange.interUBRA_run hm, BoundedSet.interBRA_run hm, BoundedSet.interLBRA_run hm, BoundedSet.interUBRA_run hm,
      BoundedSet.interBSA_run hm, BoundedSet.interLBSA_run hm, BoundedSet.interUBSA_run hm, BoundedSet.interUSA_run hm,
      BoundedSet.ofBRA_run,
      LowerBoundedRange.interBRA_run hm, LowerBoundedRange.interLBRA_run hm, UpperBoundedRange.interBRA_run hm,
      UpperBoundedRange.interUBRA_run hm, LowerBoundedSet.interBRA_run hm, LowerBoundedSet.interLBRA_run hm,
      LowerBoundedSet.interLBSA_run hm, LowerBoundedSet.interUBRA_run hm, LowerBoundedSet.interUBSA_run hm,
      LowerBoundedSet.interUSA_run hm, UpperBoundedSet.interBRA_run hm, UpperBoundedSet.interLBRA_run hm,
      UpperBoundedSet.interUBRA_run hm, UpperBoundedSet.interUBSA_run hm, UpperBoundedSet.interUSA_run hm,
      UnboundedSet.interUSA_run hm]) <;> rfl

theorem Any.interA_run (a b : Any T) : (a.interA m b).run = a.inter b := by
  have hs : ∀ i j : Inner T, (i.interFromStdA m j).run = i.interFromStd j := by
    intro i j
    rcases j with _ | _ | _ | _ | _ | _ | _ | _ | _ <;> first | rfl | exact Inner.interA_run hm _ _
  rcases a with r | r | r | r | r | _ | i
  · exact hs _ _
  · exact hs _ _
  · simp only [interA, inter]
    generalize b.toInner = j
    rcases j with _ | _ | _ | _ | _ | _ | _ | _ | _ <;> first | rfl | exact Inner.interA_run hm _ _
  · exact hs _ _
  · exact hs _ _
  · simp only [interA, inter]
    generalize b.toInner = j
    rcases j with _ | _ | _ | _ | _ | _ | _ | _ | _ <;> rfl
  · exact Inner.interA_run hm _ _

theorem Any.disjointA_run (a b : Any T) : (a.disjointA m b).run = a.disjoint b := by
  simp only [disjointA, run_bind, interA_run hm, Inner.isEmptyA_run, disjoint]; rfl

theorem Any.intersectsA_run (a b : Any T) : (a.intersectsA m b).run = a.intersects b := by
  simp only [intersectsA, run_bind, disjointA_run hm, run_pure, intersects]; rfl

theorem SetVal.unionA_run (a b : SetVal T) : (a.unionA m b).run = a.union b := by
  rcases a with s | s | s | s | _ | _ <;> rcases b with s' | s' | s' | s' | _ | _ <;>
    (try simp only [unionA, run_bind, run_pure, BoundedSet.addSetA_run hm, LowerBoundedSet.addSetA_run hm,
      UpperBoundedSet.addSetA_run hm, UnboundedSet.addSetA_run hm, LowerBoundedSet.unionLBSA_run hm,
      LowerBoundedSet.unionUBSA_run hm, LowerBoundedSet.unionUSA_run hm, UpperBoundedSet.unionUBSA_run hm,
      UpperBoundedSet.unionUSA_run hm, UnboundedSet.addUnboundedSetA_run hm]) <;> rfl

theorem Any.unionA_run (a b : Any T) : (a.unionA m b).run = a.union b := by
  have hs : ∀ (s o : Any T), (do
      let s ← s.toSetA
      let o ← o.toSetA
      return Any.inner (← s.unionA m o).toInner : Asks T (Any T)).run =
        (do return .inner (← s.toSet.union o.toSet).toInner) := by
    intro s o
    simp only [run_bind, toSetA_run, Res.bind_ok, SetVal.unionA_run hm, run_pure]; rfl
  rcases a with _ | _ | _ | _ | _ | _ | a
  case inner =>
    rcases a with _ | _ | _ | _ | _ | _ | _ | _ | _ <;> rcases b with _ | _ | _ | _ | _ | _ | b <;>
    (try rcases b with _ | _ | _ | _ | _ | _ | _ | _ | _) <;> first | rfl | exact hs _ _
  all_goals
    rcases b with _ | _ | _ | _ | _ | _ | b <;>
    (try rcases b with _ | _ | _ | _ | _ | _ | _ | _ | _) <;> first | rfl | exact hs _ _

theorem Any.complementA_run (a : Any T) : (a.complementA m).run = a.complement := by
  have hs : ∀ i : Inner T, (i.complementA m).run = i.complement := by
    intro i
    rcases i with r | s | r | s | r | s | _ | s | _ <;>
      (try simp only [Inner.complementA, run_bind, run_pure, BoundedRange.complementA_run hm, BoundedSet.complementA_run hm,
        LowerBoundedSet.complementA_run hm, UpperBoundedSet.complementA_run hm, UnboundedSet.complementA_run hm]) <;> rfl
  rcases a with r | r | r | r | r | _ | i <;> first | rfl | (simp only [complementA, complement]; exact hs _)

end

/-! ### Over a linear order -/

section
variable {S T α : Type} [LinearOrder T]

theorem MaxAgrees.lt : MaxAgrees T .lt := by
  have hl : ∀ a b : LowerBound T, (b.partialCmp a == some .lt) = (a.cmp b == .gt) := by
    intro a b
    rcases a with ⟨a | a⟩ <;> rcases b with ⟨b | b⟩ <;>
      simp only [LowerBound.cmp, LowerBound.partialCmp, LowerBound.partialCmpWith, elemPartialCmp, elemEq] <;>
      (rcases lt_trichotomy a b with h | rfl | h <;>
        [simp [h, h.ne, h.ne', compare_lt_iff_lt.mpr, compare_gt_iff_gt.mpr]; simp;
          simp [h, h.ne, h.ne', compare_lt_iff_lt.mpr, compare_gt_iff_gt.mpr]])
  have hu : ∀ a b : UpperBound T, (b.partialCmp a == some .lt) = (a.cmp b == .gt) := by
    intro a b
    rcases a with ⟨a | a⟩ <;> rcases b with ⟨b | b⟩ <;>
      simp only [UpperBound.cmp, UpperBound.partialCmp, UpperBound.partialCmpWith, elemPartialCmp, elemEq] <;>
      (rcases lt_trichotomy a b with h | rfl | h <;>
        [simp [h, h.ne, h.ne', compare_lt_iff_lt.mpr, compare_gt_iff_gt.mpr]; simp;
          simp [h, h.ne, h.ne', compare_lt_iff_lt.mpr, compare_gt_iff_gt.mpr]])
  constructor <;> intro a b
  · simp only [LowerBound.maxA, LowerBound.ltA, run_bind, LowerBound.partialCmpA_run, Res.bind_ok, run_pure, hl, run_ite,
      LowerBound.max]
    cases a.cmp b <;> rfl
  · simp only [LowerBound.minA, LowerBound.ltA, run_bind, LowerBound.partialCmpA_run, Res.bind_ok, run_pure, hl, run_ite,
      LowerBound.min]
    cases a.cmp b <;> rfl
  · simp only [UpperBound.maxA, UpperBound.ltA, run_bind, UpperBound.partialCmpA_run, Res.bind_ok, run_pure, hu, run_ite,
      UpperBound.max]
    cases a.cmp b <;> rfl
  · simp only [UpperBound.minA, UpperBound.ltA, run_bind, UpperBound.partialCmpA_run, Res.bind_ok, run_pure, hu, run_ite,
      UpperBound.min]
    cases a.cmp b <;> rfl

theorem MaxAgrees.all (m : MaxVia) : MaxAgrees T m := by
  cases m
  · exact .cmp
  · exact .lt

theorem Test.holds_eq (q : Test) (a b : T) : q.holds a b = pureTest q a b := by
  cases q <;> simp [holds, pureTest, elemEq, beq_eq_decide]

theorem Asks.exec_truthful {w : World S T} (hw : w.Truthful) (x : Asks T α) (s : S) :
    (x.exec w s).1 = none ∨ (x.exec w s).1 = some x.run := by
  induction x generalizing s with
  | done a => exact .inr rfl
  | panic m => exact .inr rfl
  | test q a b k ih =>
    have h := hw.1 s q a b
    simp only [exec]
    rcases hr : w.test s q a b with ⟨_ | r, s'⟩
    · exact .inl rfl
    · rw [hr] at h
      rcases h with h | h
      · cases h
      · cases h
        rw [Test.holds_eq]
        exact ih _ s'
  | cmp a b k ih =>
    have h := hw.2 s a b
    simp only [exec]
    rcases hr : w.cmp s a b with ⟨_ | r, s'⟩
    · exact .inl rfl
    · rw [hr] at h
      rcases h with h | h
      · cases h
      · cases h
        exact ih _ s'

omit [LinearOrder T] in
theorem Asks.exec_returns {w : World S T} (hw : w.Returns) (x : Asks T α) (s : S) : (x.exec w s).1 ≠ none := by
  induction x generalizing s with
  | done a => simp [exec]
  | panic m => simp [exec]
  | test q a b k ih =>
    have h := hw.1 s q a b
    simp only [exec]
    rcases hr : w.test s q a b with ⟨_ | r, s'⟩
    · simp [hr] at h
    · exact ih r s'
  | cmp a b k ih =>
    have h := hw.2 s a b
    simp only [exec]
    rcases hr : w.cmp s a b with ⟨_ | r, s'⟩
    · simp [hr] at h
    · exact ih r s'

theorem Asks.exec_lawful {w : World S T} (hw : w.Truthful) (hr : w.Returns) (x : Asks T α) (s : S) :
    (x.exec w s).1 = some x.run :=
  (exec_truthful hw x s).resolve_left (exec_returns hr x s)

end
end Rangetools
