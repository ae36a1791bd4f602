import Verif.Proofs.AsksTrace

/-!
# The questions of the operations that are put together from others
-/

namespace Rangetools
open Asks
variable {T : Type} [LinearOrder T] {m : MaxVia}

theorem Asks.trail_bind_pure {α β : Type} (x : Asks T α) (f : α → β) : (do return f (← x) : Asks T β).trail = x.trail := by
  rw [trail_bind]
  cases x.run <;> simp

theorem Asks.trail_fold {α β : Type} {f : β → α → Asks T β} {g : β → α → Res β} (h : ∀ b x, (f b x).run = g b x) (b : β)
    (l : List α) : (fold f b l).trail = loopQs (fun b x => (f b x).trail) g b l := by
  induction l generalizing b with
  | nil => rfl
  | cons x l ih =>
      rw [fold, trail_bind, loopQs, h]
      cases g b x <;> simp [ih]

/-! ### Adding to a set -/

theorem LowerBoundedSet.addRangeA_trail {s : LowerBoundedSet T} {r : BoundedRange T} {c : BoundedSet T}
    (h : s.ranges.addRange r = .ok c) :
    (s.addRangeA m r).trail = (s.ranges.addRangeA m r).trail ++ (defragmentA m ⟨c, s.lowerBoundedRange⟩).trail := by
  rw [addRangeA, trail_bind_ok (by rw [BoundedSet.addRangeA_run (MaxAgrees.all m), h])]

theorem UpperBoundedSet.addRangeA_trail {s : UpperBoundedSet T} {r : BoundedRange T} {c : BoundedSet T}
    (h : s.ranges.addRange r = .ok c) :
    (s.addRangeA m r).trail = (s.ranges.addRangeA m r).trail ++ (defragmentA m ⟨s.upperBoundedRange, c⟩).trail := by
  rw [addRangeA, trail_bind_ok (by rw [BoundedSet.addRangeA_run (MaxAgrees.all m), h])]

theorem LowerBoundedSet.addLowerBoundedRangeA_trail (s : LowerBoundedSet T) (r : LowerBoundedRange T) :
    (s.addLowerBoundedRangeA m r).trail = m.pickQs s.lowerBoundedRange.start.b r.start.b ++
      (defragmentA m ⟨s.ranges, ⟨⟨s.lowerBoundedRange.start.b.earlierStart r.start.b⟩⟩⟩).trail := by
  rw [addLowerBoundedRangeA, trail_bind_ok ((MaxAgrees.all m).lmin _ _), LowerBound.minA_trail, (LowerBound.pick _ _).2.1]

theorem UpperBoundedSet.addUpperBoundedRangeA_trail (s : UpperBoundedSet T) (r : UpperBoundedRange T) :
    (s.addUpperBoundedRangeA m r).trail = m.pickQs s.upperBoundedRange.stop.b r.stop.b ++
      (defragmentA m ⟨⟨⟨s.upperBoundedRange.stop.b.laterStop r.stop.b⟩⟩, s.ranges⟩).trail := by
  rw [addUpperBoundedRangeA, trail_bind_ok ((MaxAgrees.all m).umax _ _), UpperBound.maxA_trail, (UpperBound.pick _ _).1]

theorem LowerBoundedSet.addSetA_trail_snoc {a c : LowerBoundedSet T} {l : List (BoundedRange T)} {r : BoundedRange T}
    (h : a.addSet ⟨l⟩ = .ok c) :
    (a.addSetA m ⟨l ++ [r]⟩).trail = (a.addSetA m ⟨l⟩).trail ++ (c.addRangeA m r).trail :=
  trail_fold_snoc (by rw [← h, ← addSetA_run (MaxAgrees.all m)]; rfl)

theorem UpperBoundedSet.addSetA_trail_snoc {a c : UpperBoundedSet T} {l : List (BoundedRange T)} {r : BoundedRange T}
    (h : a.addSet ⟨l⟩ = .ok c) :
    (a.addSetA m ⟨l ++ [r]⟩).trail = (a.addSetA m ⟨l⟩).trail ++ (c.addRangeA m r).trail :=
  trail_fold_snoc (by rw [← h, ← addSetA_run (MaxAgrees.all m)]; rfl)

theorem UnboundedSet.addSetA_trail_snoc {a c : UnboundedSet T} {l : List (BoundedRange T)} {r : BoundedRange T}
    (h : a.addSet ⟨l⟩ = .ok c) :
    (a.addSetA m ⟨l ++ [r]⟩).trail = (a.addSetA m ⟨l⟩).trail ++ (c.addRangeA m r).trail :=
  trail_fold_snoc (by rw [← h, ← addSetA_run (MaxAgrees.all m)]; rfl)

theorem UpperBoundedRange.intersectsLBRA_trail (u : UpperBoundedRange T) (l : LowerBoundedRange T) :
    (u.intersectsLBRA l).trail = [BoundedRange.emptyQ ⟨l.start, u.stop⟩] := by
  rw [intersectsLBRA, trail_bind_pure, BoundedRange.isEmptyA_trail]

theorem UnboundedSet.newA_trail (u : UpperBoundedRange T) (l : LowerBoundedRange T) :
    (newA u l).trail = [BoundedRange.emptyQ ⟨l.start, u.stop⟩] := by
  rw [newA, trail_bind_ok (BoundedRange.isEmptyA_run _), BoundedRange.isEmptyA_trail]
  simp

theorem UnboundedSet.defragmentA_full : (defragmentA m (.full : UnboundedSet T)).trail = [] := rfl

theorem UnboundedSet.defragmentA_piecewise {p q : PiecewiseUnboundedSet T} (h : p.defragment = .ok q) :
    (defragmentA m (.piecewise p)).trail =
      (p.defragmentA m).trail ++ [BoundedRange.emptyQ ⟨q.lowerBoundedRange.start, q.upperBoundedRange.stop⟩] := by
  have h' : (mapPiecewiseA (.piecewise p) (PiecewiseUnboundedSet.defragmentA m)).run = .ok (.piecewise q) := by
    rw [mapPiecewiseA, run_bind, PiecewiseUnboundedSet.defragmentA_run (MaxAgrees.all m), h]; rfl
  rw [defragmentA, trail_bind_ok h', mapPiecewiseA, trail_bind_pure]
  simp only
  rw [trail_bind_ok (UpperBoundedRange.intersectsLBRA_run _ _), UpperBoundedRange.intersectsLBRA_trail]
  simp

theorem UnboundedSet.addRangeA_full (r : BoundedRange T) : (addRangeA m (.full : UnboundedSet T) r).trail = [] := rfl

theorem UnboundedSet.addRangeA_piecewise {p : PiecewiseUnboundedSet T} {r : BoundedRange T} {c : BoundedSet T}
    (h : p.ranges.addRange r = .ok c) :
    (addRangeA m (.piecewise p) r).trail = (p.ranges.addRangeA m r).trail ++
      (defragmentA m (.piecewise ⟨p.upperBoundedRange, c, p.lowerBoundedRange⟩)).trail := by
  have e : (p.ranges.addRangeA m r).run = .ok c := by rw [BoundedSet.addRangeA_run (MaxAgrees.all m), h]
  rw [addRangeA, trail_bind_ok (a := .piecewise ⟨p.upperBoundedRange, c, p.lowerBoundedRange⟩)
    (by rw [mapPiecewiseA, run_bind, run_bind, e]; rfl), mapPiecewiseA, trail_bind_pure, trail_bind_pure]

theorem UnboundedSet.addLowerBoundedRangeA_piecewise (p : PiecewiseUnboundedSet T) (l : LowerBoundedRange T) :
    (addLowerBoundedRangeA m (.piecewise p) l).trail = m.pickQs p.lowerBoundedRange.start.b l.start.b ++
      (defragmentA m (.piecewise ⟨p.upperBoundedRange, p.ranges,
        ⟨⟨p.lowerBoundedRange.start.b.earlierStart l.start.b⟩⟩⟩)).trail := by
  rw [addLowerBoundedRangeA, trail_bind_ok (a := .piecewise ⟨p.upperBoundedRange, p.ranges,
        ⟨p.lowerBoundedRange.start.min l.start⟩⟩)
    (by rw [mapPiecewiseA, run_bind, run_bind, (MaxAgrees.all m).lmin]; rfl), mapPiecewiseA, trail_bind_pure, trail_bind_pure,
    LowerBound.minA_trail, (LowerBound.pick _ _).2.1]

theorem UnboundedSet.addUpperBoundedRangeA_piecewise (p : PiecewiseUnboundedSet T) (u : UpperBoundedRange T) :
    (addUpperBoundedRangeA m (.piecewise p) u).trail = m.pickQs p.upperBoundedRange.stop.b u.stop.b ++
      (defragmentA m (.piecewise ⟨⟨⟨p.upperBoundedRange.stop.b.laterStop u.stop.b⟩⟩, p.ranges, p.lowerBoundedRange⟩)).trail := by
  rw [addUpperBoundedRangeA, trail_bind_ok (a := .piecewise ⟨⟨p.upperBoundedRange.stop.max u.stop⟩, p.ranges,
        p.lowerBoundedRange⟩)
    (by rw [mapPiecewiseA, run_bind, run_bind, (MaxAgrees.all m).umax]; rfl), mapPiecewiseA, trail_bind_pure, trail_bind_pure,
    UpperBound.maxA_trail, (UpperBound.pick _ _).1]

theorem BoundedSet.addRange_first {r : BoundedRange T} (h : ¬ r.Hollow) :
    (addRangeA m ⟨[]⟩ r).trail = [r.emptyQ] ∧ addRange ⟨[]⟩ r = .ok ⟨[r]⟩ := by
  constructor
  · rw [addRangeA_apart h (by simp)]; rfl
  · rw [addRange, r.isEmpty_hollow]
    simp only [h, decide_false, Bool.not_false, if_true]
    rfl

theorem LowerBoundedSet.addRangeA_first {r : BoundedRange T} (l : LowerBoundedRange T) (h : ¬ r.Hollow) :
    ((ofLBR l).addRangeA m r).trail = [r.emptyQ, r.emptyQ] ++ r.fromQs m l ++
      if (r.commonFrom l).Hollow then [] else m.pickQs l.start.b r.start.b := by
  have h1 := BoundedSet.addRange_first (m := m) h
  have h2 := defragmentA_last (m := m) (l := []) (p := r) (b := l) (by simpa using h)
  have h3 : ∀ b : LowerBoundedRange T, (defragmentA m ⟨⟨[]⟩, b⟩).trail = [] := fun b => defragmentA_hollow (by simp)
  rw [addRangeA_trail (s := ofLBR l) (c := ⟨[r]⟩) h1.2]
  show (BoundedSet.addRangeA m ⟨[]⟩ r).trail ++ (defragmentA m ⟨⟨[r]⟩, l⟩).trail = _
  rw [h1.1]
  rw [List.nil_append] at h2
  rw [h2, h3]
  simp [BoundedSet.emptyQs, upToFirst]

theorem UpperBoundedSet.addRangeA_first {r : BoundedRange T} (u : UpperBoundedRange T) (h : ¬ r.Hollow) :
    ((ofUBR u).addRangeA m r).trail = [r.emptyQ, r.emptyQ] ++ r.toQs m u ++
      if (r.commonTo u).Hollow then [] else m.pickQs u.stop.b r.stop.b := by
  have h1 := BoundedSet.addRange_first (m := m) h
  have h2 := defragmentA_first (m := m) (l := []) (p := r) (b := u) (by simpa using h)
  have h3 : ∀ b : UpperBoundedRange T, (defragmentA m ⟨b, ⟨[]⟩⟩).trail = [] := fun b => defragmentA_hollow (by simp)
  rw [addRangeA_trail (s := ofUBR u) (c := ⟨[r]⟩) h1.2]
  show (BoundedSet.addRangeA m ⟨[]⟩ r).trail ++ (defragmentA m ⟨u, ⟨[r]⟩⟩).trail = _
  rw [h1.1, h2, h3]
  simp [BoundedSet.emptyQs, upToFirst]

/-! ### Unions -/

theorem SetVal.unionA_any (a b : SetVal T) :
    (Any.unionA m (.inner a.toInner) (.inner b.toInner)).trail = (a.unionA m b).trail := by
  cases a <;> cases b <;> first
    | rfl
    | (simp only [SetVal.toInner, Any.unionA, Any.toSetA, Any.toInner, Inner.toSetA]
       exact trail_bind_pure _ _)

theorem LowerBoundedSet.unionLBSA_trail {a b c : LowerBoundedSet T} (h : a.addLowerBoundedRange b.lowerBoundedRange = .ok c) :
    (a.unionLBSA m b).trail = (a.addLowerBoundedRangeA m b.lowerBoundedRange).trail ++ (c.addSetA m b.ranges).trail := by
  rw [unionLBSA, trail_bind_ok (by rw [addLowerBoundedRangeA_run (MaxAgrees.all m), h])]

theorem UpperBoundedSet.unionUBSA_trail {a b c : UpperBoundedSet T} (h : a.addUpperBoundedRange b.upperBoundedRange = .ok c) :
    (a.unionUBSA m b).trail = (a.addUpperBoundedRangeA m b.upperBoundedRange).trail ++ (c.addSetA m b.ranges).trail := by
  rw [unionUBSA, trail_bind_ok (by rw [addUpperBoundedRangeA_run (MaxAgrees.all m), h])]

theorem LowerBoundedSet.unionUBSA_trail {a : LowerBoundedSet T} {b : UpperBoundedSet T} {c : UnboundedSet T}
    (h : (UnboundedSet.new b.upperBoundedRange a.lowerBoundedRange).addSet a.ranges = .ok c) :
    (a.unionUBSA m b).trail = BoundedRange.emptyQ ⟨a.lowerBoundedRange.start, b.upperBoundedRange.stop⟩ ::
      (((UnboundedSet.new b.upperBoundedRange a.lowerBoundedRange).addSetA m a.ranges).trail ++ (c.addSetA m b.ranges).trail) := by
  rw [unionUBSA, trail_bind_ok (UnboundedSet.newA_run _ _), UnboundedSet.newA_trail,
    trail_bind_ok (by rw [UnboundedSet.addSetA_run (MaxAgrees.all m), h])]
  rfl

theorem LowerBoundedSet.unionUSA_trail {a : LowerBoundedSet T} {b c : UnboundedSet T}
    (h : b.addLowerBoundedRange a.lowerBoundedRange = .ok c) :
    (a.unionUSA m b).trail = (b.addLowerBoundedRangeA m a.lowerBoundedRange).trail ++ (c.addSetA m a.ranges).trail := by
  rw [unionUSA, trail_bind_ok (by rw [UnboundedSet.addLowerBoundedRangeA_run (MaxAgrees.all m), h])]

theorem UpperBoundedSet.unionUSA_trail {a : UpperBoundedSet T} {b c : UnboundedSet T}
    (h : b.addUpperBoundedRange a.upperBoundedRange = .ok c) :
    (a.unionUSA m b).trail = (b.addUpperBoundedRangeA m a.upperBoundedRange).trail ++ (c.addSetA m a.ranges).trail := by
  rw [unionUSA, trail_bind_ok (by rw [UnboundedSet.addUpperBoundedRangeA_run (MaxAgrees.all m), h])]

theorem UnboundedSet.addUnboundedSetA_piecewise {a c d e : UnboundedSet T} {p : PiecewiseUnboundedSet T}
    (h1 : a.addLowerBoundedRange p.lowerBoundedRange = .ok c) (h2 : c.addUpperBoundedRange p.upperBoundedRange = .ok d)
    (h3 : d.addSet p.ranges = .ok e) :
    (a.addUnboundedSetA m (.piecewise p)).trail = (a.addLowerBoundedRangeA m p.lowerBoundedRange).trail ++
      (c.addUpperBoundedRangeA m p.upperBoundedRange).trail ++ (d.addSetA m p.ranges).trail ++ (e.defragmentA m).trail := by
  have hm := MaxAgrees.all (T := T) m
  rw [addUnboundedSetA, trail_bind_ok (by rw [addLowerBoundedRangeA_run hm, h1]),
    trail_bind_ok (by rw [addUpperBoundedRangeA_run hm, h2]), trail_bind_ok (by rw [addSetA_run hm, h3])]
  simp

/-! ### Intersections -/

theorem LowerBoundedSet.interLBRA_trail (s : LowerBoundedSet T) (l : LowerBoundedRange T) :
    (s.interLBRA m l).trail = m.pickQs s.lowerBoundedRange.start.b l.start.b ++ (s.ranges.interLBRA m l).trail := by
  have hm := MaxAgrees.all (T := T) m
  rw [interLBRA, trail_bind_ok (LowerBoundedRange.interLBRA_run hm _ _), LowerBoundedRange.interLBRA_trail, trail_bind_pure]

theorem UpperBoundedSet.interUBRA_trail (s : UpperBoundedSet T) (u : UpperBoundedRange T) :
    (s.interUBRA m u).trail = m.pickQs s.upperBoundedRange.stop.b u.stop.b ++ (s.ranges.interUBRA m u).trail ++
      ((ofUBR ⟨⟨s.upperBoundedRange.stop.b.earlierStop u.stop.b⟩⟩).addSetA m (s.ranges.interUBR u)).trail := by
  have hm := MaxAgrees.all (T := T) m
  rw [interUBRA, trail_bind_ok (UpperBoundedRange.interUBRA_run hm _ _), UpperBoundedRange.interUBRA_trail,
    trail_bind_ok (BoundedSet.interUBRA_run hm _ _), UpperBoundedRange.interUBR, (UpperBound.pick _ _).2, List.append_assoc]

theorem BoundedSet.ofBR_hollow (r : BoundedRange T) : ofBR r = if r.Hollow then ⟨[]⟩ else ⟨[r]⟩ := by
  rw [ofBR, r.isEmpty_hollow]
  by_cases h : r.Hollow <;> simp [h, empty]

theorem BoundedSet.retainNonEmptyA_ofBR (r : BoundedRange T) :
    (ofBR r).retainNonEmptyA.trail = (if r.Hollow then [] else [r.emptyQ]) ∧ (ofBR r).retainNonEmptyA.run = .ok (ofBR r) := by
  constructor
  · rw [retainNonEmptyA_trail, ofBR_hollow]
    split <;> rfl
  · rw [retainNonEmptyA_run, ofBR_hollow]
    by_cases h : r.Hollow
    · simp [h, retainNonEmpty]
    · simp [h, retainNonEmpty, r.isEmpty_hollow]

theorem LowerBoundedSet.interBRA_trail (s : LowerBoundedSet T) (r : BoundedRange T) :
    (s.interBRA m r).trail = r.fromQs m s.lowerBoundedRange ++ (s.ranges.interBRA m r).trail ++
      ((BoundedSet.ofBR (r.commonFrom s.lowerBoundedRange)).addSetA m (s.ranges.interBR r)).trail := by
  have hm := MaxAgrees.all (T := T) m
  rw [interBRA, trail_bind_ok (LowerBoundedRange.interBRA_run hm _ _), LowerBoundedRange.interBRA, BoundedRange.interLBRA_trail,
    LowerBoundedRange.interBR, BoundedRange.interLBR_common, trail_bind_ok (BoundedSet.ofBRA_run _), BoundedSet.ofBRA_trail,
    trail_bind_ok (BoundedSet.interBRA_run hm _ _), BoundedRange.fromQs]
  simp

theorem UpperBoundedSet.interBRA_trail (s : UpperBoundedSet T) (r : BoundedRange T) :
    (s.interBRA m r).trail = r.toQs m s.upperBoundedRange ++
      (if (r.commonTo s.upperBoundedRange).Hollow then [] else [(r.commonTo s.upperBoundedRange).emptyQ]) ++
      (s.ranges.interBRA m r).trail ++
      ((BoundedSet.ofBR (r.commonTo s.upperBoundedRange)).addSetA m (s.ranges.interBR r)).trail := by
  have hm := MaxAgrees.all (T := T) m
  rw [interBRA, trail_bind_ok (UpperBoundedRange.interBRA_run hm _ _), UpperBoundedRange.interBRA, BoundedRange.interUBRA_trail,
    UpperBoundedRange.interBR, BoundedRange.interUBR_common, trail_bind_ok (BoundedSet.ofBRA_run _), BoundedSet.ofBRA_trail,
    trail_bind_ok (BoundedSet.retainNonEmptyA_ofBR _).2, (BoundedSet.retainNonEmptyA_ofBR _).1,
    trail_bind_ok (BoundedSet.interBRA_run hm _ _), BoundedRange.toQs]
  simp

theorem UpperBoundedSet.interLBRA_trail (s : UpperBoundedSet T) (l : LowerBoundedRange T) :
    (s.interLBRA m l).trail = BoundedRange.emptyQ ⟨l.start, s.upperBoundedRange.stop⟩ ::
      ((if BoundedRange.Hollow ⟨l.start, s.upperBoundedRange.stop⟩ then [] else
        [BoundedRange.emptyQ ⟨l.start, s.upperBoundedRange.stop⟩]) ++ (s.ranges.interLBRA m l).trail ++
      ((BoundedSet.ofBR ⟨l.start, s.upperBoundedRange.stop⟩).addSetA m (s.ranges.interLBR l)).trail) := by
  have hm := MaxAgrees.all (T := T) m
  rw [interLBRA, trail_bind_ok (BoundedSet.ofBRA_run _), BoundedSet.ofBRA_trail,
    trail_bind_ok (BoundedSet.retainNonEmptyA_ofBR _).2, (BoundedSet.retainNonEmptyA_ofBR _).1,
    trail_bind_ok (BoundedSet.interLBRA_run hm _ _)]
  simp

theorem LowerBoundedSet.interUBRA_trail {s : LowerBoundedSet T} {u : UpperBoundedRange T} {c : BoundedSet T}
    (h : (BoundedSet.ofBR ⟨s.lowerBoundedRange.start, u.stop⟩).addSet (s.ranges.interUBR u) = .ok c) :
    (s.interUBRA m u).trail = BoundedRange.emptyQ ⟨s.lowerBoundedRange.start, u.stop⟩ ::
      ((if BoundedRange.Hollow ⟨s.lowerBoundedRange.start, u.stop⟩ then [] else
        [BoundedRange.emptyQ ⟨s.lowerBoundedRange.start, u.stop⟩]) ++ (s.ranges.interUBRA m u).trail ++
      ((BoundedSet.ofBR ⟨s.lowerBoundedRange.start, u.stop⟩).addSetA m (s.ranges.interUBR u)).trail ++
      c.ranges.map BoundedRange.emptyQ) := by
  have hm := MaxAgrees.all (T := T) m
  rw [interUBRA, trail_bind_ok (BoundedSet.ofBRA_run _), BoundedSet.ofBRA_trail,
    trail_bind_ok (BoundedSet.retainNonEmptyA_ofBR _).2, (BoundedSet.retainNonEmptyA_ofBR _).1,
    trail_bind_ok (BoundedSet.interUBRA_run hm _ _), trail_bind_ok (by rw [BoundedSet.addSetA_run hm, h]),
    BoundedSet.retainNonEmptyA_trail]
  simp

theorem BoundedSet.interBSA_trail_snoc {b c : BoundedSet T} {l : List (BoundedRange T)} {p : BoundedRange T}
    (h : interBS ⟨l⟩ b = .ok c) :
    (interBSA m ⟨l ++ [p]⟩ b).trail = (interBSA m ⟨l⟩ b).trail ++ (b.interBRA m p).trail ++ (c.addSetA m (b.interBR p)).trail := by
  have hm := MaxAgrees.all (T := T) m
  rw [interBSA, trail_fold_snoc (c := c) (by rw [← h, ← interBSA_run hm]; rfl), trail_bind_ok (b.interBRA_run hm p)]
  simp only [List.append_assoc, interBSA]

/-- All of `self` is intersected with the half-line before anything else. -/
theorem BoundedSet.interLBSA_trail (s : BoundedSet T) (b : LowerBoundedSet T) :
    (s.interLBSA m b).trail = (s.interLBRA m b.lowerBoundedRange).trail ++
      loopQs (fun c p => (b.interBRA m p).trail ++ match b.interBR p with
          | .ok d => (c.addSetA m d).trail
          | .panic _ => [])
        (fun c p => do c.addSet (← b.interBR p)) (s.interLBR b.lowerBoundedRange) s.ranges := by
  have hm := MaxAgrees.all (T := T) m
  rw [interLBSA, trail_bind_ok (interLBRA_run hm _ _), trail_fold (g := fun c p => do c.addSet (← b.interBR p))]
  · simp only [trail_bind, LowerBoundedSet.interBRA_run hm]
    congr
    funext c p
    cases b.interBR p <;> rfl
  · intro c p
    rw [run_bind, LowerBoundedSet.interBRA_run hm]
    cases b.interBR p
    · exact addSetA_run hm _ _
    · rfl

theorem BoundedSet.interUBSA_trail (s : BoundedSet T) (b : UpperBoundedSet T) :
    (s.interUBSA m b).trail = (s.interUBRA m b.upperBoundedRange).trail ++
      loopQs (fun c p => (b.interBRA m p).trail ++ match b.interBR p with
          | .ok d => (c.addSetA m d).trail
          | .panic _ => [])
        (fun c p => do c.addSet (← b.interBR p)) (s.interUBR b.upperBoundedRange) s.ranges := by
  have hm := MaxAgrees.all (T := T) m
  rw [interUBSA, trail_bind_ok (interUBRA_run hm _ _), trail_fold (g := fun c p => do c.addSet (← b.interBR p))]
  · simp only [trail_bind, UpperBoundedSet.interBRA_run hm]
    congr
    funext c p
    cases b.interBR p <;> rfl
  · intro c p
    rw [run_bind, UpperBoundedSet.interBRA_run hm]
    cases b.interBR p
    · exact addSetA_run hm _ _
    · rfl

theorem LowerBoundedSet.interLBSA_trail {a b : LowerBoundedSet T} {c : BoundedSet T} (h : a.ranges.interLBS b = .ok c) :
    (a.interLBSA m b).trail = (a.interLBRA m b.lowerBoundedRange).trail ++ (a.ranges.interLBSA m b).trail ++
      ((a.interLBR b.lowerBoundedRange).addSetA m c).trail := by
  have hm := MaxAgrees.all (T := T) m
  rw [interLBSA, trail_bind_ok (interLBRA_run hm _ _), trail_bind_ok (by rw [BoundedSet.interLBSA_run hm, h]), List.append_assoc]

theorem UpperBoundedSet.interUBSA_trail {a b c : UpperBoundedSet T} {d : BoundedSet T}
    (h : a.interUBR b.upperBoundedRange = .ok c) (h' : b.ranges.interUBS a = .ok d) :
    (a.interUBSA m b).trail = (a.interUBRA m b.upperBoundedRange).trail ++ (b.ranges.interUBSA m a).trail ++
      (c.addSetA m d).trail := by
  have hm := MaxAgrees.all (T := T) m
  rw [interUBSA, trail_bind_ok (by rw [interUBRA_run hm, h]), trail_bind_ok (by rw [BoundedSet.interUBSA_run hm, h']),
    List.append_assoc]

theorem LowerBoundedSet.interUBSA_trail {a : LowerBoundedSet T} {b : UpperBoundedSet T} {c d e : BoundedSet T}
    (h : a.interUBR b.upperBoundedRange = .ok c) (h' : b.ranges.interLBS a = .ok d) (h'' : c.retainNonEmpty.addSet d = .ok e) :
    (a.interUBSA m b).trail = (a.interUBRA m b.upperBoundedRange).trail ++ c.ranges.map BoundedRange.emptyQ ++
      (b.ranges.interLBSA m a).trail ++ (c.retainNonEmpty.addSetA m d).trail ++ e.ranges.map BoundedRange.emptyQ := by
  have hm := MaxAgrees.all (T := T) m
  rw [interUBSA, trail_bind_ok (by rw [interUBRA_run hm, h]), trail_bind_ok (BoundedSet.retainNonEmptyA_run _),
    BoundedSet.retainNonEmptyA_trail, trail_bind_ok (by rw [BoundedSet.interLBSA_run hm, h']),
    trail_bind_ok (by rw [BoundedSet.addSetA_run hm, h'']), BoundedSet.retainNonEmptyA_trail]
  simp only [List.append_assoc]

theorem BoundedSet.interUSA_trail {s c d : BoundedSet T} {p : PiecewiseUnboundedSet T}
    (h : (s.interUBR p.upperBoundedRange).addSet (s.interLBR p.lowerBoundedRange) = .ok c) (h' : s.interBS p.ranges = .ok d) :
    (s.interUSA m (.piecewise p)).trail = (s.interUBRA m p.upperBoundedRange).trail ++ (s.interLBRA m p.lowerBoundedRange).trail ++
      ((s.interUBR p.upperBoundedRange).addSetA m (s.interLBR p.lowerBoundedRange)).trail ++ (s.interBSA m p.ranges).trail ++
      (c.addSetA m d).trail := by
  have hm := MaxAgrees.all (T := T) m
  rw [interUSA, trail_bind_ok (interUBRA_run hm _ _), trail_bind_ok (interLBRA_run hm _ _),
    trail_bind_ok (by rw [addSetA_run hm, h]), trail_bind_ok (by rw [interBSA_run hm, h'])]
  simp only [List.append_assoc]

theorem LowerBoundedSet.interUSA_trail {s e : LowerBoundedSet T} {c d : BoundedSet T} {p : PiecewiseUnboundedSet T}
    (h1 : s.interUBR p.upperBoundedRange = .ok c) (h2 : (s.interLBR p.lowerBoundedRange).addSet c = .ok e)
    (h3 : p.ranges.interLBS s = .ok d) :
    (s.interUSA m (.piecewise p)).trail = (s.interLBRA m p.lowerBoundedRange).trail ++ (s.interUBRA m p.upperBoundedRange).trail ++
      ((s.interLBR p.lowerBoundedRange).addSetA m c).trail ++ (p.ranges.interLBSA m s).trail ++ (e.addSetA m d).trail := by
  have hm := MaxAgrees.all (T := T) m
  rw [interUSA, trail_bind_ok (interLBRA_run hm _ _), trail_bind_ok (by rw [interUBRA_run hm, h1]),
    trail_bind_ok (by rw [addSetA_run hm, h2]), trail_bind_ok (by rw [BoundedSet.interLBSA_run hm, h3])]
  simp only [List.append_assoc]

theorem UpperBoundedSet.interUSA_trail {s e f : UpperBoundedSet T} {c d : BoundedSet T} {p : PiecewiseUnboundedSet T}
    (h1 : s.interUBR p.upperBoundedRange = .ok f) (h2 : s.interLBR p.lowerBoundedRange = .ok c) (h3 : f.addSet c = .ok e)
    (h4 : p.ranges.interUBS s = .ok d) :
    (s.interUSA m (.piecewise p)).trail = (s.interUBRA m p.upperBoundedRange).trail ++ (s.interLBRA m p.lowerBoundedRange).trail ++
      (f.addSetA m c).trail ++ (p.ranges.interUBSA m s).trail ++ (e.addSetA m d).trail := by
  have hm := MaxAgrees.all (T := T) m
  rw [interUSA, trail_bind_ok (by rw [interUBRA_run hm, h1]), trail_bind_ok (by rw [interLBRA_run hm, h2]),
    trail_bind_ok (by rw [addSetA_run hm, h3]), trail_bind_ok (by rw [BoundedSet.interUBSA_run hm, h4])]
  simp only [List.append_assoc]

theorem UnboundedSet.interUSA_trail {s p : PiecewiseUnboundedSet T} {a : UpperBoundedSet T} {b d : LowerBoundedSet T}
    {c : BoundedSet T} (h1 : (UpperBoundedSet.ofUBR p.upperBoundedRange).interUS (.piecewise s) = .ok a)
    (h2 : (LowerBoundedSet.ofLBR p.lowerBoundedRange).interUS (.piecewise s) = .ok b)
    (h3 : p.ranges.interUS (.piecewise s) = .ok c) (h4 : b.addSet c = .ok d) :
    (interUSA m (.piecewise s) (.piecewise p)).trail =
      ((UpperBoundedSet.ofUBR p.upperBoundedRange).interUSA m (.piecewise s)).trail ++
      ((LowerBoundedSet.ofLBR p.lowerBoundedRange).interUSA m (.piecewise s)).trail ++
      (p.ranges.interUSA m (.piecewise s)).trail ++ (b.addSetA m c).trail ++ (d.unionUBSA m a).trail := by
  have hm := MaxAgrees.all (T := T) m
  rw [interUSA, trail_bind_ok (by rw [UpperBoundedSet.interUSA_run hm, h1]),
    trail_bind_ok (by rw [LowerBoundedSet.interUSA_run hm, h2]), trail_bind_ok (by rw [BoundedSet.interUSA_run hm, h3]),
    trail_bind_ok (by rw [LowerBoundedSet.addSetA_run hm, h4])]
  · simp only [List.append_assoc]
  · simp

/-! ### Complements -/

theorem BoundedRange.complementA_trail (r : BoundedRange T) :
    (r.complementA m).trail = [emptyQ ⟨.ofBound r.stop.b.flipped, .ofBound r.start.b.flipped⟩] := by
  rw [complementA, LowerBoundedSet.unionUBSA_trail (c := UnboundedSet.new ⟨.ofBound r.start.b.flipped⟩ ⟨.ofBound r.stop.b.flipped⟩) rfl]
  rfl

theorem BoundedSet.complementA_trail_snoc {l : List (BoundedRange T)} {p : BoundedRange T} {a b : UnboundedSet T}
    (h : complement ⟨l⟩ = .ok a) (h' : p.complement = .ok b) :
    (complementA m ⟨l ++ [p]⟩).trail = (complementA m ⟨l⟩).trail ++ (p.complementA m).trail ++ (a.interUSA m b).trail := by
  have hm := MaxAgrees.all (T := T) m
  rw [complementA, trail_fold_snoc (c := a) (by rw [← h, ← complementA_run hm]; rfl),
    trail_bind_ok (by rw [BoundedRange.complementA_run hm, h'])]
  simp only [List.append_assoc, complementA]

theorem LowerBoundedSet.complementA_trail_snoc {l : List (BoundedRange T)} {p : BoundedRange T} {r : LowerBoundedRange T}
    {a : UpperBoundedSet T} {b : UnboundedSet T} (h : complement ⟨⟨l⟩, r⟩ = .ok a) (h' : p.complement = .ok b) :
    (complementA m ⟨⟨l ++ [p]⟩, r⟩).trail = (complementA m ⟨⟨l⟩, r⟩).trail ++ (p.complementA m).trail ++
      (a.interUSA m b).trail := by
  have hm := MaxAgrees.all (T := T) m
  rw [complementA, trail_fold_snoc (c := a) (by rw [← h, ← complementA_run hm]; rfl),
    trail_bind_ok (by rw [BoundedRange.complementA_run hm, h'])]
  simp only [List.append_assoc, complementA]

theorem UpperBoundedSet.complementA_trail_snoc {l : List (BoundedRange T)} {p : BoundedRange T} {r : UpperBoundedRange T}
    {a : LowerBoundedSet T} {b : UnboundedSet T} (h : complement ⟨r, ⟨l⟩⟩ = .ok a) (h' : p.complement = .ok b) :
    (complementA m ⟨r, ⟨l ++ [p]⟩⟩).trail = (complementA m ⟨r, ⟨l⟩⟩).trail ++ (p.complementA m).trail ++
      (a.interUSA m b).trail := by
  have hm := MaxAgrees.all (T := T) m
  rw [complementA, trail_fold_snoc (c := a) (by rw [← h, ← complementA_run hm]; rfl),
    trail_bind_ok (by rw [BoundedRange.complementA_run hm, h'])]
  simp only [List.append_assoc, complementA]

theorem UnboundedSet.complementA_trail_nil (u : UpperBoundedRange T) (r : LowerBoundedRange T) :
    (complementA m (.piecewise ⟨u, ⟨[]⟩, r⟩)).trail =
      [BoundedRange.emptyQ ⟨.ofBound u.stop.b.flipped, .ofBound r.start.b.flipped⟩] := by
  rw [complementA, trail_bind_ok (BoundedSet.ofBRA_run _), BoundedSet.ofBRA_trail]
  rfl

theorem UnboundedSet.complementA_trail_snoc {l : List (BoundedRange T)} {p : BoundedRange T} {u : UpperBoundedRange T}
    {r : LowerBoundedRange T} {a : BoundedSet T} {b : UnboundedSet T} (h : complement (.piecewise ⟨u, ⟨l⟩, r⟩) = .ok a)
    (h' : p.complement = .ok b) :
    (complementA m (.piecewise ⟨u, ⟨l ++ [p]⟩, r⟩)).trail = (complementA m (.piecewise ⟨u, ⟨l⟩, r⟩)).trail ++
      (p.complementA m).trail ++ (a.interUSA m b).trail := by
  have hm := MaxAgrees.all (T := T) m
  rw [← complementA_run hm, complementA, run_bind, BoundedSet.ofBRA_run] at h
  rw [complementA, complementA, trail_bind_ok (BoundedSet.ofBRA_run _), trail_bind_ok (BoundedSet.ofBRA_run _),
    trail_fold_snoc (c := a) h, trail_bind_ok (by rw [BoundedRange.complementA_run hm, h'])]
  simp only [List.append_assoc]

end Rangetools
