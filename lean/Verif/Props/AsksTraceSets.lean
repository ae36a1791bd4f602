import Verif.Proofs.AsksTraceSets
import Verif.Spec.Samples

/-!
# C111, C112: the order of the questions of unions with half-lines, of intersections of sets and of complements
-/

set_option linter.unusedVariables false

namespace Rangetools
open Samples Asks
variable {T : Type} [LinearOrder T]

/-! ### C111 Unions where a half-line takes part -/

/-- C111, main statement: unions of a half-line with a half-line or a range.  Half-lines of the same direction: their ends are
compared once.  Of opposite directions: whether they overlap is asked.  A range that is not empty: three times whether it is
empty, then whether it meets the half-line, then, if it does, the two ends. -/
theorem C111_ranges (m : MaxVia) (r : BoundedRange T) (l l' : LowerBoundedRange T) (u u' : UpperBoundedRange T) :
    (Any.unionA m (.inner (.lbr l)) (.inner (.lbr l'))).trail = m.pickQs l.start.b l'.start.b ∧
    (Any.unionA m (.inner (.ubr u)) (.inner (.ubr u'))).trail = m.pickQs u.stop.b u'.stop.b ∧
    (Any.unionA m (.inner (.lbr l)) (.inner (.ubr u))).trail = [BoundedRange.emptyQ ⟨l.start, u.stop⟩] ∧
    (Any.unionA m (.inner (.ubr u)) (.inner (.lbr l))).trail = [BoundedRange.emptyQ ⟨l.start, u.stop⟩] ∧
    (Any.unionA m (.inner (.br r)) (.inner (.lbr l))).trail = (Any.unionA m (.inner (.lbr l)) (.inner (.br r))).trail ∧
    (Any.unionA m (.inner (.lbr l)) (.inner (.br r))).trail = (if r.Hollow then [r.emptyQ] else
      [r.emptyQ, r.emptyQ, r.emptyQ] ++ r.fromQs m l ++ if (r.commonFrom l).Hollow then [] else m.pickQs l.start.b r.start.b) ∧
    (Any.unionA m (.inner (.br r)) (.inner (.ubr u))).trail = (Any.unionA m (.inner (.ubr u)) (.inner (.br r))).trail ∧
    (Any.unionA m (.inner (.ubr u)) (.inner (.br r))).trail = (if r.Hollow then [r.emptyQ] else
      [r.emptyQ, r.emptyQ, r.emptyQ] ++ r.toQs m u ++ if (r.commonTo u).Hollow then [] else m.pickQs u.stop.b r.stop.b) := by
  have hu : ∀ (a b : Any T) (x y : SetVal T) (_ : a.toSetA.trail = []) (_ : a.toSetA.run = .ok x) (_ : b.toSetA.trail = [])
      (_ : b.toSetA.run = .ok y), (do
        let s ← a.toSetA
        let o ← b.toSetA
        return Any.inner (← s.unionA m o).toInner : Asks T (Any T)).trail = (x.unionA m y).trail := by
    intro a b x y h1 h2 h3 h4
    rw [trail_bind_ok h2, trail_bind_ok h4, h1, h3, trail_bind_pure]
    rfl
  have hset : (Inner.br r).toSetA.trail = [r.emptyQ] ∧ (Inner.br r).toSetA.run = .ok (.bs (.ofBR r)) := by
    constructor
    · show (do return SetVal.bs (← BoundedSet.ofBRA r) : Asks T (SetVal T)).trail = _
      rw [trail_bind_pure, BoundedSet.ofBRA_trail]
    · show (do return SetVal.bs (← BoundedSet.ofBRA r) : Asks T (SetVal T)).run = _
      rw [run_bind, BoundedSet.ofBRA_run]; rfl
  have hl : ((LowerBoundedSet.ofLBR l).addSetA m (.ofBR r)).trail = (if r.Hollow then [] else
      [r.emptyQ, r.emptyQ] ++ r.fromQs m l ++ if (r.commonFrom l).Hollow then [] else m.pickQs l.start.b r.start.b) := by
    rw [BoundedSet.ofBR_hollow]
    by_cases h : r.Hollow
    · simp only [h, if_true]; rfl
    · rw [if_neg h, if_neg h, ← LowerBoundedSet.addRangeA_first l h]
      exact LowerBoundedSet.addSetA_trail_snoc (l := []) rfl
  have hu' : ((UpperBoundedSet.ofUBR u).addSetA m (.ofBR r)).trail = (if r.Hollow then [] else
      [r.emptyQ, r.emptyQ] ++ r.toQs m u ++ if (r.commonTo u).Hollow then [] else m.pickQs u.stop.b r.stop.b) := by
    rw [BoundedSet.ofBR_hollow]
    by_cases h : r.Hollow
    · simp only [h, if_true]; rfl
    · rw [if_neg h, if_neg h, ← UpperBoundedSet.addRangeA_first u h]
      exact UpperBoundedSet.addSetA_trail_snoc (l := []) rfl
  have hlr : (Any.unionA m (.inner (.lbr l)) (.inner (.br r))).trail = r.emptyQ ::
      ((LowerBoundedSet.ofLBR l).addSetA m (.ofBR r)).trail := by
    show (do
        let o ← (Inner.br r).toSetA
        return Any.inner (← (SetVal.lbs (.ofLBR l)).unionA m o).toInner : Asks T (Any T)).trail = _
    rw [trail_bind_ok hset.2, hset.1, trail_bind_pure]
    exact congrArg (_ :: ·) (trail_bind_pure _ _)
  have hrl : (Any.unionA m (.inner (.br r)) (.inner (.lbr l))).trail = r.emptyQ ::
      ((LowerBoundedSet.ofLBR l).addSetA m (.ofBR r)).trail := by
    show (do
        let s ← (Inner.br r).toSetA
        return Any.inner (← s.unionA m (SetVal.lbs (.ofLBR l))).toInner : Asks T (Any T)).trail = _
    rw [trail_bind_ok hset.2, hset.1, trail_bind_pure]
    exact congrArg (_ :: ·) (trail_bind_pure _ _)
  have hur : (Any.unionA m (.inner (.ubr u)) (.inner (.br r))).trail = r.emptyQ ::
      ((UpperBoundedSet.ofUBR u).addSetA m (.ofBR r)).trail := by
    show (do
        let o ← (Inner.br r).toSetA
        return Any.inner (← (SetVal.ubs (.ofUBR u)).unionA m o).toInner : Asks T (Any T)).trail = _
    rw [trail_bind_ok hset.2, hset.1, trail_bind_pure]
    exact congrArg (_ :: ·) (trail_bind_pure _ _)
  have hru : (Any.unionA m (.inner (.br r)) (.inner (.ubr u))).trail = r.emptyQ ::
      ((UpperBoundedSet.ofUBR u).addSetA m (.ofBR r)).trail := by
    show (do
        let s ← (Inner.br r).toSetA
        return Any.inner (← s.unionA m (SetVal.ubs (.ofUBR u))).toInner : Asks T (Any T)).trail = _
    rw [trail_bind_ok hset.2, hset.1, trail_bind_pure]
    exact congrArg (_ :: ·) (trail_bind_pure _ _)
  have hdl : ∀ b : LowerBoundedRange T, (LowerBoundedSet.defragmentA m ⟨⟨[]⟩, b⟩).trail = [] :=
    fun b => LowerBoundedSet.defragmentA_hollow (by simp)
  have hdu : ∀ b : UpperBoundedRange T, (UpperBoundedSet.defragmentA m ⟨b, ⟨[]⟩⟩).trail = [] :=
    fun b => UpperBoundedSet.defragmentA_hollow (by simp)
  refine ⟨?_, ?_, ?_, ?_, by rw [hlr, hrl], ?_, by rw [hur, hru], ?_⟩
  · refine (hu (.inner (.lbr l)) (.inner (.lbr l')) _ _ rfl rfl rfl rfl).trans ((trail_bind_pure _ _).trans ?_)
    rw [LowerBoundedSet.unionLBSA, trail_bind, LowerBoundedSet.addLowerBoundedRangeA_trail]
    refine Eq.trans (congrArg₂ _ (congrArg _ (hdl _)) (y' := []) ?_) (by simp [LowerBoundedSet.ofLBR])
    split <;> rfl
  · refine (hu (.inner (.ubr u)) (.inner (.ubr u')) _ _ rfl rfl rfl rfl).trans ((trail_bind_pure _ _).trans ?_)
    rw [UpperBoundedSet.unionUBSA, trail_bind, UpperBoundedSet.addUpperBoundedRangeA_trail]
    refine Eq.trans (congrArg₂ _ (congrArg _ (hdu _)) (y' := []) ?_) (by simp [UpperBoundedSet.ofUBR])
    split <;> rfl
  · refine (hu (.inner (.lbr l)) (.inner (.ubr u)) _ _ rfl rfl rfl rfl).trans ((trail_bind_pure _ _).trans ?_)
    exact LowerBoundedSet.unionUBSA_trail rfl
  · refine (hu (.inner (.ubr u)) (.inner (.lbr l)) _ _ rfl rfl rfl rfl).trans ((trail_bind_pure _ _).trans ?_)
    exact LowerBoundedSet.unionUBSA_trail rfl
  · rw [hlr, hl]
    split <;> simp
  · rw [hur, hu']
    split <;> simp

/-- C111: how the sets with one half-line are put in order again.  First whether all their ranges are empty is asked, up to the
first that is not.  Then whether the nearest range meets the half-line; if so the two ends, and all of it again. -/
theorem C111_defragment_one (m : MaxVia) (l : List (BoundedRange T)) (p : BoundedRange T) (b : LowerBoundedRange T)
    (u : UpperBoundedRange T) :
    ((∀ r ∈ l, r.Hollow) → (LowerBoundedSet.defragmentA m ⟨⟨l⟩, b⟩).trail = BoundedSet.emptyQs ⟨l⟩ ∧
      (UpperBoundedSet.defragmentA m ⟨u, ⟨l⟩⟩).trail = BoundedSet.emptyQs ⟨l⟩) ∧
    ((∃ r ∈ l ++ [p], ¬ r.Hollow) → (LowerBoundedSet.defragmentA m ⟨⟨l ++ [p]⟩, b⟩).trail =
      BoundedSet.emptyQs ⟨l ++ [p]⟩ ++ p.fromQs m b ++ if (p.commonFrom b).Hollow then [] else
        m.pickQs b.start.b p.start.b ++ (LowerBoundedSet.defragmentA m ⟨⟨l⟩, ⟨⟨b.start.b.earlierStart p.start.b⟩⟩⟩).trail) ∧
    ((∃ r ∈ p :: l, ¬ r.Hollow) → (UpperBoundedSet.defragmentA m ⟨u, ⟨p :: l⟩⟩).trail =
      BoundedSet.emptyQs ⟨p :: l⟩ ++ p.toQs m u ++ if (p.commonTo u).Hollow then [] else
        m.pickQs u.stop.b p.stop.b ++ (UpperBoundedSet.defragmentA m ⟨⟨⟨u.stop.b.laterStop p.stop.b⟩⟩, ⟨l⟩⟩).trail) :=
  ⟨fun h => ⟨LowerBoundedSet.defragmentA_hollow h, UpperBoundedSet.defragmentA_hollow h⟩,
    LowerBoundedSet.defragmentA_last, UpperBoundedSet.defragmentA_first⟩

/-- C111: how a set with two half-lines is put in order again.  All ranges are asked whether they meet the lower half-line `..u`,
up to the first that does; if none does, the other half-line.  At the end, whether the half-lines meet. -/
theorem C111_defragment_two (m : MaxVia) (l l' : List (BoundedRange T)) (p : BoundedRange T) (b : LowerBoundedRange T)
    (u : UpperBoundedRange T) :
    ((∀ r ∈ l, (r.commonTo u).Hollow ∧ (r.commonFrom b).Hollow) →
      (PiecewiseUnboundedSet.defragmentA m ⟨u, ⟨l⟩, b⟩).trail =
        l.flatMap (fun r => r.toQs m u) ++ l.flatMap (fun r => r.fromQs m b)) ∧
    ((∀ r ∈ l, (r.commonTo u).Hollow) → ¬ (p.commonTo u).Hollow →
      (PiecewiseUnboundedSet.defragmentA m ⟨u, ⟨l ++ p :: l'⟩, b⟩).trail =
        (l ++ [p]).flatMap (fun r => r.toQs m u) ++ m.pickQs u.stop.b p.stop.b ++
          (PiecewiseUnboundedSet.defragmentA m ⟨⟨⟨u.stop.b.laterStop p.stop.b⟩⟩, ⟨l ++ l'⟩, b⟩).trail) ∧
    ((∀ r ∈ l ++ p :: l', (r.commonTo u).Hollow) → (∀ r ∈ l, (r.commonFrom b).Hollow) → ¬ (p.commonFrom b).Hollow →
      (PiecewiseUnboundedSet.defragmentA m ⟨u, ⟨l ++ p :: l'⟩, b⟩).trail =
        (l ++ p :: l').flatMap (fun r => r.toQs m u) ++ (l ++ [p]).flatMap (fun r => r.fromQs m b) ++
          m.pickQs b.start.b p.start.b ++
          (PiecewiseUnboundedSet.defragmentA m ⟨u, ⟨l ++ l'⟩, ⟨⟨b.start.b.earlierStart p.start.b⟩⟩⟩).trail) ∧
    (UnboundedSet.defragmentA m (.full : UnboundedSet T)).trail = [] ∧
    ∀ q, PiecewiseUnboundedSet.defragment ⟨u, ⟨l⟩, b⟩ = .ok q →
      (UnboundedSet.defragmentA m (.piecewise ⟨u, ⟨l⟩, b⟩)).trail =
        (PiecewiseUnboundedSet.defragmentA m ⟨u, ⟨l⟩, b⟩).trail ++
          [BoundedRange.emptyQ ⟨q.lowerBoundedRange.start, q.upperBoundedRange.stop⟩] :=
  ⟨PiecewiseUnboundedSet.defragmentA_apart (s := ⟨u, ⟨l⟩, b⟩), PiecewiseUnboundedSet.defragmentA_upper,
    PiecewiseUnboundedSet.defragmentA_lower, rfl, fun q => UnboundedSet.defragmentA_piecewise⟩

/-- C111: adding to a set with half-lines: the half-line's ends are compared, or the range is added to the ranges (C110), and then
the set is put in order. -/
theorem C111_add (m : MaxVia) (s c : BoundedSet T) (r : BoundedRange T) (b b' : LowerBoundedRange T) (u u' : UpperBoundedRange T)
    (h : s.addRange r = .ok c) :
    (LowerBoundedSet.addRangeA m ⟨s, b⟩ r).trail = (s.addRangeA m r).trail ++ (LowerBoundedSet.defragmentA m ⟨c, b⟩).trail ∧
    (UpperBoundedSet.addRangeA m ⟨u, s⟩ r).trail = (s.addRangeA m r).trail ++ (UpperBoundedSet.defragmentA m ⟨u, c⟩).trail ∧
    (UnboundedSet.addRangeA m (.piecewise ⟨u, s, b⟩) r).trail = (s.addRangeA m r).trail ++
      (UnboundedSet.defragmentA m (.piecewise ⟨u, c, b⟩)).trail ∧
    (LowerBoundedSet.addLowerBoundedRangeA m ⟨s, b⟩ b').trail = m.pickQs b.start.b b'.start.b ++
      (LowerBoundedSet.defragmentA m ⟨s, ⟨⟨b.start.b.earlierStart b'.start.b⟩⟩⟩).trail ∧
    (UpperBoundedSet.addUpperBoundedRangeA m ⟨u, s⟩ u').trail = m.pickQs u.stop.b u'.stop.b ++
      (UpperBoundedSet.defragmentA m ⟨⟨⟨u.stop.b.laterStop u'.stop.b⟩⟩, s⟩).trail ∧
    (UnboundedSet.addLowerBoundedRangeA m (.piecewise ⟨u, s, b⟩) b').trail = m.pickQs b.start.b b'.start.b ++
      (UnboundedSet.defragmentA m (.piecewise ⟨u, s, ⟨⟨b.start.b.earlierStart b'.start.b⟩⟩⟩)).trail ∧
    (UnboundedSet.addUpperBoundedRangeA m (.piecewise ⟨u, s, b⟩) u').trail = m.pickQs u.stop.b u'.stop.b ++
      (UnboundedSet.defragmentA m (.piecewise ⟨⟨⟨u.stop.b.laterStop u'.stop.b⟩⟩, s, b⟩)).trail ∧
    (UnboundedSet.addRangeA m (.full : UnboundedSet T) r).trail = [] ∧
    (UnboundedSet.addLowerBoundedRangeA m (.full : UnboundedSet T) b).trail = [] ∧
    (UnboundedSet.addUpperBoundedRangeA m (.full : UnboundedSet T) u).trail = [] :=
  ⟨LowerBoundedSet.addRangeA_trail h, UpperBoundedSet.addRangeA_trail h, UnboundedSet.addRangeA_piecewise h,
    LowerBoundedSet.addLowerBoundedRangeA_trail _ _, UpperBoundedSet.addUpperBoundedRangeA_trail _ _,
    UnboundedSet.addLowerBoundedRangeA_piecewise _ _, UnboundedSet.addUpperBoundedRangeA_piecewise _ _, rfl, rfl, rfl⟩

/-- C111: adding a bounded set to a set with half-lines adds its ranges one by one, in order; so does the union, whichever of the
two is the receiver. -/
theorem C111_add_set (m : MaxVia) (l : List (BoundedRange T)) (r : BoundedRange T) :
    (∀ a c : LowerBoundedSet T, a.addSet ⟨l⟩ = .ok c →
      (Any.unionA m (.inner (.lbs a)) (.inner (.bs ⟨[]⟩))).trail = [] ∧
      (Any.unionA m (.inner (.lbs a)) (.inner (.bs ⟨l⟩))).trail = (a.addSetA m ⟨l⟩).trail ∧
      (Any.unionA m (.inner (.bs ⟨l⟩)) (.inner (.lbs a))).trail = (a.addSetA m ⟨l⟩).trail ∧
      (a.addSetA m ⟨l ++ [r]⟩).trail = (a.addSetA m ⟨l⟩).trail ++ (c.addRangeA m r).trail) ∧
    (∀ a c : UpperBoundedSet T, a.addSet ⟨l⟩ = .ok c →
      (Any.unionA m (.inner (.ubs a)) (.inner (.bs ⟨[]⟩))).trail = [] ∧
      (Any.unionA m (.inner (.ubs a)) (.inner (.bs ⟨l⟩))).trail = (a.addSetA m ⟨l⟩).trail ∧
      (Any.unionA m (.inner (.bs ⟨l⟩)) (.inner (.ubs a))).trail = (a.addSetA m ⟨l⟩).trail ∧
      (a.addSetA m ⟨l ++ [r]⟩).trail = (a.addSetA m ⟨l⟩).trail ++ (c.addRangeA m r).trail) ∧
    (∀ a c : UnboundedSet T, a.addSet ⟨l⟩ = .ok c →
      (Any.unionA m (.inner (.us a)) (.inner (.bs ⟨[]⟩))).trail = [] ∧
      (Any.unionA m (.inner (.us a)) (.inner (.bs ⟨l⟩))).trail = (a.addSetA m ⟨l⟩).trail ∧
      (Any.unionA m (.inner (.bs ⟨l⟩)) (.inner (.us a))).trail = (a.addSetA m ⟨l⟩).trail ∧
      (a.addSetA m ⟨l ++ [r]⟩).trail = (a.addSetA m ⟨l⟩).trail ++ (c.addRangeA m r).trail) := by
  have k : ∀ (x y : SetVal T), (Any.unionA m (.inner x.toInner) (.inner y.toInner)).trail = (x.unionA m y).trail :=
    fun x y => SetVal.unionA_any x y
  refine ⟨fun a c h => ⟨?_, ?_, ?_, LowerBoundedSet.addSetA_trail_snoc h⟩,
    fun a c h => ⟨?_, ?_, ?_, UpperBoundedSet.addSetA_trail_snoc h⟩, fun a c h => ⟨?_, ?_, ?_, UnboundedSet.addSetA_trail_snoc h⟩⟩
  · exact (k (.lbs a) (.bs _)).trans (trail_bind_pure _ _)
  · exact (k (.lbs a) (.bs _)).trans (trail_bind_pure _ _)
  · exact (k (.bs _) (.lbs a)).trans (trail_bind_pure _ _)
  · exact (k (.ubs a) (.bs _)).trans (trail_bind_pure _ _)
  · exact (k (.ubs a) (.bs _)).trans (trail_bind_pure _ _)
  · exact (k (.bs _) (.ubs a)).trans (trail_bind_pure _ _)
  · exact (k (.us a) (.bs _)).trans (trail_bind_pure _ _)
  · exact (k (.us a) (.bs _)).trans (trail_bind_pure _ _)
  · exact (k (.bs _) (.us a)).trans (trail_bind_pure _ _)

/-- C111: unions of two sets with half-lines.  Of the same kind: the half-line of the second is added to the first, then the
ranges of the second.  `[a, ∞)` with `(-∞, b]`: whether the half-lines meet, then the ranges of the set with `[a, ∞)`, then those of
the other, whichever is the receiver.  With an unbounded set: the half-line and then the ranges are added to that. -/
theorem C111_union (m : MaxVia) :
    (∀ a b c : LowerBoundedSet T, a.addLowerBoundedRange b.lowerBoundedRange = .ok c →
      (Any.unionA m (.inner (.lbs a)) (.inner (.lbs b))).trail =
        (a.addLowerBoundedRangeA m b.lowerBoundedRange).trail ++ (c.addSetA m b.ranges).trail) ∧
    (∀ a b c : UpperBoundedSet T, a.addUpperBoundedRange b.upperBoundedRange = .ok c →
      (Any.unionA m (.inner (.ubs a)) (.inner (.ubs b))).trail =
        (a.addUpperBoundedRangeA m b.upperBoundedRange).trail ++ (c.addSetA m b.ranges).trail) ∧
    (∀ (a : LowerBoundedSet T) (b : UpperBoundedSet T) (c : UnboundedSet T),
      (UnboundedSet.new b.upperBoundedRange a.lowerBoundedRange).addSet a.ranges = .ok c →
      (Any.unionA m (.inner (.lbs a)) (.inner (.ubs b))).trail =
        BoundedRange.emptyQ ⟨a.lowerBoundedRange.start, b.upperBoundedRange.stop⟩ ::
          (((UnboundedSet.new b.upperBoundedRange a.lowerBoundedRange).addSetA m a.ranges).trail ++ (c.addSetA m b.ranges).trail) ∧
      (Any.unionA m (.inner (.ubs b)) (.inner (.lbs a))).trail = (Any.unionA m (.inner (.lbs a)) (.inner (.ubs b))).trail) ∧
    (∀ (a : LowerBoundedSet T) (b c : UnboundedSet T), b.addLowerBoundedRange a.lowerBoundedRange = .ok c →
      (Any.unionA m (.inner (.lbs a)) (.inner (.us b))).trail =
        (b.addLowerBoundedRangeA m a.lowerBoundedRange).trail ++ (c.addSetA m a.ranges).trail ∧
      (Any.unionA m (.inner (.us b)) (.inner (.lbs a))).trail = (Any.unionA m (.inner (.lbs a)) (.inner (.us b))).trail) ∧
    (∀ (a : UpperBoundedSet T) (b c : UnboundedSet T), b.addUpperBoundedRange a.upperBoundedRange = .ok c →
      (Any.unionA m (.inner (.ubs a)) (.inner (.us b))).trail =
        (b.addUpperBoundedRangeA m a.upperBoundedRange).trail ++ (c.addSetA m a.ranges).trail ∧
      (Any.unionA m (.inner (.us b)) (.inner (.ubs a))).trail = (Any.unionA m (.inner (.ubs a)) (.inner (.us b))).trail) ∧
    (∀ (a c d e : UnboundedSet T) (p : PiecewiseUnboundedSet T), a.addLowerBoundedRange p.lowerBoundedRange = .ok c →
      c.addUpperBoundedRange p.upperBoundedRange = .ok d → d.addSet p.ranges = .ok e →
      (Any.unionA m (.inner (.us a)) (.inner (.us (.piecewise p)))).trail =
        (a.addLowerBoundedRangeA m p.lowerBoundedRange).trail ++ (c.addUpperBoundedRangeA m p.upperBoundedRange).trail ++
          (d.addSetA m p.ranges).trail ++ (e.defragmentA m).trail ∧
      (Any.unionA m (.inner (.us a)) (.inner (.us .full))).trail = []) := by
  have k : ∀ (x y : SetVal T), (Any.unionA m (.inner x.toInner) (.inner y.toInner)).trail = (x.unionA m y).trail :=
    fun x y => SetVal.unionA_any x y
  refine ⟨?_, ?_, ?_, ?_, ?_, ?_⟩
  · intro a b c h
    exact ((k (.lbs a) (.lbs b)).trans (trail_bind_pure _ _)).trans (LowerBoundedSet.unionLBSA_trail h)
  · intro a b c h
    exact ((k (.ubs a) (.ubs b)).trans (trail_bind_pure _ _)).trans (UpperBoundedSet.unionUBSA_trail h)
  · intro a b c h
    refine ⟨((k (.lbs a) (.ubs b)).trans (trail_bind_pure _ _)).trans (LowerBoundedSet.unionUBSA_trail h), ?_⟩
    exact ((k (.ubs b) (.lbs a)).trans (trail_bind_pure _ _)).trans ((k (.lbs a) (.ubs b)).trans (trail_bind_pure _ _)).symm
  · intro a b c h
    refine ⟨((k (.lbs a) (.us b)).trans (trail_bind_pure _ _)).trans (LowerBoundedSet.unionUSA_trail h), ?_⟩
    exact ((k (.us b) (.lbs a)).trans (trail_bind_pure _ _)).trans ((k (.lbs a) (.us b)).trans (trail_bind_pure _ _)).symm
  · intro a b c h
    refine ⟨((k (.ubs a) (.us b)).trans (trail_bind_pure _ _)).trans (UpperBoundedSet.unionUSA_trail h), ?_⟩
    exact ((k (.us b) (.ubs a)).trans (trail_bind_pure _ _)).trans ((k (.ubs a) (.us b)).trans (trail_bind_pure _ _)).symm
  · intro a c d e p h1 h2 h3
    refine ⟨((k (.us a) (.us (.piecewise p))).trans (trail_bind_pure _ _)).trans
      (UnboundedSet.addUnboundedSetA_piecewise h1 h2 h3), ?_⟩
    exact (k (.us a) (.us .full)).trans (trail_bind_pure _ _)

-- `(0..5).union(3..)`
example : (Any.unionA .cmp (.range ⟨0, 5⟩) (.rangeFrom ⟨3⟩) : Asks Int (Any Int)).trail =
    [.test .ge 0 5, .test .ge 0 5, .test .ge 0 5, .cmp 0 3, .test .ge 3 5, .cmp 3 0] := by decide +kernel

-- `(..0).union(5..)`, then `1..2`, then `4..9`, which reaches the half-line
example : (Any.unionA .cmp (.rangeTo ⟨0⟩) (.rangeFrom ⟨5⟩) : Asks Int (Any Int)).trail = [.test .ge 5 0] ∧
    (Any.unionA .cmp (.inner (.us (.piecewise ⟨⟨.excluded 0⟩, ⟨[co 1 2]⟩, ⟨.included 5⟩⟩))) (.range ⟨4, 9⟩) :
      Asks Int (Any Int)).trail =
    [.test .ge 4 9, .test .ge 4 9, .cmp 1 4, .cmp 2 9, .test .ge 4 2, .cmp 1 4,
      .cmp 2 0, .test .ge 1 0, .cmp 9 0, .test .ge 4 0, .cmp 1 5, .test .ge 5 2, .cmp 4 5, .test .ge 5 9, .cmp 5 4,
      .cmp 2 0, .test .ge 1 0, .cmp 1 4, .test .ge 4 2, .test .ge 4 0] := by decide +kernel

example : (⟨[co 1 2]⟩ : BoundedSet Int).addRange (co 4 9) = .ok ⟨[co 1 2, co 4 9]⟩ ∧
    (⟨⟨[co 1 2]⟩, ⟨.included 5⟩⟩ : LowerBoundedSet Int).addLowerBoundedRange ⟨.included 4⟩ = .ok ⟨⟨[co 1 2]⟩, ⟨.included 4⟩⟩ := by
  decide +kernel

/-! ### C112 Intersections of sets, and complements -/

/-- C112, main statement: the complement of a range asks one question, whether the two half-lines it leaves overlap; of a half-line,
none.  Of a set: it starts from the complement of its half-lines and goes through its ranges in order, intersecting with the
complement of each. -/
theorem C112_complement (m : MaxVia) (l : List (BoundedRange T)) (p : BoundedRange T) (b : LowerBoundedRange T)
    (u : UpperBoundedRange T) (q : UnboundedSet T) (h : p.complement = .ok q) :
    (Any.complementA m (.inner (.br p))).trail =
      [BoundedRange.emptyQ ⟨.ofBound p.stop.b.flipped, .ofBound p.start.b.flipped⟩] ∧
    (Any.complementA m (.inner (.lbr b))).trail = [] ∧
    (Any.complementA m (.inner (.ubr u))).trail = [] ∧
    (Any.complementA m (.inner (.bs (⟨[]⟩ : BoundedSet T)))).trail = [] ∧
    (Any.complementA m (.inner (.lbs ⟨⟨[]⟩, b⟩))).trail = [] ∧
    (Any.complementA m (.inner (.ubs ⟨u, ⟨[]⟩⟩))).trail = [] ∧
    (Any.complementA m (.inner (.us (.full : UnboundedSet T)))).trail = [] ∧
    (Any.complementA m (.inner (.us (.piecewise ⟨u, ⟨[]⟩, b⟩)))).trail =
      [BoundedRange.emptyQ ⟨.ofBound u.stop.b.flipped, .ofBound b.start.b.flipped⟩] ∧
    (∀ a, (Any.inner (.bs ⟨l⟩)).complement = .ok (.us a) →
      (Any.complementA m (.inner (.bs ⟨l ++ [p]⟩))).trail = (Any.complementA m (.inner (.bs ⟨l⟩))).trail ++
        (Any.complementA m (.inner (.br p))).trail ++ (Any.interA m (.inner (.us a)) (.inner (.us q))).trail) ∧
    (∀ a, (Any.inner (.lbs ⟨⟨l⟩, b⟩)).complement = .ok (.ubs a) →
      (Any.complementA m (.inner (.lbs ⟨⟨l ++ [p]⟩, b⟩))).trail = (Any.complementA m (.inner (.lbs ⟨⟨l⟩, b⟩))).trail ++
        (Any.complementA m (.inner (.br p))).trail ++ (Any.interA m (.inner (.ubs a)) (.inner (.us q))).trail) ∧
    (∀ a, (Any.inner (.ubs ⟨u, ⟨l⟩⟩)).complement = .ok (.lbs a) →
      (Any.complementA m (.inner (.ubs ⟨u, ⟨l ++ [p]⟩⟩))).trail = (Any.complementA m (.inner (.ubs ⟨u, ⟨l⟩⟩))).trail ++
        (Any.complementA m (.inner (.br p))).trail ++ (Any.interA m (.inner (.lbs a)) (.inner (.us q))).trail) ∧
    (∀ a, (Any.inner (.us (.piecewise ⟨u, ⟨l⟩, b⟩))).complement = .ok (.bs a) →
      (Any.complementA m (.inner (.us (.piecewise ⟨u, ⟨l ++ [p]⟩, b⟩)))).trail =
        (Any.complementA m (.inner (.us (.piecewise ⟨u, ⟨l⟩, b⟩)))).trail ++
        (Any.complementA m (.inner (.br p))).trail ++ (Any.interA m (.inner (.bs a)) (.inner (.us q))).trail) := by
  have e1 : (Any.complementA m (.inner (.br p))).trail = (p.complementA m).trail := trail_bind_pure _ _
  have e2 : ∀ s : BoundedSet T, (Any.complementA m (.inner (.bs s))).trail = (s.complementA m).trail := fun s => trail_bind_pure _ _
  have e3 : ∀ s : LowerBoundedSet T, (Any.complementA m (.inner (.lbs s))).trail = (s.complementA m).trail :=
    fun s => trail_bind_pure _ _
  have e4 : ∀ s : UpperBoundedSet T, (Any.complementA m (.inner (.ubs s))).trail = (s.complementA m).trail :=
    fun s => trail_bind_pure _ _
  have e5 : ∀ s : UnboundedSet T, (Any.complementA m (.inner (.us s))).trail = (s.complementA m).trail := fun s => trail_bind_pure _ _
  have i2 : ∀ s : BoundedSet T, (Any.interA m (.inner (.bs s)) (.inner (.us q))).trail = (s.interUSA m q).trail :=
    fun s => trail_bind_pure _ _
  have i3 : ∀ s : LowerBoundedSet T, (Any.interA m (.inner (.lbs s)) (.inner (.us q))).trail = (s.interUSA m q).trail :=
    fun s => trail_bind_pure _ _
  have i4 : ∀ s : UpperBoundedSet T, (Any.interA m (.inner (.ubs s)) (.inner (.us q))).trail = (s.interUSA m q).trail :=
    fun s => trail_bind_pure _ _
  have i5 : ∀ s : UnboundedSet T, (Any.interA m (.inner (.us s)) (.inner (.us q))).trail = (s.interUSA m q).trail :=
    fun s => trail_bind_pure _ _
  refine ⟨e1.trans (BoundedRange.complementA_trail p), rfl, rfl, rfl, rfl, rfl, rfl, (e5 _).trans
    (UnboundedSet.complementA_trail_nil u b), ?_, ?_, ?_, ?_⟩
  · intro a ha
    have : BoundedSet.complement ⟨l⟩ = .ok a := by
      change (do return Inner.us (← BoundedSet.complement ⟨l⟩) : Res (Inner T)) = _ at ha
      cases hx : BoundedSet.complement (⟨l⟩ : BoundedSet T) <;> rw [hx] at ha <;> simp_all
    rw [e1, e2, e2, i5, BoundedSet.complementA_trail_snoc this h]
  · intro a ha
    have : LowerBoundedSet.complement ⟨⟨l⟩, b⟩ = .ok a := by
      change (do return Inner.ubs (← LowerBoundedSet.complement ⟨⟨l⟩, b⟩) : Res (Inner T)) = _ at ha
      cases hx : LowerBoundedSet.complement (⟨⟨l⟩, b⟩ : LowerBoundedSet T) <;> rw [hx] at ha <;> simp_all
    rw [e1, e3, e3, i4, LowerBoundedSet.complementA_trail_snoc this h]
  · intro a ha
    have : UpperBoundedSet.complement ⟨u, ⟨l⟩⟩ = .ok a := by
      change (do return Inner.lbs (← UpperBoundedSet.complement ⟨u, ⟨l⟩⟩) : Res (Inner T)) = _ at ha
      cases hx : UpperBoundedSet.complement (⟨u, ⟨l⟩⟩ : UpperBoundedSet T) <;> rw [hx] at ha <;> simp_all
    rw [e1, e4, e4, i3, UpperBoundedSet.complementA_trail_snoc this h]
  · intro a ha
    have : UnboundedSet.complement (.piecewise ⟨u, ⟨l⟩, b⟩) = .ok a := by
      change (do return Inner.bs (← UnboundedSet.complement (.piecewise ⟨u, ⟨l⟩, b⟩)) : Res (Inner T)) = _ at ha
      cases hx : UnboundedSet.complement (.piecewise ⟨u, ⟨l⟩, b⟩ : UnboundedSet T) <;> rw [hx] at ha <;> simp_all
    rw [e1, e5, e5, i2, UnboundedSet.complementA_trail_snoc this h]

/-- C112: a set with a half-line and a range: the half-line is intersected first, then all the ranges, and what they leave is added
to what the half-line leaves.  Only the impls for `UpperBoundedSet` and for `LowerBoundedSet` with `(-∞, b]` ask a second time
whether the first piece is empty; the latter asks it of every piece at the end. -/
theorem C112_inter_range (m : MaxVia) (r : BoundedRange T) (b : LowerBoundedRange T) (u : UpperBoundedRange T)
    (s : LowerBoundedSet T) (s' : UpperBoundedSet T) :
    (Any.interA m (.inner (.lbs s)) (.inner (.br r))).trail = r.fromQs m s.lowerBoundedRange ++
      (Any.interA m (.inner (.bs s.ranges)) (.inner (.br r))).trail ++
      ((BoundedSet.ofBR (r.commonFrom s.lowerBoundedRange)).addSetA m (s.ranges.interBR r)).trail ∧
    (Any.interA m (.inner (.ubs s')) (.inner (.br r))).trail = r.toQs m s'.upperBoundedRange ++
      (if (r.commonTo s'.upperBoundedRange).Hollow then [] else [(r.commonTo s'.upperBoundedRange).emptyQ]) ++
      (Any.interA m (.inner (.bs s'.ranges)) (.inner (.br r))).trail ++
      ((BoundedSet.ofBR (r.commonTo s'.upperBoundedRange)).addSetA m (s'.ranges.interBR r)).trail ∧
    (Any.interA m (.inner (.lbs s)) (.inner (.lbr b))).trail = m.pickQs s.lowerBoundedRange.start.b b.start.b ++
      (Any.interA m (.inner (.bs s.ranges)) (.inner (.lbr b))).trail ∧
    (Any.interA m (.inner (.ubs s')) (.inner (.ubr u))).trail = m.pickQs s'.upperBoundedRange.stop.b u.stop.b ++
      (Any.interA m (.inner (.bs s'.ranges)) (.inner (.ubr u))).trail ++
      ((UpperBoundedSet.ofUBR ⟨⟨s'.upperBoundedRange.stop.b.earlierStop u.stop.b⟩⟩).addSetA m (s'.ranges.interUBR u)).trail ∧
    (Any.interA m (.inner (.ubs s')) (.inner (.lbr b))).trail = BoundedRange.emptyQ ⟨b.start, s'.upperBoundedRange.stop⟩ ::
      ((if BoundedRange.Hollow ⟨b.start, s'.upperBoundedRange.stop⟩ then [] else
        [BoundedRange.emptyQ ⟨b.start, s'.upperBoundedRange.stop⟩]) ++
      (Any.interA m (.inner (.bs s'.ranges)) (.inner (.lbr b))).trail ++
      ((BoundedSet.ofBR ⟨b.start, s'.upperBoundedRange.stop⟩).addSetA m (s'.ranges.interLBR b)).trail) ∧
    (∀ c, (BoundedSet.ofBR ⟨s.lowerBoundedRange.start, u.stop⟩).addSet (s.ranges.interUBR u) = .ok c →
      (Any.interA m (.inner (.lbs s)) (.inner (.ubr u))).trail = BoundedRange.emptyQ ⟨s.lowerBoundedRange.start, u.stop⟩ ::
        ((if BoundedRange.Hollow ⟨s.lowerBoundedRange.start, u.stop⟩ then [] else
          [BoundedRange.emptyQ ⟨s.lowerBoundedRange.start, u.stop⟩]) ++
        (Any.interA m (.inner (.bs s.ranges)) (.inner (.ubr u))).trail ++
        ((BoundedSet.ofBR ⟨s.lowerBoundedRange.start, u.stop⟩).addSetA m (s.ranges.interUBR u)).trail ++
        c.ranges.map BoundedRange.emptyQ)) := by
  have i1 : ∀ s : BoundedSet T, (Any.interA m (.inner (.bs s)) (.inner (.br r))).trail = (s.interBRA m r).trail :=
    fun s => trail_bind_pure _ _
  have i2 : ∀ s : BoundedSet T, (Any.interA m (.inner (.bs s)) (.inner (.lbr b))).trail = (s.interLBRA m b).trail :=
    fun s => trail_bind_pure _ _
  have i3 : ∀ s : BoundedSet T, (Any.interA m (.inner (.bs s)) (.inner (.ubr u))).trail = (s.interUBRA m u).trail :=
    fun s => trail_bind_pure _ _
  simp only [i1, i2, i3]
  exact ⟨(trail_bind_pure _ _).trans (s.interBRA_trail r), (trail_bind_pure _ _).trans (s'.interBRA_trail r),
    (trail_bind_pure _ _).trans (s.interLBRA_trail b), (trail_bind_pure _ _).trans (s'.interUBRA_trail u),
    (trail_bind_pure _ _).trans (s'.interLBRA_trail b), fun c h => (trail_bind_pure _ _).trans (LowerBoundedSet.interUBRA_trail h)⟩

/-- C112: a bounded set and a set with one half-line: first all of the bounded set with the half-line; then, range by range of the
bounded set, the whole other set with it, and what that leaves is added to what is there. -/
theorem C112_inter_bounded (m : MaxVia) (s : BoundedSet T) (b : LowerBoundedSet T) (u : UpperBoundedSet T) :
    (Any.interA m (.inner (.bs s)) (.inner (.lbs b))).trail =
      (Any.interA m (.inner (.bs s)) (.inner (.lbr b.lowerBoundedRange))).trail ++
      loopQs (fun c p => (Any.interA m (.inner (.lbs b)) (.inner (.br p))).trail ++ match b.interBR p with
          | .ok d => (c.addSetA m d).trail
          | .panic _ => [])
        (fun c p => do c.addSet (← b.interBR p)) (s.interLBR b.lowerBoundedRange) s.ranges ∧
    (Any.interA m (.inner (.bs s)) (.inner (.ubs u))).trail =
      (Any.interA m (.inner (.bs s)) (.inner (.ubr u.upperBoundedRange))).trail ++
      loopQs (fun c p => (Any.interA m (.inner (.ubs u)) (.inner (.br p))).trail ++ match u.interBR p with
          | .ok d => (c.addSetA m d).trail
          | .panic _ => [])
        (fun c p => do c.addSet (← u.interBR p)) (s.interUBR u.upperBoundedRange) s.ranges := by
  have i1 : ∀ r, (Any.interA m (.inner (.lbs b)) (.inner (.br r))).trail = (b.interBRA m r).trail := fun s => trail_bind_pure _ _
  have i2 : ∀ r, (Any.interA m (.inner (.ubs u)) (.inner (.br r))).trail = (u.interBRA m r).trail := fun s => trail_bind_pure _ _
  have i3 : (Any.interA m (.inner (.bs s)) (.inner (.lbr b.lowerBoundedRange))).trail = (s.interLBRA m _).trail :=
    trail_bind_pure _ _
  have i4 : (Any.interA m (.inner (.bs s)) (.inner (.ubr u.upperBoundedRange))).trail = (s.interUBRA m _).trail :=
    trail_bind_pure _ _
  simp only [i1, i2, i3, i4]
  exact ⟨(trail_bind_pure _ _).trans (s.interLBSA_trail b), (trail_bind_pure _ _).trans (s.interUBSA_trail u)⟩

/-- C112: two sets with one half-line each. -/
theorem C112_inter_half (m : MaxVia) :
    (∀ (a b : LowerBoundedSet T) (c : BoundedSet T), a.ranges.interLBS b = .ok c →
      (Any.interA m (.inner (.lbs a)) (.inner (.lbs b))).trail =
        (Any.interA m (.inner (.lbs a)) (.inner (.lbr b.lowerBoundedRange))).trail ++
        (Any.interA m (.inner (.bs a.ranges)) (.inner (.lbs b))).trail ++
        ((a.interLBR b.lowerBoundedRange).addSetA m c).trail) ∧
    (∀ (a b c : UpperBoundedSet T) (d : BoundedSet T), a.interUBR b.upperBoundedRange = .ok c → b.ranges.interUBS a = .ok d →
      (Any.interA m (.inner (.ubs a)) (.inner (.ubs b))).trail =
        (Any.interA m (.inner (.ubs a)) (.inner (.ubr b.upperBoundedRange))).trail ++
        (Any.interA m (.inner (.bs b.ranges)) (.inner (.ubs a))).trail ++ (c.addSetA m d).trail) ∧
    (∀ (a : LowerBoundedSet T) (b : UpperBoundedSet T) (c d e : BoundedSet T), a.interUBR b.upperBoundedRange = .ok c →
      b.ranges.interLBS a = .ok d → c.retainNonEmpty.addSet d = .ok e →
      (Any.interA m (.inner (.lbs a)) (.inner (.ubs b))).trail =
        (Any.interA m (.inner (.lbs a)) (.inner (.ubr b.upperBoundedRange))).trail ++ c.ranges.map BoundedRange.emptyQ ++
        (Any.interA m (.inner (.bs b.ranges)) (.inner (.lbs a))).trail ++ (c.retainNonEmpty.addSetA m d).trail ++
        e.ranges.map BoundedRange.emptyQ) := by
  refine ⟨?_, ?_, ?_⟩
  · intro a b c h
    have i1 : (Any.interA m (.inner (.lbs a)) (.inner (.lbr b.lowerBoundedRange))).trail = (a.interLBRA m _).trail :=
      trail_bind_pure _ _
    have i2 : (Any.interA m (.inner (.bs a.ranges)) (.inner (.lbs b))).trail = (a.ranges.interLBSA m b).trail :=
      trail_bind_pure _ _
    rw [i1, i2]
    exact (trail_bind_pure _ _).trans (LowerBoundedSet.interLBSA_trail h)
  · intro a b c d h h'
    have i1 : (Any.interA m (.inner (.ubs a)) (.inner (.ubr b.upperBoundedRange))).trail = (a.interUBRA m _).trail :=
      trail_bind_pure _ _
    have i2 : (Any.interA m (.inner (.bs b.ranges)) (.inner (.ubs a))).trail = (b.ranges.interUBSA m a).trail :=
      trail_bind_pure _ _
    rw [i1, i2]
    exact (trail_bind_pure _ _).trans (UpperBoundedSet.interUBSA_trail h h')
  · intro a b c d e h h' h''
    have i1 : (Any.interA m (.inner (.lbs a)) (.inner (.ubr b.upperBoundedRange))).trail = (a.interUBRA m _).trail :=
      trail_bind_pure _ _
    have i2 : (Any.interA m (.inner (.bs b.ranges)) (.inner (.lbs a))).trail = (b.ranges.interLBSA m a).trail :=
      trail_bind_pure _ _
    rw [i1, i2]
    exact (trail_bind_pure _ _).trans (LowerBoundedSet.interUBSA_trail h h' h'')

/-- C112: an unbounded set is intersected half-line by half-line and then with its ranges: the half-line of the other's kind first,
`(-∞, b]` first for a bounded set.  Two unbounded sets: the parts of the second, in the order `(-∞, b]`, `[a, ∞)`, ranges, with the
whole of the first. -/
theorem C112_inter_unbounded (m : MaxVia) (p : PiecewiseUnboundedSet T) :
    (∀ (s c d : BoundedSet T), (s.interUBR p.upperBoundedRange).addSet (s.interLBR p.lowerBoundedRange) = .ok c →
      s.interBS p.ranges = .ok d →
      (Any.interA m (.inner (.bs s)) (.inner (.us (.piecewise p)))).trail =
        (Any.interA m (.inner (.bs s)) (.inner (.ubr p.upperBoundedRange))).trail ++
        (Any.interA m (.inner (.bs s)) (.inner (.lbr p.lowerBoundedRange))).trail ++
        ((s.interUBR p.upperBoundedRange).addSetA m (s.interLBR p.lowerBoundedRange)).trail ++
        (Any.interA m (.inner (.bs s)) (.inner (.bs p.ranges))).trail ++ (c.addSetA m d).trail) ∧
    (∀ (s e : LowerBoundedSet T) (c d : BoundedSet T), s.interUBR p.upperBoundedRange = .ok c →
      (s.interLBR p.lowerBoundedRange).addSet c = .ok e → p.ranges.interLBS s = .ok d →
      (Any.interA m (.inner (.lbs s)) (.inner (.us (.piecewise p)))).trail =
        (Any.interA m (.inner (.lbs s)) (.inner (.lbr p.lowerBoundedRange))).trail ++
        (Any.interA m (.inner (.lbs s)) (.inner (.ubr p.upperBoundedRange))).trail ++
        ((s.interLBR p.lowerBoundedRange).addSetA m c).trail ++
        (Any.interA m (.inner (.bs p.ranges)) (.inner (.lbs s))).trail ++ (e.addSetA m d).trail) ∧
    (∀ (s e f : UpperBoundedSet T) (c d : BoundedSet T), s.interUBR p.upperBoundedRange = .ok f →
      s.interLBR p.lowerBoundedRange = .ok c → f.addSet c = .ok e → p.ranges.interUBS s = .ok d →
      (Any.interA m (.inner (.ubs s)) (.inner (.us (.piecewise p)))).trail =
        (Any.interA m (.inner (.ubs s)) (.inner (.ubr p.upperBoundedRange))).trail ++
        (Any.interA m (.inner (.ubs s)) (.inner (.lbr p.lowerBoundedRange))).trail ++ (f.addSetA m c).trail ++
        (Any.interA m (.inner (.bs p.ranges)) (.inner (.ubs s))).trail ++ (e.addSetA m d).trail) ∧
    (∀ (s : PiecewiseUnboundedSet T) (a : UpperBoundedSet T) (b d : LowerBoundedSet T) (c : BoundedSet T),
      (UpperBoundedSet.ofUBR p.upperBoundedRange).interUS (.piecewise s) = .ok a →
      (LowerBoundedSet.ofLBR p.lowerBoundedRange).interUS (.piecewise s) = .ok b →
      p.ranges.interUS (.piecewise s) = .ok c → b.addSet c = .ok d →
      (Any.interA m (.inner (.us (.piecewise s))) (.inner (.us (.piecewise p)))).trail =
        (Any.interA m (.inner (.us (.piecewise s))) (.inner (.ubr p.upperBoundedRange))).trail ++
        (Any.interA m (.inner (.us (.piecewise s))) (.inner (.lbr p.lowerBoundedRange))).trail ++
        (Any.interA m (.inner (.us (.piecewise s))) (.inner (.bs p.ranges))).trail ++
        (b.addSetA m c).trail ++ (Any.unionA m (.inner (.ubs a)) (.inner (.lbs d))).trail) ∧
    ∀ s : Inner T, (Any.interA m (.inner s) (.inner (.us .full))).trail = (match s with | .br r => [r.emptyQ] | _ => []) := by
  refine ⟨?_, ?_, ?_, ?_, ?_⟩
  · intro s c d h h'
    have i1 : (Any.interA m (.inner (.bs s)) (.inner (.ubr p.upperBoundedRange))).trail = (s.interUBRA m _).trail :=
      trail_bind_pure _ _
    have i2 : (Any.interA m (.inner (.bs s)) (.inner (.lbr p.lowerBoundedRange))).trail = (s.interLBRA m _).trail :=
      trail_bind_pure _ _
    have i3 : (Any.interA m (.inner (.bs s)) (.inner (.bs p.ranges))).trail = (s.interBSA m _).trail := trail_bind_pure _ _
    rw [i1, i2, i3]
    exact (trail_bind_pure _ _).trans (BoundedSet.interUSA_trail h h')
  · intro s e c d h1 h2 h3
    have i1 : (Any.interA m (.inner (.lbs s)) (.inner (.ubr p.upperBoundedRange))).trail = (s.interUBRA m _).trail :=
      trail_bind_pure _ _
    have i2 : (Any.interA m (.inner (.lbs s)) (.inner (.lbr p.lowerBoundedRange))).trail = (s.interLBRA m _).trail :=
      trail_bind_pure _ _
    have i3 : (Any.interA m (.inner (.bs p.ranges)) (.inner (.lbs s))).trail = (p.ranges.interLBSA m s).trail :=
      trail_bind_pure _ _
    rw [i1, i2, i3]
    exact (trail_bind_pure _ _).trans (LowerBoundedSet.interUSA_trail h1 h2 h3)
  · intro s e f c d h1 h2 h3 h4
    have i1 : (Any.interA m (.inner (.ubs s)) (.inner (.ubr p.upperBoundedRange))).trail = (s.interUBRA m _).trail :=
      trail_bind_pure _ _
    have i2 : (Any.interA m (.inner (.ubs s)) (.inner (.lbr p.lowerBoundedRange))).trail = (s.interLBRA m _).trail :=
      trail_bind_pure _ _
    have i3 : (Any.interA m (.inner (.bs p.ranges)) (.inner (.ubs s))).trail = (p.ranges.interUBSA m s).trail :=
      trail_bind_pure _ _
    rw [i1, i2, i3]
    exact (trail_bind_pure _ _).trans (UpperBoundedSet.interUSA_trail h1 h2 h3 h4)
  · intro s a b d c h1 h2 h3 h4
    have i1 : (Any.interA m (.inner (.us (.piecewise s))) (.inner (.ubr p.upperBoundedRange))).trail =
        ((UpperBoundedSet.ofUBR p.upperBoundedRange).interUSA m (.piecewise s)).trail := trail_bind_pure _ _
    have i2 : (Any.interA m (.inner (.us (.piecewise s))) (.inner (.lbr p.lowerBoundedRange))).trail =
        ((LowerBoundedSet.ofLBR p.lowerBoundedRange).interUSA m (.piecewise s)).trail := trail_bind_pure _ _
    have i3 : (Any.interA m (.inner (.us (.piecewise s))) (.inner (.bs p.ranges))).trail =
        (p.ranges.interUSA m (.piecewise s)).trail := trail_bind_pure _ _
    have i4 : (Any.unionA m (.inner (.ubs a)) (.inner (.lbs d))).trail = (d.unionUBSA m a).trail :=
      (SetVal.unionA_any (.ubs a) (.lbs d)).trans (trail_bind_pure _ _)
    rw [i1, i2, i3, i4]
    exact (trail_bind_pure _ _).trans (UnboundedSet.interUSA_trail h1 h2 h3 h4)
  · intro s
    cases s with
    | br r =>
        show (do return Inner.bs (← (← BoundedSet.ofBRA r).interUSA m .full) : Asks T (Inner T)).trail = _
        rw [trail_bind_ok (BoundedSet.ofBRA_run r), BoundedSet.ofBRA_trail]
        rfl
    | us s => cases s <;> rfl
    | _ => rfl

/-- C112: with the operands exchanged, the same questions are asked in the same order, for every pair of types but two of the same
one: those impls forward to each other. -/
theorem C112_flipped (m : MaxVia) (a b : Inner T) (h : ¬ a.SameType b) :
    (Any.interA m (.inner a) (.inner b)).trail = (Any.interA m (.inner b) (.inner a)).trail := by
  cases a <;> cases b <;> first
    | exact absurd trivial h
    | rfl

/-- C112: the ranges of std ask what the crate types they are converted to ask. -/
theorem C112_std (m : MaxVia) (a b : Any T) :
    (Any.interA m a b).trail = (Any.interA m (.inner a.toInner) (.inner b.toInner)).trail ∧
    (Any.unionA m a b).trail = (Any.unionA m (.inner a.toInner) (.inner b.toInner)).trail ∧
    (Any.complementA m a).trail = (Any.complementA m (.inner a.toInner)).trail ∧
    (Any.disjointA m a b).trail = (Any.disjointA m (.inner a.toInner) (.inner b.toInner)).trail := by
  have hi : Any.interA m a b = Any.interA m (.inner a.toInner) (.inner b.toInner) := by
    rcases a with _ | _ | _ | _ | _ | _ | a <;> rcases b with _ | _ | _ | _ | _ | _ | b <;>
      first
      | rfl
      | (cases b <;> rfl)
  refine ⟨by rw [hi], ?_, ?_, by rw [Any.disjointA, hi]; rfl⟩
  · rcases a with _ | _ | _ | _ | _ | _ | a <;> rcases b with _ | _ | _ | _ | _ | _ | b <;>
      first
      | rfl
      | (cases a <;> rfl)
      | (cases b <;> rfl)
  · cases a <;> rfl

-- the complement of `0..5 ∪ 7..9`: one question for each range, and those of intersecting the two results
example : (Any.complementA .cmp (.inner (.bs ⟨[co 0 5]⟩)) : Asks Int (Inner Int)).trail = [.test .ge 5 0] ∧
    (Any.complementA .cmp (.inner (.bs ⟨[co 0 5, co 7 9]⟩)) : Asks Int (Inner Int)).trail.take 4 =
      [.test .ge 5 0, .test .ge 9 7, .cmp 7 0, .test .ge 5 7] ∧
    (Any.complementA .cmp (.inner (.bs ⟨[co 0 5, co 7 9]⟩)) : Asks Int (Inner Int)).trail.length = 18 ∧
    (co 0 5).complement = .ok (.piecewise ⟨⟨.excluded 0⟩, ⟨[]⟩, ⟨.included 5⟩⟩) := by decide +kernel

-- `(..0 ∪ 5..).intersection(3..9)`
example : (Any.interA .cmp (.inner (.us (.piecewise ⟨⟨.excluded 0⟩, ⟨[]⟩, ⟨.included 5⟩⟩))) (.range ⟨3, 9⟩) :
      Asks Int (Inner Int)).trail =
    [.test .ge 3 9, .cmp 9 0, .test .ge 3 0, .cmp 3 5, .test .ge 5 9, .test .ge 5 9] := by decide +kernel

-- the hypotheses of `C112_inter_half`, for `0..1 ∪ 5..` and `..7 ∪ 8..9`
example : LowerBoundedSet.interUBR (⟨⟨[co 0 1]⟩, ⟨.included 5⟩⟩ : LowerBoundedSet Int) ⟨.excluded 7⟩ = .ok ⟨[co 0 1, co 5 7]⟩ ∧
    BoundedSet.interLBS ⟨[co 8 9]⟩ (⟨⟨[co 0 1]⟩, ⟨.included 5⟩⟩ : LowerBoundedSet Int) = .ok ⟨[co 8 9]⟩ ∧
    BoundedSet.addSet ⟨[co 0 1, co 5 7]⟩ ⟨[co 8 9]⟩ = .ok ⟨[co 0 1, co 5 7, co 8 9]⟩ ∧
    (Any.interA .cmp (.inner (.lbs ⟨⟨[co 0 1]⟩, ⟨.included 5⟩⟩)) (.inner (.ubs ⟨⟨.excluded 7⟩, ⟨[co 8 9]⟩⟩)) :
      Asks Int (Inner Int)).trail.length = 44 := by decide +kernel

-- a range and a half-line; and two ranges, where the order does depend on the receiver
example : ¬ (Inner.br (co 0 5)).SameType (.lbr ⟨.included 3⟩) := fun h => h
example : (Any.interA .cmp (.range ⟨0, 5⟩) (.range ⟨3, 9⟩) : Asks Int (Inner Int)).trail = [.cmp 0 3, .cmp 5 9] ∧
    (Any.interA .cmp (.range ⟨3, 9⟩) (.range ⟨0, 5⟩) : Asks Int (Inner Int)).trail = [.cmp 3 0, .cmp 9 5] := by decide

end Rangetools
