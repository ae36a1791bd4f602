import Verif.Proofs.AsksTrace
import Verif.Spec.Samples

/-!
# C109 – C112: which questions the set algebra asks, and in which order
-/

set_option linter.unusedVariables false

namespace Rangetools
open Samples Asks
variable {S T : Type}

/-! ### C109 Bounds and ranges -/

/-- C109: recording the questions changes nothing else, and the pairs compared (C96, C102) are those of the questions. -/
theorem C109_recording {α : Type} (w : World S T) (x : Asks T α) (s : S) (l : List (Question T)) :
    x.exec w.recording (s, l) = ((x.exec w s).1, (x.exec w s).2.1, (x.exec w s).2.2, l ++ x.asked w s) ∧
    (x.asked w s).map Question.pair = (x.exec w s).2.1 :=
  ⟨exec_asked w x s l, asked_pairs w x s⟩

/-- C109, whatever the comparisons answer: to order two bounds of the same kind, one `partial_cmp` of their elements; of different
kinds, `==` first and `partial_cmp` only if that says no. -/
theorem C109_order_any (w : World S T) (s : S) (a b : Bound T) :
    (LowerBound.partialCmpA ⟨a⟩ ⟨b⟩).asked w s = (UpperBound.partialCmpA ⟨a⟩ ⟨b⟩).asked w s ∧
    (LowerBound.partialCmpA ⟨a⟩ ⟨b⟩).asked w s =
      if a.sameKind b then [.cmp a.value b.value]
      else .test .eq a.value b.value :: if (w.test s .eq a.value b.value).1 = some false then [.cmp a.value b.value] else [] := by
  have h : ∀ s (a b : T), ((Asks.cmp a b .done : Asks T _).asked w s) = [.cmp a b] := by
    intro s a b
    rw [asked_cmp]
    rcases w.cmp s a b with ⟨_ | r, s'⟩ <;> rfl
  have h' : ∀ (a b : T) (o : Option Ordering), (Asks.test .eq a b fun r => if r then .done o else .cmp a b .done).asked w s =
      .test .eq a b :: if (w.test s .eq a b).1 = some false then [.cmp a b] else [] := by
    intro a b o
    rw [asked_test]
    rcases w.test s .eq a b with ⟨_ | _ | _, s'⟩
    · rfl
    · simp [h]
    · rfl
  rcases a with a | a <;> rcases b with b | b <;>
    simp [LowerBound.partialCmpA, UpperBound.partialCmpA, Bound.sameKind, Bound.value, h, h'] <;> congr

section
variable [LinearOrder T]

/-- C109: comparisons that answer what a linear order says, whatever else they do, are asked the questions of `trail`, in that
order, and a beginning of them if one panics.  No other list describes them. -/
theorem C109_poses {α : Type} (x : Asks T α) (qs : List (Question T)) : x.Poses qs ↔ x.trail = qs := poses_iff

/-- C109: to pick the greater or lesser of two bounds, and what `>` asks. -/
theorem C109_bounds (m : MaxVia) (a b : LowerBound T) (c d : UpperBound T) :
    (a.maxA m b).trail = m.pickQs a.b b.b ∧ (a.minA m b).trail = m.pickQs a.b b.b ∧ (a.gtA b).trail = a.b.orderQs b.b ∧
    (c.maxA m d).trail = m.pickQs c.b d.b ∧ (c.minA m d).trail = m.pickQs c.b d.b :=
  ⟨a.maxA_trail b, a.minA_trail b, a.gtA_trail b, c.maxA_trail d, c.minA_trail d⟩

/-- C109, main statement: two ranges.  An intersection compares the starts, then the ends, the receiver's first; half-lines have
only one end to compare; a half-line of each kind gives nothing to compare.  `disjoint` goes on to ask whether what is common is
empty. -/
theorem C109_ranges (m : MaxVia) (a b : BoundedRange T) (l l' : LowerBoundedRange T) (u u' : UpperBoundedRange T) :
    a.isEmptyA.trail = [a.emptyQ] ∧
    (Any.interA m (.inner (.br a)) (.inner (.br b))).trail = m.pickQs a.start.b b.start.b ++ m.pickQs a.stop.b b.stop.b ∧
    (Any.interA m (.inner (.br a)) (.inner (.lbr l))).trail = m.pickQs a.start.b l.start.b ∧
    (Any.interA m (.inner (.lbr l)) (.inner (.br a))).trail = m.pickQs a.start.b l.start.b ∧
    (Any.interA m (.inner (.br a)) (.inner (.ubr u))).trail = m.pickQs a.stop.b u.stop.b ∧
    (Any.interA m (.inner (.ubr u)) (.inner (.br a))).trail = m.pickQs a.stop.b u.stop.b ∧
    (Any.interA m (.inner (.lbr l)) (.inner (.lbr l'))).trail = m.pickQs l.start.b l'.start.b ∧
    (Any.interA m (.inner (.ubr u)) (.inner (.ubr u'))).trail = m.pickQs u.stop.b u'.stop.b ∧
    (Any.interA m (.inner (.lbr l)) (.inner (.ubr u))).trail = [] ∧
    (Any.interA m (.inner (.ubr u)) (.inner (.lbr l))).trail = [] ∧
    (Any.disjointA m (.inner (.br a)) (.inner (.br b))).trail = a.overlapQs m b ∧
    (Any.disjointA m (.inner (.br a)) (.inner (.lbr l))).trail = a.fromQs m l ∧
    (Any.disjointA m (.inner (.br a)) (.inner (.ubr u))).trail = a.toQs m u ∧
    (Any.disjointA m (.inner (.lbr l)) (.inner (.ubr u))).trail = [BoundedRange.emptyQ ⟨l.start, u.stop⟩] := by
  have hm := MaxAgrees.all (T := T) m
  have e1 : (Any.interA m (.inner (.br a)) (.inner (.br b))).run = .ok (.br (a.common b)) := by
    rw [Any.interA_run hm, ← BoundedRange.interBR_common]; rfl
  have e2 : (Any.interA m (.inner (.br a)) (.inner (.lbr l))).run = .ok (.br (a.commonFrom l)) := by
    rw [Any.interA_run hm, ← BoundedRange.interLBR_common]; rfl
  have e3 : (Any.interA m (.inner (.br a)) (.inner (.ubr u))).run = .ok (.br (a.commonTo u)) := by
    rw [Any.interA_run hm, ← BoundedRange.interUBR_common]; rfl
  have t1 : (Any.interA m (.inner (.br a)) (.inner (.br b))).trail = m.pickQs a.start.b b.start.b ++ m.pickQs a.stop.b b.stop.b := by
    show (do return Inner.br (← a.interBRA m b) : Asks T (Inner T)).trail = _
    rw [trail_bind_ok (a.interBRA_run hm b), a.interBRA_trail b]; simp [BoundedRange.endsQs]
  have t2 : (Any.interA m (.inner (.br a)) (.inner (.lbr l))).trail = m.pickQs a.start.b l.start.b := by
    show (do return Inner.br (← a.interLBRA m l) : Asks T (Inner T)).trail = _
    rw [trail_bind_ok (a.interLBRA_run hm l), a.interLBRA_trail l]; simp
  have t3 : (Any.interA m (.inner (.br a)) (.inner (.ubr u))).trail = m.pickQs a.stop.b u.stop.b := by
    show (do return Inner.br (← a.interUBRA m u) : Asks T (Inner T)).trail = _
    rw [trail_bind_ok (a.interUBRA_run hm u), a.interUBRA_trail u]; simp
  refine ⟨a.isEmptyA_trail, t1, t2, t2, t3, t3, ?_, ?_, rfl, rfl, ?_, ?_, ?_, ?_⟩
  · show (do return Inner.lbr (← l.interLBRA m l') : Asks T (Inner T)).trail = _
    rw [trail_bind_ok (l.interLBRA_run hm l'), l.interLBRA_trail l']; simp
  · show (do return Inner.ubr (← u.interUBRA m u') : Asks T (Inner T)).trail = _
    rw [trail_bind_ok (u.interUBRA_run hm u'), u.interUBRA_trail u']; simp
  · rw [Any.disjointA, trail_bind_ok e1, t1]
    exact congrArg _ (BoundedRange.isEmptyA_trail _)
  · rw [Any.disjointA, trail_bind_ok e2, t2]
    exact congrArg _ (BoundedRange.isEmptyA_trail _)
  · rw [Any.disjointA, trail_bind_ok e3, t3]
    exact congrArg _ (BoundedRange.isEmptyA_trail _)
  · exact BoundedRange.isEmptyA_trail _

/-- C109: which operator `contains` uses.  A bounded range always asks about both ends, the start first. -/
theorem C109_contains (a : BoundedRange T) (l : LowerBoundedRange T) (u : UpperBoundedRange T) (t : T) :
    (a.containsA t).trail = [.test (if a.start.b.isIncluded then .ge else .gt) t a.start.b.value,
      .test (if a.stop.b.isIncluded then .le else .lt) t a.stop.b.value] ∧
    (l.containsA t).trail = [.test (if l.start.b.isIncluded then .ge else .gt) t l.start.b.value] ∧
    (u.containsA t).trail = [.test (if u.stop.b.isIncluded then .le else .lt) t u.stop.b.value] := by
  refine ⟨?_, ?_, ?_⟩
  · rcases a with ⟨⟨a | a⟩, ⟨b | b⟩⟩ <;> rfl
  · rcases l with ⟨⟨a | a⟩⟩ <;> rfl
  · rcases u with ⟨⟨a | a⟩⟩ <;> rfl

end

-- ends of the same and of different kinds, and how `max` is computed
example : (BoundedRange.interBRA .cmp (co 0 5) (cc 3 9)).trail = [.cmp 0 3, .test .eq 5 9, .cmp 5 9] ∧
    (BoundedRange.interBRA .lt (co 0 5) (cc 3 5)).trail = [.cmp 3 0, .test .eq 5 5] ∧
    ((co 0 5).containsA 7).trail = [.test .ge 7 0, .test .lt 7 5] := by decide +kernel

/-! ### C110 Bounded sets -/

section
variable [LinearOrder T]

/-- C110: adding an empty range asks whether it is empty, and no more. -/
theorem C110_add_empty (m : MaxVia) (s : BoundedSet T) (r : BoundedRange T) (h : r.Hollow) :
    (s.addRangeA m r).trail = [r.emptyQ] := BoundedSet.addRangeA_hollow h

/-- C110: adding a range that meets none of the set: each range of the set is asked, in order, whether it meets the new one; then
the starts are compared, in order, up to the first that lies behind the new one. -/
theorem C110_add_apart (m : MaxVia) (s : BoundedSet T) (r : BoundedRange T) (h : ¬ r.Hollow)
    (hs : ∀ p ∈ s.ranges, (p.common r).Hollow) :
    (s.addRangeA m r).trail = r.emptyQ :: (s.ranges.flatMap (fun p => p.overlapQs m r) ++
      (upToFirst (fun p => p.start.b.startsAfter r.start.b) s.ranges).flatMap fun p => p.start.b.orderQs r.start.b) :=
  BoundedSet.addRangeA_apart h hs

/-- C110: adding a range that meets the set: the ranges are asked up to the first that meets it, the two are merged (C109:
emptiness and overlap are asked again), and the result is added to the other ranges, from the beginning. -/
theorem C110_add_merge (m : MaxVia) (l l' : List (BoundedRange T)) (p r : BoundedRange T) (h : ¬ r.Hollow)
    (hl : ∀ q ∈ l, (q.common r).Hollow) (hp : ¬ (p.common r).Hollow) :
    (BoundedSet.addRangeA m ⟨l ++ p :: l'⟩ r).trail =
      r.emptyQ :: ((l ++ [p]).flatMap (fun q => q.overlapQs m r) ++ r.mergeQs m p ++
        (BoundedSet.addRangeA m ⟨l ++ l'⟩ (r.hull p)).trail) :=
  BoundedSet.addRangeA_merge h hl hp

/-- C110, main statement: a union of bounded sets adds the ranges of the second to the first one by one, in order. -/
theorem C110_union (m : MaxVia) (a c : BoundedSet T) (l : List (BoundedRange T)) (r : BoundedRange T)
    (h : (Any.inner (.bs a)).union (.inner (.bs ⟨l⟩)) = .ok (.inner (.bs c))) :
    (Any.unionA m (.inner (.bs a)) (.inner (.bs ⟨[]⟩))).trail = [] ∧
    (Any.unionA m (.inner (.bs a)) (.inner (.bs ⟨l ++ [r]⟩))).trail =
      (Any.unionA m (.inner (.bs a)) (.inner (.bs ⟨l⟩))).trail ++ (c.addRangeA m r).trail := by
  have key : ∀ b : BoundedSet T, (Any.unionA m (.inner (.bs a)) (.inner (.bs b))).trail = (a.addSetA m b).trail := by
    intro b
    show (do return Any.inner (← (do return SetVal.bs (← a.addSetA m b) : Asks T (SetVal T))).toInner : Asks T (Any T)).trail = _
    rw [trail_bind, run_bind, trail_bind]
    cases (a.addSetA m b).run <;> simp
  have hc : a.addSet ⟨l⟩ = .ok c := by
    rw [← Any.unionA_run (MaxAgrees.all .cmp)] at h
    have h' : (do return Any.inner (← (do return SetVal.bs (← a.addSetA .cmp ⟨l⟩) : Asks T (SetVal T))).toInner :
        Asks T (Any T)).run = .ok (.inner (.bs c)) := h
    rw [run_bind, run_bind, BoundedSet.addSetA_run (MaxAgrees.all .cmp)] at h'
    rcases hx : a.addSet ⟨l⟩ with x | x <;> rw [hx] at h'
    · simpa [SetVal.toInner] using h'
    · cases h'
  refine ⟨?_, ?_⟩
  · rw [key]; rfl
  · rw [key, key, BoundedSet.addSetA_trail_snoc hc]

/-- C110: the union of two ranges that are not empty.  At most twenty questions. -/
theorem C110_two_ranges (m : MaxVia) (a b : BoundedRange T) (ha : ¬ a.Hollow) (hb : ¬ b.Hollow) :
    (Any.unionA m (.inner (.br a)) (.inner (.br b))).trail =
      a.emptyQ :: b.emptyQ :: b.emptyQ :: (a.overlapQs m b ++
        if (a.common b).Hollow then a.start.b.orderQs b.start.b else b.mergeQs m a ++ [(b.hull a).emptyQ]) ∧
    (Any.unionA m (.inner (.br a)) (.inner (.br b))).trail.length ≤ 20 := by
  have hset : ∀ r : BoundedRange T, ¬ r.Hollow → (BoundedSet.ofBRA r).run = .ok ⟨[r]⟩ := by
    intro r hr
    rw [BoundedSet.ofBRA_run, BoundedSet.ofBR, BoundedRange.isEmpty_hollow]
    simp [hr]
  have hs : ∀ r : BoundedRange T, ¬ r.Hollow → (Any.inner (.br r)).toSetA.run = .ok (.bs ⟨[r]⟩) ∧
      (Any.inner (.br r)).toSetA.trail = [r.emptyQ] := by
    intro r hr
    constructor
    · show (do return SetVal.bs (← BoundedSet.ofBRA r) : Asks T (SetVal T)).run = _
      rw [run_bind, hset r hr]; rfl
    · show (do return SetVal.bs (← BoundedSet.ofBRA r) : Asks T (SetVal T)).trail = _
      rw [trail_bind_ok (hset r hr), BoundedSet.ofBRA_trail]; rfl
  have e : (Any.unionA m (.inner (.br a)) (.inner (.br b))).trail =
      a.emptyQ :: b.emptyQ :: (BoundedSet.addRangeA m ⟨[a]⟩ b).trail := by
    show (do
      let s ← (Any.inner (.br a)).toSetA
      let o ← (Any.inner (.br b)).toSetA
      return Any.inner (← s.unionA m o).toInner : Asks T (Any T)).trail = _
    rw [trail_bind_ok (hs a ha).1, trail_bind_ok (hs b hb).1, (hs a ha).2, (hs b hb).2]
    show [a.emptyQ] ++ ([b.emptyQ] ++ (do return Any.inner (← (do return SetVal.bs (← BoundedSet.addSetA m ⟨[a]⟩ ⟨[b]⟩) :
      Asks T (SetVal T))).toInner : Asks T (Any T)).trail) = _
    have e' : (BoundedSet.addSetA m ⟨[a]⟩ ⟨[b]⟩).trail = (BoundedSet.addRangeA m ⟨[a]⟩ b).trail := by
      have := BoundedSet.addSetA_trail_snoc (m := m) (a := ⟨[a]⟩) (l := []) (r := b) rfl
      simpa [BoundedSet.addSetA, fold] using this
    rw [trail_bind, run_bind, trail_bind, e']
    cases (BoundedSet.addSetA m ⟨[a]⟩ ⟨[b]⟩).run <;> simp
  have e2 : (Any.unionA m (.inner (.br a)) (.inner (.br b))).trail =
      a.emptyQ :: b.emptyQ :: b.emptyQ :: (a.overlapQs m b ++
        if (a.common b).Hollow then a.start.b.orderQs b.start.b else b.mergeQs m a ++ [(b.hull a).emptyQ]) := by
    rw [e]
    by_cases hc : (a.common b).Hollow
    · rw [BoundedSet.addRangeA_apart hb (by simpa using hc)]
      simp [hc, upToFirst]
    · have := BoundedSet.addRangeA_merge (m := m) (l := []) (l' := []) hb (by simp) hc
      simp only [List.nil_append] at this
      rw [this]
      have h' : (BoundedSet.addRangeA m ⟨[]⟩ (b.hull a)).trail = [(b.hull a).emptyQ] := by
        by_cases hh : (b.hull a).Hollow
        · exact BoundedSet.addRangeA_hollow hh
        · rw [BoundedSet.addRangeA_apart hh (by simp)]; rfl
      simp [hc, h']
  refine ⟨e2, ?_⟩
  have ho : ∀ x y : Bound T, (x.orderQs y).length ≤ 2 := by
    intro x y
    unfold Bound.orderQs
    split
    · simp
    · split <;> simp
  have hp : ∀ x y : Bound T, (m.pickQs x y).length ≤ 2 := by
    intro x y
    cases m
    · exact ho x y
    · exact ho y x
  rw [e2]
  have h1 := hp a.start.b b.start.b
  have h2 := hp a.stop.b b.stop.b
  have h3 := hp b.start.b a.start.b
  have h4 := hp b.stop.b a.stop.b
  have h5 := ho a.start.b b.start.b
  split <;> simp only [BoundedRange.overlapQs, BoundedRange.endsQs, BoundedRange.mergeQs, List.length_cons, List.length_append,
    List.length_nil] <;> omega

/-- C110: the intersection of a bounded set with a range first intersects every range of the set, then asks of each result
whether it is empty.  (A half-line: one end instead of two.) -/
theorem C110_inter_range (m : MaxVia) (s : BoundedSet T) (r : BoundedRange T) (l : LowerBoundedRange T) (u : UpperBoundedRange T) :
    (Any.interA m (.inner (.bs s)) (.inner (.br r))).trail =
      s.ranges.flatMap (fun p => p.endsQs m r) ++ s.ranges.map (fun p => (p.common r).emptyQ) ∧
    (Any.interA m (.inner (.bs s)) (.inner (.lbr l))).trail =
      s.ranges.flatMap (fun p => m.pickQs p.start.b l.start.b) ++ s.ranges.map (fun p => (p.commonFrom l).emptyQ) ∧
    (Any.interA m (.inner (.bs s)) (.inner (.ubr u))).trail =
      s.ranges.flatMap (fun p => m.pickQs p.stop.b u.stop.b) ++ s.ranges.map (fun p => (p.commonTo u).emptyQ) := by
  have hm := MaxAgrees.all (T := T) m
  refine ⟨?_, ?_, ?_⟩
  · show (do return Inner.bs (← s.interBRA m r) : Asks T (Inner T)).trail = _
    rw [trail_bind_ok (s.interBRA_run hm r), s.interBRA_trail r]; simp
  · show (do return Inner.bs (← s.interLBRA m l) : Asks T (Inner T)).trail = _
    rw [trail_bind_ok (s.interLBRA_run hm l), s.interLBRA_trail l]; simp
  · show (do return Inner.bs (← s.interUBRA m u) : Asks T (Inner T)).trail = _
    rw [trail_bind_ok (s.interUBRA_run hm u), s.interUBRA_trail u]; simp

/-- C110: the intersection of two bounded sets goes through the ranges of the first.  Each is intersected with the whole second
set, and the results are added to those found before. -/
theorem C110_inter (m : MaxVia) (b c : BoundedSet T) (l : List (BoundedRange T)) (p : BoundedRange T)
    (h : BoundedSet.interBS ⟨l⟩ b = .ok c) :
    (BoundedSet.interBSA m ⟨[]⟩ b).trail = [] ∧
    (BoundedSet.interBSA m ⟨l ++ [p]⟩ b).trail = (BoundedSet.interBSA m ⟨l⟩ b).trail ++
      (b.ranges.flatMap (fun q => q.endsQs m p) ++ b.ranges.map (fun q => (q.common p).emptyQ)) ++
      (c.addSetA m (b.interBR p)).trail := by
  have hm := MaxAgrees.all (T := T) m
  refine ⟨rfl, ?_⟩
  rw [BoundedSet.interBSA, trail_fold_snoc (c := c) (by rw [← h, ← BoundedSet.interBSA_run hm]; rfl),
    trail_bind_ok (b.interBRA_run hm p), b.interBRA_trail p]
  simp only [List.append_assoc, BoundedSet.interBSA]

end

-- `(0..5).union(3..9)`: 14 questions; with a gap between them, 7
example :
    (Any.unionA .cmp (.range ⟨0, 5⟩) (.range ⟨3, 9⟩) : Asks Int (Any Int)).trail =
      [.test .ge 0 5, .test .ge 3 9, .test .ge 3 9, .cmp 0 3, .cmp 5 9, .test .ge 3 5, .test .ge 0 5, .test .ge 3 9,
        .cmp 3 0, .cmp 9 5, .test .ge 3 5, .cmp 3 0, .cmp 9 5, .test .ge 0 9] ∧
    (Any.unionA .cmp (.range ⟨0, 5⟩) (.range ⟨7, 9⟩) : Asks Int (Any Int)).trail =
      [.test .ge 0 5, .test .ge 7 9, .test .ge 7 9, .cmp 0 7, .cmp 5 9, .test .ge 7 5, .cmp 0 7] := by decide +kernel

-- twenty questions, when every pair of ends is of different kinds
example : (Any.unionA .cmp (.inner (.br (cc 0 5))) (.inner (.br ⟨.excluded 3, .excluded 9⟩)) : Asks Int (Any Int)).trail.length = 20 := by
  decide +kernel

example : ¬ (co 0 5).Hollow ∧ ¬ (co 3 9).Hollow ∧ ¬ ((co 0 5).common (co 3 9)).Hollow ∧ ((co 0 5).common (co 7 9)).Hollow ∧
    (co 3 3).Hollow ∧ ¬ (cc 3 3).Hollow := by decide

end Rangetools
