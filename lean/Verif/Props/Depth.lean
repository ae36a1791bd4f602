import Verif.Model.Depth
import Verif.Props.Reach
import Verif.Props.Size

/-!
# C74: how deep the recursive functions nest
-/

namespace Rangetools
open Iv Samples

theorem hull_overlap {α : Type} [LinearOrder α] {a b p p' r r' : α} (hq : a < b) (hd : b ≤ p ∨ p' ≤ a)
    (h : max p r < min p' r') : max a (min r p) < min b (max r' p') ↔ max a r < min b r' := by
  simp only [max_lt_iff, lt_min_iff] at *
  simp only [min_lt_iff, lt_max_iff]
  obtain ⟨⟨h1, h2⟩, h3, h4⟩ := h
  refine ⟨fun ⟨⟨_, h6⟩, h7, _⟩ => ⟨⟨hq, ?_⟩, ?_, h4⟩, fun ⟨⟨_, h6⟩, h7, _⟩ => ⟨⟨hq, Or.inl h6⟩, Or.inl h7, Or.inl (Or.inl h4)⟩⟩
  · rcases h6 with h6 | h6
    · exact h6
    · rcases hd with hd | hd
      · exact absurd hd h6.not_ge
      · exact (h2.trans_le hd).trans hq
  · rcases h7 with h7 | h7
    · exact h7
    · rcases hd with hd | hd
      · exact (hq.trans_le hd).trans h3
      · exact absurd hd h7.not_ge

variable {T : Type} [LinearOrder T]

theorem disjoint_of_eraseIdx {l : List (BoundedRange T)} (hl : Canon (l.map BoundedRange.iv)) {i : Nat}
    (hi' : i < l.length) {q : BoundedRange T} (hq : q ∈ l.eraseIdx i) :
    lo q.start < hi q.stop ∧ (hi q.stop ≤ lo l[i].start ∨ hi l[i].stop ≤ lo q.start) := by
  refine ⟨hl.1 _ (List.mem_map_of_mem ((List.eraseIdx_sublist _ _).subset hq)), ?_⟩
  have hp := hl.2
  rw [List.pairwise_map] at hp
  rw [List.eraseIdx_eq_take_drop_succ] at hq
  have e : l = l.take i ++ l[i] :: l.drop (i + 1) := by
    rw [List.getElem_cons_drop, List.take_append_drop]
  rw [e, List.pairwise_append, List.pairwise_cons] at hp
  rcases List.mem_append.mp hq with h | h
  · exact Or.inl (hp.2.2 q h _ List.mem_cons_self)
  · exact Or.inr (hp.2.1.1 q h)

omit [LinearOrder T] in
theorem countP_eraseIdx {α : Type} {l : List α} (P : α → Bool) {i : Nat} (h : i < l.length) (hP : P l[i] = true) :
    l.countP P = (l.eraseIdx i).countP P + 1 := by
  rw [← (List.getElem_cons_eraseIdx_perm h).countP_eq, List.countP_cons_of_pos hP]

omit [LinearOrder T] in
theorem countP_findIdx_none {α : Type} {l : List α} {P : α → Bool} (h : l.findIdx? P = none) : l.countP P = 0 := by
  rw [List.countP_eq_zero]
  intro a ha
  simp [List.findIdx?_eq_none_iff.mp h a ha]

/-- C74. Adding a range to a set whose pieces are in order nests once for every piece it meets, and once more. -/
theorem C74_add_range (s : BoundedSet T) (hs : Pieces s.ranges) (r : BoundedRange T) :
    s.addRangeDepth r = s.ranges.countP (fun p => p.intersectsBR r) + 1 := by
  rw [pieces_iff] at hs
  induction hn : s.ranges.length using Nat.strong_induction_on generalizing s r with
  | _ n ih =>
    rw [BoundedSet.addRangeDepth]
    by_cases hr : r.isEmpty = true
    · rw [if_neg (by simp [hr])]
      rw [List.countP_eq_zero.mpr]
      intro p _
      rw [BoundedRange.intersectsBR_iff, not_lt]
      exact (min_le_right _ _).trans ((r.isEmpty_iff.mp hr).trans (le_max_right _ _))
    · rw [if_pos (by simp [hr])]
      split
      · rename_i index hidx
        obtain ⟨hlt, hint, _⟩ := List.findIdx?_eq_some_iff_getElem.mp hidx
        have hget : vdIndex s.ranges index = .ok s.ranges[index] := by
          simp [vdIndex, unwrap, List.getElem?_eq_getElem hlt]
        rw [hget, Res.ok_bind, BoundedRange.combine_eq hint]
        have hlen : (s.ranges.eraseIdx index).length < n := by
          rw [List.length_eraseIdx_of_lt hlt]; omega
        simp only
        rw [ih _ hlen ⟨s.ranges.eraseIdx index⟩ (hs.sublist ((List.eraseIdx_sublist _ _).map _)) _ rfl,
          countP_eraseIdx _ hlt hint]
        congr 2
        apply List.countP_congr
        intro q hq
        obtain ⟨h1, h2⟩ := disjoint_of_eraseIdx hs hlt hq
        rw [BoundedRange.intersectsBR_iff] at hint
        rw [BoundedRange.intersectsBR_iff, BoundedRange.intersectsBR_iff]
        simpa using hull_overlap h1 h2 hint
      · rename_i hnone
        rw [countP_findIdx_none hnone]

/-- C74. Merging the pieces of an unbounded set nests once for every piece that meets a half-line, and once
more. -/
theorem C74_defragment (s : PiecewiseUnboundedSet T) (hs : Pieces s.ranges.ranges) :
    s.defragmentDepth = s.ranges.ranges.countP (fun p => s.upperBoundedRange.intersectsBR p ||
      s.lowerBoundedRange.intersectsBR p) + 1 := by
  rw [pieces_iff] at hs
  induction hn : s.ranges.ranges.length using Nat.strong_induction_on generalizing s with
  | _ n ih =>
    rw [PiecewiseUnboundedSet.defragmentDepth]
    split
    · rename_i index hidx
      obtain ⟨hlt, hint, _⟩ := List.findIdx?_eq_some_iff_getElem.mp hidx
      have hlen : (s.ranges.ranges.eraseIdx index).length < n := by
        rw [List.length_eraseIdx_of_lt hlt]; omega
      rw [List.getElem?_eq_getElem hlt]
      simp only
      rw [ih _ hlen _ (hs.sublist ((List.eraseIdx_sublist _ _).map _)) rfl,
        countP_eraseIdx _ hlt (by rw [hint, Bool.true_or])]
      congr 2
      apply List.countP_congr
      intro q hq
      obtain ⟨h1, h2⟩ := disjoint_of_eraseIdx hs hlt hq
      rw [UpperBoundedRange.intersectsBR_iff, lt_min_iff] at hint
      rw [Bool.or_eq_true, Bool.or_eq_true, UpperBoundedRange.intersectsBR_iff, UpperBoundedRange.intersectsBR_iff]
      refine or_congr_left ?_
      simp only [hi_max, lt_min_iff, lt_max_iff]
      refine and_congr_right fun _ => ⟨fun h => h.elim id fun h3 => ?_, Or.inl⟩
      exact h1.trans_le ((h2.resolve_right h3.not_ge).trans hint.2.le)
    · rename_i hnone
      split
      · rename_i index hidx
        obtain ⟨hlt, hint, _⟩ := List.findIdx?_eq_some_iff_getElem.mp hidx
        have hlen : (s.ranges.ranges.eraseIdx index).length < n := by
          rw [List.length_eraseIdx_of_lt hlt]; omega
        rw [List.getElem?_eq_getElem hlt]
        simp only
        rw [ih _ hlen _ (hs.sublist ((List.eraseIdx_sublist _ _).map _)) rfl,
          countP_eraseIdx _ hlt (by rw [hint, Bool.or_true])]
        congr 2
        apply List.countP_congr
        intro q hq
        obtain ⟨h1, h2⟩ := disjoint_of_eraseIdx hs hlt hq
        rw [LowerBoundedRange.intersectsBR_iff, max_lt_iff] at hint
        rw [Bool.or_eq_true, Bool.or_eq_true, LowerBoundedRange.intersectsBR_iff, LowerBoundedRange.intersectsBR_iff]
        refine or_congr_right ?_
        simp only [lo_min, max_lt_iff, min_lt_iff]
        refine and_congr_right fun _ => ⟨fun h => h.elim id fun h3 => ?_, Or.inl⟩
        exact hint.2.trans_le ((h2.resolve_left h3.not_ge).trans h1.le)
      · rename_i hnone'
        rw [List.countP_eq_zero.mpr]
        intro p hp
        simp [List.findIdx?_eq_none_iff.mp hnone p hp, List.findIdx?_eq_none_iff.mp hnone' p hp]

/-- C74. With or without the invariant, and for any comparison functions, the depth is at most the number of
pieces plus one. -/
theorem C74_bound {T : Type} [LE T] [LT T] [DecidableLE T] [DecidableLT T] [Ord T] [BEq T] :
    (∀ (s : BoundedSet T) (r : BoundedRange T), s.addRangeDepth r ≤ s.ranges.length + 1) ∧
    ∀ s : PiecewiseUnboundedSet T, s.defragmentDepth ≤ s.ranges.ranges.length + 1 := by
  constructor
  · intro s r
    induction hn : s.ranges.length using Nat.strong_induction_on generalizing s r with
    | _ n ih =>
      rw [BoundedSet.addRangeDepth]
      split
      · split
        · rename_i index hidx
          obtain ⟨hlt, -⟩ := List.findIdx?_eq_some_iff_getElem.mp hidx
          split
          · have := ih (s.ranges.eraseIdx index).length (by rw [List.length_eraseIdx_of_lt hlt]; omega)
              ⟨s.ranges.eraseIdx index⟩ ‹_› rfl
            rw [List.length_eraseIdx_of_lt hlt] at this
            omega
          · omega
        · omega
      · omega
  · intro s
    induction hn : s.ranges.ranges.length using Nat.strong_induction_on generalizing s with
    | _ n ih =>
      have key : ∀ index < s.ranges.ranges.length, ∀ s' : PiecewiseUnboundedSet T,
          s'.ranges.ranges = s.ranges.ranges.eraseIdx index → s'.defragmentDepth + 1 ≤ n + 1 := by
        intro index hlt s' hs'
        have e : s'.ranges.ranges.length = n - 1 := by rw [hs', List.length_eraseIdx_of_lt hlt, hn]
        have := ih (n - 1) (by omega) s' e
        omega
      rw [PiecewiseUnboundedSet.defragmentDepth]
      split
      · rename_i index hidx
        obtain ⟨hlt, -⟩ := List.findIdx?_eq_some_iff_getElem.mp hidx
        split
        · exact key index hlt _ rfl
        · omega
      · split
        · rename_i index hidx
          obtain ⟨hlt, -⟩ := List.findIdx?_eq_some_iff_getElem.mp hidx
          split
          · exact key index hlt _ rfl
          · omega
        · omega

/-! ### No fixed stack is enough -/

theorem comb_pieces (n : Nat) : Pieces (ofPairs (comb 0 n)).ranges := ofPairs_normal (canon_comb 0 n)

theorem union_bs_range (s : BoundedSet T) (r : Range T) (h : r.start < r.stop) :
    (Any.inner (.bs s)).union (.range r) = (do return .inner (.bs (← s.addRange (.ofRange r)))) := by
  have e : BoundedSet.ofBR (.ofRange r) = ⟨[BoundedRange.ofRange r]⟩ := by
    rw [BoundedSet.ofBR, if_neg]
    rw [Bool.not_eq_true]
    exact decide_eq_false (not_le.mpr h)
  have h' : (Any.inner (.bs s)).union (.range r) =
      (do return .inner (.bs (← s.addSet (BoundedSet.ofBR (.ofRange r))))) := by
    change ((s.addSet (BoundedSet.ofBR (.ofRange r)) >>= fun c => pure (SetVal.bs c)) >>= fun v =>
      pure (Any.inner v.toInner)) = _
    cases s.addSet (BoundedSet.ofBR (.ofRange r)) <;> rfl
  rw [h', e, BoundedSet.addSet, List.foldlM_cons]
  cases s.addRange (.ofRange r) <;> rfl

theorem union_us_rangeTo (p : PiecewiseUnboundedSet T) (r : RangeTo T) :
    (Any.inner (.us (.piecewise p))).union (.rangeTo r) = (do return .inner (.us (← (UnboundedSet.piecewise
      { p with upperBoundedRange := ⟨p.upperBoundedRange.stop.max (.excluded r.stop)⟩ }).defragment))) := by
  change ((((UnboundedSet.piecewise { p with upperBoundedRange :=
      ⟨p.upperBoundedRange.stop.max (.excluded r.stop)⟩ }).defragment >>= fun set =>
    set.unionBS BoundedSet.empty) >>= fun c => pure (SetVal.us c)) >>= fun v => pure (Any.inner v.toInner)) = _
  cases (UnboundedSet.piecewise { p with upperBoundedRange :=
      ⟨p.upperBoundedRange.stop.max (.excluded r.stop)⟩ }).defragment <;> rfl

/-- C74. For every `n` a program can build a `BoundedSet` and a range whose union nests more than `n` deep, and an
unbounded set and a half-line whose union does. -/
theorem C74_no_limit (n : Nat) :
    (∃ (s : BoundedSet Int) (r : Range Int), Reachable (.inner (.bs s)) ∧ s.ranges.length = n ∧
      (Any.inner (.bs s)).union (.range r) = (do return .inner (.bs (← s.addRange (.ofRange r)))) ∧
      s.addRangeDepth (.ofRange r) = n + 1) ∧
    ∃ (p q : PiecewiseUnboundedSet Int) (r : RangeTo Int), Reachable (.inner (.us (.piecewise p))) ∧
      p.ranges.ranges.length = n ∧
      q = { p with upperBoundedRange := ⟨p.upperBoundedRange.stop.max (UpperBound.excluded r.stop)⟩ } ∧
      (Any.inner (.us (.piecewise p))).union (.rangeTo r) =
        (do return .inner (.us (← (UnboundedSet.piecewise q).defragment))) ∧
      q.defragmentDepth = n + 1 := by
  constructor
  · refine ⟨ofPairs (comb 0 n), ⟨0, 2 * n + 1⟩, (C73_reachable_iff_normal _).mpr (comb_pieces n), by simp [ofPairs, comb],
      ?_, ?_⟩
    · exact union_bs_range _ _ (by dsimp only; omega)
    · rw [C74_add_range _ (comb_pieces n), List.countP_eq_length.mpr]
      · simp [ofPairs, comb]
      · intro q hq
        obtain ⟨p, hp, rfl⟩ := List.mem_map.mp hq
        obtain ⟨i, hi', rfl⟩ := List.mem_map.mp hp
        rw [List.mem_range] at hi'
        rw [BoundedRange.intersectsBR_iff]
        simp only [co, BoundedRange.ofRange, LowerBound.included, UpperBound.excluded, lo, hi]
        simp only [max_lt_iff, lt_min_iff, cut_false_lt]
        omega
  · refine ⟨⟨io 0, ofPairs (comb 0 n), ci (2 * n)⟩, _, ⟨2 * n⟩, (C73_reachable_iff_normal _).mpr ?_, by simp [ofPairs, comb],
      rfl, union_us_rangeTo _ _, ?_⟩
    · refine ⟨comb_pieces n, fun r hr => ?_, fun r hr => ?_, ?_⟩
      · obtain ⟨p, hp, rfl⟩ := List.mem_map.mp hr
        obtain ⟨i, hi', rfl⟩ := List.mem_map.mp hp
        rw [List.mem_range] at hi'
        change (0 : Int) + 2 * i + 1 ≤ 2 * n
        omega
      · obtain ⟨p, hp, rfl⟩ := List.mem_map.mp hr
        obtain ⟨i, hi', rfl⟩ := List.mem_map.mp hp
        change (0 : Int) ≤ 0 + 2 * i
        omega
      · change (0 : Int) ≤ 2 * n
        omega
    · rw [C74_defragment _ (comb_pieces n), List.countP_eq_length.mpr]
      · simp [ofPairs, comb]
      · intro q hq
        obtain ⟨p, hp, rfl⟩ := List.mem_map.mp hq
        obtain ⟨i, hi', rfl⟩ := List.mem_map.mp hp
        rw [List.mem_range] at hi'
        rw [Bool.or_eq_true, UpperBoundedRange.intersectsBR_iff, hi_max]
        simp only [co, io, LowerBound.included, UpperBound.excluded, lo, hi]
        simp only [lt_min_iff, lt_max_iff, cut_false_lt]
        omega

example : (ofPairs (comb 0 3)).addRangeDepth (co 2 5) = 3 ∧
    (ofPairs (comb 0 3)).addRange (co 2 5) = .ok ⟨[co 0 1, co 2 5]⟩ := by decide +kernel

end Rangetools
