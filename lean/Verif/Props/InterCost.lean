import Verif.Model.InterCost
import Verif.Props.Cost

/-!
# C85: how much work an intersection of bounded sets does
-/

namespace Rangetools
open Iv Samples
variable {T : Type} [LinearOrder T]

/-! ### Adding at the end -/

theorem Pieces.of_append_left {l m : List (BoundedRange T)} (h : Pieces (l ++ m)) : Pieces l :=
  ⟨fun r hr => h.1 r (List.mem_append_left _ hr), (List.pairwise_append.mp h.2).1⟩

theorem BoundedSet.addRange_end (s : BoundedSet T) (r : BoundedRange T) (h : Pieces (s.ranges ++ [r])) :
    s.addRange r = .ok ⟨s.ranges ++ [r]⟩ ∧ s.addRangeDepth r = 1 ∧ s.addRangeTests r = 2 * s.ranges.length := by
  have hr : r.isEmpty = false := h.1 r (by simp)
  have hlt : ∀ p ∈ s.ranges, hi p.stop ≤ lo r.start := fun p hp =>
    (noOverlap_iff _ _).mp ((List.pairwise_append.mp h.2).2.2 p hp r (by simp))
  have h1 : s.ranges.findIdx? (fun range => range.intersectsBR r) = none := by
    rw [List.findIdx?_eq_none_iff]
    intro p hp
    rw [Bool.eq_false_iff, Ne, BoundedRange.intersectsBR_iff, not_lt]
    exact (min_le_left _ _).trans ((hlt p hp).trans (le_max_right _ _))
  have h2 : s.ranges.findIdx? (fun range => range.start.gt r.start) = none := by
    rw [List.findIdx?_eq_none_iff]
    intro p hp
    rw [Bool.eq_false_iff, Ne, LowerBound.gt_iff, not_lt]
    exact ((BoundedRange.isEmpty_eq_false_iff p).mp (h.1 p (List.mem_append_left _ hp))).le.trans (hlt p hp)
  refine ⟨?_, ?_, ?_⟩
  · rw [BoundedSet.addRange, if_pos (by simp [hr])]
    split
    · rename_i hidx; rw [h1] at hidx; cases hidx
    · simp [h2, vdInsert]
  · rw [BoundedSet.addRangeDepth, if_pos (by simp [hr])]
    split
    · rename_i hidx; rw [h1] at hidx; cases hidx
    · rfl
  · rw [BoundedSet.addRangeTests, if_pos (by simp [hr])]
    split
    · rename_i hidx; rw [h1] at hidx; cases hidx
    · rw [positionTests, h2]; simp only; omega

/-- C85. Pieces that come in order, after all that is there, are only appended: one activation each, and each
looks twice at every piece there is by then. -/
theorem C85_append (s o : BoundedSet T) (h : Pieces (s.ranges ++ o.ranges)) :
    s.addSet o = .ok ⟨s.ranges ++ o.ranges⟩ ∧ s.addAllCalls o.ranges = o.ranges.length ∧
      s.addAllTests o.ranges + o.ranges.length = o.ranges.length * (2 * s.ranges.length + o.ranges.length) := by
  obtain ⟨l⟩ := o
  rw [BoundedSet.addSet]
  simp only at h ⊢
  induction l generalizing s with
  | nil => simp [BoundedSet.addAllCalls, BoundedSet.addAllTests]
  | cons r rs ih =>
    rw [List.append_cons] at h
    obtain ⟨h1, h2, h3⟩ := s.addRange_end r h.of_append_left
    obtain ⟨i1, i2, i3⟩ := ih ⟨s.ranges ++ [r]⟩ h
    refine ⟨?_, ?_, ?_⟩
    · rw [List.foldlM_cons, h1, Res.ok_bind, i1]; simp
    · rw [BoundedSet.addAllCalls, h1, h2]; simp only [i2, List.length_cons]; omega
    · rw [BoundedSet.addAllTests, h1, h3]
      simp only [List.length_append, List.length_cons, List.length_nil] at i3 ⊢
      have e : (rs.length + 1) * (2 * s.ranges.length + (rs.length + 1)) =
        rs.length * (2 * (s.ranges.length + (0 + 1)) + rs.length) + 2 * s.ranges.length + 1 := by ring
      omega

/-! ### The loop -/

/-- The non-empty meets of two lists of pieces, in the order in which the two nested loops visit them. -/
def meets (l m : List (BoundedRange T)) : List (BoundedRange T) :=
  l.flatMap fun r => (m.map fun p => p.interBR r).filter fun q => !q.isEmpty

theorem interBS_ranges (r : BoundedRange T) (b : BoundedSet T) : (r.interBS b).ranges = meets [r] b.ranges := by
  simp [meets, BoundedRange.interBS, BoundedSet.interBR, BoundedSet.retainNonEmpty]

theorem mem_meets {l m : List (BoundedRange T)} {q : BoundedRange T} :
    q ∈ meets l m ↔ (∃ r ∈ l, ∃ p ∈ m, p.interBR r = q) ∧ q.isEmpty = false := by
  simp only [meets, List.mem_flatMap, List.mem_filter, List.mem_map, Bool.not_eq_true']
  constructor
  · rintro ⟨r, hr, ⟨p, hp, rfl⟩, hq⟩
    exact ⟨⟨r, hr, p, hp, rfl⟩, hq⟩
  · rintro ⟨⟨r, hr, p, hp, rfl⟩, hq⟩
    exact ⟨r, hr, ⟨p, hp, rfl⟩, hq⟩

theorem meets_pieces {l m : List (BoundedRange T)} (hl : Pieces l) (hm : Pieces m) : Pieces (meets l m) := by
  refine ⟨fun q hq => (mem_meets.mp hq).2, ?_⟩
  refine List.pairwise_flatMap.mpr ⟨fun r _ => ?_, ?_⟩
  · refine List.Pairwise.filter _ ?_
    rw [List.pairwise_map]
    refine hm.2.imp fun {p q} h => ?_
    rw [noOverlap_iff] at h ⊢
    simp only [BoundedRange.interBR, hi_min, lo_max]
    exact (min_le_left _ _).trans (h.trans (le_max_left _ _))
  · refine hl.2.imp fun {r s} h x hx y hy => ?_
    simp only [List.mem_filter, List.mem_map] at hx hy
    obtain ⟨⟨p, _, rfl⟩, _⟩ := hx
    obtain ⟨⟨q, _, rfl⟩, _⟩ := hy
    rw [noOverlap_iff] at h ⊢
    simp only [BoundedRange.interBR, hi_min, lo_max]
    exact (min_le_right _ _).trans (h.trans (le_max_right _ _))

/-- C85. The intersection of two sets is the list of the non-empty meets of their pieces, as the loops visit them:
`add_set` never has to join or reorder anything.  `k` pieces in the result cost `k` activations of `add_range`, which
look at pieces `k * (k - 1)` times; all pairs of pieces are met. -/
theorem C85_inter (a b : BoundedSet T) (ha : Pieces a.ranges) (hb : Pieces b.ranges) :
    ∃ c, a.interBS b = .ok c ∧ c.ranges = meets a.ranges b.ranges ∧
      BoundedSet.empty.interLoopCalls b a.ranges = c.ranges.length ∧
      BoundedSet.empty.interLoopTests b a.ranges = c.ranges.length * (c.ranges.length - 1) ∧
      b.interLoopMeets a.ranges = a.ranges.length * b.ranges.length := by
  have key : ∀ (l : List (BoundedRange T)) (s : BoundedSet T), Pieces (s.ranges ++ meets l b.ranges) →
      l.foldlM (fun set range => set.addSet (range.interBS b)) s = .ok ⟨s.ranges ++ meets l b.ranges⟩ ∧
      s.interLoopCalls b l = (meets l b.ranges).length ∧
      s.interLoopTests b l + (meets l b.ranges).length =
        (meets l b.ranges).length * (2 * s.ranges.length + (meets l b.ranges).length) := by
    intro l
    induction l with
    | nil =>
      intro s _
      refine ⟨?_, rfl, ?_⟩
      · simp [meets]
      · simp [meets, BoundedSet.interLoopTests]
    | cons r rs ih =>
      intro s h
      have e : meets (r :: rs) b.ranges = (r.interBS b).ranges ++ meets rs b.ranges := by
        rw [interBS_ranges]; simp [meets]
      rw [e, ← List.append_assoc] at h
      obtain ⟨h1, h2, h3⟩ := C85_append s (r.interBS b) h.of_append_left
      obtain ⟨i1, i2, i3⟩ := ih ⟨s.ranges ++ (r.interBS b).ranges⟩ h
      rw [e]
      refine ⟨?_, ?_, ?_⟩
      · rw [List.foldlM_cons, h1, Res.ok_bind, i1]; simp
      · rw [BoundedSet.interLoopCalls, h1, h2]; simp only [i2, List.length_append]
      · rw [BoundedSet.interLoopTests, h1]
        simp only [List.length_append] at i3 ⊢
        generalize s.addAllTests _ = A at *
        generalize BoundedSet.interLoopTests ⟨s.ranges ++ (r.interBS b).ranges⟩ b rs = B at *
        generalize (r.interBS b).ranges.length = x at *
        generalize (meets rs b.ranges).length = y at *
        generalize s.ranges.length = z at *
        have : (x + y) * (2 * z + (x + y)) = x * (2 * z + x) + y * (2 * (z + x) + y) := by ring
        omega
  obtain ⟨h1, h2, h3⟩ := key a.ranges .empty (by simpa [BoundedSet.empty] using meets_pieces ha hb)
  have e : (BoundedSet.empty : BoundedSet T).ranges = [] := rfl
  rw [e, List.nil_append] at h1
  refine ⟨_, h1, rfl, h2, ?_, ?_⟩
  · rw [e, List.length_nil, Nat.mul_zero, Nat.zero_add] at h3
    show _ = (meets a.ranges b.ranges).length * ((meets a.ranges b.ranges).length - 1)
    rw [Nat.mul_sub_one]
    omega
  · clear h1 h2 h3 key ha
    induction a.ranges with
    | nil => simp [BoundedSet.interLoopMeets]
    | cons r rs ih => rw [BoundedSet.interLoopMeets, ih, List.length_cons, Nat.succ_mul, Nat.add_comm]

/-- C85. In terms of the operands: linearly many activations, quadratically many looks. -/
theorem C85_bounds (a b : BoundedSet T) (ha : Pieces a.ranges) (hb : Pieces b.ranges) :
    BoundedSet.empty.interLoopCalls b a.ranges ≤ a.ranges.length + b.ranges.length - 1 ∧
      BoundedSet.empty.interLoopTests b a.ranges ≤
        (a.ranges.length + b.ranges.length - 1) * (a.ranges.length + b.ranges.length - 2) := by
  obtain ⟨c, hc, -, h1, h2, -⟩ := C85_inter a b ha hb
  obtain ⟨d, hd, hl⟩ := C68_inter (.inner (.bs a)) (.inner (.bs b)) ha hb
  have e : (Any.inner (.bs a)).inter (.inner (.bs b)) = .ok (.bs c) := by
    change (a.interBS b >>= fun c => pure (Inner.bs c)) = _
    rw [hc]; rfl
  obtain rfl : Inner.bs c = d := by rw [e] at hd; injection hd
  have hl : c.ranges.length ≤ a.ranges.length + b.ranges.length - 1 := hl
  rw [h1, h2]
  exact ⟨hl, Nat.mul_le_mul hl (by omega)⟩

/-! ### Cases that meet the hypotheses -/

example : Pieces [co 0 4, co 6 9] ∧ Pieces [co 1 2, co 3 7] ∧ Pieces ([co 0 4] ++ [co 6 9]) := by decide

example : BoundedSet.interBS ⟨[co 0 4, co 6 9]⟩ ⟨[co 1 2, co 3 7]⟩ = .ok ⟨[co 1 2, co 3 4, co 6 7]⟩ ∧
    BoundedSet.empty.interLoopCalls ⟨[co 1 2, co 3 7]⟩ [co 0 4, co 6 9] = 3 ∧
    BoundedSet.empty.interLoopTests ⟨[co 1 2, co 3 7]⟩ [co 0 4, co 6 9] = 6 := by decide +kernel

/-- Without the invariant pieces can come out of order, and then more work is done. -/
example : ¬Pieces [co 6 9, co 0 7] ∧ BoundedSet.interBS ⟨[co 6 9, co 0 7]⟩ ⟨[co 1 8]⟩ = .ok ⟨[co 1 8]⟩ ∧
    BoundedSet.empty.interLoopCalls ⟨[co 1 8]⟩ [co 6 9, co 0 7] = 3 := by decide +kernel

end Rangetools
