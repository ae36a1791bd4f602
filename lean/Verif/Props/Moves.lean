import Verif.Model.Moves
import Verif.Props.InterCost

/-!
# C121: how many elements are moved inside a `VecDeque`
-/

namespace Rangetools
open Iv Samples
variable {T : Type} [LinearOrder T]

/-! ### The place of a range in an ordered list of pieces -/

theorem findIdx?_append_at {α : Type} {p : α → Bool} {l m : List α} {a : α} (hl : ∀ x ∈ l, p x = false)
    (ha : p a = true) : (l ++ a :: m).findIdx? p = some l.length := by
  rw [List.findIdx?_append, List.findIdx?_eq_none_iff.mpr (fun x hx => by simp [hl x hx])]
  simp [List.findIdx?_cons, ha]

/-- C121. One `add_range` on ordered pieces: `A` ends before the new range, `B` meets it and `C` begins after it.  Every
removal is at the same place, and so is the insertion; the elements moved are therefore known exactly. -/
theorem C121_add_range (A B C : List (BoundedRange T)) (r : BoundedRange T) (hr : r.isEmpty = false)
    (hp : Pieces (A ++ B ++ C)) (hA : ∀ p ∈ A, NoOverlap p.stop r.start)
    (hB : ∀ p ∈ B, p.intersectsBR r = true) (hC : ∀ p ∈ C, NoOverlap r.stop p.start) :
    BoundedSet.addRange ⟨A ++ B ++ C⟩ r =
        .ok ⟨A ++ B.foldl (fun q b => ⟨q.start.min b.start, q.stop.max b.stop⟩) r :: C⟩ ∧
      BoundedSet.addRangeDepth ⟨A ++ B ++ C⟩ r = B.length + 1 ∧
      BoundedSet.addRangeMoves ⟨A ++ B ++ C⟩ r =
        ((List.range B.length).map fun j => min A.length (j + C.length)).sum + min A.length C.length := by
  induction B generalizing r with
  | nil =>
    have hne := (BoundedRange.isEmpty_eq_false_iff r).mp hr
    rw [List.append_nil] at hp ⊢
    have h1 : (A ++ C).findIdx? (fun range => range.intersectsBR r) = none := by
      rw [List.findIdx?_eq_none_iff]
      intro p hp'
      rw [Bool.eq_false_iff, Ne, BoundedRange.intersectsBR_iff, not_lt]
      rcases List.mem_append.mp hp' with h | h
      · exact (min_le_left _ _).trans (((noOverlap_iff _ _).mp (hA p h)).trans (le_max_right _ _))
      · exact (min_le_right _ _).trans (((noOverlap_iff _ _).mp (hC p h)).trans (le_max_left _ _))
    have hA' : ∀ p ∈ A, (p.start.gt r.start) = false := fun p h => by
      rw [Bool.eq_false_iff, Ne, LowerBound.gt_iff, not_lt]
      exact ((BoundedRange.isEmpty_eq_false_iff p).mp (hp.1 p (List.mem_append_left _ h))).le.trans
        ((noOverlap_iff _ _).mp (hA p h))
    have h2 : ((A ++ C).findIdx? (fun range => range.start.gt r.start)).getD (A ++ C).length = A.length := by
      cases C with
      | nil => rw [List.append_nil, List.findIdx?_eq_none_iff.mpr (fun p h => by simp [hA' p h])]; rfl
      | cons c C =>
        rw [findIdx?_append_at hA']
        · rfl
        · rw [LowerBound.gt_iff]
          exact hne.trans_le ((noOverlap_iff _ _).mp (hC c List.mem_cons_self))
    refine ⟨?_, ?_, ?_⟩
    · rw [BoundedSet.addRange, if_pos (by simp [hr])]
      split
      · rename_i hidx; rw [h1] at hidx; cases hidx
      · simp only [h2]
        simp [vdInsert]
    · rw [BoundedSet.addRangeDepth, if_pos (by simp [hr])]
      split
      · rename_i hidx; rw [h1] at hidx; cases hidx
      · rfl
    · rw [BoundedSet.addRangeMoves, if_pos (by simp [hr])]
      split
      · rename_i hidx; rw [h1] at hidx; cases hidx
      · simp only [h2]
        simp [vdInsertMoves]
  | cons b B ih =>
    have hne := (BoundedRange.isEmpty_eq_false_iff r).mp hr
    have hb := hB b List.mem_cons_self
    have hbA : ∀ p ∈ A, NoOverlap p.stop b.start := fun p h => by
      rw [List.append_assoc] at hp
      exact (List.pairwise_append.mp hp.2).2.2 p h b (by simp)
    have hbC : ∀ p ∈ C, NoOverlap b.stop p.start := fun p h =>
      (List.pairwise_append.mp hp.2).2.2 b (by simp) p h
    have h1 : (A ++ b :: B ++ C).findIdx? (fun range => range.intersectsBR r) = some A.length := by
      rw [List.append_assoc, List.cons_append]
      refine findIdx?_append_at (fun p h => ?_) hb
      rw [Bool.eq_false_iff, Ne, BoundedRange.intersectsBR_iff, not_lt]
      exact (min_le_left _ _).trans (((noOverlap_iff _ _).mp (hA p h)).trans (le_max_right _ _))
    have hget : vdIndex (A ++ b :: B ++ C) A.length >>= r.combine =
        .ok ⟨r.start.min b.start, r.stop.max b.stop⟩ := by
      have : vdIndex (A ++ b :: B ++ C) A.length = .ok b := by simp [vdIndex, unwrap]
      rw [this, Res.ok_bind, BoundedRange.combine_eq hb]
    have her : (A ++ b :: B ++ C).eraseIdx A.length = A ++ B ++ C := by
      rw [List.append_assoc, List.eraseIdx_append_of_length_le le_rfl]
      simp
    have hr' : (⟨r.start.min b.start, r.stop.max b.stop⟩ : BoundedRange T).isEmpty = false := by
      rw [BoundedRange.isEmpty_eq_false_iff]
      simp only [lo_min, hi_max]
      exact lt_of_le_of_lt (min_le_left _ _) (lt_of_lt_of_le hne (le_max_left _ _))
    have hp' : Pieces (A ++ B ++ C) := by
      have hs : (A ++ B ++ C).Sublist (A ++ b :: B ++ C) :=
        ((List.Sublist.refl A).append (List.sublist_cons_self b B)).append (List.Sublist.refl C)
      exact ⟨fun p h => hp.1 p (hs.subset h), hp.2.sublist hs⟩
    obtain ⟨i1, i2, i3⟩ := ih _ hr' hp' (fun p h => by
        have e1 := (noOverlap_iff _ _).mp (hA p h)
        have e2 := (noOverlap_iff _ _).mp (hbA p h)
        rw [noOverlap_iff, lo_min]
        exact le_min e1 e2) (fun p h => by
        have e := (p.intersectsBR_iff r).mp (hB p (List.mem_cons_of_mem _ h))
        rw [BoundedRange.intersectsBR_iff]
        simp only [lo_min, hi_max]
        exact (max_le_max le_rfl (min_le_left _ _)).trans_lt (e.trans_le (min_le_min le_rfl (le_max_left _ _))))
      (fun p h => by
        have e1 := (noOverlap_iff _ _).mp (hC p h)
        have e2 := (noOverlap_iff _ _).mp (hbC p h)
        rw [noOverlap_iff, hi_max]
        exact max_le e1 e2)
    refine ⟨?_, ?_, ?_⟩
    · rw [BoundedSet.addRange, if_pos (by simp [hr])]
      split
      · rename_i index hidx
        obtain rfl : A.length = index := by rw [h1] at hidx; injection hidx
        simp only at hidx ⊢
        have e : ∀ (x : Res (BoundedRange T)) (f : BoundedRange T → Res (BoundedRange T))
            (g : BoundedRange T → Res (BoundedSet T)), (x >>= fun y => f y >>= g) = ((x >>= f) >>= g) := by
          intro x f g; cases x <;> rfl
        rw [e, hget, Res.ok_bind, her, i1, List.foldl_cons]
      · rename_i hidx; rw [h1] at hidx; cases hidx
    · rw [BoundedSet.addRangeDepth, if_pos (by simp [hr])]
      split
      · rename_i index hidx
        obtain rfl : A.length = index := by rw [h1] at hidx; injection hidx
        simp only [hget, her, i2, List.length_cons]
      · rename_i hidx; rw [h1] at hidx; cases hidx
    · rw [BoundedSet.addRangeMoves, if_pos (by simp [hr])]
      split
      · rename_i index hidx
        obtain rfl : A.length = index := by rw [h1] at hidx; injection hidx
        simp only [hget, her, i3, List.length_cons, List.range_succ, List.map_append, List.sum_append,
          List.map_cons, List.map_nil, List.sum_cons, List.sum_nil, vdRemoveMoves, List.length_append]
        have : A.length + (B.length + 1) + C.length - 1 - A.length = B.length + C.length := by omega
        rw [this]
        omega
      · rename_i hidx; rw [h1] at hidx; cases hidx

/-- C121. The three parts are there for every range, so the count of `C121_add_range` is for every `add_range` on a set
that keeps the invariant. -/
theorem C121_parts (s : BoundedSet T) (r : BoundedRange T) (hr : r.isEmpty = false) (hp : Pieces s.ranges) :
    ∃ A B C, s.ranges = A ++ B ++ C ∧ (∀ p ∈ A, NoOverlap p.stop r.start) ∧
      (∀ p ∈ B, p.intersectsBR r = true) ∧ ∀ p ∈ C, NoOverlap r.stop p.start := by
  obtain ⟨l⟩ := s
  simp only at hp ⊢
  have hne := (BoundedRange.isEmpty_eq_false_iff r).mp hr
  induction l with
  | nil => exact ⟨[], [], [], rfl, by simp, by simp, by simp⟩
  | cons a l ih =>
    have ha := (BoundedRange.isEmpty_eq_false_iff a).mp (hp.1 a List.mem_cons_self)
    have hp2 := List.pairwise_cons.mp hp.2
    have hp' : Pieces l := ⟨fun p h => hp.1 p (List.mem_cons_of_mem _ h), hp2.2⟩
    obtain ⟨A, B, C, e, hA, hB, hC⟩ := ih hp'
    by_cases h1 : hi a.stop ≤ lo r.start
    · exact ⟨a :: A, B, C, by simp [e], fun p h => by
        rcases List.mem_cons.mp h with rfl | h
        · exact (noOverlap_iff _ _).mpr h1
        · exact hA p h, hB, hC⟩
    · have hAn : A = [] := by
        cases A with
        | nil => rfl
        | cons p A =>
          exfalso
          have e1 := (noOverlap_iff _ _).mp (hA p List.mem_cons_self)
          have e2 := (noOverlap_iff _ _).mp (hp2.1 p (by simp [e]))
          have e3 := (BoundedRange.isEmpty_eq_false_iff p).mp (hp'.1 p (by simp [e]))
          exact h1 (e2.trans (e3.le.trans e1))
      subst hAn
      by_cases h2 : hi r.stop ≤ lo a.start
      · refine ⟨[], [], a :: l, by simp, by simp, by simp, fun p h => ?_⟩
        rw [noOverlap_iff]
        rcases List.mem_cons.mp h with rfl | h
        · exact h2
        · exact h2.trans (ha.le.trans ((noOverlap_iff _ _).mp (hp2.1 p h)))
      · refine ⟨[], a :: B, C, by simp [e], by simp, fun p h => ?_, hC⟩
        rcases List.mem_cons.mp h with rfl | h
        · rw [BoundedRange.intersectsBR_iff]
          exact max_lt (lt_min ha (not_le.mp h2)) (lt_min (not_le.mp h1) hne)
        · exact hB p h

/-- C121. On any set, however broken: no activation moves more than half of the pieces. -/
theorem C121_add_range_le {T : Type} [LE T] [LT T] [DecidableLE T] [DecidableLT T] [Ord T] [BEq T]
    (s : BoundedSet T) (r : BoundedRange T) :
    2 * s.addRangeMoves r ≤ s.addRangeDepth r * s.ranges.length := by
  induction hn : s.ranges.length using Nat.strong_induction_on generalizing s r with
  | _ n ih =>
    rw [BoundedSet.addRangeMoves, BoundedSet.addRangeDepth]
    split
    · split
      · rename_i index hidx
        obtain ⟨hlt, -⟩ := List.findIdx?_eq_some_iff_getElem.mp hidx
        cases hv : vdIndex s.ranges index >>= r.combine with
        | panic m => simp
        | ok q =>
          simp only
          split
          · rename_i index' hidx'
            obtain rfl : index = index' := by rw [hidx] at hidx'; injection hidx'
            rw [hv]
            have hlen : (s.ranges.eraseIdx index).length = n - 1 := by
              rw [List.length_eraseIdx_of_lt hlt, hn]
            have h1 := ih (n - 1) (by omega) ⟨s.ranges.eraseIdx index⟩ q hlen
            have h2 : BoundedSet.addRangeDepth ⟨s.ranges.eraseIdx index⟩ q * (n - 1) ≤
                BoundedSet.addRangeDepth ⟨s.ranges.eraseIdx index⟩ q * n :=
              Nat.mul_le_mul_left _ (Nat.sub_le _ _)
            simp only [vdRemoveMoves]
            have h3 := Nat.succ_mul (BoundedSet.addRangeDepth ⟨s.ranges.eraseIdx index⟩ q) n
            rw [Nat.succ_eq_add_one] at h3
            omega
          · rename_i hnone; rw [hidx] at hnone; cases hnone
      · rename_i hnone
        split
        · rename_i hidx; rw [hnone] at hidx; cases hidx
        · simp only [vdInsertMoves]
          omega
    · omega

/-- C121. Adding a set moves at most quadratically many elements. -/
theorem C121_add_set (s o s' : BoundedSet T) (ho : ∀ r ∈ o.ranges, r.isEmpty = false) (h : s.addSet o = .ok s') :
    2 * s.addAllMoves o.ranges ≤
      (s.ranges.length + 2 * o.ranges.length) * (s.ranges.length + o.ranges.length) := by
  have key : ∀ (l : List (BoundedRange T)) (s s' : BoundedSet T), (∀ r ∈ l, r.isEmpty = false) →
      l.foldlM (fun s range => s.addRange range) s = .ok s' →
      ∀ N, s.ranges.length + l.length ≤ N → 2 * s.addAllMoves l ≤ s.addAllCalls l * N := by
    intro l
    induction l with
    | nil => intro s s' _ _ N _; simp [BoundedSet.addAllMoves]
    | cons r rs ih =>
      intro s s' ho h N hN
      rw [List.foldlM_cons] at h
      cases h1 : s.addRange r with
      | panic m => rw [h1] at h; cases h
      | ok t =>
        rw [h1, Res.ok_bind] at h
        have e1 := C78_add_range s t r (ho r List.mem_cons_self) h1
        have e2 := C121_add_range_le s r
        have e4 : 1 ≤ s.addRangeDepth r := by
          rw [BoundedSet.addRangeDepth]; split <;> (try split) <;> (try split) <;> omega
        simp only [List.length_cons] at hN
        have e3 := ih t s' (fun q hq => ho q (List.mem_cons_of_mem _ hq)) h N (by omega)
        rw [BoundedSet.addAllMoves, BoundedSet.addAllCalls, h1]
        simp only
        have e5 : s.addRangeDepth r * s.ranges.length ≤ s.addRangeDepth r * N := Nat.mul_le_mul_left _ (by omega)
        rw [Nat.add_mul]
        omega
  have h1 := key o.ranges s s' ho h _ le_rfl
  have h2 := C78_add_set s o s' ho h
  exact h1.trans (Nat.mul_le_mul_right _ (by omega))

/-- C121. Pieces that come in order and all go into the same gap, behind `A` and before `C`. -/
theorem C121_gap (A o C : List (BoundedRange T)) (h : Pieces (A ++ o ++ C)) :
    BoundedSet.addSet ⟨A ++ C⟩ ⟨o⟩ = .ok ⟨A ++ o ++ C⟩ ∧
      BoundedSet.addAllMoves ⟨A ++ C⟩ o = ((List.range o.length).map fun j => min (A.length + j) C.length).sum := by
  rw [BoundedSet.addSet]
  simp only
  induction o generalizing A with
  | nil => simp [BoundedSet.addAllMoves]
  | cons r rs ih =>
    have h' : Pieces (A ++ [r] ++ rs ++ C) := by simpa using h
    obtain ⟨i1, i2⟩ := ih (A ++ [r]) h'
    have hr : r.isEmpty = false := h.1 r (by simp)
    have hs : (A ++ [] ++ C).Sublist (A ++ r :: rs ++ C) :=
      ((List.Sublist.refl A).append (List.nil_sublist _)).append (List.Sublist.refl C)
    have hA : ∀ p ∈ A, NoOverlap p.stop r.start := fun p hp => by
      have h2 := h.2
      rw [List.append_assoc] at h2
      exact (List.pairwise_append.mp h2).2.2 p hp r (by simp)
    have hC : ∀ p ∈ C, NoOverlap r.stop p.start := fun p hp =>
      (List.pairwise_append.mp h.2).2.2 r (by simp) p hp
    obtain ⟨e1, -, e3⟩ := C121_add_range A [] C r hr ⟨fun p hp => h.1 p (hs.subset hp), h.2.sublist hs⟩ hA
      (by simp) hC
    rw [List.append_nil] at e1 e3
    have e4 : BoundedSet.addRange ⟨A ++ C⟩ r = .ok ⟨A ++ [r] ++ C⟩ := by rw [e1]; simp
    refine ⟨?_, ?_⟩
    · rw [List.foldlM_cons, e4, Res.ok_bind, i1]; simp
    · rw [BoundedSet.addAllMoves, e4, e3]
      simp only [i2, List.length_cons, List.length_append, List.length_nil, List.range_succ_eq_map, List.map_cons,
        List.sum_cons, List.range_zero, List.map_nil, List.sum_nil, List.map_map, Nat.zero_add, Nat.add_zero]
      congr 2
      exact List.map_congr_left fun j _ => by simp only [Function.comp]; congr 1; omega

/-- C121. Pieces that come in order after all that is there move nothing. -/
theorem C121_append (s o : BoundedSet T) (h : Pieces (s.ranges ++ o.ranges)) : s.addAllMoves o.ranges = 0 := by
  have := (C121_gap s.ranges o.ranges [] (by simpa using h)).2
  simpa using this

theorem addAllMoves_append {T : Type} [LE T] [LT T] [DecidableLE T] [DecidableLT T] [Ord T] [BEq T] (s : BoundedSet T)
    (k l : List (BoundedRange T)) :
    s.addAllMoves (k ++ l) = s.addAllMoves k + match s.addSet ⟨k⟩ with
      | .ok t => t.addAllMoves l
      | .panic _ => 0 := by
  induction k generalizing s with
  | nil => simp [BoundedSet.addAllMoves, BoundedSet.addSet, pure]
  | cons r k ih =>
    rw [List.cons_append, BoundedSet.addAllMoves, BoundedSet.addAllMoves, BoundedSet.addSet, List.foldlM_cons]
    cases s.addRange r with
    | panic m => rfl
    | ok t => simp only [ih t, Res.ok_bind, BoundedSet.addSet, Nat.add_assoc]

/-- C121. On any sets, however broken: the loop of the intersection moves as many elements as adding the non-empty
meetings of the pieces to an empty set, one after the other. -/
theorem C121_inter_add {T : Type} [LE T] [LT T] [DecidableLE T] [DecidableLT T] [Ord T] [BEq T] (a b : BoundedSet T) :
    BoundedSet.empty.interLoopMoves b a.ranges = BoundedSet.empty.addAllMoves
      (a.ranges.flatMap fun r => (b.ranges.map fun p => p.interBR r).filter fun q => !q.isEmpty) := by
  suffices ∀ (l : List (BoundedRange T)) (s : BoundedSet T), s.interLoopMoves b l =
      s.addAllMoves (l.flatMap fun r => (b.ranges.map fun p => p.interBR r).filter fun q => !q.isEmpty) from
    this a.ranges .empty
  intro l
  induction l with
  | nil => intro s; rfl
  | cons r l ih =>
    intro s
    rw [BoundedSet.interLoopMoves, List.flatMap_cons, addAllMoves_append]
    have e : r.interBS b = ⟨(b.ranges.map fun p => p.interBR r).filter fun q => !q.isEmpty⟩ := rfl
    rw [e]
    congr 1
    split
    · rename_i h; rw [h]; exact ih _
    · rename_i h; rw [h]

/-- C121. The intersection of two bounded sets builds its result by appending alone, so `add_range` moves nothing there;
`retain` swaps at most one element for each piece of the result. -/
theorem C121_inter (a b : BoundedSet T) (ha : Pieces a.ranges) (hb : Pieces b.ranges) :
    ∃ c, a.interBS b = .ok c ∧ BoundedSet.empty.interLoopMoves b a.ranges = 0 ∧
      b.interLoopSwaps a.ranges ≤ c.ranges.length := by
  have key : ∀ (l : List (BoundedRange T)) (s : BoundedSet T), Pieces (s.ranges ++ meets l b.ranges) →
      s.interLoopMoves b l = 0 ∧ b.interLoopSwaps l ≤ (meets l b.ranges).length := by
    intro l
    induction l with
    | nil => intro s _; exact ⟨rfl, Nat.zero_le _⟩
    | cons r rs ih =>
      intro s h
      have e : meets (r :: rs) b.ranges = (r.interBS b).ranges ++ meets rs b.ranges := by
        rw [interBS_ranges]; simp [meets]
      rw [e, ← List.append_assoc] at h
      have h1 := (C85_append s (r.interBS b) h.of_append_left).1
      have h2 := C121_append s (r.interBS b) h.of_append_left
      obtain ⟨i1, i2⟩ := ih ⟨s.ranges ++ (r.interBS b).ranges⟩ h
      refine ⟨?_, ?_⟩
      · rw [BoundedSet.interLoopMoves, h1, h2]; simp only [i1]
      · rw [BoundedSet.interLoopSwaps, e, List.length_append]
        refine Nat.add_le_add ?_ i2
        rw [interBS_ranges]
        simp only [meets, List.flatMap_cons, List.flatMap_nil, List.append_nil, vdRetainMoves]
        exact ((List.dropWhile_sublist _).filter _).length_le
  obtain ⟨c, hc, he, -⟩ := C85_inter a b ha hb
  obtain ⟨h1, h2⟩ := key a.ranges .empty (by simpa [BoundedSet.empty] using meets_pieces ha hb)
  exact ⟨c, hc, h1, he ▸ h2⟩

/-- C121. The quadratic bound is of the right order: for every `n` there are reachable sets of `2 * n` and `n` pieces
whose union moves `n * n` elements. -/
theorem C121_quadratic (n : Nat) : ∃ s o s' : BoundedSet Int, Reachable (.inner (.bs s)) ∧
    Reachable (.inner (.bs o)) ∧ s.ranges.length = 2 * n ∧ o.ranges.length = n ∧ s.addSet o = .ok s' ∧
    (Any.inner (.bs s)).union (.inner (.bs o)) = .ok (.inner (.bs s')) ∧
    s'.ranges.length = 3 * n ∧ s.addAllMoves o.ranges = n * n := by
  have hc : ∀ a b : Nat, ∀ k : Int, comb k (a + b) = comb k a ++ comb (k + 2 * a) b := by
    intro a b k
    simp only [comb, List.range_add, List.map_append, List.map_map]
    congr 1
    exact List.map_congr_left fun i _ => by simp only [Function.comp, Nat.cast_add]; congr 1 <;> ring
  have hl : ∀ k m, (comb k m).length = m := by simp [comb]
  have e : comb 0 (n + n + n) = comb 0 n ++ comb (2 * n) n ++ comb (4 * n) n := by
    rw [hc, hc]; congr 2
    · congr 1; ring
    · push_cast; ring
  have hp : Pieces ((ofPairs (comb 0 n)).ranges ++ (ofPairs (comb (2 * n) n)).ranges ++
      (ofPairs (comb (4 * n) n)).ranges) := by
    have := ofPairs_normal (canon_comb 0 (n + n + n))
    rw [e] at this
    simpa [ofPairs, Inner.Normal] using this
  obtain ⟨h1, h2⟩ := C121_gap _ _ _ hp
  have hsub : Pieces ((ofPairs (comb 0 n)).ranges ++ (ofPairs (comb (4 * n) n)).ranges) := by
    have hs : ((ofPairs (comb 0 n)).ranges ++ [] ++ (ofPairs (comb (4 * n) n)).ranges).Sublist
      ((ofPairs (comb 0 n)).ranges ++ (ofPairs (comb (2 * n) n)).ranges ++ (ofPairs (comb (4 * n) n)).ranges) :=
      ((List.Sublist.refl _).append (List.nil_sublist _)).append (List.Sublist.refl _)
    rw [List.append_nil] at hs
    exact ⟨fun p h => hp.1 p (hs.subset h), hp.2.sublist hs⟩
  refine ⟨⟨(ofPairs (comb 0 n)).ranges ++ (ofPairs (comb (4 * n) n)).ranges⟩, ofPairs (comb (2 * n) n), _,
    (C73_reachable_iff_normal _).mpr hsub, (C73_reachable_iff_normal _).mpr (ofPairs_normal (canon_comb _ n)), ?_, ?_,
    h1, ?_, ?_, ?_⟩
  · simp [ofPairs, hl]; omega
  · simp [ofPairs, hl]
  · rw [union_bs_bs]
    have : BoundedSet.addSet ⟨(ofPairs (comb 0 n)).ranges ++ (ofPairs (comb (4 * n) n)).ranges⟩
      (ofPairs (comb (2 * n) n)) = _ := h1
    rw [this]; rfl
  · simp [ofPairs, hl]; omega
  · rw [h2]
    have : ∀ m : Nat, (((List.range m).map fun j => min ((ofPairs (comb 0 n)).ranges.length + j)
        (ofPairs (comb (4 * n) n)).ranges.length).sum) = m * n := by
      intro m
      induction m with
      | zero => simp
      | succ m ih =>
        rw [List.range_succ, List.map_append, List.sum_append, ih, Nat.succ_mul]
        simp [ofPairs, hl]
    rw [this]
    simp [ofPairs, hl]

/-! ### Joining pieces to the half-lines of an `UnboundedSet` -/

/-- C121. Defragmenting ordered pieces: `A` meets the half-line below, `B` meets neither, `C` meets the half-line above.
The pieces of `A` are taken off at the front, which moves nothing; those of `C` are all taken out behind `B`. -/
theorem C121_defragment (A B C : List (BoundedRange T)) (u : UpperBoundedRange T) (l : LowerBoundedRange T)
    (hp : Pieces (A ++ B ++ C)) (hA : ∀ p ∈ A, u.intersectsBR p = true)
    (hB : ∀ p ∈ B, NoOverlap u.stop p.start ∧ NoOverlap p.stop l.start)
    (hC : ∀ p ∈ C, NoOverlap u.stop p.start ∧ l.intersectsBR p = true) :
    (PiecewiseUnboundedSet.mk u ⟨A ++ B ++ C⟩ l).defragmentMoves =
      ((List.range C.length).map fun j => min B.length j).sum := by
  have hu0 : ∀ (u : UpperBoundedRange T) (p : BoundedRange T), NoOverlap u.stop p.start →
      u.intersectsBR p = false := fun u p h => by
    rw [Bool.eq_false_iff, Ne, UpperBoundedRange.intersectsBR_iff, not_lt]
    exact (min_le_right _ _).trans ((noOverlap_iff _ _).mp h)
  have hl0 : ∀ (l : LowerBoundedRange T) (p : BoundedRange T), NoOverlap p.stop l.start →
      l.intersectsBR p = false := fun l p h => by
    rw [Bool.eq_false_iff, Ne, LowerBoundedRange.intersectsBR_iff, not_lt]
    exact ((noOverlap_iff _ _).mp h).trans (le_max_right _ _)
  induction A generalizing u with
  | cons a A ih =>
    have h1 : (a :: A ++ B ++ C).findIdx? (fun r => u.intersectsBR r) = some 0 := by
      simp [List.findIdx?_cons, hA a List.mem_cons_self]
    have hp2 : (∀ p ∈ A ++ B ++ C, NoOverlap a.stop p.start) ∧ _ := List.pairwise_cons.mp hp.2
    have i := ih ⟨u.stop.max a.stop⟩ ⟨fun p h => hp.1 p (List.mem_cons_of_mem _ h), hp2.2⟩ (fun p h => by
        have e := (u.intersectsBR_iff p).mp (hA p (List.mem_cons_of_mem _ h))
        rw [UpperBoundedRange.intersectsBR_iff, hi_max]
        exact e.trans_le (min_le_min le_rfl (le_max_left _ _))) (fun p h => by
        refine ⟨?_, (hB p h).2⟩
        have e := (noOverlap_iff _ _).mp (hp2.1 p (by simp [h]))
        rw [noOverlap_iff, hi_max]
        exact max_le ((noOverlap_iff _ _).mp (hB p h).1) e) (fun p h => by
        refine ⟨?_, (hC p h).2⟩
        have e := (noOverlap_iff _ _).mp (hp2.1 p (by simp [h]))
        rw [noOverlap_iff, hi_max]
        exact max_le ((noOverlap_iff _ _).mp (hC p h).1) e)
    rw [PiecewiseUnboundedSet.defragmentMoves]
    split
    · rename_i index hidx
      obtain rfl : 0 = index := by rw [h1] at hidx; injection hidx
      simp only [List.cons_append, List.getElem?_cons_zero, List.eraseIdx_cons_zero, i, vdRemoveMoves]
      omega
    · rename_i hidx; rw [h1] at hidx; cases hidx
  | nil =>
    rw [List.nil_append] at hp ⊢
    induction C generalizing l with
    | nil =>
      have h1 : (B ++ []).findIdx? (fun r => u.intersectsBR r) = none := by
        rw [List.append_nil, List.findIdx?_eq_none_iff]
        exact fun p h => hu0 u p (hB p h).1
      have h2 : (B ++ []).findIdx? (fun r => l.intersectsBR r) = none := by
        rw [List.append_nil, List.findIdx?_eq_none_iff]
        exact fun p h => hl0 l p (hB p h).2
      rw [PiecewiseUnboundedSet.defragmentMoves]
      split
      · rename_i hidx; rw [h1] at hidx; cases hidx
      · split
        · rename_i hidx; rw [h2] at hidx; cases hidx
        · rfl
    | cons c C ih =>
      have h1 : (B ++ c :: C).findIdx? (fun r => u.intersectsBR r) = none := by
        rw [List.findIdx?_eq_none_iff]
        intro p h
        rcases List.mem_append.mp h with h | h
        · exact hu0 u p (hB p h).1
        · exact hu0 u p (hC p h).1
      have h2 : (B ++ c :: C).findIdx? (fun r => l.intersectsBR r) = some B.length :=
        findIdx?_append_at (fun p h => hl0 l p (hB p h).2) (hC c List.mem_cons_self).2
      have hs : (B ++ C).Sublist (B ++ c :: C) := (List.Sublist.refl B).append (List.sublist_cons_self c C)
      have i := ih ⟨l.start.min c.start⟩ ⟨fun p h => hp.1 p (hs.subset h), hp.2.sublist hs⟩ (fun p h => by
          refine ⟨(hB p h).1, ?_⟩
          have e := (noOverlap_iff _ _).mp ((List.pairwise_append.mp hp.2).2.2 p h c List.mem_cons_self)
          rw [noOverlap_iff, lo_min]
          exact le_min ((noOverlap_iff _ _).mp (hB p h).2) e) (fun p h => by
          have h := hC p (List.mem_cons_of_mem _ h)
          refine ⟨h.1, ?_⟩
          have e := (l.intersectsBR_iff p).mp h.2
          rw [LowerBoundedRange.intersectsBR_iff, lo_min]
          exact (max_le_max le_rfl (min_le_left _ _)).trans_lt e)
      have her : (B ++ c :: C).eraseIdx B.length = B ++ C := by
        rw [List.eraseIdx_append_of_length_le le_rfl]; simp
      rw [PiecewiseUnboundedSet.defragmentMoves]
      split
      · rename_i hidx; rw [h1] at hidx; cases hidx
      · split
        · rename_i index hidx
          obtain rfl : B.length = index := by rw [h2] at hidx; injection hidx
          have hg : (B ++ c :: C)[B.length]? = some c := by simp
          simp only [hg, her, i, vdRemoveMoves, List.length_append, List.length_cons, List.range_succ,
            List.map_append, List.sum_append, List.map_cons, List.map_nil, List.sum_cons, List.sum_nil]
          have : B.length + (C.length + 1) - 1 - B.length = C.length := by omega
          rw [this]
          omega
        · rename_i hidx; rw [h2] at hidx; cases hidx

/-! ### Cases that meet the hypotheses -/

/-- One piece before, two joined, one after: the removals move one element each, and so does the insertion. -/
example : let A := [co 0 1]; let B := [co 2 3, co 4 5]; let C := [co 6 7]; let r := co 2 5
    r.isEmpty = false ∧ Pieces (A ++ B ++ C) ∧ (∀ p ∈ A, NoOverlap p.stop r.start) ∧
    (∀ p ∈ B, p.intersectsBR r = true) ∧ (∀ p ∈ C, NoOverlap r.stop p.start) ∧
    BoundedSet.addRange ⟨A ++ B ++ C⟩ r = .ok ⟨[co 0 1, co 2 5, co 6 7]⟩ ∧
    BoundedSet.addRangeMoves ⟨A ++ B ++ C⟩ r = 3 := by decide +kernel

/-- Two pieces into the gap of four, and the same two after them. -/
example : let A := [co 0 1, co 2 3]; let o := [co 4 5, co 6 7]; let C := [co 8 9, co 10 11]
    Pieces (A ++ o ++ C) ∧ BoundedSet.addAllMoves ⟨A ++ C⟩ o = 4 ∧ BoundedSet.addAllMoves ⟨A ++ o⟩ C = 0 ∧
    Pieces (A ++ C) ∧ BoundedSet.empty.interLoopMoves ⟨A ++ C⟩ [co 1 3, co 8 11] = 0 ∧
    BoundedSet.interLoopSwaps ⟨A ++ C⟩ [co 1 3, co 8 11] = 3 := by decide +kernel

/-- A broken set, whose pieces are out of order. -/
example : let s : BoundedSet Int := ⟨[co 4 5, co 0 1, co 9 9]⟩
    ¬Pieces s.ranges ∧ s.addRangeMoves (co 0 2) = 1 ∧ s.addRangeDepth (co 0 2) = 2 := by decide +kernel

/-- The intersection with pieces out of order moves elements. -/
example : let a : BoundedSet Int := ⟨[co 8 9, co 0 1, co 4 5]⟩; let b : BoundedSet Int := ⟨[co 0 9]⟩
    ¬Pieces a.ranges ∧ BoundedSet.empty.interLoopMoves b a.ranges = 1 ∧
    BoundedSet.empty.addAllMoves [co 8 9, co 0 1, co 4 5] = 1 := by decide +kernel

/-- One piece joined below, one left, two joined above: taking out the first of the two moves the second. -/
example : let A := [co 0 1]; let B := [co 4 5]; let C := [co 6 7, co 8 9]
    let u : UpperBoundedRange Int := ⟨⟨.excluded 2⟩⟩; let l : LowerBoundedRange Int := ⟨⟨.included 6⟩⟩
    Pieces (A ++ B ++ C) ∧ (∀ p ∈ A, u.intersectsBR p = true) ∧
    (∀ p ∈ B, NoOverlap u.stop p.start ∧ NoOverlap p.stop l.start) ∧
    (∀ p ∈ C, NoOverlap u.stop p.start ∧ l.intersectsBR p = true) ∧
    (PiecewiseUnboundedSet.mk u ⟨A ++ B ++ C⟩ l).defragmentMoves = 1 := by decide +kernel

end Rangetools
