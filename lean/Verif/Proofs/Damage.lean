import Verif.Proofs.AnyOps
import Mathlib.Data.List.TakeWhile

/-!
# Adding ranges to a bounded set that breaks the invariant

`add_range` takes out every piece that meets the range it adds, and puts the merged piece in front of
the first piece that starts later.  So the pieces it puts in are in order with respect to everything
in front of them, whatever the list was like.
-/

namespace Rangetools
open Iv

variable {T : Type} [LinearOrder T]

/-- `x` is not empty, meets no other piece of `L`, and no piece in front of it starts later. -/
def Placed (L : List (BoundedRange T)) (x : BoundedRange T) : Prop :=
  lo x.start < hi x.stop ∧ ∃ A B, L = A ++ x :: B ∧ (∀ y ∈ A, lo y.start ≤ lo x.start) ∧
    ∀ y ∈ A ++ B, y.intersectsBR x = false

theorem BoundedRange.intersectsBR_comm (a b : BoundedRange T) :
    a.intersectsBR b = b.intersectsBR a := by
  rw [Bool.eq_iff_iff, BoundedRange.intersectsBR_iff, BoundedRange.intersectsBR_iff, max_comm, min_comm]

theorem BoundedRange.intersectsBR_self {a : BoundedRange T} (h : lo a.start < hi a.stop) :
    a.intersectsBR a = true := by
  rw [BoundedRange.intersectsBR_iff, max_self, min_self]; exact h

theorem BoundedRange.intersectsBR_mono {x a b : BoundedRange T} (h1 : lo b.start ≤ lo a.start)
    (h2 : hi a.stop ≤ hi b.stop) (h : x.intersectsBR a = true) : x.intersectsBR b = true := by
  rw [BoundedRange.intersectsBR_iff] at h ⊢
  exact (max_le_max_left _ h1).trans_lt (h.trans_le (min_le_min_left _ h2))

/-- Two ranges with a common probe meet. -/
theorem BoundedRange.intersectsBR_of_probe {a b : BoundedRange T} {q : ECut T × Side}
    (h1 : q ∈ sem1 a.iv) (h2 : q ∈ sem1 b.iv) : a.intersectsBR b = true := by
  rw [BoundedRange.intersectsBR_iff]
  by_contra h
  have h3 : q ∈ sem1 a.iv ∩ sem1 b.iv := ⟨h1, h2⟩
  rw [sem1_inter, sem1_empty (not_lt.mp h)] at h3
  exact h3

/-- Pieces that are all placed are non-empty, in order and apart. -/
theorem canon_of_placed {L : List (BoundedRange T)} (h : ∀ x ∈ L, Placed L x) :
    Canon (L.map BoundedRange.iv) := by
  refine ⟨fun p hp => ?_, ?_⟩
  · obtain ⟨x, hx, rfl⟩ := List.mem_map.mp hp
    exact (h x hx).1
  · rw [List.pairwise_map, List.pairwise_iff_getElem]
    intro i j hi' hj hij
    obtain ⟨hne, A, B, hL, h1, h2⟩ := h L[j] (List.getElem_mem hj)
    have hA : i < A.length := by
      by_contra hlt
      -- another place of the same piece
      have hjA : j ≠ A.length := by omega
      have hmem : L[j] ∈ A ++ B := by
        have hj' : L[j]? = (A ++ L[j] :: B)[j]? := by rw [← hL]
        rw [List.getElem?_eq_getElem hj, List.getElem?_append_right (by omega)] at hj'
        obtain ⟨k, hk⟩ : ∃ k, j - A.length = k + 1 := ⟨j - A.length - 1, by omega⟩
        rw [hk, List.getElem?_cons_succ] at hj'
        exact List.mem_append_right _ (List.mem_of_getElem? hj'.symm)
      have := h2 _ hmem
      rw [BoundedRange.intersectsBR_self hne] at this
      cases this
    have hiA : L[i] ∈ A := by
      have hi'' : L[i]? = (A ++ L[j] :: B)[i]? := by rw [← hL]
      rw [List.getElem?_eq_getElem hi', List.getElem?_append_left hA] at hi''
      exact List.mem_of_getElem? hi''.symm
    have h3 := h2 _ (List.mem_append_left _ hiA)
    have h4 := h1 _ hiA
    have h5 := (h L[i] (List.getElem_mem hi')).1
    rw [← Bool.not_eq_true, BoundedRange.intersectsBR_iff, not_lt, max_eq_right h4, min_le_iff] at h3
    exact h3.resolve_right (not_le.mpr hne)

/-- A placed piece stays placed when another piece is taken out. -/
theorem Placed.eraseIdx {L : List (BoundedRange T)} {x : BoundedRange T} (h : Placed L x) (i : Nat)
    (hx : x ∈ L.eraseIdx i) : Placed (L.eraseIdx i) x := by
  obtain ⟨hne, A, B, rfl, h1, h2⟩ := h
  refine ⟨hne, ?_⟩
  rcases lt_trichotomy i A.length with hi' | hi' | hi'
  · rw [List.eraseIdx_append_of_lt_length hi']
    refine ⟨A.eraseIdx i, B, rfl, fun y hy => h1 y (List.mem_of_mem_eraseIdx hy), fun y hy => h2 y ?_⟩
    rcases List.mem_append.mp hy with hy | hy
    · exact List.mem_append_left _ (List.mem_of_mem_eraseIdx hy)
    · exact List.mem_append_right _ hy
  · rw [List.eraseIdx_append_of_length_le hi'.ge] at hx
    simp only [hi', Nat.sub_self, List.eraseIdx_cons_zero] at hx
    have := h2 x hx
    rw [BoundedRange.intersectsBR_self hne] at this
    cases this
  · rw [List.eraseIdx_append_of_length_le hi'.le]
    obtain ⟨k, hk⟩ : ∃ k, i - A.length = k + 1 := ⟨i - A.length - 1, by omega⟩
    rw [hk, List.eraseIdx_cons_succ]
    refine ⟨A, B.eraseIdx k, rfl, h1, fun y hy => h2 y ?_⟩
    rcases List.mem_append.mp hy with hy | hy
    · exact List.mem_append_left _ hy
    · exact List.mem_append_right _ (List.mem_of_mem_eraseIdx hy)

theorem Placed.dropLast {L : List (BoundedRange T)} {x : BoundedRange T} (h : Placed L x)
    (hx : x ∈ L.dropLast) : Placed L.dropLast x := by
  rw [← List.eraseIdx_length_sub_one] at hx ⊢
  exact h.eraseIdx _ hx

/-- A placed piece stays placed when a piece that does not meet it is put in. -/
theorem Placed.insert {L : List (BoundedRange T)} {x r : BoundedRange T} (h : Placed L x)
    (hr : r.intersectsBR x = false) :
    Placed (L.takeWhile (fun y => !y.start.gt r.start) ++
      r :: L.dropWhile (fun y => !y.start.gt r.start)) x := by
  obtain ⟨hne, A, B, rfl, h1, h2⟩ := h
  refine ⟨hne, ?_⟩
  by_cases hA : ∀ y ∈ A ++ [x], (!y.start.gt r.start) = true
  · -- behind `x`
    have e : A ++ x :: B = (A ++ [x]) ++ B := by simp
    rw [e, List.takeWhile_append_of_pos hA, List.dropWhile_append_of_pos hA]
    refine ⟨A, B.takeWhile (fun y => !y.start.gt r.start) ++
      r :: B.dropWhile (fun y => !y.start.gt r.start), by simp, h1, fun y hy => ?_⟩
    rw [List.mem_append, List.mem_append, List.mem_cons] at hy
    rcases hy with hy | hy | rfl | hy
    · exact h2 y (List.mem_append_left _ hy)
    · exact h2 y (List.mem_append_right _ (List.takeWhile_subset _ hy))
    · exact hr
    · exact h2 y (List.mem_append_right _ ((List.dropWhile_sublist _).subset hy))
  · -- in front of `x`
    have hlt : lo r.start ≤ lo x.start := by
      push Not at hA
      obtain ⟨y, hy, hgt⟩ := hA
      have hgt' : y.start.gt r.start = true := by simpa using hgt
      rw [LowerBound.gt_iff] at hgt'
      rcases List.mem_append.mp hy with hy | hy
      · exact hgt'.le.trans (h1 y hy)
      · rw [List.mem_singleton] at hy
        exact hy ▸ hgt'.le
    obtain ⟨A', C, hC, hAC⟩ : ∃ A' C, A' ++ C = A ∧
        (A ++ x :: B).takeWhile (fun y => !y.start.gt r.start) = A' ∧
        (A ++ x :: B).dropWhile (fun y => !y.start.gt r.start) = C ++ x :: B := by
      by_cases hA' : ∀ y ∈ A, (!y.start.gt r.start) = true
      · have hx : (!x.start.gt r.start) = false := by
          by_contra hx
          rw [Bool.not_eq_false] at hx
          refine hA fun y hy => ?_
          rcases List.mem_append.mp hy with hy | hy
          · exact hA' y hy
          · rw [List.mem_singleton] at hy
            exact hy ▸ hx
        refine ⟨A, [], by simp, ?_, ?_⟩
        · rw [List.takeWhile_append_of_pos hA', List.takeWhile_cons_of_neg (by simp [hx]), List.append_nil]
        · rw [List.dropWhile_append_of_pos hA', List.dropWhile_cons_of_neg (by simp [hx]), List.nil_append]
      · refine ⟨A.takeWhile (fun y => !y.start.gt r.start), A.dropWhile (fun y => !y.start.gt r.start),
          List.takeWhile_append_dropWhile, ?_, ?_⟩
        · rw [List.takeWhile_append, if_neg]
          intro hlen
          refine hA' fun y hy => ?_
          have := (List.takeWhile_prefix (fun y : BoundedRange T => !y.start.gt r.start) (l := A)).eq_of_length hlen
          exact List.takeWhile_eq_self_iff.mp this y hy
        · rw [List.dropWhile_append, if_neg]
          intro hemp
          refine hA' fun y hy => ?_
          have : ∀ x ∈ A, x.start.gt r.start = false := by simpa using hemp
          simp [this y hy]
    rw [hAC.1, hAC.2]
    refine ⟨A' ++ r :: C, B, by simp, fun y hy => ?_, fun y hy => ?_⟩
    · rw [List.mem_append, List.mem_cons] at hy
      rcases hy with hy | rfl | hy
      · exact h1 y (hC ▸ List.mem_append_left _ hy)
      · exact hlt
      · exact h1 y (hC ▸ List.mem_append_right _ hy)
    · rw [List.mem_append, List.mem_append, List.mem_cons] at hy
      rcases hy with (hy | rfl | hy) | hy
      · exact h2 y (List.mem_append_left _ (hC ▸ List.mem_append_left _ hy))
      · exact hr
      · exact h2 y (List.mem_append_left _ (hC ▸ List.mem_append_right _ hy))
      · exact h2 y (List.mem_append_right _ hy)

/-- Every piece of `s'` is placed, or was there before, was not placed then, and meets nothing in
`rs`. -/
def Settles (s s' rs : List (BoundedRange T)) : Prop :=
  ∀ x ∈ s', Placed s' x ∨ (x ∈ s ∧ ¬ Placed s x ∧ ∀ r ∈ rs, x.intersectsBR r = false)

theorem Settles.refl (s : List (BoundedRange T)) : Settles s s [] := fun x hx => by
  by_cases h : Placed s x
  · exact Or.inl h
  · exact Or.inr ⟨hx, h, by simp⟩

theorem Settles.trans {s s' s'' rs rs' : List (BoundedRange T)} (h : Settles s s' rs)
    (h' : Settles s' s'' rs') : Settles s s'' (rs ++ rs') := fun x hx => by
  rcases h' x hx with h1 | ⟨h1, h2, h3⟩
  · exact Or.inl h1
  rcases h x h1 with h4 | ⟨h4, h5, h6⟩
  · exact absurd h4 h2
  · refine Or.inr ⟨h4, h5, fun r hr => ?_⟩
    rcases List.mem_append.mp hr with hr | hr
    · exact h6 r hr
    · exact h3 r hr

/-- If every piece that was there meets something in `rs`, the result is in order. -/
theorem Settles.canon {s s' rs : List (BoundedRange T)} (h : Settles s s' rs)
    (hs : ∀ x ∈ s, ∃ r ∈ rs, x.intersectsBR r = true) : Canon (s'.map BoundedRange.iv) :=
  canon_of_placed fun x hx => by
    rcases h x hx with h1 | ⟨h1, -, h3⟩
    · exact h1
    · obtain ⟨r, hr, h4⟩ := hs x h1
      rw [h3 r hr] at h4
      cases h4

theorem BoundedSet.addRange_settles (s : BoundedSet T) (r : BoundedRange T) :
    ∃ s', s.addRange r = .ok s' ∧ Settles s.ranges s'.ranges [r] := by
  induction hn : s.ranges.length using Nat.strong_induction_on generalizing s r with
  | _ n ih =>
    rw [BoundedSet.addRange]
    by_cases hr : r.isEmpty = true
    · simp only [hr, Bool.not_true, Bool.false_eq_true, if_false]
      refine ⟨s, rfl, fun x hx => ?_⟩
      by_cases h : Placed s.ranges x
      · exact Or.inl h
      · refine Or.inr ⟨hx, h, fun r' hr' => ?_⟩
        rw [List.mem_singleton] at hr'
        subst hr'
        rw [← Bool.not_eq_true, BoundedRange.intersectsBR_iff, not_lt]
        exact (min_le_right _ _).trans (((BoundedRange.isEmpty_iff _).mp hr).trans (le_max_right _ _))
    · rw [if_pos (by simp [hr])]
      split
      · rename_i index hidx
        obtain ⟨hlt, hint, _⟩ := List.findIdx?_eq_some_iff_getElem.mp hidx
        have hget : vdIndex s.ranges index = .ok s.ranges[index] := by
          simp [vdIndex, unwrap, List.getElem?_eq_getElem hlt]
        rw [hget, Res.ok_bind, BoundedRange.combine_eq hint, Res.ok_bind]
        have hlen : (s.ranges.eraseIdx index).length < n := by
          rw [List.length_eraseIdx_of_lt hlt]; omega
        obtain ⟨s', h1, h2⟩ := ih _ hlen ⟨s.ranges.eraseIdx index⟩
          ⟨r.start.min s.ranges[index].start, r.stop.max s.ranges[index].stop⟩ rfl
        refine ⟨s', h1, fun x hx => ?_⟩
        rcases h2 x hx with h3 | ⟨h3, h4, h5⟩
        · exact Or.inl h3
        · refine Or.inr ⟨List.mem_of_mem_eraseIdx h3, fun h => h4 (h.eraseIdx _ h3), fun r' hr' => ?_⟩
          rw [List.mem_singleton] at hr'
          subst hr'
          have h6 := h5 _ (List.mem_singleton.mpr rfl)
          by_contra h7
          rw [Bool.not_eq_false] at h7
          rw [BoundedRange.intersectsBR_mono (by simp) (by simp) h7] at h6
          cases h6
      · rename_i hnone
        simp only [vdInsert_eq, Res.ok_bind, Res.pure_eq]
        refine ⟨_, rfl, fun x hx => ?_⟩
        have hd : ∀ y ∈ s.ranges, y.intersectsBR r = false := fun y hy => by
          simpa using List.findIdx?_eq_none_iff.mp hnone y hy
        have hne : lo r.start < hi r.stop := (BoundedRange.isEmpty_eq_false_iff r).mp (by simpa using hr)
        by_cases hxr : x = r
        · subst hxr
          refine Or.inl ⟨hne, _, _, rfl, fun y hy => ?_, fun y hy => hd y ?_⟩
          · have := List.mem_takeWhile_imp hy
            have h' : ¬ y.start.gt x.start = true := by simpa using this
            rwa [LowerBound.gt_iff, not_lt] at h'
          · rw [List.takeWhile_append_dropWhile] at hy
            exact hy
        · have hx' : x ∈ s.ranges := by
            rw [List.mem_append, List.mem_cons] at hx
            rcases hx with hx | hx | hx
            · exact List.takeWhile_subset _ hx
            · exact absurd hx hxr
            · exact (List.dropWhile_sublist _).subset hx
          by_cases h : Placed s.ranges x
          · exact Or.inl (h.insert (by rw [BoundedRange.intersectsBR_comm]; exact hd x hx'))
          · refine Or.inr ⟨hx', h, fun r' hr' => ?_⟩
            rw [List.mem_singleton] at hr'
            exact hr' ▸ hd x hx'

theorem BoundedSet.addSet_settles (s o : BoundedSet T) :
    ∃ s', s.addSet o = .ok s' ∧ Settles s.ranges s'.ranges o.ranges := by
  rw [BoundedSet.addSet]
  generalize o.ranges = rs
  induction rs generalizing s with
  | nil => exact ⟨s, rfl, Settles.refl _⟩
  | cons r rs ih =>
    obtain ⟨s1, h1, h2⟩ := s.addRange_settles r
    obtain ⟨s2, h3, h4⟩ := ih s1
    refine ⟨s2, by rw [List.foldlM_cons, h1, Res.ok_bind, h3], ?_⟩
    exact h2.trans h4

/-- The loop shared by `BoundedSet ∩ LowerBoundedSet` and `BoundedSet ∩ UpperBoundedSet` puts the pieces
in order when each piece that is there at the start is covered by what one of the rounds adds. -/
theorem interLoop_canon (rs : List (BoundedRange T)) (f : BoundedRange T → Res (BoundedSet T))
    (hf : ∀ r ∈ rs, ∃ o, f r = .ok o) (s0 s' : BoundedSet T)
    (hs : rs.foldlM (fun set range => do set.addSet (← f range)) s0 = .ok s') :
    ∃ all, Settles s0.ranges s'.ranges all ∧ ∀ r ∈ rs, ∀ o, f r = .ok o → ∀ x ∈ o.ranges, x ∈ all := by
  induction rs generalizing s0 with
  | nil =>
    cases hs
    exact ⟨[], Settles.refl _, by simp⟩
  | cons r rs ih =>
    obtain ⟨o, ho⟩ := hf r List.mem_cons_self
    obtain ⟨s1, h1, h2⟩ := s0.addSet_settles o
    rw [List.foldlM_cons, ho, Res.ok_bind, h1, Res.ok_bind] at hs
    obtain ⟨all, h3, h4⟩ := ih (fun r hr => hf r (List.mem_cons_of_mem _ hr)) s1 hs
    refine ⟨_, h2.trans h3, fun r' hr' o' ho' x hx => ?_⟩
    rcases List.mem_cons.mp hr' with rfl | hr'
    · rw [ho] at ho'
      cases ho'
      exact List.mem_append_left _ hx
    · exact List.mem_append_right _ (h4 r' hr' o' ho' x hx)

theorem probe_of_nonempty {r : BoundedRange T} (h : r.isEmpty = false) :
    (lo r.start, Side.after) ∈ sem1 r.iv :=
  mem_after.mpr ⟨le_rfl, (BoundedRange.isEmpty_eq_false_iff r).mp h⟩

/-- The intersection of a `BoundedSet` and a `LowerBoundedSet` is in order whatever the operands. -/
theorem BoundedSet.interLBS_canon (a : BoundedSet T) (b : LowerBoundedSet T) :
    Comp (a.interLBS b) (sem a.ivs ∩ sem b.ivs) True := by
  obtain ⟨s', h1, h2, -⟩ := BoundedSet.interLBS_comp a b
  refine ⟨s', h1, h2, fun _ => ?_⟩
  obtain ⟨all, h3, h4⟩ := interLoop_canon a.ranges (fun r => r.interLBS b)
    (fun r _ => (LowerBoundedSet.interBR_comp b r).imp fun _ h => h.1) _ s' h1
  refine h3.canon fun x hx => ?_
  obtain ⟨hx1, hx2⟩ := List.mem_filter.mp hx
  obtain ⟨r, hr, rfl⟩ := List.mem_map.mp hx1
  obtain ⟨o, ho, ho2, -⟩ := LowerBoundedSet.interBR_comp b r
  have hq := probe_of_nonempty (r := r.interLBR b.lowerBoundedRange) (by simpa using hx2)
  have hq' := hq
  rw [BoundedRange.sem1_interLBR] at hq'
  have ho2' : sem o.ivs = _ := ho2
  have hmem : (lo (r.interLBR b.lowerBoundedRange).start, Side.after) ∈ sem o.ivs := by
    rw [ho2', LowerBoundedSet.ivs, sem_append, sem_cons]
    exact ⟨Or.inr (Or.inl hq'.2), hq'.1⟩
  obtain ⟨y, hy, hy'⟩ := BoundedSet.mem_sem_ivs.mp hmem
  exact ⟨y, h4 r hr o ho y hy, BoundedRange.intersectsBR_of_probe hq hy'⟩

theorem BoundedSet.interUBS_canon (a : BoundedSet T) (b : UpperBoundedSet T) :
    Comp (a.interUBS b) (sem a.ivs ∩ sem b.ivs) True := by
  obtain ⟨s', h1, h2, -⟩ := BoundedSet.interUBS_comp a b
  refine ⟨s', h1, h2, fun _ => ?_⟩
  obtain ⟨all, h3, h4⟩ := interLoop_canon a.ranges (fun r => r.interUBS b)
    (fun r _ => (UpperBoundedSet.interBR_comp b r).imp fun _ h => h.1) _ s' h1
  refine h3.canon fun x hx => ?_
  obtain ⟨hx1, hx2⟩ := List.mem_filter.mp hx
  obtain ⟨r, hr, rfl⟩ := List.mem_map.mp hx1
  obtain ⟨o, ho, ho2, -⟩ := UpperBoundedSet.interBR_comp b r
  have hq := probe_of_nonempty (r := r.interUBR b.upperBoundedRange) (by simpa using hx2)
  have hq' := hq
  rw [BoundedRange.sem1_interUBR] at hq'
  have ho2' : sem o.ivs = _ := ho2
  have hmem : (lo (r.interUBR b.upperBoundedRange).start, Side.after) ∈ sem o.ivs := by
    rw [ho2', UpperBoundedSet.ivs, sem_cons]
    exact ⟨Or.inl hq'.2, hq'.1⟩
  obtain ⟨y, hy, hy'⟩ := BoundedSet.mem_sem_ivs.mp hmem
  exact ⟨y, h4 r hr o ho y hy, BoundedRange.intersectsBR_of_probe hq hy'⟩

/-- `defragment` only takes pieces off the back, and doing it again changes nothing. -/
theorem LowerBoundedSet.defragment_settles (s : LowerBoundedSet T) :
    ∃ s', s.defragment = .ok s' ∧ Settles s.ranges.ranges s'.ranges.ranges [] ∧ s'.defragment = .ok s' := by
  induction hn : s.ranges.ranges.length using Nat.strong_induction_on generalizing s with
  | _ n ih =>
    rw [LowerBoundedSet.defragment]
    by_cases he : s.ranges.isEmpty = true
    · simp only [he, Bool.not_true, Bool.false_eq_true, if_false]
      refine ⟨s, rfl, Settles.refl _, ?_⟩
      rw [LowerBoundedSet.defragment]
      simp only [he, Bool.not_true, Bool.false_eq_true, if_false]
    · rw [if_pos (by simp [he])]
      split
      · rename_i hnone
        rw [List.getLast?_eq_none_iff] at hnone
        exact absurd ((BoundedSet.isEmpty_iff _).mpr (by simp [hnone])) he
      · rename_i range hlast
        split
        · rename_i hemp
          refine ⟨s, rfl, Settles.refl _, ?_⟩
          rw [LowerBoundedSet.defragment, if_pos (by simp [he])]
          split
          · rename_i hnone
            rw [hlast] at hnone
            cases hnone
          · rename_i range' hlast'
            rw [hlast] at hlast'
            cases hlast'
            rw [if_pos hemp]
        · rename_i hemp
          have hlen : s.ranges.ranges.dropLast.length < n := by
            have : s.ranges.ranges ≠ [] := by rintro h; simp [h] at hlast
            have := List.length_pos_iff.mpr this
            rw [List.length_dropLast]; omega
          obtain ⟨s', h1, h2, h3⟩ := ih _ hlen ⟨⟨s.ranges.ranges.dropLast⟩, _⟩ rfl
          refine ⟨s', h1, fun x hx => ?_, h3⟩
          rcases h2 x hx with h4 | ⟨h4, h5, -⟩
          · exact Or.inl h4
          · exact Or.inr ⟨List.dropLast_subset _ h4, fun h => h5 (h.dropLast h4), by simp⟩

theorem LowerBoundedSet.addSet_settles (s : LowerBoundedSet T) (o : BoundedSet T) :
    ∃ s', s.addSet o = .ok s' ∧ Settles s.ranges.ranges s'.ranges.ranges o.ranges ∧
      (o.ranges = [] ∧ s' = s ∨ s'.defragment = .ok s') := by
  rw [LowerBoundedSet.addSet]
  generalize o.ranges = rs
  induction rs generalizing s with
  | nil => exact ⟨s, rfl, Settles.refl _, Or.inl ⟨rfl, rfl⟩⟩
  | cons r rs ih =>
    obtain ⟨b, h1, h2⟩ := s.ranges.addRange_settles r
    obtain ⟨s1, h3, h4, h5⟩ := LowerBoundedSet.defragment_settles ⟨b, s.lowerBoundedRange⟩
    obtain ⟨s2, h6, h7, h8⟩ := ih s1
    refine ⟨s2, ?_, ?_, Or.inr ?_⟩
    · rw [List.foldlM_cons, LowerBoundedSet.addRange, h1]
      simp only [Res.ok_bind, h3, h6]
    · exact (h2.trans h4).trans h7
    · rcases h8 with ⟨-, rfl⟩ | h8
      · exact h5
      · exact h8

/-- The intersection of two `LowerBoundedSet`s is in order whatever the operands. -/
theorem LowerBoundedSet.interLBS_canon (a b : LowerBoundedSet T) :
    Comp (a.interLBS b)
      (sem a.ivs ∩ sem1 b.lowerBoundedRange.iv ∪ sem a.ranges.ivs ∩ sem b.ivs) True := by
  obtain ⟨s', h1, h2, -⟩ := LowerBoundedSet.interLBS_comp a b
  refine ⟨s', h1, h2, fun _ => ?_⟩
  obtain ⟨x, hx1, hx2, -⟩ := BoundedSet.interLBS_comp a.ranges b
  rw [LowerBoundedSet.interLBS] at h1
  simp only [hx1, Res.ok_bind] at h1
  obtain ⟨s2, h3, h4, h5⟩ := (a.interLBR b.lowerBoundedRange).addSet_settles x
  rw [h3] at h1
  cases h1
  have hcov : ∀ y ∈ (a.interLBR b.lowerBoundedRange).ranges.ranges, ∃ r ∈ x.ranges, y.intersectsBR r = true := by
    intro y hy
    obtain ⟨hy1, hy2⟩ := List.mem_filter.mp hy
    obtain ⟨r, hr, rfl⟩ := List.mem_map.mp hy1
    have hq := probe_of_nonempty (r := r.interLBR b.lowerBoundedRange) (by simpa using hy2)
    have hq' := hq
    rw [BoundedRange.sem1_interLBR] at hq'
    have hx' : sem x.ivs = _ := hx2
    have hmem : (lo (r.interLBR b.lowerBoundedRange).start, Side.after) ∈ sem x.ivs := by
      rw [hx']
      refine ⟨BoundedSet.mem_sem_ivs.mpr ⟨r, hr, hq'.1⟩, ?_⟩
      rw [LowerBoundedSet.ivs, sem_append, sem_cons]
      exact Or.inr (Or.inl hq'.2)
    obtain ⟨z, hz, hz'⟩ := BoundedSet.mem_sem_ivs.mp hmem
    exact ⟨z, hz, BoundedRange.intersectsBR_of_probe hq hz'⟩
  have hc : Canon s'.ranges.ivs := h4.canon hcov
  rcases h5 with ⟨h5, rfl⟩ | h5
  · have hnil : (a.interLBR b.lowerBoundedRange).ranges.ranges = [] := by
      rw [List.eq_nil_iff_forall_not_mem]
      intro y hy
      obtain ⟨r, hr, -⟩ := hcov y hy
      rw [h5] at hr
      cases hr
    show Canon (LowerBoundedSet.ivs _)
    simp [LowerBoundedSet.ivs, BoundedSet.ivs, hnil, canon_singleton, LowerBoundedRange.iv]
  · obtain ⟨s3, h6, -, h7⟩ := LowerBoundedSet.defragment_comp s'
    rw [h5] at h6
    cases h6
    exact h7 hc

end Rangetools
