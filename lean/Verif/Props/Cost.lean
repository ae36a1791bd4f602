import Verif.Props.Depth

/-!
# C78: how much work a union does
-/

namespace Rangetools
open Iv Samples

variable {T : Type} [LinearOrder T]

theorem vdInsert_length {α : Type} {l m : List α} {i : Nat} {a : α} (h : vdInsert l i a = .ok m) :
    m.length = l.length + 1 := by
  unfold vdInsert at h
  split at h
  · injection h with h
    rw [← h, List.length_append, List.length_cons, List.length_take, List.length_drop]
    omega
  · cases h

/-- C78. Adding a range: one activation for each piece absorbed and one for the insertion, so activations and
final number of pieces always add up to the initial number plus two. -/
theorem C78_add_range (s s' : BoundedSet T) (r : BoundedRange T) (hr : r.isEmpty = false)
    (h : s.addRange r = .ok s') : s.addRangeDepth r + s'.ranges.length = s.ranges.length + 2 := by
  induction hn : s.ranges.length using Nat.strong_induction_on generalizing s r with
  | _ n ih =>
    rw [BoundedSet.addRange, if_pos (by simp [hr])] at h
    rw [BoundedSet.addRangeDepth, if_pos (by simp [hr])]
    split at h
    · rename_i index hidx
      obtain ⟨hlt, hint, _⟩ := List.findIdx?_eq_some_iff_getElem.mp hidx
      have hget : vdIndex s.ranges index = .ok s.ranges[index] := by
        simp [vdIndex, unwrap, List.getElem?_eq_getElem hlt]
      rw [hget, Res.ok_bind, BoundedRange.combine_eq hint, Res.ok_bind] at h
      have hne := (BoundedRange.isEmpty_eq_false_iff _).mp hr
      split
      · rename_i index' hidx'
        obtain rfl : index = index' := by rw [hidx] at hidx'; injection hidx'
        rw [hget, Res.ok_bind, BoundedRange.combine_eq hint]
        have hlen : (s.ranges.eraseIdx index).length = n - 1 := by
          rw [List.length_eraseIdx_of_lt hlt, hn]
        have := ih (n - 1) (by omega) ⟨s.ranges.eraseIdx index⟩ _ (by
          rw [BoundedRange.isEmpty_eq_false_iff]
          simp only [lo_min, hi_max]
          exact lt_of_le_of_lt (min_le_left _ _) (lt_of_lt_of_le hne (le_max_left _ _))) h hlen
        simp only
        omega
      · rename_i hnone
        rw [hidx] at hnone; cases hnone
    · rename_i hnone
      split
      · rename_i hidx
        rw [hnone] at hidx; cases hidx
      · simp only at h
        cases hv : vdInsert s.ranges ((s.ranges.findIdx? (fun range => range.start.gt r.start)).getD
          s.ranges.length) r with
        | panic m => rw [hv] at h; cases h
        | ok l =>
          rw [hv] at h
          injection h with h
          rw [← h, vdInsert_length hv]
          omega

/-- C78. Adding a set: the number of activations of `add_range` is exactly twice the pieces added, plus the
pieces there were, minus the pieces there are in the end. -/
theorem C78_add_set (s o s' : BoundedSet T) (ho : ∀ r ∈ o.ranges, r.isEmpty = false) (h : s.addSet o = .ok s') :
    s.addAllCalls o.ranges + s'.ranges.length = s.ranges.length + 2 * o.ranges.length := by
  obtain ⟨l⟩ := o
  rw [BoundedSet.addSet] at h
  simp only at ho h ⊢
  induction l generalizing s with
  | nil => injection h with h; subst h; simp [BoundedSet.addAllCalls]
  | cons r rs ih =>
    rw [List.foldlM_cons] at h
    cases h1 : s.addRange r with
    | panic m => rw [h1] at h; cases h
    | ok t =>
      rw [h1, Res.ok_bind] at h
      have := C78_add_range s t r (ho r List.mem_cons_self) h1
      have := ih t (fun q hq => ho q (List.mem_cons_of_mem _ hq)) h
      rw [BoundedSet.addAllCalls, h1]
      simp only [List.length_cons]
      omega

omit [LinearOrder T] in
theorem positionTests_le {α : Type} (l : List α) (p : α → Bool) : positionTests l p ≤ l.length := by
  unfold positionTests
  split
  · rename_i i h
    exact (List.findIdx?_eq_some_iff_getElem.mp h).1
  · exact le_rfl

/-- C78. No activation looks at a piece more than twice, and only the last one twice. -/
theorem C78_add_range_tests {T : Type} [LE T] [LT T] [DecidableLE T] [DecidableLT T] [Ord T] [BEq T]
    (s : BoundedSet T) (r : BoundedRange T) :
    s.addRangeTests r ≤ s.ranges.length * (s.addRangeDepth r + 1) := by
  induction hn : s.ranges.length using Nat.strong_induction_on generalizing s r with
  | _ n ih =>
    rw [BoundedSet.addRangeTests, BoundedSet.addRangeDepth]
    split
    · split
      · rename_i index hidx
        obtain ⟨hlt, -⟩ := List.findIdx?_eq_some_iff_getElem.mp hidx
        cases hv : vdIndex s.ranges index >>= r.combine with
        | panic m =>
          simp only
          have : n * (1 + 1) = n * 2 := rfl
          omega
        | ok q =>
          simp only
          have hlen : (s.ranges.eraseIdx index).length = n - 1 := by
            rw [List.length_eraseIdx_of_lt hlt, hn]
          have := ih (n - 1) (by omega) ⟨s.ranges.eraseIdx index⟩ q hlen
          have h2 : (n - 1) * (BoundedSet.addRangeDepth ⟨s.ranges.eraseIdx index⟩ q + 1) ≤
              n * (BoundedSet.addRangeDepth ⟨s.ranges.eraseIdx index⟩ q + 1) := Nat.mul_le_mul_right _ (Nat.sub_le _ _)
          have h3 : n * (BoundedSet.addRangeDepth ⟨s.ranges.eraseIdx index⟩ q + 1 + 1) =
              n * (BoundedSet.addRangeDepth ⟨s.ranges.eraseIdx index⟩ q + 1) + n := Nat.mul_succ _ _
          omega
      · have := positionTests_le s.ranges (fun range => range.start.gt r.start)
        omega
    · exact Nat.zero_le _

/-- C78. Adding a set looks at pieces at most quadratically often. -/
theorem C78_add_set_tests (s o s' : BoundedSet T) (ho : ∀ r ∈ o.ranges, r.isEmpty = false)
    (h : s.addSet o = .ok s') :
    s.addAllTests o.ranges ≤ (s.ranges.length + o.ranges.length) * (s.ranges.length + 3 * o.ranges.length) := by
  have key : ∀ (l : List (BoundedRange T)) (s s' : BoundedSet T), (∀ r ∈ l, r.isEmpty = false) →
      l.foldlM (fun s range => s.addRange range) s = .ok s' →
      ∀ N, s.ranges.length + l.length ≤ N → s.addAllTests l ≤ N * (s.addAllCalls l + l.length) := by
    intro l
    induction l with
    | nil => intro s s' _ _ N _; simp [BoundedSet.addAllTests]
    | cons r rs ih =>
      intro s s' ho h N hN
      rw [List.foldlM_cons] at h
      cases h1 : s.addRange r with
      | panic m => rw [h1] at h; cases h
      | ok t =>
        rw [h1, Res.ok_bind] at h
        have e1 := C78_add_range s t r (ho r List.mem_cons_self) h1
        have e2 := C78_add_range_tests s r
        have e4 : 1 ≤ s.addRangeDepth r := by rw [BoundedSet.addRangeDepth]; split <;> (try split) <;> (try split) <;> omega
        simp only [List.length_cons] at hN ⊢
        have e3 := ih t s' (fun q hq => ho q (List.mem_cons_of_mem _ hq)) h N (by omega)
        rw [BoundedSet.addAllTests, BoundedSet.addAllCalls, h1]
        simp only
        have e5 : s.ranges.length * (s.addRangeDepth r + 1) ≤ N * (s.addRangeDepth r + 1) :=
          Nat.mul_le_mul_right _ (by omega)
        have e6 : N * (s.addRangeDepth r + t.addAllCalls rs + (rs.length + 1)) =
            N * (s.addRangeDepth r + 1) + N * (t.addAllCalls rs + rs.length) := by
          rw [← Nat.mul_add]; congr 1; omega
        omega
  have h1 := key o.ranges s s' ho h _ le_rfl
  have h2 := C78_add_set s o s' ho h
  refine h1.trans (Nat.mul_le_mul_left _ ?_)
  omega

theorem mem_vdInsert {α : Type} {l m : List α} {i : Nat} {a x : α} (h : vdInsert l i a = .ok m) (hx : x ∈ m) :
    x = a ∨ x ∈ l := by
  unfold vdInsert at h
  split at h
  · injection h with h
    subst h
    rcases List.mem_append.mp hx with h | h
    · exact Or.inr (List.mem_of_mem_take h)
    · rcases List.mem_cons.mp h with h | h
      · exact Or.inl h
      · exact Or.inr (List.mem_of_mem_drop h)
  · cases h

/-- C78. Pieces that meet nothing, neither the set nor each other, are each compared with all that is there by
then: the work is at least the product of the sizes. -/
theorem C78_apart (s o s' : BoundedSet T) (ho : ∀ r ∈ o.ranges, r.isEmpty = false)
    (hd : ∀ r ∈ o.ranges, ∀ p ∈ s.ranges, p.intersectsBR r = false)
    (hp : o.ranges.Pairwise fun p q => p.intersectsBR q = false) (h : s.addSet o = .ok s') :
    s'.ranges.length = s.ranges.length + o.ranges.length ∧
      o.ranges.length * s.ranges.length ≤ s.addAllTests o.ranges := by
  obtain ⟨l⟩ := o
  rw [BoundedSet.addSet] at h
  simp only at ho hd hp h ⊢
  induction l generalizing s with
  | nil => injection h with h; subst h; simp
  | cons r rs ih =>
    rw [List.foldlM_cons] at h
    rw [List.pairwise_cons] at hp
    cases h1 : s.addRange r with
    | panic m => rw [h1] at h; cases h
    | ok t =>
      have hr := ho r List.mem_cons_self
      have hnone : s.ranges.findIdx? (fun range => range.intersectsBR r) = none := by
        rw [List.findIdx?_eq_none_iff]
        exact fun p hp => hd r List.mem_cons_self p hp
      have e0 : s.ranges.length ≤ s.addRangeTests r := by
        rw [BoundedSet.addRangeTests, if_pos (by simp [hr])]
        split
        · rename_i hidx; rw [hnone] at hidx; cases hidx
        · exact Nat.le_add_right _ _
      have e1 : t.ranges.length = s.ranges.length + 1 ∧ ∀ p ∈ t.ranges, p = r ∨ p ∈ s.ranges := by
        have h1' := h1
        rw [BoundedSet.addRange, if_pos (by simp [hr])] at h1'
        split at h1'
        · rename_i hidx; rw [hnone] at hidx; cases hidx
        · simp only at h1'
          cases hv : vdInsert s.ranges ((s.ranges.findIdx? (fun range => range.start.gt r.start)).getD
            s.ranges.length) r with
          | panic m => rw [hv] at h1'; cases h1'
          | ok l =>
            rw [hv] at h1'
            injection h1' with h1'
            subst h1'
            exact ⟨vdInsert_length hv, fun p hp => mem_vdInsert hv hp⟩
      rw [h1, Res.ok_bind] at h
      have e2 := ih t (fun q hq => ho q (List.mem_cons_of_mem _ hq)) (fun q hq p hp' => by
        rcases e1.2 p hp' with rfl | hp'
        · exact hp.1 q hq
        · exact hd q (List.mem_cons_of_mem _ hq) p hp') hp.2 h
      rw [BoundedSet.addAllTests, h1]
      simp only [List.length_cons]
      refine ⟨by omega, ?_⟩
      have e3 : rs.length * s.ranges.length ≤ rs.length * t.ranges.length := Nat.mul_le_mul_left _ (by omega)
      have e4 : (rs.length + 1) * s.ranges.length = rs.length * s.ranges.length + s.ranges.length := Nat.succ_mul _ _
      omega

theorem co_apart {a b c d : Int} (h : b ≤ c ∨ d ≤ a) : (co a b).intersectsBR (co c d) = false := by
  rw [Bool.eq_false_iff, Ne, BoundedRange.intersectsBR_iff, not_lt]
  rcases h with h | h
  · exact (min_le_left _ _).trans ((cut_false_le.mpr h).trans (le_max_right _ _))
  · exact (min_le_right _ _).trans ((cut_false_le.mpr h).trans (le_max_left _ _))

theorem union_bs_bs (s o : BoundedSet T) :
    (Any.inner (.bs s)).union (.inner (.bs o)) = (do return .inner (.bs (← s.addSet o))) := by
  change ((s.addSet o >>= fun c => pure (SetVal.bs c)) >>= fun v => pure (Any.inner v.toInner)) = _
  cases s.addSet o <;> rfl

/-- C78. The quadratic bound is of the right order: for every `n` there are two reachable sets of `n` pieces
whose union looks at pieces `n * n` times or more. -/
theorem C78_quadratic (n : Nat) : ∃ s o s' : BoundedSet Int, Reachable (.inner (.bs s)) ∧
    Reachable (.inner (.bs o)) ∧ s.ranges.length = n ∧ o.ranges.length = n ∧ s.addSet o = .ok s' ∧
    (Any.inner (.bs s)).union (.inner (.bs o)) = .ok (.inner (.bs s')) ∧
    s'.ranges.length = 2 * n ∧ n * n ≤ s.addAllTests o.ranges := by
  have na := ofPairs_normal (canon_comb 0 n)
  have nb := ofPairs_normal (canon_comb (2 * n) n)
  have sa : (ofPairs (comb 0 n)).ranges.length = n := by simp [ofPairs, comb]
  have sb : (ofPairs (comb (2 * n) n)).ranges.length = n := by simp [ofPairs, comb]
  obtain ⟨c, hc, -⟩ := BoundedSet.addSet_comp (ofPairs (comb 0 n)) (ofPairs (comb (2 * n) n))
  have hd := C78_apart (ofPairs (comb 0 n)) (ofPairs (comb (2 * n) n)) c nb.1 (fun r hr p hp => by
      obtain ⟨q, hq, rfl⟩ := List.mem_map.mp hr
      obtain ⟨i, -, rfl⟩ := List.mem_map.mp hq
      obtain ⟨q, hq, rfl⟩ := List.mem_map.mp hp
      obtain ⟨j, hj, rfl⟩ := List.mem_map.mp hq
      rw [List.mem_range] at hj
      exact co_apart (Or.inl (by dsimp only; omega)))
    (by
      simp only [ofPairs]
      rw [List.pairwise_map]
      exact (canon_comb (2 * n) n).2.imp fun {p q} h => co_apart (Or.inl h)) hc
  rw [sa, sb] at hd
  refine ⟨_, _, c, (C73_reachable_iff_normal _).mpr na, (C73_reachable_iff_normal _).mpr nb, sa, sb, hc, ?_, by omega, hd.2⟩
  rw [union_bs_bs, hc]
  rfl

/-! ### Cases that meet the hypotheses -/

/-- Two pieces are absorbed: three activations, one piece where there were three. -/
example : let s := ofPairs (comb 0 3)
    (co 0 3).isEmpty = false ∧ s.addRange (co 0 3) = .ok ⟨[co 0 3, co 4 5]⟩ ∧ s.addRangeDepth (co 0 3) = 3 ∧
    s.addRangeTests (co 0 3) = 1 + 1 + (1 + 1) := by decide +kernel

/-- Four pieces and four that meet nothing: one activation each. -/
example : let s := ofPairs (comb 0 4); let o := ofPairs (comb 1 4)
    (∀ r ∈ o.ranges, r.isEmpty = false) ∧ (s.addSet o).isOk ∧ s.addAllCalls o.ranges = 4 ∧
    (∀ r ∈ o.ranges, ∀ p ∈ s.ranges, p.intersectsBR r = false) ∧ 4 * 4 ≤ s.addAllTests o.ranges := by
  decide +kernel

end Rangetools
