import Verif.Spec.Climb
import Verif.Props.Unwind

/-!
# C91: iteration with a `Step` implementation of which little is known
-/

namespace Rangetools
variable {T : Type} [LinearOrder T] {p : Platform} {S : Step T} {idx : T → Int}

/-! ### One move -/

namespace BoundedRangeIter

theorem climb_next (C : S.Climbs p) (it : BoundedRangeIter T) : SafeMove Left (fun _ => True) it true (it.nextU S) := by
  unfold nextU
  split
  · exact ⟨trivial, fun _ h => h, by simp, by simp, by simp⟩
  · rename_i hle
    split
    · rename_i c hc
      have hc := C.forward_lt _ _ hc
      refine ⟨trivial, fun t h => ⟨le_trans (le_of_lt hc) h.1, h.2⟩, fun t ht => ?_, fun _ t ht u hu' => ?_, by simp⟩
      · simp only [Res.ok.injEq, Option.some.injEq] at ht
        subst ht
        exact ⟨le_rfl, not_lt.1 hle⟩
      · simp only [Res.ok.injEq, Option.some.injEq] at ht
        subst ht
        exact lt_of_lt_of_le hc hu'.1
    · exact ⟨trivial, fun _ h => h, by simp, by simp, by simp⟩

theorem climb_nextBack (C : S.Climbs p) (it : BoundedRangeIter T) :
    SafeMove Left (fun _ => True) it false (it.nextBackU S) := by
  unfold nextBackU
  split
  · exact ⟨trivial, fun _ h => h, by simp, by simp, by simp⟩
  · rename_i hle
    split
    · rename_i c hc
      have hc := C.backward_lt _ _ hc
      refine ⟨trivial, fun t h => ⟨h.1, le_trans h.2 (le_of_lt hc)⟩, fun t ht => ?_, by simp, fun _ t ht u hu' => ?_⟩
      · simp only [Res.ok.injEq, Option.some.injEq] at ht
        subst ht
        exact ⟨not_lt.1 hle, le_rfl⟩
      · simp only [Res.ok.injEq, Option.some.injEq] at ht
        subst ht
        exact lt_of_le_of_lt hu'.2 hc
    · exact ⟨trivial, fun _ h => h, by simp, by simp, by simp⟩

theorem climb_nth (C : S.Climbs p) (it : BoundedRangeIter T) {n : Nat} (hn : n < p.usizeCount) :
    SafeMove Left (fun _ => True) it true (it.nthU S n) := by
  unfold nthU
  split
  · rename_i c hc
    exact (climb_next C _).trans fun t h => ⟨le_trans (C.forward_le _ _ _ hn hc) h.1, h.2⟩
  · exact ⟨trivial, fun _ h => h, by simp, by simp, by simp⟩

theorem climb_nthBack (C : S.Climbs p) (it : BoundedRangeIter T) {n : Nat} (hn : n < p.usizeCount) :
    SafeMove Left (fun _ => True) it false (it.nthBackU S n) := by
  unfold nthBackU
  split
  · rename_i c hc
    exact (climb_nextBack C _).trans fun t h => ⟨h.1, le_trans h.2 (C.backward_le _ _ _ hn hc)⟩
  · exact ⟨trivial, fun _ h => h, by simp, by simp, by simp⟩

theorem climb (C : S.Climbs p) (it : BoundedRangeIter T) (m : Move) (hm : m.arg < p.usizeCount) :
    SafeMove Left (fun _ => True) it m.isFront (it.move S m) := by
  cases m with
  | next => exact it.climb_next C
  | nextBack => exact it.climb_nextBack C
  | nth n => exact it.climb_nth C hm
  | nthBack n => exact it.climb_nthBack C hm

end BoundedRangeIter

namespace BoundedSetIter

theorem climb_next (C : S.Climbs p) (s : BoundedSetIter T) (hs : s.Sorted) :
    SafeMove Left Sorted s true (s.nextU p S) := by
  have h := popEmptyU_suffix (p := p) (S := S) s.rangeIters
  unfold nextU
  split <;> rename_i e <;> rw [e] at h
  · exact safe_dropFront hs h (by simp) _
  · exact safe_dropFront hs h (by simp) _
  · exact safe_front hs h (BoundedRangeIter.climb_next C _)

theorem climb_nth (C : S.Climbs p) (s : BoundedSetIter T) (hs : s.Sorted) {n : Nat} (hn : n < p.usizeCount) :
    SafeMove Left Sorted s true (s.nthU p S n) := by
  have h := skipU_suffix (p := p) (S := S) s.rangeIters n
  have hle := fun k => skipU_le (p := p) (S := S) s.rangeIters n (k := k)
  unfold nthU
  split <;> rename_i e <;> rw [e] at h hle
  · exact safe_dropFront hs h (by simp) _
  · exact safe_dropFront hs h (by simp) _
  · exact safe_front hs h (BoundedRangeIter.climb_nth C _ (lt_of_le_of_lt (hle _ rfl) hn))

theorem climb_nextBack (C : S.Climbs p) (s : BoundedSetIter T) (hs : s.Sorted) :
    SafeMove Left Sorted s false (s.nextBackU p S) := by
  have h := popEmptyU_suffix (p := p) (S := S) s.rangeIters.reverse
  unfold nextBackU
  split <;> rename_i e <;> rw [e] at h
  · exact safe_dropBack hs h (by simp) _
  · exact safe_dropBack hs h (by simp) _
  · exact safe_back hs h (BoundedRangeIter.climb_nextBack C _)

theorem climb_nthBack (C : S.Climbs p) (s : BoundedSetIter T) (hs : s.Sorted) {n : Nat} (hn : n < p.usizeCount) :
    SafeMove Left Sorted s false (s.nthBackU p S n) := by
  have h := skipU_suffix (p := p) (S := S) s.rangeIters.reverse n
  have hle := fun k => skipU_le (p := p) (S := S) s.rangeIters.reverse n (k := k)
  unfold nthBackU
  split <;> rename_i e <;> rw [e] at h hle
  · exact safe_dropBack hs h (by simp) _
  · exact safe_dropBack hs h (by simp) _
  · exact safe_back hs h (BoundedRangeIter.climb_nthBack C _ (lt_of_le_of_lt (hle _ rfl) hn))

theorem climb (C : S.Climbs p) (s : BoundedSetIter T) (m : Move) (hm : m.arg < p.usizeCount) (hs : s.Sorted) :
    SafeMove Left Sorted s m.isFront (s.move p S m) := by
  cases m with
  | next => exact s.climb_next C hs
  | nextBack => exact s.climb_nextBack C hs
  | nth n => exact s.climb_nth C hs hm
  | nthBack n => exact s.climb_nthBack C hs hm

omit [LinearOrder T] in
/-- Only a promise of `steps_between` makes a length positive. -/
theorem _root_.Rangetools.BoundedRangeIter.promise {it : BoundedRangeIter T} {l : Nat} (h : it.len p S = .ok l)
    (hl : l ≠ 0) : ∃ k, S.stepsBetween it.current it.last = .ok (some k) ∧ l ≤ k + 1 := by
  simp only [BoundedRangeIter.len, BoundedRangeIter.sizeHint] at h
  cases hs : S.stepsBetween it.current it.last with
  | panic m => rw [hs] at h; cases h
  | ok o =>
    cases o with
    | none =>
      rw [hs] at h
      have : 0 = l := by simpa [assert] using h
      exact absurd this.symm hl
    | some k =>
      refine ⟨k, rfl, ?_⟩
      simp only [hs, Res.bind_ok, Platform.addUsize] at h
      split at h
      · have : k + 1 = l := by simpa [assert] using h
        omega
      · split at h
        · cases h
        · have h' : (k + 1) % p.usizeCount = l := by simpa [assert] using h
          have := Nat.mod_le (k + 1) p.usizeCount
          omega

theorem climb_next_none (P : S.Promises p) {s : BoundedSetIter T} (h : (s.nextU p S).1 = .ok none) :
    (s.nextU p S).2 = ⟨[]⟩ := by
  unfold nextU at h ⊢
  split at h
  · cases h
  · simp
  · rename_i i is e
    obtain ⟨k, hk, h0⟩ := popEmptyU_len e
    obtain ⟨b, hb, -⟩ := BoundedRangeIter.promise hk h0
    rw [BoundedRangeIter.nextU, if_neg (not_lt.2 (P.le _ _ _ hb))] at h
    split at h <;> cases h

theorem climb_nth_none (P : S.Promises p) {s : BoundedSetIter T} {n : Nat} (hn : n < p.usizeCount)
    (h : (s.nthU p S n).1 = .ok none) : (s.nthU p S n).2 = ⟨[]⟩ := by
  have hle := fun k => skipU_le (p := p) (S := S) s.rangeIters n (k := k)
  unfold nthU at h ⊢
  split at h
  · cases h
  · simp
  · rename_i m i is e
    rw [e] at hle
    obtain ⟨k, hk, h0⟩ := skipU_len e
    obtain ⟨b, hb, hkb⟩ := BoundedRangeIter.promise hk (by omega)
    rw [BoundedRangeIter.nthU] at h
    split at h
    · rename_i c hc
      have hc := P.forward _ _ _ _ _ (lt_of_le_of_lt (hle _ rfl) hn) hb (by omega) hc
      rw [BoundedRangeIter.nextU, if_neg (not_lt.2 hc)] at h
      split at h <;> cases h
    · cases h

end BoundedSetIter

namespace LowerBoundedRangeIter

theorem climb_next (C : S.Climbs p) (it : LowerBoundedRangeIter T) :
    SafeMove Left (fun _ => True) it true (it.nextU S) := by
  unfold nextU
  split
  · rename_i c hc
    have hc := C.forward_lt _ _ hc
    refine ⟨trivial, fun t h => le_trans (le_of_lt hc) h, fun t ht => ?_, fun _ t ht u hu' => ?_, by simp⟩
    · simp only [Res.ok.injEq, Option.some.injEq] at ht
      subst ht
      exact le_rfl
    · simp only [Res.ok.injEq, Option.some.injEq] at ht
      subst ht
      exact lt_of_lt_of_le hc hu'
  · exact ⟨trivial, fun _ h => h, by simp, by simp, by simp⟩

theorem climb_nth (C : S.Climbs p) (it : LowerBoundedRangeIter T) {n : Nat} (hn : n < p.usizeCount) :
    SafeMove Left (fun _ => True) it true (it.nthU S n) := by
  unfold nthU
  split
  · rename_i c hc
    exact (climb_next C _).trans fun t h => le_trans (C.forward_le _ _ _ hn hc) h
  · exact ⟨trivial, fun _ h => h, by simp, by simp, by simp⟩

theorem climb (C : S.Climbs p) (it : LowerBoundedRangeIter T) (m : Move) (hm : m.arg < p.usizeCount) :
    SafeMove Left (fun _ => True) it m.isFront (it.move S m) := by
  cases m with
  | next => exact it.climb_next C
  | nth n => exact it.climb_nth C hm
  | _ => exact ⟨trivial, fun _ h => h, by simp [move], by simp [move], by simp [move]⟩

end LowerBoundedRangeIter

namespace LowerBoundedSetIter

theorem climb_next (C : S.Climbs p) (P : S.Promises p) (it : LowerBoundedSetIter T) (hs : it.Sorted) :
    SafeMove Left Sorted it true (it.nextU p S) := by
  have h := it.setIter.climb_next C hs.1
  have hn := BoundedSetIter.climb_next_none P (s := it.setIter)
  unfold nextU
  split <;> rename_i e <;> rw [e] at h hn
  · exact safe_set hs h
  · exact safe_set hs h
  · obtain rfl := hn rfl
    exact safe_range (it.rangeIter.climb_next C)

theorem climb_nth (C : S.Climbs p) (P : S.Promises p) (it : LowerBoundedSetIter T) (hs : it.Sorted) {n : Nat}
    (hn : n < p.usizeCount) : SafeMove Left Sorted it true (it.nthU p S n) := by
  have h := it.setIter.climb_nth C hs.1 hn
  have h0 := BoundedSetIter.climb_nth_none P (s := it.setIter) hn
  unfold nthU
  split
  · exact ⟨hs, fun _ h => h, by simp, by simp, by simp⟩
  · split <;> rename_i e <;> rw [e] at h h0
    · exact safe_set hs h
    · exact safe_set hs h
    · split
      · refine safe_set hs ⟨h.inv, h.left, by simp, by simp, by simp⟩
      · rename_i k hk
        obtain rfl := h0 rfl
        refine safe_range (it.rangeIter.climb_nth C ?_)
        rcases subUsize_le hk with h | h <;> omega

theorem climb (C : S.Climbs p) (P : S.Promises p) (it : LowerBoundedSetIter T) (m : Move) (hm : m.arg < p.usizeCount)
    (hs : it.Sorted) : SafeMove Left Sorted it m.isFront (it.move p S m) := by
  cases m with
  | next => exact it.climb_next C P hs
  | nth n => exact it.climb_nth C P hs hm
  | _ => exact ⟨hs, fun _ h => h, by simp [move], by simp [move], by simp [move]⟩

end LowerBoundedSetIter

/-! ### At the start -/

theorem climb_left (C : S.Climbs p) {r : BoundedRange T} {it : BoundedRangeIter T} (h : r.intoIter S = .ok it) {t : T}
    (ht : it.Left t) : r.contains t = true := by
  unfold BoundedRange.intoIter at h
  rcases r with ⟨⟨s | s⟩, ⟨e | e⟩⟩ <;> dsimp only at h <;>
    obtain ⟨c, hc, h⟩ := Res.bind_eq_ok.1 h <;>
    obtain ⟨d, hd, h⟩ := Res.bind_eq_ok.1 h <;>
    cases h <;>
    obtain ⟨h1, h2⟩ := ht <;>
    simp only [BoundedRange.contains, Bool.and_eq_true, decide_eq_true_eq] <;>
    refine ⟨?_, ?_⟩ <;>
    first
    | (cases hc; exact h1)
    | (cases hd; exact h2)
    | exact lt_of_lt_of_le (C.forward_lt _ _ hc) h1
    | exact lt_of_le_of_lt h2 (C.backward_lt _ _ hd)

theorem climb_lower_left (C : S.Climbs p) {r : LowerBoundedRange T} {it : LowerBoundedRangeIter T}
    (h : r.intoIter S = .ok it) {t : T} (ht : it.Left t) : r.contains t = true := by
  unfold LowerBoundedRange.intoIter at h
  rcases r with ⟨⟨s | s⟩⟩ <;> dsimp only at h <;> obtain ⟨c, hc, h⟩ := Res.bind_eq_ok.1 h <;> cases h <;>
    simp only [LowerBoundedRange.contains, decide_eq_true_eq]
  · exact lt_of_lt_of_le (C.forward_lt _ _ hc) ht
  · cases hc; exact ht

theorem climb_intoIters (C : S.Climbs p) {rs : List (BoundedRange T)} {its : List (BoundedRangeIter T)}
    (h : intoIters S rs = .ok its) : List.Forall₂ (fun r i => ∀ t, i.Left t → r.contains t = true) rs its := by
  induction rs generalizing its with
  | nil => cases h; exact .nil
  | cons r rs ih =>
    obtain ⟨c, hc, h⟩ := Res.bind_eq_ok.1 h
    obtain ⟨d, hd, h⟩ := Res.bind_eq_ok.1 h
    cases h
    exact .cons (fun t ht => climb_left C hc ht) (ih hd)

theorem climb_sets_left {rs : List (BoundedRange T)} {its : List (BoundedRangeIter T)}
    (h : List.Forall₂ (fun r i => ∀ t, i.Left t → r.contains t = true) rs its) {t : T} (ht : ∃ i ∈ its, i.Left t) :
    ∃ r ∈ rs, r.contains t = true := by
  induction h with
  | nil => simp at ht
  | @cons r i rs is h _ ih =>
    obtain ⟨j, hj, ht⟩ := ht
    rcases List.mem_cons.1 hj with rfl | hj
    · exact ⟨r, by simp, h t ht⟩
    · obtain ⟨r', hr', h'⟩ := ih ⟨j, hj, ht⟩
      exact ⟨r', List.mem_cons_of_mem _ hr', h'⟩

theorem climb_sorted {rs : List (BoundedRange T)} {its : List (BoundedRangeIter T)}
    (h : List.Forall₂ (fun r i => ∀ t, i.Left t → r.contains t = true) rs its)
    (hs : rs.Pairwise (fun r r' => ∀ t t', r.contains t = true → r'.contains t' = true → t < t')) :
    BoundedSetIter.Sorted ⟨its⟩ := by
  induction h with
  | nil => exact List.Pairwise.nil
  | @cons r i rs is h hrs ih =>
    obtain ⟨h1, h2⟩ := List.pairwise_cons.1 hs
    refine List.pairwise_cons.2 ⟨fun j hj t u ht hu => ?_, ih h2⟩
    obtain ⟨r', hr', hu⟩ := climb_sets_left hrs ⟨j, hj, hu⟩
    exact h1 r' hr' t u (h t ht) hu

/-! ### The theorems -/

/-- C91. A range's iterator under a `Step` whose steps go in the right direction, whatever else they do: every schedule of
calls, with its panics caught, is given elements of the range, in order and none twice. -/
theorem C91_range (C : S.Climbs p) (r : BoundedRange T) (it : BoundedRangeIter T) (hit : r.intoIter S = .ok it)
    (ms : List Move) (hm : UsizeMoves p ms) :
    (delivered (caught (BoundedRangeIter.move S) it ms).1).Pairwise (· < ·) ∧
      ∀ t ∈ delivered (caught (BoundedRangeIter.move S) it ms).1, r.contains t = true := by
  obtain ⟨h1, h2, -⟩ := caught_safe (R := BoundedRangeIter.Left) (I := fun _ => True) (A := fun m => m.arg < p.usizeCount)
    (fun s m hm _ => s.climb C m hm) it trivial ms hm
  exact ⟨h1, fun t ht => climb_left C hit (h2 t ht)⟩

/-- C91. The same for a normal `BoundedSet`. -/
theorem C91_set (C : S.Climbs p) (s : BoundedSet T) (hs : Inner.Normal (.bs s)) (it : BoundedSetIter T)
    (hit : s.intoIter S = .ok it) (ms : List Move) (hm : UsizeMoves p ms) :
    (delivered (caught (BoundedSetIter.move p S) it ms).1).Pairwise (· < ·) ∧
      ∀ t ∈ delivered (caught (BoundedSetIter.move p S) it ms).1, s.contains t = true := by
  obtain ⟨its, hits, e⟩ := Res.bind_eq_ok.1 hit
  cases e
  have h := climb_intoIters C hits
  obtain ⟨h1, h2, -⟩ := caught_safe (R := BoundedSetIter.Left) (I := BoundedSetIter.Sorted)
    (A := fun m => m.arg < p.usizeCount) (fun s m hm hs => s.climb C m hm hs) ⟨its⟩
    (climb_sorted h (C60_one_piece hs)) ms hm
  refine ⟨h1, fun t ht => ?_⟩
  simpa [BoundedSet.contains] using climb_sets_left h (h2 t ht)

/-- C91. The same for a half-line. -/
theorem C91_half_line (C : S.Climbs p) (r : LowerBoundedRange T) (it : LowerBoundedRangeIter T)
    (hit : r.intoIter S = .ok it) (ms : List Move) (hm : UsizeMoves p ms) :
    (delivered (caught (LowerBoundedRangeIter.move S) it ms).1).Pairwise (· < ·) ∧
      ∀ t ∈ delivered (caught (LowerBoundedRangeIter.move S) it ms).1, r.contains t = true := by
  obtain ⟨h1, h2, -⟩ := caught_safe (R := LowerBoundedRangeIter.Left) (I := fun _ => True)
    (A := fun m => m.arg < p.usizeCount) (fun s m hm _ => s.climb C m hm) it trivial ms hm
  exact ⟨h1, fun t ht => climb_lower_left C hit (h2 t ht)⟩

/-- C91. The same for a normal set with a half-line, where the half-line must wait for the pieces: here `steps_between`
must not promise steps past the end of a piece. -/
theorem C91_lower_set (C : S.Climbs p) (P : S.Promises p) (s : LowerBoundedSet T) (hs : Inner.Normal (.lbs s))
    (it : LowerBoundedSetIter T) (hit : s.intoIter S = .ok it) (ms : List Move) (hm : UsizeMoves p ms) :
    (delivered (caught (LowerBoundedSetIter.move p S) it ms).1).Pairwise (· < ·) ∧
      ∀ t ∈ delivered (caught (LowerBoundedSetIter.move p S) it ms).1, s.contains t = true := by
  obtain ⟨si, hsi, hit⟩ := Res.bind_eq_ok.1 hit
  obtain ⟨ri, hri, hit⟩ := Res.bind_eq_ok.1 hit
  cases hit
  obtain ⟨its, hits, hsi'⟩ := Res.bind_eq_ok.1 hsi
  cases hsi'
  have h := climb_intoIters C hits
  obtain ⟨h1, h2, -⟩ := caught_safe (R := LowerBoundedSetIter.Left) (I := LowerBoundedSetIter.Sorted)
    (A := fun m => m.arg < p.usizeCount) (fun s m hm hs => s.climb C P m hm hs) ⟨⟨its⟩, ri⟩
    ⟨climb_sorted h (C60_one_piece hs.1), fun t u ht hu =>
      pieces_before_half_line hs (climb_sets_left h ht) (climb_lower_left C hri hu)⟩ ms hm
  refine ⟨h1, fun t ht => ?_⟩
  rw [← Inner.contains, (C60_sets s.ranges.ranges ⟨.included t⟩ s.lowerBoundedRange t).2.1]
  exact (h2 t ht).imp (climb_sets_left h) (climb_lower_left C hri)

/-! ### Which implementations qualify -/

/-- C91. Every lawful implementation that panics where its steps leave the type. -/
theorem C91_lawful (L : LawfulStep p S idx) (C : S.Checked p idx) : S.Climbs p ∧ S.Promises p := by
  have hu := p.le_usizeCount
  refine ⟨⟨fun a n b hn h => ?_, fun a b h => ?_, fun a n b hn h => ?_, fun a b h => ?_⟩,
    ⟨fun a b k h => ?_, fun a b k n c hn h hk hc => ?_⟩⟩
  · have := C.forward_ok L hn h
    rw [L.le_iff]; omega
  · have := C.forward_ok L (by omega) h
    rw [L.lt_iff]; push_cast at this; omega
  · have := C.backward_ok L hn h
    rw [L.le_iff]; omega
  · have := C.backward_ok L (by omega) h
    rw [L.lt_iff]; push_cast at this; omega
  · rw [L.stepsBetween] at h
    split at h
    · rename_i hx; exact hx.1
    · cases h
  · have := C.forward_ok L hn hc
    rw [L.stepsBetween] at h
    split at h
    · rename_i hx
      cases h
      have := (L.le_iff _ _).1 hx.1
      rw [L.le_iff]; omega
    · cases h

/-- A `Step` on the integers that goes by tens and counts nothing: far from lawful. -/
def tenStep : Step Int where
  stepsBetween a b := if a ≤ b then .ok (some 0) else .ok none
  forwardChecked a n := .ok (some (a + 10 * n))
  backwardChecked a n := .ok (some (a - 10 * n))
  forward a n := if a + 10 * n = 100 then .panic "no" else .ok (a + 10 * n)
  backward a n := .ok (a - 10 * n)

theorem tenStep_climbs (p : Platform) : tenStep.Climbs p ∧ tenStep.Promises p := by
  refine ⟨⟨fun a n b _ h => ?_, fun a b h => ?_, fun a n b _ h => ?_, fun a b h => ?_⟩,
    ⟨fun a b k h => ?_, fun a b k n c _ h hk hc => ?_⟩⟩
  · simp only [tenStep] at h
    split at h <;> cases h
    omega
  · simp only [tenStep] at h
    split at h <;> cases h
    omega
  · cases h; omega
  · cases h; omega
  · simp only [tenStep] at h
    split at h
    · assumption
    · cases h
  · simp only [tenStep] at h hc
    split at h <;> cases h
    obtain rfl : n = 0 := by omega
    split at hc <;> cases hc
    omega

/-- It does deliver: from both ends of 0..=55, by tens. -/
example : BoundedRange.intoIter tenStep ⟨⟨.included 0⟩, ⟨.included 55⟩⟩ = .ok ⟨0, 55⟩ ∧
    delivered (caught (BoundedRangeIter.move tenStep) ⟨0, 55⟩ [.next, .nextBack, .nth 1, .nextBack, .next, .next]).1 =
      [0, 20, 30, 45, 55] ∧
    Inner.Normal (.lbs ⟨⟨[⟨⟨.included 0⟩, ⟨.included 25⟩⟩]⟩, ⟨⟨.included 60⟩⟩⟩ : Inner Int) ∧
    delivered (caught (LowerBoundedSetIter.move debug64 tenStep) ⟨⟨[⟨0, 25⟩]⟩, ⟨60⟩⟩
      [.next, .next, .next, .next, .nth 1, .next, .next]).1 = [0, 10, 20, 60, 80] := by
  refine ⟨by decide, by decide +kernel, by decide, by decide +kernel⟩

/-- It is not lawful for any numbering of the integers. -/
example (idx : Int → Int) : ¬LawfulStep p tenStep idx := by
  intro L
  have h := L.stepsBetween 0 5
  have h5 := L.le_iff 5 0
  rw [show tenStep.stepsBetween 0 5 = .ok (some 0) from rfl] at h
  split at h
  · simp only [Res.ok.injEq, Option.some.injEq] at h
    omega
  · cases h

/-! ### What each law is for -/

/-- C91. A single step up that does not go up makes a half-line deliver out of order or twice; more steps up that go down
make it deliver a foreign element. -/
theorem C91_forward_needed (a b c : T) (h3 : S.forward b 1 = .ok c) :
    (S.forward a 1 = .ok b → ¬a < b →
      ¬(delivered (caught (LowerBoundedRangeIter.move S) ⟨a⟩ [.next, .next]).1).Pairwise (· < ·)) ∧
    ∀ n, S.forward a n = .ok b → ¬a ≤ b →
      ∃ t ∈ delivered (caught (LowerBoundedRangeIter.move S) ⟨a⟩ [.nth n]).1,
        (⟨⟨.included a⟩⟩ : LowerBoundedRange T).contains t = false := by
  refine ⟨fun h1 h2 => ?_, fun n h1 h2 => ⟨b, ?_, ?_⟩⟩
  · simp [caught, LowerBoundedRangeIter.move, LowerBoundedRangeIter.nextU, h1, h3, delivered, fronts, backs, Move.isFront, h2]
  · simp [caught, LowerBoundedRangeIter.move, LowerBoundedRangeIter.nthU, LowerBoundedRangeIter.nextU, h1, h3, delivered,
      fronts, backs, Move.isFront]
  · simpa [LowerBoundedRange.contains] using h2

/-- C91. The same for steps down, on the range `a..=a`. -/
theorem C91_backward_needed (a b c : T) (h3 : S.backward b 1 = .ok c) :
    (S.backward a 1 = .ok b → ¬b < a →
      ¬(delivered (caught (BoundedRangeIter.move S) ⟨a, a⟩ [.nextBack, .nextBack]).1).Pairwise (· < ·)) ∧
    ∀ n, S.backward a n = .ok b → ¬b ≤ a →
      ∃ t ∈ delivered (caught (BoundedRangeIter.move S) ⟨a, a⟩ [.nthBack n]).1,
        (⟨⟨.included a⟩, ⟨.included a⟩⟩ : BoundedRange T).contains t = false := by
  refine ⟨fun h1 h2 => ?_, fun n h1 h2 => ⟨b, ?_, ?_⟩⟩
  · simp [caught, BoundedRangeIter.move, BoundedRangeIter.nextBackU, h1, h3, delivered, fronts, backs, Move.isFront, h2]
  · have h2' : ¬b < a := fun h => h2 (le_of_lt h)
    simp [caught, BoundedRangeIter.move, BoundedRangeIter.nthBackU, BoundedRangeIter.nextBackU, h1, h3, delivered,
      fronts, backs, Move.isFront, h2']
  · simpa [BoundedRange.contains] using fun _ => not_le.1 h2

/-- Integers without overflow checks. -/
example : (IntTy.step release64 u8).forward (byte 255) 1 = .ok (byte 0) ∧
    (IntTy.step release64 u8).forward (byte 0) 1 = .ok (byte 1) ∧
    (IntTy.step release64 u8).backward (byte 0) 1 = .ok (byte 255) ∧
    (IntTy.step release64 u8).forward (byte 200) 100 = .ok (byte 44) ∧
    (IntTy.step release64 u8).backward (byte 44) 100 = .ok (byte 200) := by
  refine ⟨?_, ?_, ?_, ?_, ?_⟩ <;> decide

/-- C91. With a `steps_between` that promises too much a set with a half-line goes to the half-line too early and comes
back: 10 before 5, although every single step is right. -/
theorem C91_promises_needed : badStep.Climbs debug64 ∧
    Inner.Normal (.lbs ⟨⟨[⟨⟨.included 0⟩, ⟨.included 1⟩⟩, ⟨⟨.included 5⟩, ⟨.included 6⟩⟩]⟩, ⟨⟨.included 10⟩⟩⟩ : Inner Int) ∧
    LowerBoundedSet.intoIter badStep
        ⟨⟨[⟨⟨.included 0⟩, ⟨.included 1⟩⟩, ⟨⟨.included 5⟩, ⟨.included 6⟩⟩]⟩, ⟨⟨.included 10⟩⟩⟩ =
      .ok ⟨⟨[⟨0, 1⟩, ⟨5, 6⟩]⟩, ⟨10⟩⟩ ∧
    delivered (caught (LowerBoundedSetIter.move debug64 badStep) ⟨⟨[⟨0, 1⟩, ⟨5, 6⟩]⟩, ⟨10⟩⟩
      [.next, .next, .next, .nth 2]).1 = [0, 1, 10, 5] := by
  refine ⟨⟨fun a n b _ h => ?_, fun a b h => ?_, fun a n b _ h => ?_, fun a b h => ?_⟩, by decide, by decide,
    by decide +kernel⟩ <;> cases h <;> omega

end Rangetools
