import Verif.Spec.Unwind
import Verif.Proofs.Checked

/-!
# Iterators after a panic: proofs
-/

namespace Rangetools
variable {T : Type} [LinearOrder T] {p : Platform} {S : Step T} {idx : T → Int}

/-- What one move may do, seen through what is left (`R`). -/
structure SafeMove {σ : Type} (R : σ → T → Prop) (I : σ → Prop) (s : σ) (f : Bool) (r : Res (Option T) × σ) : Prop where
  inv : I r.2
  left : ∀ t, R r.2 t → R s t
  item : ∀ t, r.1 = .ok (some t) → R s t
  front : f = true → ∀ t, r.1 = .ok (some t) → ∀ u, R r.2 u → t < u
  back : f = false → ∀ t, r.1 = .ok (some t) → ∀ u, R r.2 u → u < t

theorem caught_safe {σ : Type} {R : σ → T → Prop} {I : σ → Prop} {call : σ → Move → Res (Option T) × σ} {A : Move → Prop}
    (h : ∀ s m, A m → I s → SafeMove R I s m.isFront (call s m)) (s : σ) (hs : I s) (ms : List Move)
    (hm : ∀ m ∈ ms, A m) :
    (delivered (caught call s ms).1).Pairwise (· < ·) ∧ (∀ t ∈ delivered (caught call s ms).1, R s t) ∧
      (∀ t, R (caught call s ms).2 t → R s t ∧ (∀ u ∈ fronts (caught call s ms).1, u < t) ∧
        ∀ u ∈ backs (caught call s ms).1, t < u) := by
  induction ms generalizing s with
  | nil => simp [caught, delivered, fronts, backs]
  | cons m ms ih =>
    have hc := h s m (hm m (by simp)) hs
    obtain ⟨i1, i2, i3⟩ := ih (call s m).2 hc.inv (fun m' h' => hm m' (List.mem_cons_of_mem _ h'))
    simp only [caught]
    generalize hr : call s m = r at *
    obtain ⟨o, s'⟩ := r
    simp only [delivered] at i1 i2 ⊢
    generalize caught call s' ms = rs at *
    rcases o with (_ | t) | _
    · exact ⟨i1, fun t ht => hc.left t (i2 t ht), fun t ht => ⟨hc.left t (i3 t ht).1, (i3 t ht).2⟩⟩
    · cases hf : m.isFront
      · simp only [fronts, backs, hf, Bool.false_eq_true, if_false, List.reverse_cons, ← List.append_assoc]
        refine ⟨List.pairwise_append.2 ⟨i1, List.pairwise_singleton _ _, fun x hx y hy => ?_⟩, fun x hx => ?_, fun x hx => ?_⟩
        · rw [List.mem_singleton] at hy
          subst hy
          exact hc.back hf _ rfl x (i2 x hx)
        · rcases List.mem_append.1 hx with hx | hx
          · exact hc.left x (i2 x hx)
          · rw [List.mem_singleton] at hx
            subst hx
            exact hc.item _ rfl
        · refine ⟨hc.left x (i3 x hx).1, (i3 x hx).2.1, fun u hu => ?_⟩
          rcases List.mem_cons.1 hu with rfl | hu
          · exact hc.back hf _ rfl x (i3 x hx).1
          · exact (i3 x hx).2.2 u hu
      · simp only [fronts, backs, hf, if_true, List.cons_append]
        refine ⟨List.pairwise_cons.2 ⟨fun x hx => hc.front hf _ rfl x (i2 x hx), i1⟩, fun x hx => ?_, fun x hx => ?_⟩
        · rcases List.mem_cons.1 hx with rfl | hx
          · exact hc.item _ rfl
          · exact hc.left x (i2 x hx)
        · refine ⟨hc.left x (i3 x hx).1, fun u hu => ?_, (i3 x hx).2.2⟩
          rcases List.mem_cons.1 hu with rfl | hu
          · exact hc.front hf _ rfl x (i3 x hx).1
          · exact (i3 x hx).2.1 u hu
    · exact ⟨i1, fun t ht => hc.left t (i2 t ht), fun t ht => ⟨hc.left t (i3 t ht).1, (i3 t ht).2⟩⟩

/-! ### `BoundedRangeIter` -/

namespace BoundedRangeIter

theorem safe_next (L : LawfulStep p S idx) (C : S.Checked p idx) (it : BoundedRangeIter T) :
    SafeMove Left (fun _ => True) it true (it.nextU S) := by
  have hu := p.le_usizeCount
  unfold nextU
  split
  · exact ⟨trivial, fun _ h => h, by simp, by simp, by simp⟩
  · rename_i hle
    split
    · rename_i c hc
      have hc := C.forward_ok L (by omega) hc
      refine ⟨trivial, fun t h => ⟨?_, h.2⟩, fun t ht => ?_, fun _ t ht u hu' => ?_, by simp⟩
      · have := h.1
        simp only [L.le_iff] at this ⊢
        push_cast at hc; omega
      · simp only [Res.ok.injEq, Option.some.injEq] at ht
        subst ht
        exact ⟨le_rfl, not_lt.1 hle⟩
      · simp only [Res.ok.injEq, Option.some.injEq] at ht
        subst ht
        have := hu'.1
        simp only [L.le_iff, L.lt_iff] at this ⊢
        push_cast at hc; omega
    · exact ⟨trivial, fun _ h => h, by simp, by simp, by simp⟩

theorem safe_nextBack (L : LawfulStep p S idx) (C : S.Checked p idx) (it : BoundedRangeIter T) :
    SafeMove Left (fun _ => True) it false (it.nextBackU S) := by
  have hu := p.le_usizeCount
  unfold nextBackU
  split
  · exact ⟨trivial, fun _ h => h, by simp, by simp, by simp⟩
  · rename_i hle
    split
    · rename_i c hc
      have hc := C.backward_ok L (by omega) hc
      refine ⟨trivial, fun t h => ⟨h.1, ?_⟩, fun t ht => ?_, by simp, fun _ t ht u hu' => ?_⟩
      · have := h.2
        simp only [L.le_iff] at this ⊢
        push_cast at hc; omega
      · simp only [Res.ok.injEq, Option.some.injEq] at ht
        subst ht
        exact ⟨not_lt.1 hle, le_rfl⟩
      · simp only [Res.ok.injEq, Option.some.injEq] at ht
        subst ht
        have := hu'.2
        simp only [L.le_iff, L.lt_iff] at this ⊢
        push_cast at hc; omega
    · exact ⟨trivial, fun _ h => h, by simp, by simp, by simp⟩

theorem _root_.Rangetools.SafeMove.trans {σ : Type} {R : σ → T → Prop} {I : σ → Prop} {s s' : σ} {f : Bool}
    {r : Res (Option T) × σ} (h : SafeMove R I s' f r) (hs : ∀ t, R s' t → R s t) : SafeMove R I s f r :=
  ⟨h.inv, fun t ht => hs t (h.left t ht), fun t ht => hs t (h.item t ht), h.front, h.back⟩

theorem safe_nth (L : LawfulStep p S idx) (C : S.Checked p idx) (it : BoundedRangeIter T) {n : Nat}
    (hn : n < p.usizeCount) : SafeMove Left (fun _ => True) it true (it.nthU S n) := by
  unfold nthU
  split
  · rename_i c hc
    have hc := C.forward_ok L hn hc
    refine (safe_next L C _).trans fun t h => ⟨?_, h.2⟩
    have := h.1
    simp only [L.le_iff] at this ⊢
    omega
  · exact ⟨trivial, fun _ h => h, by simp, by simp, by simp⟩

theorem safe_nthBack (L : LawfulStep p S idx) (C : S.Checked p idx) (it : BoundedRangeIter T) {n : Nat}
    (hn : n < p.usizeCount) : SafeMove Left (fun _ => True) it false (it.nthBackU S n) := by
  unfold nthBackU
  split
  · rename_i c hc
    have hc := C.backward_ok L hn hc
    refine (safe_nextBack L C _).trans fun t h => ⟨h.1, ?_⟩
    have := h.2
    simp only [L.le_iff] at this ⊢
    omega
  · exact ⟨trivial, fun _ h => h, by simp, by simp, by simp⟩

theorem safe (L : LawfulStep p S idx) (C : S.Checked p idx) (it : BoundedRangeIter T) (m : Move)
    (hm : m.arg < p.usizeCount) : SafeMove Left (fun _ => True) it m.isFront (it.move S m) := by
  cases m with
  | next => exact it.safe_next L C
  | nextBack => exact it.safe_nextBack L C
  | nth n => exact it.safe_nth L C hm
  | nthBack n => exact it.safe_nthBack L C hm

theorem len_pos (L : LawfulStep p S idx) {it : BoundedRangeIter T} {l : Nat} (h : it.len p S = .ok l) (hl : l ≠ 0) :
    idx it.current ≤ idx it.last ∧ (l : Int) ≤ idx it.last - idx it.current + 1 := by
  simp only [len, sizeHint, L.stepsBetween, Res.bind_ok] at h
  split at h
  · rename_i k hk
    split at hk
    · rename_i hle
      obtain ⟨hle, -⟩ := hle
      rw [L.le_iff] at hle
      cases hk
      simp only [Platform.addUsize] at h
      split at h
      · simp [assert, Res.bind_ok] at h
        omega
      · split at h
        · cases h
        · have h' : ((idx it.last - idx it.current).toNat + 1) % p.usizeCount = l := by simpa [assert] using h
          have := Nat.mod_le ((idx it.last - idx it.current).toNat + 1) p.usizeCount
          omega
    · cases hk
  · have : 0 = l := by simpa [assert] using h
    exact absurd this.symm hl

end BoundedRangeIter

/-! ### `BoundedSetIter` -/

namespace BoundedSetIter

/-- What is left of a later range is greater than what is left of an earlier one. -/
def Sorted (s : BoundedSetIter T) : Prop := s.rangeIters.Pairwise fun i j => ∀ t u, i.Left t → j.Left u → t < u

omit [LinearOrder T] in
theorem popEmptyU_suffix (l : List (BoundedRangeIter T)) : (popEmptyU p S l).2 <:+ l := by
  induction l with
  | nil => exact List.suffix_rfl
  | cons i is ih =>
    rw [popEmptyU]
    split
    · split
      · exact ih.trans (List.suffix_cons _ _)
      · exact List.suffix_rfl
    · exact List.suffix_rfl

omit [LinearOrder T] in
theorem skipU_suffix (l : List (BoundedRangeIter T)) (n : Nat) : (skipU p S l n).2 <:+ l := by
  induction l generalizing n with
  | nil => exact List.suffix_rfl
  | cons i is ih =>
    rw [skipU]
    split
    · split
      · split
        · exact (ih _).trans (List.suffix_cons _ _)
        · exact List.suffix_rfl
      · exact List.suffix_rfl
    · exact List.suffix_rfl

omit [LinearOrder T] in
theorem skipU_le (l : List (BoundedRangeIter T)) (n : Nat) {k : Nat} (h : (skipU p S l n).1 = .ok k) : k ≤ n := by
  induction l generalizing n with
  | nil => cases h; exact le_rfl
  | cons i is ih =>
    rw [skipU] at h
    split at h
    · split at h
      · rename_i hl
        simp only [Platform.subUsize, if_pos hl] at h
        exact (ih _ h).trans (Nat.sub_le _ _)
      · cases h; exact le_rfl
    · cases h

/-- Only ranges were dropped at the front. -/
theorem safe_dropFront {s : BoundedSetIter T} (hs : s.Sorted) {l : List (BoundedRangeIter T)} (h : l <:+ s.rangeIters)
    {o : Res (Option T)} (ho : ∀ t, o ≠ .ok (some t)) (f : Bool) : SafeMove Left Sorted s f (o, ⟨l⟩) :=
  ⟨List.Pairwise.sublist h.sublist hs, fun _ ⟨i, hi, ht⟩ => ⟨i, h.subset hi, ht⟩, fun t e => absurd e (ho t),
    fun _ t e => absurd e (ho t), fun _ t e => absurd e (ho t)⟩

theorem safe_front {s : BoundedSetIter T} (hs : s.Sorted) {i : BoundedRangeIter T} {is : List (BoundedRangeIter T)}
    (h : i :: is <:+ s.rangeIters) {r : Res (Option T) × BoundedRangeIter T}
    (hr : SafeMove BoundedRangeIter.Left (fun _ => True) i true r) : SafeMove Left Sorted s true (r.1, ⟨r.2 :: is⟩) := by
  obtain ⟨h1, h2⟩ := List.pairwise_cons.1 (List.Pairwise.sublist h.sublist hs)
  refine ⟨List.pairwise_cons.2 ⟨fun j hj t u ht hu => h1 j hj t u (hr.left t ht) hu, h2⟩, ?_, ?_, ?_, by simp⟩
  · rintro t ⟨j, hj, ht⟩
    rcases List.mem_cons.1 hj with rfl | hj
    · exact ⟨i, h.subset (by simp), hr.left t ht⟩
    · exact ⟨j, h.subset (List.mem_cons_of_mem _ hj), ht⟩
  · exact fun t ht => ⟨i, h.subset (by simp), hr.item t ht⟩
  · rintro - t ht u ⟨j, hj, hu⟩
    rcases List.mem_cons.1 hj with rfl | hj
    · exact hr.front rfl t ht u hu
    · exact h1 j hj t u (hr.item t ht) hu

omit [LinearOrder T] in
theorem prefix_of_reverse {l m : List (BoundedRangeIter T)} (h : l <:+ m.reverse) : l.reverse <+: m := by
  rw [← List.reverse_suffix, List.reverse_reverse]; exact h

theorem safe_dropBack {s : BoundedSetIter T} (hs : s.Sorted) {l : List (BoundedRangeIter T)}
    (h : l <:+ s.rangeIters.reverse) {o : Res (Option T)} (ho : ∀ t, o ≠ .ok (some t)) (f : Bool) :
    SafeMove Left Sorted s f (o, ⟨l.reverse⟩) := by
  have h := prefix_of_reverse h
  exact ⟨List.Pairwise.sublist h.sublist hs, fun _ ⟨i, hi, ht⟩ => ⟨i, h.subset hi, ht⟩, fun t e => absurd e (ho t),
    fun _ t e => absurd e (ho t), fun _ t e => absurd e (ho t)⟩

theorem safe_back {s : BoundedSetIter T} (hs : s.Sorted) {i : BoundedRangeIter T} {is : List (BoundedRangeIter T)}
    (h : i :: is <:+ s.rangeIters.reverse) {r : Res (Option T) × BoundedRangeIter T}
    (hr : SafeMove BoundedRangeIter.Left (fun _ => True) i false r) :
    SafeMove Left Sorted s false (r.1, ⟨(r.2 :: is).reverse⟩) := by
  have h := prefix_of_reverse h
  have hs' : (i :: is).reverse.Pairwise _ := List.Pairwise.sublist h.sublist hs
  have hmem : ∀ j ∈ i :: is, j ∈ s.rangeIters := fun j hj => h.subset (List.mem_reverse.2 hj)
  obtain ⟨h1, h2⟩ := List.pairwise_cons.1 (List.pairwise_reverse.1 hs')
  refine ⟨List.pairwise_reverse.2 (List.pairwise_cons.2 ⟨fun j hj t u ht hu => h1 j hj t u ht (hr.left u hu), h2⟩), ?_, ?_,
    by simp, ?_⟩
  · rintro t ⟨j, hj, ht⟩
    rcases List.mem_cons.1 (List.mem_reverse.1 hj) with rfl | hj
    · exact ⟨i, hmem _ (by simp), hr.left t ht⟩
    · exact ⟨j, hmem _ (List.mem_cons_of_mem _ hj), ht⟩
  · exact fun t ht => ⟨i, hmem _ (by simp), hr.item t ht⟩
  · rintro - t ht u ⟨j, hj, hu⟩
    rcases List.mem_cons.1 (List.mem_reverse.1 hj) with rfl | hj
    · exact hr.back rfl t ht u hu
    · exact h1 j hj u t hu (hr.item t ht)

theorem safe_next (L : LawfulStep p S idx) (C : S.Checked p idx) (s : BoundedSetIter T) (hs : s.Sorted) :
    SafeMove Left Sorted s true (s.nextU p S) := by
  have h := popEmptyU_suffix (p := p) (S := S) s.rangeIters
  unfold nextU
  split <;> rename_i e <;> rw [e] at h
  · exact safe_dropFront hs h (by simp) _
  · exact safe_dropFront hs h (by simp) _
  · exact safe_front hs h (BoundedRangeIter.safe_next L C _)

theorem safe_nth (L : LawfulStep p S idx) (C : S.Checked p idx) (s : BoundedSetIter T) (hs : s.Sorted) {n : Nat}
    (hn : n < p.usizeCount) : SafeMove Left Sorted s true (s.nthU p S n) := by
  have h := skipU_suffix (p := p) (S := S) s.rangeIters n
  have hle := fun k => skipU_le (p := p) (S := S) s.rangeIters n (k := k)
  unfold nthU
  split <;> rename_i e <;> rw [e] at h hle
  · exact safe_dropFront hs h (by simp) _
  · exact safe_dropFront hs h (by simp) _
  · exact safe_front hs h (BoundedRangeIter.safe_nth L C _ (lt_of_le_of_lt (hle _ rfl) hn))

theorem safe_nextBack (L : LawfulStep p S idx) (C : S.Checked p idx) (s : BoundedSetIter T) (hs : s.Sorted) :
    SafeMove Left Sorted s false (s.nextBackU p S) := by
  have h := popEmptyU_suffix (p := p) (S := S) s.rangeIters.reverse
  unfold nextBackU
  split <;> rename_i e <;> rw [e] at h
  · exact safe_dropBack hs h (by simp) _
  · exact safe_dropBack hs h (by simp) _
  · exact safe_back hs h (BoundedRangeIter.safe_nextBack L C _)

theorem safe_nthBack (L : LawfulStep p S idx) (C : S.Checked p idx) (s : BoundedSetIter T) (hs : s.Sorted) {n : Nat}
    (hn : n < p.usizeCount) : SafeMove Left Sorted s false (s.nthBackU p S n) := by
  have h := skipU_suffix (p := p) (S := S) s.rangeIters.reverse n
  have hle := fun k => skipU_le (p := p) (S := S) s.rangeIters.reverse n (k := k)
  unfold nthBackU
  split <;> rename_i e <;> rw [e] at h hle
  · exact safe_dropBack hs h (by simp) _
  · exact safe_dropBack hs h (by simp) _
  · exact safe_back hs h (BoundedRangeIter.safe_nthBack L C _ (lt_of_le_of_lt (hle _ rfl) hn))

theorem safe (L : LawfulStep p S idx) (C : S.Checked p idx) (s : BoundedSetIter T) (m : Move)
    (hm : m.arg < p.usizeCount) (hs : s.Sorted) : SafeMove Left Sorted s m.isFront (s.move p S m) := by
  cases m with
  | next => exact s.safe_next L C hs
  | nextBack => exact s.safe_nextBack L C hs
  | nth n => exact s.safe_nth L C hs hm
  | nthBack n => exact s.safe_nthBack L C hs hm

omit [LinearOrder T] in
/-- The front range has a length after the loop of `next`. -/
theorem popEmptyU_len {l : List (BoundedRangeIter T)} {i : BoundedRangeIter T} {is : List (BoundedRangeIter T)}
    (h : popEmptyU p S l = (.ok (), i :: is)) : ∃ k, i.len p S = .ok k ∧ k ≠ 0 := by
  induction l with
  | nil => cases h
  | cons j js ih =>
    rw [popEmptyU] at h
    split at h
    · split at h
      · exact ih h
      · rename_i k hk h0
        cases h
        exact ⟨k, hk, by simpa using h0⟩
    · cases h

omit [LinearOrder T] in
omit [LinearOrder T] in
theorem skipU_len {l : List (BoundedRangeIter T)} {i : BoundedRangeIter T} {is : List (BoundedRangeIter T)} {n m : Nat}
    (h : skipU p S l n = (.ok m, i :: is)) : ∃ k, i.len p S = .ok k ∧ m < k := by
  induction l generalizing n with
  | nil => cases h
  | cons j js ih =>
    rw [skipU] at h
    split at h
    · rename_i k hk
      split at h
      · split at h
        · exact ih h
        · cases h
      · cases h
        exact ⟨k, hk, by omega⟩
    · cases h

theorem next_none (L : LawfulStep p S idx) {s : BoundedSetIter T} (h : (s.nextU p S).1 = .ok none) :
    (s.nextU p S).2 = ⟨[]⟩ := by
  unfold nextU at h ⊢
  split at h
  · cases h
  · simp
  · rename_i i is e
    obtain ⟨k, hk, h0⟩ := popEmptyU_len e
    have := (BoundedRangeIter.len_pos L hk h0).1
    rw [BoundedRangeIter.nextU, if_neg (by rw [gt_iff_lt, L.lt_iff]; omega)] at h
    split at h <;> cases h

theorem nth_none (L : LawfulStep p S idx) (C : S.Checked p idx) {s : BoundedSetIter T} {n : Nat} (hn : n < p.usizeCount)
    (h : (s.nthU p S n).1 = .ok none) : (s.nthU p S n).2 = ⟨[]⟩ := by
  have hle := fun k => skipU_le (p := p) (S := S) s.rangeIters n (k := k)
  unfold nthU at h ⊢
  split at h
  · cases h
  · simp
  · rename_i m i is e
    rw [e] at hle
    obtain ⟨k, hk, h0⟩ := skipU_len e
    have := BoundedRangeIter.len_pos L hk (by omega)
    rw [BoundedRangeIter.nthU] at h
    split at h
    · rename_i c hc
      have hc := C.forward_ok L (lt_of_le_of_lt (hle _ rfl) hn) hc
      rw [BoundedRangeIter.nextU, if_neg (by simp only [gt_iff_lt, L.lt_iff]; omega)] at h
      split at h <;> cases h
    · cases h

end BoundedSetIter

/-! ### Half-lines -/

namespace LowerBoundedRangeIter

theorem safe_next (L : LawfulStep p S idx) (C : S.Checked p idx) (it : LowerBoundedRangeIter T) :
    SafeMove Left (fun _ => True) it true (it.nextU S) := by
  have hu := p.le_usizeCount
  unfold nextU
  split
  · rename_i c hc
    have hc := C.forward_ok L (by omega) hc
    refine ⟨trivial, fun t h => ?_, fun t ht => ?_, fun _ t ht u hu' => ?_, by simp⟩
    · simp only [Left, L.le_iff] at h ⊢
      push_cast at hc; omega
    · simp only [Res.ok.injEq, Option.some.injEq] at ht
      subst ht
      exact le_rfl
    · simp only [Res.ok.injEq, Option.some.injEq] at ht
      subst ht
      simp only [Left, L.le_iff, L.lt_iff] at hu' ⊢
      push_cast at hc; omega
  · exact ⟨trivial, fun _ h => h, by simp, by simp, by simp⟩

theorem safe_nth (L : LawfulStep p S idx) (C : S.Checked p idx) (it : LowerBoundedRangeIter T) {n : Nat}
    (hn : n < p.usizeCount) : SafeMove Left (fun _ => True) it true (it.nthU S n) := by
  unfold nthU
  split
  · rename_i c hc
    have hc := C.forward_ok L hn hc
    refine (safe_next L C _).trans fun t h => ?_
    simp only [Left, L.le_iff] at h ⊢
    omega
  · exact ⟨trivial, fun _ h => h, by simp, by simp, by simp⟩

theorem safe (L : LawfulStep p S idx) (C : S.Checked p idx) (it : LowerBoundedRangeIter T) (m : Move)
    (hm : m.arg < p.usizeCount) : SafeMove Left (fun _ => True) it m.isFront (it.move S m) := by
  cases m with
  | next => exact it.safe_next L C
  | nth n => exact it.safe_nth L C hm
  | _ => exact ⟨trivial, fun _ h => h, by simp [move], by simp [move], by simp [move]⟩

end LowerBoundedRangeIter

namespace LowerBoundedSetIter

/-- The pieces are sorted and come before the half-line. -/
def Sorted (it : LowerBoundedSetIter T) : Prop :=
  it.setIter.Sorted ∧ ∀ t u, it.setIter.Left t → it.rangeIter.Left u → t < u

theorem safe_set {it : LowerBoundedSetIter T} (hs : it.Sorted) {o : Res (Option T)} {s : BoundedSetIter T}
    (h : SafeMove BoundedSetIter.Left BoundedSetIter.Sorted it.setIter true (o, s)) :
    SafeMove Left Sorted it true (o, { it with setIter := s }) := by
  refine ⟨⟨h.inv, fun t u ht hu => hs.2 t u (h.left t ht) hu⟩, ?_, fun t ht => Or.inl (h.item t ht), ?_, by simp⟩
  · rintro t (ht | ht)
    · exact Or.inl (h.left t ht)
    · exact Or.inr ht
  · rintro - t ht u (hu | hu)
    · exact h.front rfl t ht u hu
    · exact hs.2 t u (h.item t ht) hu

theorem safe_range {it : LowerBoundedSetIter T} {r : Res (Option T) × LowerBoundedRangeIter T}
    (h : SafeMove LowerBoundedRangeIter.Left (fun _ => True) it.rangeIter true r) :
    SafeMove Left Sorted it true (r.1, ⟨⟨[]⟩, r.2⟩) := by
  have nl : ∀ t, ¬BoundedSetIter.Left (⟨[]⟩ : BoundedSetIter T) t := by rintro t ⟨_, h, _⟩; cases h
  refine ⟨⟨List.Pairwise.nil, fun t u ht => absurd ht (nl t)⟩, ?_, fun t ht => Or.inr (h.item t ht), ?_, by simp⟩
  · rintro t (ht | ht)
    · exact absurd ht (nl t)
    · exact Or.inr (h.left t ht)
  · rintro - t ht u (hu | hu)
    · exact absurd hu (nl u)
    · exact h.front rfl t ht u hu

theorem safe_next (L : LawfulStep p S idx) (C : S.Checked p idx) (it : LowerBoundedSetIter T) (hs : it.Sorted) :
    SafeMove Left Sorted it true (it.nextU p S) := by
  have h := it.setIter.safe_next L C hs.1
  have hn := BoundedSetIter.next_none L (s := it.setIter) (p := p)
  unfold nextU
  split <;> rename_i e <;> rw [e] at h hn
  · exact safe_set hs h
  · exact safe_set hs h
  · obtain rfl := hn rfl
    exact safe_range (it.rangeIter.safe_next L C)

theorem subUsize_le {n b k : Nat} (h : p.subUsize n b = .ok k) : k < p.usizeCount ∨ k ≤ n := by
  unfold Platform.subUsize at h
  have hu := p.le_usizeCount
  split at h
  · cases h; right; omega
  · split at h
    · cases h
    · cases h; left; exact Nat.mod_lt _ (by omega)

theorem safe_nth (L : LawfulStep p S idx) (C : S.Checked p idx) (it : LowerBoundedSetIter T) (hs : it.Sorted) {n : Nat}
    (hn : n < p.usizeCount) : SafeMove Left Sorted it true (it.nthU p S n) := by
  have h := it.setIter.safe_nth L C hs.1 hn
  have h0 := BoundedSetIter.nth_none L C (s := it.setIter) (p := p) hn
  unfold nthU
  split
  · exact ⟨hs, fun _ h => h, by simp, by simp, by simp⟩
  · split <;> rename_i e <;> rw [e] at h h0
    · exact safe_set hs h
    · exact safe_set hs h
    · split
      · refine safe_set hs ⟨h.inv, h.left, by simp, by simp, by simp⟩
      · rename_i k hk
        obtain rfl := h0 rfl
        refine safe_range (it.rangeIter.safe_nth L C ?_)
        rcases subUsize_le hk with h | h <;> omega

theorem safe (L : LawfulStep p S idx) (C : S.Checked p idx) (it : LowerBoundedSetIter T) (m : Move)
    (hm : m.arg < p.usizeCount) (hs : it.Sorted) : SafeMove Left Sorted it m.isFront (it.move p S m) := by
  cases m with
  | next => exact it.safe_next L C hs
  | nth n => exact it.safe_nth L C hs hm
  | _ => exact ⟨hs, fun _ h => h, by simp [move], by simp [move], by simp [move]⟩

end LowerBoundedSetIter

/-! ### At the start -/

theorem left_of_atEnds (L : LawfulStep p S idx) {r : BoundedRange T} {it : BoundedRangeIter T} (h : AtEnds idx r it) (t : T) :
    it.Left t ↔ r.contains t = true := by
  obtain ⟨h1, h2⟩ := h
  rcases r with ⟨⟨s | s⟩, ⟨e | e⟩⟩ <;>
    simp only [LowerBound.firstIdx, UpperBound.lastIdx] at h1 h2 <;>
    simp only [BoundedRangeIter.Left, BoundedRange.contains, Bool.and_eq_true, decide_eq_true_eq, L.le_iff, L.lt_iff] <;>
    omega

theorem forall₂_left (L : LawfulStep p S idx) {rs : List (BoundedRange T)} {its : List (BoundedRangeIter T)}
    (h : List.Forall₂ (AtEnds idx) rs its) (t : T) : (∃ i ∈ its, i.Left t) ↔ ∃ r ∈ rs, r.contains t = true := by
  induction h with
  | nil => simp
  | cons h _ ih => simp [left_of_atEnds L h t, ih]

end Rangetools
