import Verif.Proofs.Unwind
import Mathlib.Order.Interval.Finset.Defs
import Mathlib.Data.Int.Interval

/-!
# What the calls of an iterator lose: proofs
-/

namespace Rangetools
variable {T : Type} [LinearOrder T] {p : Platform} {S : Step T} {idx : T → Int}

/-- One call with the argument `n` loses at most `n` elements, and those are next to its end. -/
structure FairMove {σ : Type} (R : σ → T → Prop) (s : σ) (f : Bool) (n : Nat) (r : Res (Option T) × σ) : Prop where
  count : ∀ l : List T, l.Nodup → (∀ t ∈ l, Lost R s r t) → l.length ≤ n
  front : f = true → ∀ t, Lost R s r t → ∀ u, (R r.2 u ∨ r.1 = .ok (some u)) → t < u
  back : f = false → ∀ t, Lost R s r t → ∀ u, (R r.2 u ∨ r.1 = .ok (some u)) → u < t

omit [LinearOrder T] in
theorem caught_inv {σ : Type} (call : σ → Move → Res (Option T) × σ) (s : σ) (ms : List Move) (I : σ → Prop)
    (A : Move → Prop) (h : ∀ s m, A m → I s → I (call s m).2) (hs : I s) (hm : ∀ m ∈ ms, A m) : I (caught call s ms).2 := by
  induction ms generalizing s with
  | nil => exact hs
  | cons m ms ih =>
    exact ih _ (h s m (hm m (by simp)) hs) fun m' h' => hm m' (List.mem_cons_of_mem _ h')

omit [LinearOrder T] in
theorem mem_delivered_cons {m : Move} {o : Res (Option T)} {rs : List (Move × Res (Option T))} {t : T} :
    t ∈ delivered ((m, o) :: rs) ↔ o = .ok (some t) ∨ t ∈ delivered rs := by
  rcases o with (_ | u) | _
  · simp [delivered, fronts, backs]
  · cases hf : m.isFront <;> (simp [delivered, fronts, backs, hf, eq_comm]; try tauto)
  · simp [delivered, fronts, backs]

theorem caught_fair {σ : Type} {R : σ → T → Prop} {I : σ → Prop} {call : σ → Move → Res (Option T) × σ} {A : Move → Prop}
    (hI : ∀ s m, A m → I s → I (call s m).2) (h : ∀ s m, A m → I s → FairMove R s m.isFront m.arg (call s m)) (s : σ)
    (hs : I s) (ms : List Move) (hm : ∀ m ∈ ms, A m) (l : List T) (hl : l.Nodup)
    (hlost : ∀ t ∈ l, R s t ∧ t ∉ delivered (caught call s ms).1 ∧ ¬R (caught call s ms).2 t) :
    l.length ≤ (ms.map Move.arg).sum := by
  classical
  induction ms generalizing s l with
  | nil =>
    rcases l with _ | ⟨t, l⟩
    · simp
    · exact absurd (hlost t (by simp)).1 (hlost t (by simp)).2.2
  | cons m ms ih =>
    have h1 := (h s m (hm m (by simp)) hs).count (l.filter fun t => decide (Lost R s (call s m) t)) (hl.filter _)
      (fun t ht => by simpa using (List.mem_filter.1 ht).2)
    have h2 := ih _ (hI s m (hm m (by simp)) hs) (fun m' h' => hm m' (List.mem_cons_of_mem _ h'))
      (l.filter fun t => !decide (Lost R s (call s m) t)) (hl.filter _) (fun t ht => by
        obtain ⟨ht, hn⟩ := List.mem_filter.1 ht
        obtain ⟨a, b, c⟩ := hlost t ht
        simp only [caught, mem_delivered_cons, not_or] at b c
        refine ⟨?_, b.2, c⟩
        by_contra hr
        simp only [Bool.not_eq_true', decide_eq_false_iff_not] at hn
        exact hn ⟨a, hr, b.1⟩)
    have h3 := List.length_eq_length_filter_add (l := l) fun t => decide (Lost R s (call s m) t)
    simp only [List.map_cons, List.sum_cons]
    omega

omit [LinearOrder T] in
theorem caught_append {σ : Type} (call : σ → Move → Res (Option T) × σ) (s : σ) (ms ns : List Move) :
    caught call s (ms ++ ns) =
      ((caught call s ms).1 ++ (caught call (caught call s ms).2 ns).1, (caught call (caught call s ms).2 ns).2) := by
  induction ms generalizing s with
  | nil => rfl
  | cons m ms ih => simp only [List.cons_append, caught, ih]

/-- After `k` calls of `next`, either nothing but the greatest value of the type is left, or each has delivered an element. -/
theorem caught_nexts {σ : Type} {R : σ → T → Prop} {I : σ → Prop} {call : σ → Move → Res (Option T) × σ}
    (hsafe : ∀ s, I s → SafeMove R I s true (call s .next))
    (hnone : ∀ s, I s → (call s .next).1 = .ok none → ∀ t, ¬R (call s .next).2 t)
    (hpanic : ∀ s m, I s → (call s .next).1 = .panic m → ∀ t, R (call s .next).2 t → ∀ c, c ≤ t) (k : Nat) (s : σ) (hs : I s) :
    (∀ t, R (caught call s (List.replicate k .next)).2 t → ∀ c, c ≤ t) ∨
      (delivered (caught call s (List.replicate k .next)).1).length = k := by
  induction k generalizing s with
  | zero => right; rfl
  | succ k ih =>
    have h := hsafe s hs
    have hmono : ∀ t, R (caught call s (List.replicate (k + 1) .next)).2 t → R (call s .next).2 t := fun t ht =>
      ((caught_safe (A := fun m => m = .next) (fun s m hm hs => by subst hm; exact hsafe s hs) _ h.inv (List.replicate k .next)
        (fun m hm => List.eq_of_mem_replicate hm)).2.2 t ht).1
    rcases ho : (call s .next).1 with (_ | t) | m
    · left
      exact fun t ht => absurd (hmono t ht) (hnone s hs ho t)
    · rcases ih _ h.inv with h1 | h1
      · left
        exact h1
      · right
        simp only [List.replicate_succ, caught, ho, delivered, fronts, backs, Move.isFront, if_true] at h1 ⊢
        simpa using h1
    · left
      exact fun t ht => hpanic s m hs ho t (hmono t ht)

/-- Calling `next` as often as there are elements, and then `next_back` at least once, reads everything. -/
theorem read_all {σ : Type} {R : σ → T → Prop} {I : σ → Prop} {call : σ → Move → Res (Option T) × σ}
    (hsafe : ∀ s m, m.arg = 0 → I s → SafeMove R I s m.isFront (call s m))
    (hfair : ∀ s m, m.arg = 0 → I s → FairMove R s m.isFront m.arg (call s m))
    (hnone : ∀ s, I s → (call s .next).1 = .ok none → ∀ t, ¬R (call s .next).2 t)
    (hpanic : ∀ s m, I s → (call s .next).1 = .panic m → ∀ t, R (call s .next).2 t → ∀ c, c ≤ t)
    (hback : ∀ s, I s → (∀ t, R s t → ∀ c, c ≤ t) → ∀ t, ¬R (call s .nextBack).2 t)
    (s : σ) (hs : I s) (l : List T) (hl : ∀ t, R s t → t ∈ l) (k j : Nat) (hk : l.length ≤ k) (hj : 0 < j) :
    (delivered (caught call s (List.replicate k .next ++ List.replicate j .nextBack)).1).Pairwise (· < ·) ∧
      ∀ t, t ∈ delivered (caught call s (List.replicate k .next ++ List.replicate j .nextBack)).1 ↔ R s t := by
  have hms : ∀ m ∈ List.replicate k Move.next ++ List.replicate j .nextBack, m.arg = 0 := by
    intro m hm
    rcases List.mem_append.1 hm with hm | hm <;> rw [List.eq_of_mem_replicate hm] <;> rfl
  have hsum : ((List.replicate k Move.next ++ List.replicate j Move.nextBack).map Move.arg).sum = 0 := by
    simp [Move.arg]
  obtain ⟨h1, h2, -⟩ := caught_safe (A := fun m => m.arg = 0) hsafe s hs _ hms
  refine ⟨h1, fun t => ⟨h2 t, fun ht => ?_⟩⟩
  by_contra hn
  have hc := caught_fair (A := fun m => m.arg = 0) (fun s m hm hs => (hsafe s m hm hs).inv) hfair s hs _ hms [t]
    (List.nodup_singleton t)
  rw [hsum] at hc
  have hc : R (caught call s (List.replicate k .next ++ List.replicate j .nextBack)).2 t := by
    by_contra hr
    have := hc fun t' ht' => by rw [List.mem_singleton.1 ht']; exact ⟨ht, hn, hr⟩
    simp at this
  rw [caught_append] at hc
  obtain ⟨j, rfl⟩ : ∃ i, j = i + 1 := ⟨j - 1, by omega⟩
  have hk' : ∀ m ∈ List.replicate k Move.next, m.arg = 0 := fun m hm => by rw [List.eq_of_mem_replicate hm]; rfl
  have hI : I (caught call s (List.replicate k .next)).2 :=
    caught_inv call s _ I (fun m => m.arg = 0) (fun s m hm hs => (hsafe s m hm hs).inv) hs hk'
  obtain ⟨d1, d2, d3⟩ := caught_safe (A := fun m => m.arg = 0) hsafe s hs _ hk'
  have htop : ∀ t, R (caught call s (List.replicate k .next)).2 t → ∀ c, c ≤ t := by
    rcases caught_nexts (fun s hs => hsafe s .next rfl hs) hnone hpanic k s hs with h | h
    · exact h
    · intro t ht
      obtain ⟨e1, e2, e3⟩ := d3 t ht
      have hnd : (t :: delivered (caught call s (List.replicate k .next)).1).Nodup := by
        refine List.nodup_cons.2 ⟨fun hm => ?_, d1.imp ne_of_lt⟩
        rcases List.mem_append.1 hm with hm | hm
        · exact lt_irrefl _ (e2 t hm)
        · exact lt_irrefl _ (e3 t (List.mem_reverse.1 hm))
      have := hnd.length_le_of_subset (l₂ := l) fun x hx => by
        rcases List.mem_cons.1 hx with rfl | hx
        · exact hl _ e1
        · exact hl _ (d2 x hx)
      simp only [List.length_cons] at this
      omega
  have hb : ∀ t, ¬R (call (caught call s (List.replicate k .next)).2 .nextBack).2 t := hback _ hI htop
  have hI' := (hsafe _ .nextBack rfl hI).inv
  refine hb t ((caught_safe (A := fun m => m.arg = 0) hsafe _ hI' (List.replicate j .nextBack) (fun m hm => by
    rw [List.eq_of_mem_replicate hm]; rfl)).2.2 t ?_).1
  simpa [List.replicate_succ, caught] using hc

theorem losesOnlySkipped {σ : Type} {p : Platform} {R : σ → T → Prop} {I : σ → Prop} {call : σ → Move → Res (Option T) × σ}
    {P : T → Bool} (hI : ∀ s m, m.arg < p.usizeCount → I s → I (call s m).2)
    (h : ∀ s m, m.arg < p.usizeCount → I s → FairMove R s m.isFront m.arg (call s m)) (s : σ) (hs : I s) (ms : List Move)
    (hm : ∀ m ∈ ms, m.arg < p.usizeCount) (hP : ∀ t, R s t ↔ P t = true) : LosesOnlySkipped p R call P s ms := by
  refine ⟨fun l hl hlost => ?_, fun m hm' t ht u hu => ?_⟩
  · exact caught_fair (A := fun m => m.arg < p.usizeCount) hI h s hs ms hm l hl fun t ht => by rw [hP]; exact hlost t ht
  · have hf := h _ m hm' (caught_inv call s ms I (fun m => m.arg < p.usizeCount) hI hs hm)
    cases hb : m.isFront with
    | true => rw [if_pos rfl]; exact hf.front hb t ht u hu
    | false => rw [if_neg (by simp)]; exact hf.back hb t ht u hu

/-- There are at most `n` elements in `n` consecutive places. -/
theorem LawfulStep.count_le (L : LawfulStep p S idx) (a : Int) (n : Nat) (l : List T) (hl : l.Nodup)
    (h : ∀ t ∈ l, a ≤ idx t ∧ idx t < a + n) : l.length ≤ n := by
  classical
  have h1 : (l.map idx).Nodup := hl.map fun _ _ e => L.inj e
  have h2 : (l.map idx).toFinset ⊆ Finset.Ico a (a + n) := fun x hx => by
    obtain ⟨t, ht, rfl⟩ := List.mem_map.1 (List.mem_toFinset.1 hx)
    exact Finset.mem_Ico.2 (h t ht)
  have h3 := Finset.card_le_card h2
  rw [List.toFinset_card_of_nodup h1, List.length_map, Int.card_Ico] at h3
  omega

/-- A call that changes nothing and gives nothing, or panics, loses nothing. -/
theorem FairMove.unchanged {σ : Type} {R : σ → T → Prop} {s s' : σ} (f : Bool) (n : Nat) (o : Res (Option T))
    (h : ∀ t, R s t → R s' t) : FairMove R s f n (o, s') := by
  have hn : ∀ t, ¬Lost R s (o, s') t := fun t ht => ht.2.1 (h t ht.1)
  refine ⟨fun l _ hl => ?_, fun _ t ht => absurd ht (hn t), fun _ t ht => absurd ht (hn t)⟩
  rcases l with _ | ⟨t, l⟩
  · simp
  · exact absurd (hl t (by simp)) (hn t)

/-! ### `BoundedRangeIter` -/

namespace BoundedRangeIter

/-- A call that ends at the place `c`, or gives `c` and ends one place further. -/
theorem fair_nth (L : LawfulStep p S idx) (C : S.Checked p idx) (it : BoundedRangeIter T) {n : Nat}
    (hn : n < p.usizeCount) : FairMove Left it true n (it.nthU S n) := by
  have hu := p.le_usizeCount
  unfold nthU
  split
  · rename_i c hc
    have hc := C.forward_ok L hn hc
    have key : ∀ t, Lost Left it (nextU S { it with current := c }) t → idx t < idx c := by
      intro t ht
      by_contra hlt
      obtain ⟨h1, h2, h3⟩ := ht
      unfold nextU at h2 h3
      split at h2 <;> rename_i hgt
      · exact h2 ⟨by simp only [L.le_iff]; omega, h1.2⟩
      · split at h2 <;> rename_i hd
        · rw [if_neg hgt, hd] at h3
          have hd := C.forward_ok L (by omega) hd
          dsimp only at hd
          have hne : t ≠ c := fun e => h3 (by rw [e])
          have hne' : idx t ≠ idx c := fun e => hne (L.inj e)
          refine h2 ⟨?_, h1.2⟩
          simp only [L.le_iff]
          push_cast at hd; omega
        · exact h2 ⟨by simp only [L.le_iff]; omega, h1.2⟩
    have hle : ∀ u, (Left (nextU S { it with current := c }).2 u ∨ (nextU S { it with current := c }).1 = .ok (some u)) →
        idx c ≤ idx u := by
      have hs := safe_next L C { it with current := c }
      rintro u (hu | hu)
      · exact (L.le_iff _ _).1 (hs.left u hu).1
      · exact (L.le_iff _ _).1 (hs.item u hu).1
    refine ⟨fun l hl h => ?_, fun _ t ht u hu => ?_, by simp⟩
    · refine L.count_le (idx it.current) n l hl fun t ht => ⟨(L.le_iff _ _).1 (h t ht).1.1, ?_⟩
      have := key t (h t ht)
      omega
    · rw [L.lt_iff]
      have := key t ht
      have := hle u hu
      omega
  · exact .unchanged _ _ _ fun _ h => h

theorem fair_nthBack (L : LawfulStep p S idx) (C : S.Checked p idx) (it : BoundedRangeIter T) {n : Nat}
    (hn : n < p.usizeCount) : FairMove Left it false n (it.nthBackU S n) := by
  have hu := p.le_usizeCount
  unfold nthBackU
  split
  · rename_i c hc
    have hc := C.backward_ok L hn hc
    have key : ∀ t, Lost Left it (nextBackU S { it with last := c }) t → idx c < idx t := by
      intro t ht
      by_contra hlt
      obtain ⟨h1, h2, h3⟩ := ht
      unfold nextBackU at h2 h3
      split at h2 <;> rename_i hgt
      · exact h2 ⟨h1.1, by simp only [L.le_iff]; omega⟩
      · split at h2 <;> rename_i hd
        · rw [if_neg hgt, hd] at h3
          have hd := C.backward_ok L (by omega) hd
          dsimp only at hd
          have hne : t ≠ c := fun e => h3 (by rw [e])
          have hne' : idx t ≠ idx c := fun e => hne (L.inj e)
          refine h2 ⟨h1.1, ?_⟩
          simp only [L.le_iff]
          push_cast at hd; omega
        · exact h2 ⟨h1.1, by simp only [L.le_iff]; omega⟩
    have hle : ∀ u, (Left (nextBackU S { it with last := c }).2 u ∨ (nextBackU S { it with last := c }).1 = .ok (some u)) →
        idx u ≤ idx c := by
      have hs := safe_nextBack L C { it with last := c }
      rintro u (hu | hu)
      · exact (L.le_iff _ _).1 (hs.left u hu).2
      · exact (L.le_iff _ _).1 (hs.item u hu).2
    refine ⟨fun l hl h => ?_, by simp, fun _ t ht u hu => ?_⟩
    · refine L.count_le (idx it.last + 1 - n) n l hl fun t ht => ?_
      have := key t (h t ht)
      have := (L.le_iff _ _).1 (h t ht).1.2
      omega
    · rw [L.lt_iff]
      have := key t ht
      have := hle u hu
      omega
  · exact .unchanged _ _ _ fun _ h => h

/-- `next` is `nth(0)`. -/
theorem nextU_eq_nthU (L : LawfulStep p S idx) (it : BoundedRangeIter T) : it.nextU S = it.nthU S 0 := by
  have hu := p.le_usizeCount
  rw [nthU, L.forward_some it.current 0 it.current (by omega) (by simp)]

theorem nextBackU_eq_nthBackU (L : LawfulStep p S idx) (it : BoundedRangeIter T) : it.nextBackU S = it.nthBackU S 0 := by
  have hu := p.le_usizeCount
  rw [nthBackU, L.backward_some it.last 0 it.last (by omega) (by simp)]

theorem fair (L : LawfulStep p S idx) (C : S.Checked p idx) (it : BoundedRangeIter T) (m : Move)
    (hm : m.arg < p.usizeCount) : FairMove Left it m.isFront m.arg (it.move S m) := by
  have hu := p.le_usizeCount
  cases m with
  | next => rw [move, nextU_eq_nthU L]; exact it.fair_nth L C hm
  | nextBack => rw [move, nextBackU_eq_nthBackU L]; exact it.fair_nthBack L C hm
  | nth n => exact it.fair_nth L C hm
  | nthBack n => exact it.fair_nthBack L C hm

/-- A range that reports the length `k` has at most `k` elements left. -/
theorem count_le_len (L : LawfulStep p S idx) (F : Step.Fits p idx) (hp : p.overflowChecks = true)
    {it : BoundedRangeIter T} {k : Nat} (h : it.len p S = .ok k) (l : List T) (hl : l.Nodup) (hm : ∀ t ∈ l, it.Left t) :
    l.length ≤ k := by
  have hF := F it.current it.last
  refine L.count_le (idx it.current) k l hl fun t ht => ?_
  have h1 := (L.le_iff _ _).1 (hm t ht).1
  have h2 := (L.le_iff _ _).1 (hm t ht).2
  have hle := le_trans (hm t ht).1 (hm t ht).2
  simp only [len, sizeHint, L.stepsBetween, Res.bind_ok, if_pos (And.intro hle hF), Platform.addUsize] at h
  split at h
  · have : (idx it.last - idx it.current).toNat + 1 = k := by simpa [assert] using h
    omega
  · simp at h

theorem next_none_left (it : BoundedRangeIter T) (h : (it.nextU S).1 = .ok none) (t : T) : ¬(it.nextU S).2.Left t := by
  unfold nextU at h ⊢
  split at h <;> rename_i hgt
  · rw [if_pos hgt]
    exact fun ht => not_le.2 hgt (le_trans ht.1 ht.2)
  · split at h <;> cases h

theorem next_panic_left (L : LawfulStep p S idx) (it : BoundedRangeIter T) {m : String} (h : (it.nextU S).1 = .panic m) (t : T)
    (ht : (it.nextU S).2.Left t) (c : T) : c ≤ t := by
  have hu := p.le_usizeCount
  unfold nextU at h ht
  split at h <;> rename_i hgt
  · cases h
  · split at h <;> rename_i hd
    · cases h
    · rw [if_neg hgt, hd] at ht
      have hc := ht.1
      by_contra hlt
      simp only [L.le_iff] at hc hlt
      obtain ⟨d, hd'⟩ := L.convex it.current c (idx it.current + 1) (by omega) (by omega)
      rw [L.forward_some it.current 1 d (by omega) (by push_cast; omega)] at hd
      cases hd

theorem nextBack_left (L : LawfulStep p S idx) (C : S.Checked p idx) (it : BoundedRangeIter T)
    (htwo : ∃ a b : T, a < b) (htop : ∀ t, it.Left t → ∀ c, c ≤ t) (t : T) : ¬(it.nextBackU S).2.Left t := by
  have hu := p.le_usizeCount
  unfold nextBackU
  split
  · rename_i hgt
    exact fun ht => not_le.2 hgt (le_trans ht.1 ht.2)
  · rename_i hgt
    have hle := not_lt.1 hgt
    have h1 := htop it.current ⟨le_rfl, hle⟩ it.last
    have he := le_antisymm hle h1
    split <;> rename_i hd
    · have hd := C.backward_ok L (by omega) hd
      intro ht
      have a := ht.1
      have b := ht.2
      simp only [L.le_iff, he] at a b
      push_cast at hd; omega
    · exfalso
      obtain ⟨a, b, hab⟩ := htwo
      have h2 := (L.le_iff _ _).1 (htop it.last ⟨hle, le_rfl⟩ b)
      rw [L.lt_iff] at hab
      obtain ⟨c, hc⟩ := L.convex a it.last (idx it.last - 1) (by omega) (by omega)
      rw [L.backward_some it.last 1 c (by omega) (by push_cast; omega)] at hd
      cases hd

end BoundedRangeIter

/-! ### `BoundedSetIter` -/

namespace BoundedSetIter

/-- What the loop drops: at most what it counts off. -/
theorem skipU_count (L : LawfulStep p S idx) (F : Step.Fits p idx) (hp : p.overflowChecks = true)
    (is : List (BoundedRangeIter T)) (n : Nat) (l : List T) (hl : l.Nodup)
    (h : ∀ t ∈ l, (∃ i ∈ is, i.Left t) ∧ ¬∃ i ∈ (skipU p S is n).2, i.Left t) :
    l.length ≤ n ∧ ∀ k, (skipU p S is n).1 = .ok k → l.length + k ≤ n := by
  classical
  have none : ∀ js : List (BoundedRangeIter T), (∀ t ∈ l, (∃ i ∈ js, i.Left t) ∧ ¬∃ i ∈ js, i.Left t) → l = [] := by
    intro js h
    rcases l with _ | ⟨t, l⟩
    · rfl
    · exact absurd (h t (by simp)).1 (h t (by simp)).2
  induction is generalizing n l with
  | nil =>
    obtain rfl := none _ h
    simp [skipU]
  | cons i is ih =>
    rw [skipU] at h ⊢
    cases hk : i.len p S with
    | panic m =>
      rw [hk] at h
      obtain rfl := none _ h
      simp
    | ok k =>
      simp only [hk] at h ⊢
      by_cases hle : k ≤ n
      · simp only [if_pos hle, Platform.subUsize] at h ⊢
        have h1 := i.count_le_len L F hp hk (l.filter fun t => decide (i.Left t)) (hl.filter _)
          (fun t ht => by simpa using (List.mem_filter.1 ht).2)
        have h2 := ih (n - k) (l.filter fun t => !decide (i.Left t)) (hl.filter _) (fun t ht => by
          obtain ⟨ht, hn⟩ := List.mem_filter.1 ht
          obtain ⟨⟨j, hj, hjt⟩, hnot⟩ := h t ht
          refine ⟨?_, hnot⟩
          rcases List.mem_cons.1 hj with rfl | hj
          · simp [hjt] at hn
          · exact ⟨j, hj, hjt⟩) (fun js hjs => by
          rcases hf : l.filter (fun t => !decide (i.Left t)) with _ | ⟨t, l'⟩
          · rfl
          · rw [hf] at hjs
            exact absurd (hjs t (by simp)).1 (hjs t (by simp)).2)
        have h3 := List.length_eq_length_filter_add (l := l) fun t => decide (i.Left t)
        refine ⟨by omega, fun k' hk' => ?_⟩
        have := h2.2 k' hk'
        omega
      · simp only [if_neg hle] at h ⊢
        obtain rfl := none _ h
        simp only [List.length_nil, zero_add, Nat.zero_le, true_and]
        intro k e
        cases e; exact le_rfl

/-- Elements of dropped ranges come before those of the ranges that stay. -/
theorem Sorted.before {s : BoundedSetIter T} (hs : s.Sorted) {l : List (BoundedRangeIter T)} (h : l <:+ s.rangeIters) {t u : T}
    (ht : s.Left t) (hn : ¬∃ i ∈ l, i.Left t) (hu : ∃ i ∈ l, i.Left u) : t < u := by
  obtain ⟨d, hd⟩ := h
  rw [Sorted, ← hd, List.pairwise_append] at hs
  obtain ⟨i, hi, ht⟩ := ht
  obtain ⟨j, hj, hu⟩ := hu
  rw [← hd, List.mem_append] at hi
  rcases hi with hi | hi
  · exact hs.2.2 i hi j hj t u ht hu
  · exact absurd ⟨i, hi, ht⟩ hn

theorem Sorted.after {s : BoundedSetIter T} (hs : s.Sorted) {l : List (BoundedRangeIter T)} (h : l <:+ s.rangeIters.reverse)
    {t u : T} (ht : s.Left t) (hn : ¬∃ i ∈ l, i.Left t) (hu : ∃ i ∈ l, i.Left u) : u < t := by
  obtain ⟨d, hd⟩ := h
  have hs : s.rangeIters.reverse.Pairwise fun i j => ∀ t u, i.Left t → j.Left u → u < t :=
    List.pairwise_reverse.2 (hs.imp fun h t u ht hu => h u t hu ht)
  rw [← hd, List.pairwise_append] at hs
  obtain ⟨i, hi, ht⟩ := ht
  obtain ⟨j, hj, hu⟩ := hu
  rw [← List.mem_reverse, ← hd, List.mem_append] at hi
  rcases hi with hi | hi
  · exact hs.2.2 i hi j hj t u ht hu
  · exact absurd ⟨i, hi, ht⟩ hn

/-- The count for a call on the first range that stays: `n` is counted off until there, `k` is asked of it. -/
theorem count_piece {s : BoundedSetIter T} {is js : List (BoundedRangeIter T)} {i : BoundedRangeIter T} {n k : Nat} {f : Bool}
    {r : Res (Option T) × BoundedRangeIter T} (hr : FairMove BoundedRangeIter.Left i f k r)
    (hc : ∀ l : List T, l.Nodup → (∀ t ∈ l, s.Left t ∧ ¬∃ x ∈ i :: js, x.Left t) → l.length + k ≤ n)
    (hm : ∀ x, x ∈ is ↔ x ∈ r.2 :: js) (l : List T) (hl : l.Nodup) (h : ∀ t ∈ l, Lost Left s (r.1, ⟨is⟩) t) : l.length ≤ n := by
  classical
  have h1 := hc (l.filter fun t => !decide (i.Left t)) (hl.filter _) fun t ht => by
    obtain ⟨ht, hn⟩ := List.mem_filter.1 ht
    obtain ⟨a, b, -⟩ := h t ht
    refine ⟨a, ?_⟩
    rintro ⟨x, hx, hxt⟩
    rcases List.mem_cons.1 hx with rfl | hx
    · simp [hxt] at hn
    · exact b ⟨x, (hm x).2 (List.mem_cons_of_mem _ hx), hxt⟩
  have h2 := hr.count (l.filter fun t => decide (i.Left t)) (hl.filter _) fun t ht => by
    obtain ⟨ht, hn⟩ := List.mem_filter.1 ht
    obtain ⟨-, b, c⟩ := h t ht
    exact ⟨by simpa using hn, fun hx => b ⟨r.2, (hm _).2 (by simp), hx⟩, c⟩
  have h3 := List.length_eq_length_filter_add (l := l) fun t => decide (i.Left t)
  omega

theorem fair_nth (L : LawfulStep p S idx) (C : S.Checked p idx) (F : Step.Fits p idx) (hp : p.overflowChecks = true)
    (s : BoundedSetIter T) (hs : s.Sorted) {n : Nat} (hn : n < p.usizeCount) : FairMove Left s true n (s.nthU p S n) := by
  have h := skipU_suffix (p := p) (S := S) s.rangeIters n
  have hle := fun k => skipU_le (p := p) (S := S) s.rangeIters n (k := k)
  have hc := skipU_count L F hp s.rangeIters n
  unfold nthU
  split <;> rename_i e <;> rw [e] at h hle hc
  · exact ⟨fun l hl hlost => (hc l hl fun t ht => ⟨(hlost t ht).1, (hlost t ht).2.1⟩).1, fun _ t ht u hu =>
      hs.before h ht.1 ht.2.1 (hu.resolve_right (by simp)), by simp⟩
  · exact ⟨fun l hl hlost => (hc l hl fun t ht => ⟨(hlost t ht).1, (hlost t ht).2.1⟩).1, fun _ t ht u hu =>
      hs.before h ht.1 ht.2.1 (hu.resolve_right (by simp)), by simp⟩
  · rename_i k i is
    have hk := lt_of_le_of_lt (hle _ rfl) hn
    have hi := i.fair_nth L C hk
    have si := i.safe_nth L C hk
    refine ⟨count_piece hi (fun l hl hlost => (hc l hl hlost).2 k rfl) fun _ => Iff.rfl, fun _ t ht u hu => ?_, by simp⟩
    obtain ⟨h1, h2⟩ := List.pairwise_cons.1 (List.Pairwise.sublist h.sublist hs)
    by_cases hin : i.Left t
    · rcases hu with ⟨x, hx, hxu⟩ | hu
      · rcases List.mem_cons.1 hx with rfl | hx
        · exact hi.front rfl t ⟨hin, fun hh => ht.2.1 ⟨_, by simp, hh⟩, ht.2.2⟩ u (.inl hxu)
        · exact h1 x hx t u hin hxu
      · exact hi.front rfl t ⟨hin, fun hh => ht.2.1 ⟨_, by simp, hh⟩, ht.2.2⟩ u (.inr hu)
    · refine hs.before h ht.1 ?_ ?_
      · rintro ⟨x, hx, hxt⟩
        rcases List.mem_cons.1 hx with rfl | hx
        · exact hin hxt
        · exact ht.2.1 ⟨x, List.mem_cons_of_mem _ hx, hxt⟩
      · rcases hu with ⟨x, hx, hxu⟩ | hu
        · rcases List.mem_cons.1 hx with rfl | hx
          · exact ⟨i, by simp, si.left u hxu⟩
          · exact ⟨x, List.mem_cons_of_mem _ hx, hxu⟩
        · exact ⟨i, by simp, si.item u hu⟩

theorem fair_nthBack (L : LawfulStep p S idx) (C : S.Checked p idx) (F : Step.Fits p idx) (hp : p.overflowChecks = true)
    (s : BoundedSetIter T) (hs : s.Sorted) {n : Nat} (hn : n < p.usizeCount) : FairMove Left s false n (s.nthBackU p S n) := by
  have h := skipU_suffix (p := p) (S := S) s.rangeIters.reverse n
  have hle := fun k => skipU_le (p := p) (S := S) s.rangeIters.reverse n (k := k)
  have hc := skipU_count L F hp s.rangeIters.reverse n
  simp only [List.mem_reverse] at hc
  unfold nthBackU
  split <;> rename_i e <;> rw [e] at h hle hc
  · rename_i is
    have hm : ∀ t, Left ⟨is.reverse⟩ t ↔ ∃ i ∈ is, i.Left t := fun t => by simp [Left]
    exact ⟨fun l hl hlost => (hc l hl fun t ht => ⟨(hlost t ht).1, fun hh => (hlost t ht).2.1 ((hm t).2 hh)⟩).1, by simp,
      fun _ t ht u hu => hs.after h ht.1 (fun hh => ht.2.1 ((hm t).2 hh)) ((hm u).1 (hu.resolve_right (by simp)))⟩
  · exact ⟨fun l hl hlost => (hc l hl fun t ht => ⟨(hlost t ht).1, (hlost t ht).2.1⟩).1, by simp, fun _ t ht u hu =>
      hs.after h ht.1 ht.2.1 (hu.resolve_right (by simp))⟩
  · rename_i k i is
    have hk := lt_of_le_of_lt (hle _ rfl) hn
    have hi := i.fair_nthBack L C hk
    have si := i.safe_nthBack L C hk
    have hm : ∀ x, x ∈ ((i.nthBackU S k).2 :: is).reverse ↔ x ∈ (i.nthBackU S k).2 :: is := fun x => List.mem_reverse
    refine ⟨count_piece hi (fun l hl hlost => (hc l hl hlost).2 k rfl) hm, by simp, fun _ t ht u hu => ?_⟩
    have hpre := prefix_of_reverse h
    obtain ⟨h1, h2⟩ := List.pairwise_cons.1 (List.pairwise_reverse.1 (List.Pairwise.sublist hpre.sublist hs))
    by_cases hin : i.Left t
    · have hlost : Lost BoundedRangeIter.Left i (i.nthBackU S k) t :=
        ⟨hin, fun hh => ht.2.1 ⟨_, (hm _).2 (by simp), hh⟩, ht.2.2⟩
      rcases hu with ⟨x, hx, hxu⟩ | hu
      · rcases List.mem_cons.1 ((hm x).1 hx) with rfl | hx
        · exact hi.back rfl t hlost u (.inl hxu)
        · exact h1 x hx u t hxu hin
      · exact hi.back rfl t hlost u (.inr hu)
    · refine hs.after h ht.1 ?_ ?_
      · rintro ⟨x, hx, hxt⟩
        rcases List.mem_cons.1 hx with rfl | hx
        · exact hin hxt
        · exact ht.2.1 ⟨x, (hm x).2 (List.mem_cons_of_mem _ hx), hxt⟩
      · rcases hu with ⟨x, hx, hxu⟩ | hu
        · rcases List.mem_cons.1 ((hm x).1 hx) with rfl | hx
          · exact ⟨i, by simp, si.left u hxu⟩
          · exact ⟨x, List.mem_cons_of_mem _ hx, hxu⟩
        · exact ⟨i, by simp, si.item u hu⟩

omit [LinearOrder T] in
/-- The loops of `next` and of `nth(0)` are the same. -/
theorem popEmptyU_eq_skipU (is : List (BoundedRangeIter T)) :
    (skipU p S is 0).2 = (popEmptyU p S is).2 ∧
      ((skipU p S is 0).1 = match (popEmptyU p S is).1 with | .ok _ => .ok 0 | .panic m => .panic m) := by
  induction is with
  | nil => exact ⟨rfl, rfl⟩
  | cons i is ih =>
    rw [skipU, popEmptyU]
    cases i.len p S with
    | panic m => exact ⟨rfl, rfl⟩
    | ok k =>
      rcases k with _ | k
      · simpa [Platform.subUsize] using ih
      · simp

theorem nextU_eq_nthU (L : LawfulStep p S idx) (s : BoundedSetIter T) : s.nextU p S = s.nthU p S 0 := by
  obtain ⟨h1, h2⟩ := popEmptyU_eq_skipU (p := p) (S := S) s.rangeIters
  unfold nextU nthU
  rcases h : popEmptyU p S s.rangeIters with ⟨_ | _, _ | ⟨i, is⟩⟩ <;>
    rcases h' : skipU p S s.rangeIters 0 with ⟨_ | _, _ | ⟨i', is'⟩⟩ <;> rw [h, h'] at h1 h2 <;> cases h1 <;> cases h2 <;>
    simp [BoundedRangeIter.nextU_eq_nthU L]

theorem nextBackU_eq_nthBackU (L : LawfulStep p S idx) (s : BoundedSetIter T) : s.nextBackU p S = s.nthBackU p S 0 := by
  obtain ⟨h1, h2⟩ := popEmptyU_eq_skipU (p := p) (S := S) s.rangeIters.reverse
  unfold nextBackU nthBackU
  rcases h : popEmptyU p S s.rangeIters.reverse with ⟨_ | _, _ | ⟨i, is⟩⟩ <;>
    rcases h' : skipU p S s.rangeIters.reverse 0 with ⟨_ | _, _ | ⟨i', is'⟩⟩ <;> rw [h, h'] at h1 h2 <;> cases h1 <;>
    cases h2 <;> simp [BoundedRangeIter.nextBackU_eq_nthBackU L]

theorem fair (L : LawfulStep p S idx) (C : S.Checked p idx) (F : Step.Fits p idx) (hp : p.overflowChecks = true)
    (s : BoundedSetIter T) (m : Move) (hm : m.arg < p.usizeCount) (hs : s.Sorted) :
    FairMove Left s m.isFront m.arg (s.move p S m) := by
  cases m with
  | next => rw [move, nextU_eq_nthU L]; exact s.fair_nth L C F hp hs hm
  | nextBack => rw [move, nextBackU_eq_nthBackU L]; exact s.fair_nthBack L C F hp hs hm
  | nth n => exact s.fair_nth L C F hp hs hm
  | nthBack n => exact s.fair_nthBack L C F hp hs hm

/-- A set that reports the length `k` has at most `k` elements left. -/
theorem count_le_sumLens (L : LawfulStep p S idx) (F : Step.Fits p idx) (hp : p.overflowChecks = true)
    (is : List (BoundedRangeIter T)) {a k : Nat} (h : sumLens p S a is = .ok k) (l : List T) (hl : l.Nodup)
    (hm : ∀ t ∈ l, ∃ i ∈ is, i.Left t) : l.length + a ≤ k := by
  classical
  induction is generalizing a l with
  | nil =>
    cases h
    rcases l with _ | ⟨t, l⟩
    · simp
    · simpa using hm t (by simp)
  | cons i is ih =>
    obtain ⟨k', hk', h⟩ := Res.bind_eq_ok.1 h
    obtain ⟨a', ha', h⟩ := Res.bind_eq_ok.1 h
    have ha' : a' = a + k' := by
      simp only [Platform.addUsize] at ha'
      split at ha'
      · cases ha'; rfl
      · simp at ha'
    have h1 := i.count_le_len L F hp hk' (l.filter fun t => decide (i.Left t)) (hl.filter _)
      (fun t ht => by simpa using (List.mem_filter.1 ht).2)
    have h2 := ih h (l.filter fun t => !decide (i.Left t)) (hl.filter _) fun t ht => by
      obtain ⟨ht, hn⟩ := List.mem_filter.1 ht
      obtain ⟨j, hj, hjt⟩ := hm t ht
      rcases List.mem_cons.1 hj with rfl | hj
      · simp [hjt] at hn
      · exact ⟨j, hj, hjt⟩
    have h3 := List.length_eq_length_filter_add (l := l) fun t => decide (i.Left t)
    omega

/-- The length of every range fits `usize`. -/
def Small (p : Platform) (idx : T → Int) (s : BoundedSetIter T) : Prop :=
  ∀ i ∈ s.rangeIters, idx i.last - idx i.current + 1 < p.usizeCount

omit [LinearOrder T] in
theorem popEmptyU_panic {is : List (BoundedRangeIter T)} {m : String} (h : (popEmptyU p S is).1 = .panic m) :
    ∃ i ∈ is, i ∈ (popEmptyU p S is).2 ∧ ∃ m, i.len p S = .panic m := by
  induction is with
  | nil => cases h
  | cons i is ih =>
    rw [popEmptyU] at h ⊢
    cases hk : i.len p S with
    | panic m => exact ⟨i, by simp, by simp, m, hk⟩
    | ok k =>
      simp only [hk] at h ⊢
      split at h <;> rename_i h0
      · obtain ⟨j, hj, hj', hm⟩ := ih h
        exact ⟨j, List.mem_cons_of_mem _ hj, by rw [if_pos h0]; exact hj', hm⟩
      · cases h

theorem len_ok_of_small (L : LawfulStep p S idx) {i : BoundedRangeIter T} (h : idx i.last - idx i.current + 1 < p.usizeCount)
    (m : String) : i.len p S ≠ .panic m := by
  simp only [BoundedRangeIter.len, BoundedRangeIter.sizeHint, L.stepsBetween, Res.bind_ok]
  split
  · rename_i hk
    split at hk
    · rename_i hle
      have := (L.le_iff _ _).1 hle.1
      cases hk
      rw [Platform.addUsize, if_pos (by omega)]
      simp [assert]
    · cases hk
  · simp [assert]

theorem small_move (L : LawfulStep p S idx) (C : S.Checked p idx) {s : BoundedSetIter T} (h : s.Small p idx) (m : Move)
    (hm : m.arg = 0) : (s.move p S m).2.Small p idx := by
  have hu := p.le_usizeCount
  have hn : ∀ i : BoundedRangeIter T, idx i.last - idx i.current + 1 < p.usizeCount →
      idx (i.nextU S).2.last - idx (i.nextU S).2.current + 1 < p.usizeCount := by
    intro i hi
    unfold BoundedRangeIter.nextU
    split
    · exact hi
    · split
      · rename_i c hc
        have hc := C.forward_ok L (by omega) hc
        dsimp only
        push_cast at hc; omega
      · exact hi
  have hb : ∀ i : BoundedRangeIter T, idx i.last - idx i.current + 1 < p.usizeCount →
      idx (i.nextBackU S).2.last - idx (i.nextBackU S).2.current + 1 < p.usizeCount := by
    intro i hi
    unfold BoundedRangeIter.nextBackU
    split
    · exact hi
    · split
      · rename_i c hc
        have hc := C.backward_ok L (by omega) hc
        dsimp only
        push_cast at hc; omega
      · exact hi
  have h1 : (s.nextU p S).2.Small p idx := by
    have hs := popEmptyU_suffix (p := p) (S := S) s.rangeIters
    unfold nextU
    split <;> rename_i e <;> rw [e] at hs
    · exact fun i hi => h i (hs.subset hi)
    · exact fun i hi => h i (hs.subset hi)
    · intro i hi
      rcases List.mem_cons.1 hi with rfl | hi
      · exact hn _ (h _ (hs.subset (by simp)))
      · exact h i (hs.subset (List.mem_cons_of_mem _ hi))
  have h2 : (s.nextBackU p S).2.Small p idx := by
    have hs := popEmptyU_suffix (p := p) (S := S) s.rangeIters.reverse
    unfold nextBackU
    split <;> rename_i e <;> rw [e] at hs
    · exact fun i hi => h i (List.mem_reverse.1 (hs.subset (List.mem_reverse.1 hi)))
    · exact fun i hi => by cases hi
    · intro i hi
      rcases List.mem_cons.1 (List.mem_reverse.1 hi) with rfl | hi
      · exact hb _ (h _ (List.mem_reverse.1 (hs.subset (by simp))))
      · exact h i (List.mem_reverse.1 (hs.subset (List.mem_cons_of_mem _ hi)))
  cases m with
  | next => exact h1
  | nextBack => exact h2
  | nth n => cases hm; rw [move, ← nextU_eq_nthU L]; exact h1
  | nthBack n => cases hm; rw [move, ← nextBackU_eq_nthBackU L]; exact h2

theorem next_none_left (L : LawfulStep p S idx) (s : BoundedSetIter T) (h : (s.nextU p S).1 = .ok none) (t : T) :
    ¬(s.nextU p S).2.Left t := by
  rw [next_none L h]
  rintro ⟨_, h, _⟩
  cases h

theorem next_panic_left (L : LawfulStep p S idx) (s : BoundedSetIter T) (hs : s.Sorted)
    (hsm : s.Small p idx) {m : String} (h : (s.nextU p S).1 = .panic m) (t : T) (ht : (s.nextU p S).2.Left t) (c : T) :
    c ≤ t := by
  have hsuf := popEmptyU_suffix (p := p) (S := S) s.rangeIters
  have hpan := fun m => popEmptyU_panic (p := p) (S := S) (is := s.rangeIters) (m := m)
  unfold nextU at h ht
  split at h <;> rename_i e <;> rw [e] at hsuf hpan
  · obtain ⟨i, hi, -, m, hm⟩ := hpan _ rfl
    exact absurd hm (len_ok_of_small L (hsm i hi) m)
  · cases h
  · rename_i i is
    simp only [e] at ht
    obtain ⟨k, hk, h0⟩ := popEmptyU_len e
    have hle := (BoundedRangeIter.len_pos L hk h0).1
    obtain ⟨h1, -⟩ := List.pairwise_cons.1 (List.Pairwise.sublist hsuf.sublist hs)
    have hi : (i.nextU S).2 = i := by
      unfold BoundedRangeIter.nextU at h ⊢
      split at h
      · cases h
      · split at h
        · cases h
        · rename_i h1 _ _ _; rw [if_neg h1]
    have hcur : i.Left i.current := ⟨le_rfl, (L.le_iff _ _).2 hle⟩
    have htop := i.next_panic_left L h i.current (by rw [hi]; exact hcur)
    obtain ⟨x, hx, hxt⟩ := ht
    rcases List.mem_cons.1 hx with rfl | hx
    · exact i.next_panic_left L h t hxt c
    · exact le_of_lt (lt_of_le_of_lt (htop c) (h1 x hx _ _ hcur hxt))

theorem nextBack_left (L : LawfulStep p S idx) (C : S.Checked p idx)
    (s : BoundedSetIter T) (hs : s.Sorted) (hsm : s.Small p idx) (htwo : ∃ a b : T, a < b)
    (htop : ∀ t, s.Left t → ∀ c, c ≤ t) (t : T) : ¬(s.nextBackU p S).2.Left t := by
  have hu := p.le_usizeCount
  have hsuf := popEmptyU_suffix (p := p) (S := S) s.rangeIters.reverse
  have hpan := fun m => popEmptyU_panic (p := p) (S := S) (is := s.rangeIters.reverse) (m := m)
  unfold nextBackU
  split <;> rename_i e <;> rw [e] at hsuf hpan
  · obtain ⟨i, hi, -, m, hm⟩ := hpan _ rfl
    exact absurd hm (len_ok_of_small L (hsm i (List.mem_reverse.1 hi)) m)
  · rintro ⟨_, h, _⟩; cases h
  · rename_i i is
    have hmem : ∀ x ∈ i :: is, x ∈ s.rangeIters := fun x hx => List.mem_reverse.1 (hsuf.subset hx)
    obtain ⟨k, hk, h0⟩ := popEmptyU_len e
    have hle := (BoundedRangeIter.len_pos L hk h0).1
    have hcur : i.Left i.current := ⟨le_rfl, (L.le_iff _ _).2 hle⟩
    have hpre := prefix_of_reverse hsuf
    obtain ⟨h1, -⟩ := List.pairwise_cons.1 (List.pairwise_reverse.1 (List.Pairwise.sublist hpre.sublist hs))
    rintro ⟨x, hx, hxt⟩
    rcases List.mem_cons.1 (List.mem_reverse.1 hx) with rfl | hx
    · exact i.nextBack_left L C htwo (fun t ht => htop t ⟨i, hmem i (by simp), ht⟩) t hxt
    · have h2 := h1 x hx t _ hxt hcur
      exact not_le.2 h2 (htop t ⟨x, hmem x (List.mem_cons_of_mem _ hx), hxt⟩ _)

end BoundedSetIter

/-! ### Half-lines -/

namespace LowerBoundedRangeIter

theorem fair_nth (L : LawfulStep p S idx) (C : S.Checked p idx) (it : LowerBoundedRangeIter T) {n : Nat}
    (hn : n < p.usizeCount) : FairMove Left it true n (it.nthU S n) := by
  have hu := p.le_usizeCount
  unfold nthU
  split
  · rename_i c hc
    have hc := C.forward_ok L hn hc
    have key : ∀ t, Lost Left it (nextU S ⟨c⟩) t → idx t < idx c := by
      intro t ht
      by_contra hlt
      obtain ⟨h1, h2, h3⟩ := ht
      unfold nextU at h2 h3
      split at h2 <;> rename_i hd
      · rw [hd] at h3
        have hd := C.forward_ok L (by omega) hd
        dsimp only at hd
        have hne : t ≠ c := fun e => h3 (by rw [e])
        have hne' : idx t ≠ idx c := fun e => hne (L.inj e)
        refine h2 ?_
        simp only [Left, L.le_iff]
        push_cast at hd; omega
      · exact h2 (by simp only [Left, L.le_iff]; omega)
    have hle : ∀ u, (Left (nextU S ⟨c⟩).2 u ∨ (nextU S ⟨c⟩).1 = .ok (some u)) → idx c ≤ idx u := by
      have hs := safe_next L C ⟨c⟩
      rintro u (hu | hu)
      · exact (L.le_iff _ _).1 (hs.left u hu)
      · exact (L.le_iff _ _).1 (hs.item u hu)
    refine ⟨fun l hl h => ?_, fun _ t ht u hu => ?_, by simp⟩
    · refine L.count_le (idx it.current) n l hl fun t ht => ⟨(L.le_iff _ _).1 (h t ht).1, ?_⟩
      have := key t (h t ht)
      omega
    · rw [L.lt_iff]
      have := key t ht
      have := hle u hu
      omega
  · exact .unchanged _ _ _ fun _ h => h

theorem nextU_eq_nthU (L : LawfulStep p S idx) (it : LowerBoundedRangeIter T) : it.nextU S = it.nthU S 0 := by
  have hu := p.le_usizeCount
  rw [nthU, L.forward_some it.current 0 it.current (by omega) (by simp)]

theorem fair (L : LawfulStep p S idx) (C : S.Checked p idx) (it : LowerBoundedRangeIter T) (m : Move)
    (hm : m.arg < p.usizeCount) : FairMove Left it m.isFront m.arg (it.move S m) := by
  cases m with
  | next => rw [move, nextU_eq_nthU L]; exact it.fair_nth L C hm
  | nth n => exact it.fair_nth L C hm
  | _ => exact .unchanged _ _ _ fun _ h => h

end LowerBoundedRangeIter

namespace LowerBoundedSetIter

theorem fair_set {it : LowerBoundedSetIter T} (hs : it.Sorted) {o : Res (Option T)} {s : BoundedSetIter T} {n : Nat}
    (h : FairMove BoundedSetIter.Left it.setIter true n (o, s)) :
    FairMove Left it true n (o, { it with setIter := s }) := by
  have hl : ∀ t, Lost Left it (o, { it with setIter := s }) t → Lost BoundedSetIter.Left it.setIter (o, s) t := by
    rintro t ⟨a | a, b, c⟩
    · exact ⟨a, fun hh => b (.inl hh), c⟩
    · exact absurd (.inr a) b
  refine ⟨fun l hn hlost => h.count l hn fun t ht => hl t (hlost t ht), fun _ t ht u hu => ?_, by simp⟩
  rcases hu with (hu | hu) | hu
  · exact h.front rfl t (hl t ht) u (.inl hu)
  · exact hs.2 t u (hl t ht).1 hu
  · exact h.front rfl t (hl t ht) u (.inr hu)

theorem fair_nth (L : LawfulStep p S idx) (C : S.Checked p idx) (F : Step.Fits p idx) (hp : p.overflowChecks = true)
    (it : LowerBoundedSetIter T) (hs : it.Sorted) {n : Nat} (hn : n < p.usizeCount) :
    FairMove Left it true n (it.nthU p S n) := by
  classical
  have h := it.setIter.safe_nth L C hs.1 hn
  have hf := it.setIter.fair_nth L C F hp hs.1 hn
  have h0 := BoundedSetIter.nth_none L C (s := it.setIter) (p := p) hn
  unfold nthU
  split
  · exact .unchanged _ _ _ fun _ h => h
  · rename_i b hb
    split <;> rename_i e <;> rw [e] at h hf h0
    · exact fair_set hs hf
    · exact fair_set hs hf
    · obtain rfl := h0 rfl
      split
      · refine fair_set hs ⟨fun l hl hlost => hf.count l hl fun t ht =>
          ⟨(hlost t ht).1, (hlost t ht).2.1, by simp⟩, ?_, by simp⟩
        rintro - t ht u (⟨_, hx, _⟩ | hu)
        · cases hx
        · cases hu
      · rename_i k hk
        have hbk : b + k = n := by
          simp only [Platform.subUsize] at hk
          split at hk
          · cases hk; omega
          · simp at hk
        have hb' : BoundedSetIter.sumLens p S 0 it.setIter.rangeIters = .ok b := by
          simp only [BoundedSetIter.len, BoundedSetIter.sizeHint] at hb
          cases hx : BoundedSetIter.sumLens p S 0 it.setIter.rangeIters with
          | panic m => rw [hx] at hb; cases hb
          | ok c => rw [hx] at hb; simpa [assert] using hb
        have hr := it.rangeIter.fair_nth L C (n := k) (by omega)
        have sr := it.rangeIter.safe_nth L C (n := k) (by omega)
        have nl : ∀ t, ¬BoundedSetIter.Left (⟨[]⟩ : BoundedSetIter T) t := by rintro t ⟨_, h, _⟩; cases h
        refine ⟨fun l hl hlost => ?_, fun _ t ht u hu => ?_, by simp⟩
        · have h1 := BoundedSetIter.count_le_sumLens L F hp it.setIter.rangeIters hb'
            (l.filter fun t => decide (it.setIter.Left t)) (hl.filter _)
            (fun t ht => by have := (List.mem_filter.1 ht).2; simp only [decide_eq_true_eq] at this; exact this)
          have h2 := hr.count (l.filter fun t => !decide (it.setIter.Left t)) (hl.filter _) fun t ht => by
            obtain ⟨ht, hx⟩ := List.mem_filter.1 ht
            obtain ⟨a, b, c⟩ := hlost t ht
            exact ⟨a.resolve_left (by simpa using hx), fun hh => b (.inr hh), c⟩
          have h3 := List.length_eq_length_filter_add (l := l) fun t => decide (it.setIter.Left t)
          omega
        · have hu' : LowerBoundedRangeIter.Left (it.rangeIter.nthU S k).2 u ∨ (it.rangeIter.nthU S k).1 = .ok (some u) := by
            rcases hu with (hu | hu) | hu
            · exact absurd hu (nl u)
            · exact .inl hu
            · exact .inr hu
          rcases ht.1 with ha | ha
          · refine hs.2 t u ha ?_
            rcases hu' with hu | hu
            · exact sr.left u hu
            · exact sr.item u hu
          · exact hr.front rfl t ⟨ha, fun hh => ht.2.1 (.inr hh), ht.2.2⟩ u hu'

theorem fair_next (L : LawfulStep p S idx) (C : S.Checked p idx) (F : Step.Fits p idx) (hp : p.overflowChecks = true)
    (it : LowerBoundedSetIter T) (hs : it.Sorted) : FairMove Left it true 0 (it.nextU p S) := by
  have hu := p.le_usizeCount
  have h := it.setIter.safe_next L C hs.1
  have hf := it.setIter.fair_nth L C F hp hs.1 (n := 0) (by omega)
  rw [← BoundedSetIter.nextU_eq_nthU L] at hf
  have h0 := BoundedSetIter.next_none L (s := it.setIter) (p := p)
  unfold nextU
  split <;> rename_i e <;> rw [e] at h hf h0
  · exact fair_set hs hf
  · exact fair_set hs hf
  · obtain rfl := h0 rfl
    have hr := it.rangeIter.fair_nth L C (n := 0) (by omega)
    rw [← LowerBoundedRangeIter.nextU_eq_nthU L] at hr
    have none : ∀ t, ¬Lost Left it ((it.rangeIter.nextU S).1, ⟨⟨[]⟩, (it.rangeIter.nextU S).2⟩) t := by
      intro t ht
      rcases ht.1 with ha | ha
      · have := hf.count [t] (by simp) (by
          intro t' ht'
          rw [List.mem_singleton.1 ht']
          exact ⟨ha, (by rintro ⟨_, h, _⟩; cases h), by simp⟩)
        simp at this
      · have := hr.count [t] (by simp) (by
          intro t' ht'
          rw [List.mem_singleton.1 ht']
          exact ⟨ha, fun hh => ht.2.1 (.inr hh), ht.2.2⟩)
        simp at this
    refine ⟨fun l _ hlost => ?_, fun _ t ht => absurd ht (none t), by simp⟩
    rcases l with _ | ⟨t, l⟩
    · simp
    · exact absurd (hlost t (by simp)) (none t)

theorem fair (L : LawfulStep p S idx) (C : S.Checked p idx) (F : Step.Fits p idx) (hp : p.overflowChecks = true)
    (it : LowerBoundedSetIter T) (m : Move) (hm : m.arg < p.usizeCount) (hs : it.Sorted) :
    FairMove Left it m.isFront m.arg (it.move p S m) := by
  cases m with
  | next => exact it.fair_next L C F hp hs
  | nth n => exact it.fair_nth L C F hp hs hm
  | _ => exact .unchanged _ _ _ fun _ h => h

end LowerBoundedSetIter
end Rangetools
