import Verif.Spec.AnyIter
import Verif.Proofs.IntoIter
import Verif.Proofs.Big
import Mathlib.Data.Nat.Nth

namespace Rangetools
variable {T : Type} [LinearOrder T] {p : Platform} {S : Step T} {idx : T → Int}

/-! ### What is left in an iterator -/

/-- The elements an iterator has still to deliver. -/
def AnyIter.Holds : AnyIter T → T → Prop
  | .range i, t => i.start ≤ t ∧ t < i.stop
  | .rangeInclusive i, t => i.exhausted = false ∧ i.start ≤ t ∧ t ≤ i.stop
  | .rangeFrom i, t => i.start ≤ t
  | .br i, t => i.current ≤ t ∧ t ≤ i.last
  | .bs i, t => ∃ j ∈ i.rangeIters, j.current ≤ t ∧ t ≤ j.last
  | .lbr i, t => i.current ≤ t
  | .lbs i, t => (∃ j ∈ i.setIter.rangeIters, j.current ≤ t ∧ t ≤ j.last) ∨ i.rangeIter.current ≤ t
  | .er _, _ => False

/-- Pieces in order, none too large for `usize`. -/
def PiecesOk (p : Platform) (idx : T → Int) (is : List (BoundedRangeIter T)) : Prop :=
  (∀ i ∈ is, idx i.last - idx i.current + 1 < p.usizeCount) ∧
    is.Pairwise fun i j => ∀ s t, i.current ≤ s → s ≤ i.last → j.current ≤ t → t ≤ j.last → s < t

/-- What every state of an iteration satisfies. -/
def AnyIter.Fine (p : Platform) (idx : T → Int) : AnyIter T → Prop
  | .bs i => PiecesOk p idx i.rangeIters
  | .lbs i => PiecesOk p idx i.setIter.rangeIters ∧
      ∀ j ∈ i.setIter.rangeIters, ∀ s t, j.current ≤ s → s ≤ j.last → i.rangeIter.current ≤ t → s < t
  | _ => True

theorem LawfulStep.forward_one (L : LawfulStep p S idx) {t u : T} (h : t < u) :
    ∃ c, S.forward t 1 = .ok c ∧ ∀ x, c ≤ x ↔ t < x := by
  have hu := p.le_usizeCount
  rw [L.lt_iff] at h
  obtain ⟨c, hc⟩ := L.convex t u (idx t + 1) (by omega) (by omega)
  refine ⟨c, L.forward_some _ _ _ (by omega) (by push_cast; omega), fun x => ?_⟩
  rw [L.le_iff, L.lt_iff]; omega

theorem BoundedRangeIter.len_small (L : LawfulStep p S idx) (i : BoundedRangeIter T)
    (h : idx i.last - idx i.current + 1 < p.usizeCount) :
    i.len p S = .ok (idx i.last - idx i.current + 1).toNat := by
  have hu := p.le_usizeCount
  rw [i.len_eq L rfl, if_neg (by omega), if_pos (by omega)]

/-- The loop that drops pieces drops the empty ones in front. -/
theorem popEmpty_fine (L : LawfulStep p S idx) : ∀ {is : List (BoundedRangeIter T)}, PiecesOk p idx is →
    ∃ js, BoundedSetIter.popEmpty p S is = .ok js ∧ PiecesOk p idx js ∧ js.Sublist is ∧
      (∀ t, (∃ j ∈ js, j.current ≤ t ∧ t ≤ j.last) ↔ ∃ j ∈ is, j.current ≤ t ∧ t ≤ j.last) ∧
      ∀ j, js.head? = some j → j.current ≤ j.last := by
  intro is
  induction is with
  | nil => exact fun h => ⟨[], rfl, h, .slnil, fun _ => Iff.rfl, by simp⟩
  | cons i is ih =>
    intro h
    have hl := i.len_small L (h.1 i List.mem_cons_self)
    by_cases hle : i.current ≤ i.last
    · refine ⟨i :: is, ?_, h, .refl _, fun _ => Iff.rfl, by simpa using hle⟩
      rw [L.le_iff] at hle
      simp only [BoundedSetIter.popEmpty, hl, Res.bind_ok]
      rw [if_neg (by rw [beq_iff_eq]; omega)]; rfl
    · obtain ⟨js, e, h1, h2, h3, h4⟩ := ih ⟨fun j hj => h.1 j (List.mem_cons_of_mem _ hj), (List.pairwise_cons.1 h.2).2⟩
      refine ⟨js, ?_, h1, h2.cons i, fun t => (h3 t).trans ?_, h4⟩
      · rw [L.le_iff] at hle
        simp only [BoundedSetIter.popEmpty, hl, Res.bind_ok]
        rw [if_pos (by rw [beq_iff_eq]; omega)]; exact e
      · simp only [List.mem_cons, exists_eq_or_imp]
        exact ⟨.inr, fun x => x.resolve_left fun y => hle (y.1.trans y.2)⟩

/-- `next` of a set's iterator delivers the least element. -/
theorem BoundedSetIter.next_least (L : LawfulStep p S idx) {i : BoundedSetIter T} (h : PiecesOk p idx i.rangeIters)
    {t u : T} (ht : ∃ j ∈ i.rangeIters, j.current ≤ t ∧ t ≤ j.last)
    (hm : ∀ x, (∃ j ∈ i.rangeIters, j.current ≤ x ∧ x ≤ j.last) → t ≤ x) (hu : t < u) :
    ∃ i', i.next p S = .ok (some t, i') ∧ PiecesOk p idx i'.rangeIters ∧
      ∀ x, (∃ j ∈ i'.rangeIters, j.current ≤ x ∧ x ≤ j.last) ↔
        (∃ j ∈ i.rangeIters, j.current ≤ x ∧ x ≤ j.last) ∧ x ≠ t := by
  obtain ⟨js, e, h1, -, h3, h4⟩ := popEmpty_fine L h
  obtain _ | ⟨j, js⟩ := js
  · obtain ⟨_, hj, -⟩ := (h3 t).2 ht; cases hj
  have hj := h4 j rfl
  have hne := (List.pairwise_cons.1 h1.2).1
  obtain rfl : t = j.current := by
    refine le_antisymm (hm _ ((h3 _).1 ⟨j, List.mem_cons_self, le_refl _, hj⟩)) ?_
    obtain ⟨k, hk, hk1, hk2⟩ := (h3 t).2 ht
    rcases List.mem_cons.1 hk with rfl | hk
    · exact hk1
    · exact (hne k hk _ _ (le_refl _) hj hk1 hk2).le
  obtain ⟨c, hc, hcx⟩ := L.forward_one hu
  refine ⟨⟨⟨c, j.last⟩ :: js⟩, ?_, ⟨?_, ?_⟩, fun x => ?_⟩
  · simp only [BoundedSetIter.next, e, Res.bind_ok, BoundedRangeIter.next, gt_iff_lt, if_neg (not_lt.2 hj), hc]; rfl
  · intro k hk
    rcases List.mem_cons.1 hk with rfl | hk
    · have := h1.1 j List.mem_cons_self
      have h5 := (hcx c).1 (le_refl _)
      rw [L.lt_iff] at h5
      show idx j.last - idx c + 1 < _
      omega
    · exact h1.1 k (List.mem_cons_of_mem _ hk)
  · refine List.pairwise_cons.2 ⟨fun k hk s v hs => ?_, (List.pairwise_cons.1 h1.2).2⟩
    exact hne k hk s v ((hcx s).1 hs).le
  · rw [← h3 x]
    simp only [List.mem_cons, exists_eq_or_imp, hcx]
    constructor
    · rintro (⟨h5, h6⟩ | ⟨k, hk, hk1, hk2⟩)
      · exact ⟨.inl ⟨h5.le, h6⟩, ne_of_gt h5⟩
      · exact ⟨.inr ⟨k, hk, hk1, hk2⟩, ne_of_gt (hne k hk _ _ (le_refl _) hj hk1 hk2)⟩
    · rintro ⟨⟨h5, h6⟩ | h5, h7⟩
      · exact .inl ⟨lt_of_le_of_ne h5 (Ne.symm h7), h6⟩
      · exact .inr h5

/-- `next` of a set's iterator when nothing is left. -/
theorem BoundedSetIter.next_nothing (L : LawfulStep p S idx) {i : BoundedSetIter T} (h : PiecesOk p idx i.rangeIters)
    (hn : ¬ ∃ x, ∃ j ∈ i.rangeIters, j.current ≤ x ∧ x ≤ j.last) : i.next p S = .ok (none, ⟨[]⟩) := by
  obtain ⟨js, e, -, -, h3, h4⟩ := popEmpty_fine L h
  obtain _ | ⟨j, js⟩ := js
  · simp only [BoundedSetIter.next, e, Res.bind_ok]; rfl
  · exact (hn ⟨j.current, (h3 _).1 ⟨j, List.mem_cons_self, le_refl _, h4 j rfl⟩⟩).elim

/-- `next` delivers the least element that is left. -/
theorem AnyIter.next_least (L : LawfulStep p S idx) {it : AnyIter T} (h : it.Fine p idx) {t u : T} (ht : it.Holds t)
    (hm : ∀ x, it.Holds x → t ≤ x) (hu : t < u) :
    ∃ it', it.next p S = .ok (some t, it') ∧ it'.Fine p idx ∧ ∀ x, it'.Holds x ↔ it.Holds x ∧ x ≠ t := by
  obtain ⟨c, hc, hcx⟩ := L.forward_one hu
  have hb : ∀ {s x : T}, s ≤ x ∧ x ≠ s ↔ s < x := fun {s x} => (lt_iff_le_and_ne.trans (and_congr_right' ne_comm)).symm
  cases it with
  | range i =>
    obtain rfl : t = i.start := le_antisymm (hm _ ⟨le_refl _, ht.1.trans_lt ht.2⟩) ht.1
    refine ⟨.range ⟨c, i.stop⟩, ?_, trivial, fun x => ?_⟩
    · simp only [AnyIter.next, Range.next, if_pos (show i.start < i.stop from ht.2), hc, Res.bind_ok]; rfl
    · simp only [AnyIter.Holds, hcx, ← hb]; tauto
  | rangeInclusive i =>
    obtain rfl : t = i.start := le_antisymm (hm _ ⟨ht.1, le_refl _, ht.2.1.trans ht.2.2⟩) ht.2.1
    have hd : i.done = false := by simp [RangeInclusive.done, ht.1, ht.2.2]
    by_cases hlt : i.start < i.stop
    · refine ⟨.rangeInclusive { i with start := c }, ?_, trivial, fun x => ?_⟩
      · simp only [AnyIter.next, RangeInclusive.next, hd, if_pos hlt, hc, Res.bind_ok]; rfl
      · simp only [AnyIter.Holds, hcx, ← hb]; tauto
    · refine ⟨.rangeInclusive { i with exhausted := true }, ?_, trivial, fun x => ?_⟩
      · simp only [AnyIter.next, RangeInclusive.next, hd, if_neg hlt]; rfl
      · simp only [AnyIter.Holds]
        constructor
        · rintro ⟨h1, -⟩; cases h1
        · rintro ⟨⟨-, h1, h2⟩, h3⟩
          exact (h3 (le_antisymm (h2.trans (not_lt.1 hlt)) h1)).elim
  | rangeFrom i =>
    obtain rfl : t = i.start := le_antisymm (hm _ (le_refl i.start)) ht
    refine ⟨.rangeFrom ⟨c⟩, ?_, trivial, fun x => ?_⟩
    · simp only [AnyIter.next, RangeFrom.next, hc, Res.bind_ok]; rfl
    · simp only [AnyIter.Holds, hcx, ← hb]
  | br i =>
    obtain rfl : t = i.current := le_antisymm (hm _ ⟨le_refl _, ht.1.trans ht.2⟩) ht.1
    refine ⟨.br ⟨c, i.last⟩, ?_, trivial, fun x => ?_⟩
    · simp only [AnyIter.next, BoundedRangeIter.next, gt_iff_lt, if_neg (not_lt.2 ht.2), hc, Res.bind_ok]; rfl
    · simp only [AnyIter.Holds, hcx, ← hb]; tauto
  | bs i =>
    obtain ⟨i', e, h1, h2⟩ := BoundedSetIter.next_least L h ht hm hu
    exact ⟨.bs i', by simp only [AnyIter.next, e, Res.bind_ok]; rfl, h1, h2⟩
  | lbr i =>
    obtain rfl : t = i.current := le_antisymm (hm _ (le_refl i.current)) ht
    refine ⟨.lbr ⟨c⟩, ?_, trivial, fun x => ?_⟩
    · simp only [AnyIter.next, LowerBoundedRangeIter.next, hc, Res.bind_ok]; rfl
    · simp only [AnyIter.Holds, hcx, ← hb]
  | lbs i =>
    by_cases hs : ∃ x, ∃ j ∈ i.setIter.rangeIters, j.current ≤ x ∧ x ≤ j.last
    · have ht' : ∃ j ∈ i.setIter.rangeIters, j.current ≤ t ∧ t ≤ j.last := by
        rcases ht with ht | ht
        · exact ht
        · obtain ⟨x, j, hj, h1, h2⟩ := hs
          exact absurd (h.2 j hj x t h1 h2 ht) (not_lt.2 (hm x (.inl ⟨j, hj, h1, h2⟩)))
      obtain ⟨i', e, h1, h2⟩ := BoundedSetIter.next_least L h.1 ht' (fun x hx => hm x (.inl hx)) hu
      refine ⟨.lbs ⟨i', i.rangeIter⟩, by simp only [AnyIter.next, LowerBoundedSetIter.next, e, Res.bind_ok]; rfl,
        ⟨h1, fun j hj s x hs1 hs2 hx => ?_⟩, fun x => ?_⟩
      · obtain ⟨⟨k, hk, hk1, hk2⟩, -⟩ := (h2 s).1 ⟨j, hj, hs1, hs2⟩
        exact h.2 k hk s x hk1 hk2 hx
      · simp only [AnyIter.Holds, h2]
        constructor
        · rintro (⟨h3, h4⟩ | h3)
          · exact ⟨.inl h3, h4⟩
          · obtain ⟨k, hk, hk1, hk2⟩ := ht'
            exact ⟨.inr h3, ne_of_gt (h.2 k hk t x hk1 hk2 h3)⟩
        · rintro ⟨h3 | h3, h4⟩
          · exact .inl ⟨h3, h4⟩
          · exact .inr h3
    · have e := BoundedSetIter.next_nothing L h.1 hs
      obtain rfl : t = i.rangeIter.current :=
        le_antisymm (hm _ (.inr (le_refl _))) (ht.resolve_left fun x => hs ⟨_, x⟩)
      refine ⟨.lbs ⟨⟨[]⟩, ⟨c⟩⟩, ?_, ⟨⟨by simp, .nil⟩, by simp⟩, fun x => ?_⟩
      · simp only [AnyIter.next, LowerBoundedSetIter.next, e, LowerBoundedRangeIter.next, hc, Res.bind_ok]; rfl
      · simp only [AnyIter.Holds, hcx, ← hb]
        constructor
        · rintro (⟨_, h1, -⟩ | h1)
          · cases h1
          · exact ⟨.inr h1.1, h1.2⟩
        · rintro ⟨h1 | h1, h2⟩
          · exact (hs ⟨x, h1⟩).elim
          · exact .inr ⟨h1, h2⟩
  | er i => exact ht.elim

/-- When nothing is left, `next` returns `None`. -/
theorem AnyIter.next_nothing (L : LawfulStep p S idx) {it : AnyIter T} (h : it.Fine p idx) (hn : ∀ x, ¬ it.Holds x) :
    ∃ it', it.next p S = .ok (none, it') ∧ it'.Fine p idx ∧ ∀ x, ¬ it'.Holds x := by
  cases it with
  | range i =>
    have : ¬ i.start < i.stop := fun h => hn i.start ⟨le_refl _, h⟩
    exact ⟨.range i, by simp only [AnyIter.next, Range.next, if_neg this, Res.bind_ok]; rfl, trivial, hn⟩
  | rangeInclusive i =>
    have hd : i.done = true := by
      rw [RangeInclusive.done]
      cases he : i.exhausted with
      | true => rfl
      | false => simpa using lt_of_not_ge fun h => hn i.start ⟨he, le_refl _, h⟩
    exact ⟨.rangeInclusive i, by simp only [AnyIter.next, RangeInclusive.next, if_pos hd, Res.bind_ok]; rfl, trivial, hn⟩
  | rangeFrom i => exact (hn i.start (le_refl _)).elim
  | br i =>
    have : i.last < i.current := lt_of_not_ge fun h => hn i.current ⟨le_refl _, h⟩
    exact ⟨.br i, by simp only [AnyIter.next, BoundedRangeIter.next, gt_iff_lt, if_pos this, Res.bind_ok]; rfl, trivial, hn⟩
  | bs i =>
    have e := BoundedSetIter.next_nothing L h (fun ⟨x, hx⟩ => hn x hx)
    exact ⟨.bs ⟨[]⟩, by simp only [AnyIter.next, e, Res.bind_ok]; rfl, ⟨by simp, .nil⟩, by simp [AnyIter.Holds]⟩
  | lbr i => exact (hn i.current (le_refl _)).elim
  | lbs i => exact (hn i.rangeIter.current (.inr (le_refl _))).elim
  | er i => exact ⟨.er i, rfl, trivial, hn⟩

theorem AnyIter.nexts_nothing (L : LawfulStep p S idx) : ∀ (k : Nat) {it : AnyIter T}, it.Fine p idx →
    (∀ x, ¬ it.Holds x) → ∃ it', it.nexts p S k = .ok (List.replicate k none, it') := by
  intro k
  induction k with
  | zero => exact fun {it} _ _ => ⟨it, rfl⟩
  | succ k ih =>
    intro it h hn
    obtain ⟨it1, e1, h1, hn1⟩ := AnyIter.next_nothing L h hn
    obtain ⟨it2, e2⟩ := ih h1 hn1
    exact ⟨it2, by simp only [AnyIter.nexts, e1, e2, Res.bind_ok, List.replicate_succ]; rfl⟩

/-- Any list of the least elements is what the first calls deliver. -/
theorem AnyIter.nexts_initial (L : LawfulStep p S idx) : ∀ (l : List T) {it : AnyIter T}, it.Fine p idx →
    l.Pairwise (· < ·) → (∀ t ∈ l, it.Holds t) → (∀ t, it.Holds t → t ∉ l → ∀ x ∈ l, x < t) → (∀ x ∈ l, ∃ u, x < u) →
    ∃ it', it.nexts p S l.length = .ok (l.map some, it') ∧ it'.Fine p idx ∧
      ∀ x, it'.Holds x ↔ it.Holds x ∧ x ∉ l := by
  intro l
  induction l with
  | nil => exact fun {it} h _ _ _ _ => ⟨it, rfl, h, by simp⟩
  | cons t l ih =>
    intro it h hp hin hout hroom
    obtain ⟨hp1, hp2⟩ := List.pairwise_cons.1 hp
    obtain ⟨u, hu⟩ := hroom t List.mem_cons_self
    obtain ⟨it1, e1, hf1, hh1⟩ := AnyIter.next_least L h (hin t List.mem_cons_self) (fun x hx => by
      by_cases hxl : x ∈ t :: l
      · rcases List.mem_cons.1 hxl with rfl | hxl
        · exact le_refl _
        · exact (hp1 x hxl).le
      · exact (hout x hx hxl t List.mem_cons_self).le) hu
    obtain ⟨it2, e2, hf2, hh2⟩ := ih hf1 hp2 (fun x hx => (hh1 x).2 ⟨hin x (List.mem_cons_of_mem _ hx), ne_of_gt (hp1 x hx)⟩)
      (fun x hx hxl y hy => hout x ((hh1 x).1 hx).1
        (fun hc => (List.mem_cons.1 hc).elim ((hh1 x).1 hx).2 hxl) y (List.mem_cons_of_mem _ hy))
      (fun x hx => hroom x (List.mem_cons_of_mem _ hx))
    refine ⟨it2, ?_, hf2, fun x => ?_⟩
    · simp only [List.length_cons, AnyIter.nexts, e1, e2, Res.bind_ok, List.map_cons]; rfl
    · rw [hh2, hh1, List.mem_cons, not_or, and_assoc]

/-! ### `into_iter` -/

theorem LowerBound.has_first (L : LawfulStep p S idx) (b : LowerBound T) (h : ∀ a, b.b = .excluded a → ∃ t, a < t) :
    Has idx (b.firstIdx idx) := by
  rcases b with ⟨a | a⟩
  · obtain ⟨t, ht⟩ := h a rfl
    rw [L.lt_iff] at ht
    exact L.convex a t (idx a + 1) (by omega) (by omega)
  · exact ⟨a, rfl⟩

theorem UpperBound.has_last (L : LawfulStep p S idx) (b : UpperBound T) (h : ∀ a, b.b = .excluded a → ∃ t, t < a) :
    Has idx (b.lastIdx idx) := by
  rcases b with ⟨a | a⟩
  · obtain ⟨t, ht⟩ := h a rfl
    rw [L.lt_iff] at ht
    exact L.convex t a (idx a - 1) (by omega) (by omega)
  · exact ⟨a, rfl⟩

theorem LowerBoundedRange.intoIter_first (L : LawfulStep p S idx) (r : LowerBoundedRange T)
    (h : ∀ a, r.start.b = .excluded a → ∃ t, a < t) :
    ∃ i, r.intoIter S = .ok i ∧ ∀ t, i.current ≤ t ↔ r.contains t = true := by
  have hu := p.le_usizeCount
  obtain ⟨c, hc⟩ := r.start.has_first L h
  refine ⟨⟨c⟩, ?_, fun t => by rw [r.contains_idx L, L.le_iff, hc]⟩
  rcases r with ⟨⟨s | s⟩⟩
  · simp only [LowerBoundedRange.intoIter, L.forward_some s 1 c (by omega) (by simpa [LowerBound.firstIdx] using hc),
      Res.bind_ok]; rfl
  · simp only [LowerBoundedRange.intoIter, L.inj (show idx c = idx s from hc)]; rfl

/-- The iterators of the pieces of a set. -/
theorem BoundedSet.intoIter_fine (L : LawfulStep p S idx) (s : BoundedSet T) (hs : Pieces s.ranges)
    (hz : ∀ r ∈ s.ranges, ∀ a b, r.contains a = true → r.contains b = true → idx b - idx a + 1 < p.usizeCount) :
    ∃ i, s.intoIter S = .ok i ∧ PiecesOk p idx i.rangeIters ∧
      ∀ t, (∃ j ∈ i.rangeIters, j.current ≤ t ∧ t ≤ j.last) ↔ s.contains t = true := by
  obtain ⟨it, e, hat, -⟩ := s.intoIter_spec L hs (fun r hr => r.representable_of_nonempty L (hs.1 r hr))
  refine ⟨it, e, ?_⟩
  clear e
  obtain ⟨its⟩ := it
  obtain ⟨rs⟩ := s
  simp only [BoundedSet.contains, List.any_eq_true] at *
  have key : ∀ {r : BoundedRange T} {i}, AtEnds idx r i → ∀ t, (i.current ≤ t ∧ t ≤ i.last) ↔ r.contains t = true :=
    fun h t => by rw [BoundedRange.contains_idx L, L.le_iff, L.le_iff, h.1, h.2]
  induction hat with
  | nil => exact ⟨⟨by simp, .nil⟩, by simp⟩
  | @cons r i rs is h1 h2 ih =>
    obtain ⟨⟨g1, g2⟩, g3⟩ := ih ⟨fun r' hr' => hs.1 r' (List.mem_cons_of_mem _ hr'), (List.pairwise_cons.1 hs.2).2⟩
      (fun r' hr' => hz r' (List.mem_cons_of_mem _ hr'))
    refine ⟨⟨fun j hj => ?_, List.pairwise_cons.2 ⟨fun j hj s t hs1 hs2 ht1 ht2 => ?_, g2⟩⟩, fun t => ?_⟩
    · rcases List.mem_cons.1 hj with rfl | hj
      · by_cases hle : j.current ≤ j.last
        · exact hz r List.mem_cons_self _ _ ((key h1 _).1 ⟨le_refl _, hle⟩) ((key h1 _).1 ⟨hle, le_refl _⟩)
        · rw [L.le_iff] at hle
          have := p.le_usizeCount
          omega
      · exact g1 j hj
    · obtain ⟨r', hr', ht⟩ := (g3 t).1 ⟨j, hj, ht1, ht2⟩
      exact noOverlap_lt ((List.pairwise_cons.1 hs.2).1 r' hr') ((key h1 s).1 ⟨hs1, hs2⟩) ht
    · simp only [List.mem_cons, exists_eq_or_imp, key h1, g3]

/-- A type that fits into `usize` and a value that is not in the range. -/
theorem BoundedRange.small_of_missing (L : LawfulStep p S idx) (F : Step.Fits p idx) {r : BoundedRange T} {m a b : T}
    (hm : r.contains m = false) (ha : r.contains a = true) (hb : r.contains b = true) :
    idx b - idx a + 1 < p.usizeCount := by
  have h1 := F a m
  have h2 := F m b
  have hm' : ¬ (r.contains m = true) := by simp [hm]
  rw [r.contains_idx L] at hm' ha hb
  by_cases h : r.start.firstIdx idx ≤ idx m <;> omega

/-- `into_iter` of a value starts an iteration over its elements. -/
theorem Any.intoIter_fine (L : LawfulStep p S idx) (F : Step.Fits p idx) (a : Any T) (hn : a.toInner.Normal)
    (hf : a.Fresh) (hb : a.toInner.BoundedBelow) (hc : a.CanStart)
    (hz : ∀ s, a = .inner (.bs s) → ∃ t, s.contains t = false) :
    ∃ it, a.intoIter S = some (.ok it) ∧ it.Fine p idx ∧ ∀ t, it.Holds t ↔ a.contains t = true := by
  rcases a with r | r | r | r | r | _ | i
  · exact ⟨.range r, rfl, trivial, fun t => by simp [AnyIter.Holds, Any.contains, Range.contains]⟩
  · refine ⟨.rangeInclusive r, rfl, trivial, fun t => ?_⟩
    have hf' : r.exhausted = false := hf
    simp [AnyIter.Holds, Any.contains, RangeInclusive.contains, hf']
  · exact ⟨.rangeFrom r, rfl, trivial, fun t => by simp [AnyIter.Holds, Any.contains, RangeFrom.contains]⟩
  · exact hb.elim
  · exact hb.elim
  · exact hb.elim
  · rcases i with r | s | r | s | r | s | _ | s | _
    · obtain ⟨it, e, h⟩ := r.intoIter_spec L ⟨r.start.has_first L hc.1, r.stop.has_last L hc.2⟩
      refine ⟨.br it, by simp only [Any.intoIter, e, Res.bind_ok]; rfl, trivial, fun t => ?_⟩
      show _ ↔ r.contains t = true
      rw [r.contains_idx L, ← h.1, ← h.2, ← L.le_iff, ← L.le_iff]; rfl
    · obtain ⟨m, hm⟩ := hz s rfl
      obtain ⟨it, e, h1, h2⟩ := s.intoIter_fine L hn fun r hr a b ha hb =>
        r.small_of_missing L F (m := m) (by
          simp only [BoundedSet.contains, List.any_eq_false] at hm
          simpa using hm r hr) ha hb
      exact ⟨.bs it, by simp only [Any.intoIter, e, Res.bind_ok]; rfl, h1, h2⟩
    · obtain ⟨it, e, h⟩ := r.intoIter_first L hc
      exact ⟨.lbr it, by simp only [Any.intoIter, e, Res.bind_ok]; rfl, trivial, h⟩
    · obtain ⟨j, ej, hj⟩ := s.lowerBoundedRange.intoIter_first L hc
      have hlt : ∀ r ∈ s.ranges.ranges, ∀ x y, r.contains x = true → s.lowerBoundedRange.contains y = true → x < y := by
        intro r hr x y hx hy
        exact noOverlap_lt (r' := ⟨s.lowerBoundedRange.start, .included y⟩) (hn.2 r hr) hx (by
          rw [BoundedRange.contains_idx L, ← LowerBoundedRange.contains_idx L ⟨s.lowerBoundedRange.start⟩]
          exact ⟨hy, le_refl _⟩)
      obtain ⟨it, e, h1, h2⟩ := s.ranges.intoIter_fine L hn.1 fun r hr a b ha hb =>
        r.small_of_missing L F (m := j.current) (by
          by_contra h
          rw [Bool.not_eq_false] at h
          exact lt_irrefl _ (hlt r hr _ _ h ((hj _).1 (le_refl _)))) ha hb
      refine ⟨.lbs ⟨it, j⟩, by simp only [Any.intoIter, LowerBoundedSet.intoIter, e, ej, Res.bind_ok]; rfl,
        ⟨h1, fun k hk x y hx1 hx2 hy => ?_⟩, fun t => ?_⟩
      · have hx := (h2 x).1 ⟨k, hk, hx1, hx2⟩
        simp only [BoundedSet.contains, List.any_eq_true] at hx
        obtain ⟨r, hr, hx⟩ := hx
        exact hlt r hr x y hx ((hj y).1 hy)
      · show _ ∨ _ ↔ LowerBoundedSet.contains s t = true
        rw [LowerBoundedSet.contains, Bool.or_eq_true]
        exact (or_congr (h2 t) (hj t)).trans (by tauto)
    · exact hb.elim
    · exact hb.elim
    · exact hb.elim
    · exact hb.elim
    · exact ⟨.er EmptyRange.intoIter, rfl, trivial, fun t => by simp [AnyIter.Holds, Any.contains, Inner.contains]⟩

/-! ### Integers -/

/-- Integers bounded below can be iterated over. -/
theorem exists_iteration (P : Int → Bool) (b : Int) (h : ∀ t, P t = true → b ≤ t) : ∃ f, Iteration f P := by
  classical
  let Q : Nat → Prop := fun k => P (b + k) = true
  let ok : Nat → Prop := fun n => ∀ hf : (Set.ofPred Q).Finite, n < hf.toFinset.card
  have hmem : ∀ n, ok n → Q (Nat.nth Q n) := fun n hn => Nat.nth_mem n hn
  refine ⟨fun n => if ok n then some (b + Nat.nth Q n) else none, ⟨?_, ?_, ?_, ?_⟩⟩
  · intro n t h
    split at h
    · rename_i hn
      injection h with h
      rw [← h]; exact hmem n hn
    · cases h
  · intro t ht
    obtain ⟨k, rfl⟩ : ∃ k : Nat, t = b + k := ⟨(t - b).toNat, by have := h t ht; omega⟩
    obtain ⟨n, hn, e⟩ := Nat.exists_lt_card_nth_eq (p := Q) (x := k) ht
    exact ⟨n, by simp only [ok]; rw [if_pos hn, e]⟩
  · intro n m s t hnm h1 h2
    split at h1 <;> [skip; cases h1]
    split at h2 <;> [skip; cases h2]
    rename_i hn hm
    injection h1 with h1
    injection h2 with h2
    have := Nat.nth_lt_nth' (p := Q) hnm hm
    omega
  · intro n h
    split at h
    · cases h
    · rename_i hn
      exact if_neg fun hs => hn fun hf => Nat.lt_of_succ_lt (hs hf)

/-- A set of integers with no least element cannot. -/
theorem no_iteration {P : Int → Bool} {b : Int} (hb : P b = true) (h : ∀ t, P t = true → P (t - 1) = true) :
    ¬ ∃ f, Iteration f P := by
  rintro ⟨f, hf⟩
  classical
  obtain ⟨n, hn⟩ := hf.complete b hb
  have hex : ∃ n, (f n).isSome := ⟨n, by simp [hn]⟩
  obtain ⟨t, ht⟩ := Option.isSome_iff_exists.1 (Nat.find_spec hex)
  obtain ⟨m, hm⟩ := hf.complete _ (h t (hf.sound _ _ ht))
  have hle : Nat.find hex ≤ m := Nat.find_min' hex (by simp [hm])
  rcases hle.lt_or_eq with hlt | heq
  · have := hf.increasing _ _ _ _ hlt ht hm
    omega
  · rw [heq, hm] at ht
    injection ht with ht
    omega

end Rangetools
