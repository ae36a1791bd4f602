import Verif.Proofs.Index

/-!
# C49 – C52: indexing by crate ranges
-/

namespace Rangetools
variable {α : Type} {p : Platform}

/-- Converting the bound does not wrap unnoticed: overflow checks are on, or the bound is not an
excluded `usize::MAX`. -/
def LowerBound.Noticed (b : LowerBound (Usize p)) : Prop :=
  p.overflowChecks = true ∨ b.first < p.usizeCount
/-- Converting the bound does not wrap unnoticed: overflow checks are on, or the bound is not an
included `usize::MAX`. -/
def UpperBound.Noticed (b : UpperBound (Usize p)) : Prop :=
  p.overflowChecks = true ∨ b.past < p.usizeCount

section Samples
/-- A number below 256 as a `usize`. -/
def pos (p : Platform) (i : Nat) (h : i < 256 := by decide) : Usize p :=
  Usize.ofNat i (lt_trans h (by have := p.le_usizeCount; omega))
/-- `usize::MAX`. -/
def posMax (p : Platform) : Usize p :=
  Usize.ofNat (p.usizeCount - 1) (by have := p.le_usizeCount; omega)
/-- The positions `1 <.. =3`. -/
def p13 (p : Platform) : BoundedRange (Usize p) := ⟨.excluded (pos p 1), .included (pos p 3)⟩
end Samples

/-! ### What the model computes, in one formula per implementation -/

section
variable {β : Type}

theorem BoundedRange.toRange_bind (r : BoundedRange (Usize p)) (h1 : r.start.Noticed)
    (h2 : r.stop.Noticed) (k : Nat → Nat → Res β) :
    ((r.toRange (Usize.step p)) >>= fun q => k q.start.nat q.stop.nat) = k r.start.first r.stop.past ∧
      r.start.first < p.usizeCount ∧ r.stop.past < p.usizeCount ∨
    (∃ m, ((r.toRange (Usize.step p)) >>= fun q => k q.start.nat q.stop.nat) = .panic m) ∧
      (r.start.first = p.usizeCount ∨ r.stop.past = p.usizeCount) := by
  rcases r.toRange_cases with ⟨h, h', e⟩ | ⟨h, hp, m, e⟩ | ⟨h, hp⟩
  · left; rw [e, Res.bind_ok]; simp only [Usize.nat_ofNat]; exact ⟨trivial, h, h'⟩
  · right; rw [e]; exact ⟨⟨m, rfl⟩, h⟩
  · rcases h1 with h1 | h1
    · rw [h1] at hp; cases hp
    · rcases h2 with h2 | h2
      · rw [h2] at hp; cases hp
      · omega

theorem LowerBoundedRange.toRangeFrom_bind (r : LowerBoundedRange (Usize p)) (h1 : r.start.Noticed)
    (k : Nat → Res β) :
    ((r.toRangeFrom (Usize.step p)) >>= fun q => k q.start.nat) = k r.start.first ∧
      r.start.first < p.usizeCount ∨
    (∃ m, ((r.toRangeFrom (Usize.step p)) >>= fun q => k q.start.nat) = .panic m) ∧
      r.start.first = p.usizeCount := by
  rcases r.toRangeFrom_cases with ⟨h, e⟩ | ⟨h, hp, m, e⟩ | ⟨h, hp⟩
  · left; rw [e, Res.bind_ok]; simp only [Usize.nat_ofNat]; exact ⟨trivial, h⟩
  · right; rw [e]; exact ⟨⟨m, rfl⟩, h⟩
  · rcases h1 with h1 | h1
    · rw [h1] at hp; cases hp
    · omega

theorem UpperBoundedRange.toRangeTo_bind (r : UpperBoundedRange (Usize p)) (h1 : r.stop.Noticed)
    (k : Nat → Res β) :
    ((r.toRangeTo (Usize.step p)) >>= fun q => k q.stop.nat) = k r.stop.past ∧
      r.stop.past < p.usizeCount ∨
    (∃ m, ((r.toRangeTo (Usize.step p)) >>= fun q => k q.stop.nat) = .panic m) ∧
      r.stop.past = p.usizeCount := by
  rcases r.toRangeTo_cases with ⟨h, e⟩ | ⟨h, hp, m, e⟩ | ⟨h, hp⟩
  · left; rw [e, Res.bind_ok]; simp only [Usize.nat_ofNat]; exact ⟨trivial, h⟩
  · right; rw [e]; exact ⟨⟨m, rfl⟩, h⟩
  · rcases h1 with h1 | h1
    · rw [h1] at hp; cases hp
    · omega

end

theorem sliceRange_ok {v w : List α} {a b : Nat} :
    sliceRange v a b = .ok w ↔ a ≤ b ∧ b ≤ v.length ∧ w = (v.take b).drop a := by
  unfold sliceRange
  split
  · exact ⟨fun h => (by cases h), fun h => by omega⟩
  · split
    · exact ⟨fun h => (by cases h), fun h => by omega⟩
    · exact ⟨fun h => (by cases h; exact ⟨by omega, by omega, rfl⟩), fun h => by rw [h.2.2]⟩

theorem sliceFrom_ok {v w : List α} {a : Nat} :
    sliceFrom v a = .ok w ↔ a ≤ v.length ∧ w = v.drop a := by
  unfold sliceFrom
  split
  · exact ⟨fun h => (by cases h), fun h => by omega⟩
  · exact ⟨fun h => (by cases h; exact ⟨by omega, rfl⟩), fun h => by rw [h.2]⟩

theorem sliceRangeMut_ok {v w : List α} {a b : Nat} {f : List α → List α} :
    sliceRangeMut v a b f = .ok w ↔
      a ≤ b ∧ b ≤ v.length ∧ w = v.take a ++ f ((v.take b).drop a) ++ v.drop b := by
  unfold sliceRangeMut
  split
  · exact ⟨fun h => (by cases h), fun h => by omega⟩
  · split
    · exact ⟨fun h => (by cases h), fun h => by omega⟩
    · exact ⟨fun h => (by cases h; exact ⟨by omega, by omega, rfl⟩), fun h => by rw [h.2.2]⟩

theorem sliceFromMut_ok {v w : List α} {a : Nat} {f : List α → List α} :
    sliceFromMut v a f = .ok w ↔ a ≤ v.length ∧ w = v.take a ++ f (v.drop a) := by
  unfold sliceFromMut
  split
  · exact ⟨fun h => (by cases h), fun h => by omega⟩
  · exact ⟨fun h => (by cases h; exact ⟨by omega, rfl⟩), fun h => by rw [h.2]⟩

/-- `v[r]` for a `BoundedRange`: exactly when it returns, and what. -/
theorem BoundedRange.indexSlice_ok (r : BoundedRange (Usize p)) (h1 : r.start.Noticed)
    (h2 : r.stop.Noticed) {v w : List α} (hv : v.length < p.usizeCount) :
    r.indexSlice v = .ok w ↔ r.start.first ≤ r.stop.past ∧ r.stop.past ≤ v.length ∧
      w = (v.take r.stop.past).drop r.start.first := by
  rcases r.toRange_bind h1 h2 (sliceRange v) with ⟨e, _⟩ | ⟨⟨m, e⟩, h⟩
  · rw [← sliceRange_ok, ← e]; rfl
  · rw [show r.indexSlice v = .panic m from e]
    exact ⟨fun h => (by cases h), fun h' => by omega⟩

theorem LowerBoundedRange.indexSlice_ok (r : LowerBoundedRange (Usize p)) (h1 : r.start.Noticed)
    {v w : List α} (hv : v.length < p.usizeCount) :
    r.indexSlice v = .ok w ↔ r.start.first ≤ v.length ∧ w = v.drop r.start.first := by
  rcases r.toRangeFrom_bind h1 (sliceFrom v) with ⟨e, _⟩ | ⟨⟨m, e⟩, h⟩
  · rw [← sliceFrom_ok, ← e]; rfl
  · rw [show r.indexSlice v = .panic m from e]
    exact ⟨fun h => (by cases h), fun h' => by omega⟩

theorem UpperBoundedRange.indexSlice_ok (r : UpperBoundedRange (Usize p)) (h1 : r.stop.Noticed)
    {v w : List α} (hv : v.length < p.usizeCount) :
    r.indexSlice v = .ok w ↔ r.stop.past ≤ v.length ∧ w = v.take r.stop.past := by
  rcases r.toRangeTo_bind h1 (sliceTo v) with ⟨e, _⟩ | ⟨⟨m, e⟩, h⟩
  · rw [show r.indexSlice v = sliceTo v r.stop.past from e, sliceTo, sliceRange_ok]
    simp
  · rw [show r.indexSlice v = .panic m from e]
    exact ⟨fun h => (by cases h), fun h' => by omega⟩

/-! ## C49 -/

theorem BoundedRange.select_eq (r : BoundedRange (Usize p)) (v : List α) :
    select v (Usize.holds r.contains) = (v.take r.stop.past).drop r.start.first := by
  rw [← select_interval]
  exact congrArg _ (funext r.holds_iff)

theorem LowerBoundedRange.select_eq (r : LowerBoundedRange (Usize p)) {v : List α}
    (hv : v.length < p.usizeCount) :
    select v (Usize.holds r.contains) = v.drop r.start.first := by
  rw [show Usize.holds r.contains = _ from funext r.holds_iff, select_interval,
    List.take_of_length_le hv.le]

theorem UpperBoundedRange.select_eq (r : UpperBoundedRange (Usize p)) (v : List α) :
    select v (Usize.holds r.contains) = v.take r.stop.past := by
  rw [show Usize.holds r.contains = _ from funext r.holds_iff, select_interval]
  rfl

/-- When indexing a slice or `Vec` returns, it returns exactly the elements at the contained positions,
in order. -/
theorem C49_bounded (r : BoundedRange (Usize p)) (h1 : r.start.Noticed) (h2 : r.stop.Noticed)
    {v w : List α} (hv : v.length < p.usizeCount) (h : r.indexSlice v = .ok w) :
    w = select v (Usize.holds r.contains) := by
  rw [r.select_eq]
  exact ((r.indexSlice_ok h1 h2 hv).1 h).2.2

theorem C49_lower (r : LowerBoundedRange (Usize p)) (h1 : r.start.Noticed) {v w : List α}
    (hv : v.length < p.usizeCount) (h : r.indexSlice v = .ok w) :
    w = select v (Usize.holds r.contains) := by
  rw [r.select_eq hv]
  exact ((r.indexSlice_ok h1 hv).1 h).2

theorem C49_upper (r : UpperBoundedRange (Usize p)) (h1 : r.stop.Noticed) {v w : List α}
    (hv : v.length < p.usizeCount) (h : r.indexSlice v = .ok w) :
    w = select v (Usize.holds r.contains) := by
  rw [r.select_eq]
  exact ((r.indexSlice_ok h1 hv).1 h).2

/-- All positions, respectively none. -/
theorem C49_unbounded_empty (p : Platform) (v : List α) :
    UnboundedRange.index v = .ok (select v (fun _ => true)) ∧
    EmptyRange.indexSlice p v = .ok (select v (fun _ => false)) := by
  constructor
  · unfold UnboundedRange.index select
    rw [List.filter_eq_self.2 (fun _ _ => rfl), List.zipIdx_map_fst]
  · unfold select
    simp [EmptyRange.indexSlice, EmptyRange.toRange, sliceRange, Usize.zero, Usize.nat]

example : (p13 release64).indexSlice ['a', 'b', 'c', 'd', 'e'] = .ok ['c', 'd'] := by decide
example : select ['a', 'b', 'c', 'd', 'e'] (Usize.holds (p13 release64).contains) = ['c', 'd'] := by
  decide
example : (p13 release64).start.Noticed ∧ (p13 release64).stop.Noticed :=
  ⟨.inr (by decide), .inr (by decide)⟩

/-- Without overflow checks `v[..=usize::MAX]` is empty instead of everything (or a panic). -/
theorem C49_unchecked_counterexample :
    (UpperBoundedRange.mk (.included (posMax release64))).indexSlice ['a', 'b'] = .ok [] ∧
    select ['a', 'b'] (Usize.holds (UpperBoundedRange.mk (.included (posMax release64))).contains) =
      ['a', 'b'] := by decide

/-! ## C50 -/

/-- Indexing returns exactly when the range begins no later than it ends and ends within the slice. -/
theorem C50_bounded (r : BoundedRange (Usize p)) (h1 : r.start.Noticed) (h2 : r.stop.Noticed)
    {v : List α} (hv : v.length < p.usizeCount) :
    (∃ w, r.indexSlice v = .ok w) ↔ r.start.first ≤ r.stop.past ∧ r.stop.past ≤ v.length :=
  ⟨fun ⟨_, h⟩ => (by have := (r.indexSlice_ok h1 h2 hv).1 h; exact ⟨this.1, this.2.1⟩),
    fun h => ⟨_, (r.indexSlice_ok h1 h2 hv).2 ⟨h.1, h.2, rfl⟩⟩⟩

theorem C50_lower (r : LowerBoundedRange (Usize p)) (h1 : r.start.Noticed) {v : List α}
    (hv : v.length < p.usizeCount) :
    (∃ w, r.indexSlice v = .ok w) ↔ r.start.first ≤ v.length :=
  ⟨fun ⟨_, h⟩ => ((r.indexSlice_ok h1 hv).1 h).1, fun h => ⟨_, (r.indexSlice_ok h1 hv).2 ⟨h, rfl⟩⟩⟩

theorem C50_upper (r : UpperBoundedRange (Usize p)) (h1 : r.stop.Noticed) {v : List α}
    (hv : v.length < p.usizeCount) :
    (∃ w, r.indexSlice v = .ok w) ↔ r.stop.past ≤ v.length :=
  ⟨fun ⟨_, h⟩ => ((r.indexSlice_ok h1 hv).1 h).1, fun h => ⟨_, (r.indexSlice_ok h1 hv).2 ⟨h, rfl⟩⟩⟩

/-- A range that contains a position, and only positions of the slice, never panics, in any build. -/
theorem C50_inside (r : BoundedRange (Usize p)) {v : List α} (hv : v.length < p.usizeCount)
    (hne : ∃ t, r.contains t = true) (hin : ∀ t, r.contains t = true → t.nat < v.length) :
    ∃ w, r.indexSlice v = .ok w := by
  obtain ⟨t, ht⟩ := hne
  have hh := r.holds_iff t.nat
  rw [Usize.holds_nat, ht, eq_comm, Bool.and_eq_true, decide_eq_true_iff, decide_eq_true_iff] at hh
  have hle := r.stop.past_le
  have hlast : r.stop.past ≤ v.length := by
    have hq := r.holds_iff (r.stop.past - 1)
    rw [Usize.holds_of_lt _ (by omega : r.stop.past - 1 < p.usizeCount),
      decide_eq_true (by omega : r.start.first ≤ r.stop.past - 1),
      decide_eq_true (by omega : r.stop.past - 1 < r.stop.past)] at hq
    have := hin _ hq
    rw [Usize.nat_ofNat] at this
    omega
  exact (C50_bounded r (.inr (by omega)) (.inr (by omega)) hv).2 ⟨by omega, hlast⟩

/-- A range that contains a position outside the slice panics. -/
theorem C50_outside (r : BoundedRange (Usize p)) (h1 : r.start.Noticed) (h2 : r.stop.Noticed)
    {v : List α} (hv : v.length < p.usizeCount) (t : Usize p) (ht : r.contains t = true)
    (hout : v.length ≤ t.nat) : ∃ m, r.indexSlice v = .panic m := by
  have hh := r.holds_iff t.nat
  rw [Usize.holds_nat, ht, eq_comm, Bool.and_eq_true, decide_eq_true_iff, decide_eq_true_iff] at hh
  cases e : r.indexSlice v with
  | panic m => exact ⟨m, rfl⟩
  | ok w =>
    have := (C50_bounded r h1 h2 hv).1 ⟨w, e⟩
    omega

example : (p13 debug64).contains (pos debug64 3) = true := by decide
example : ∃ m, (p13 debug64).indexSlice ['a', 'b', 'c'] = .panic m := ⟨_, rfl⟩
/-- Empty ranges panic too when they begin after their end, like `v[3..1]`. -/
example : ∃ m, (BoundedRange.mk (.included (pos debug64 3)) (.excluded (pos debug64 1))).indexSlice
    ['a', 'b', 'c', 'd'] = .panic m := ⟨_, rfl⟩

/-! ## C51 -/

/-- An update of part of a list that keeps its length. -/
theorem splice_spec (v : List α) {a b : Nat} (hab : a ≤ b) (hb : b ≤ v.length) (f : List α → List α)
    (hf : ∀ l, (f l).length = l.length) :
    (v.take a ++ f ((v.take b).drop a) ++ v.drop b).length = v.length ∧
    (∀ i, ¬ (a ≤ i ∧ i < b) → (v.take a ++ f ((v.take b).drop a) ++ v.drop b)[i]? = v[i]?) ∧
    ((v.take a ++ f ((v.take b).drop a) ++ v.drop b).take b).drop a = f ((v.take b).drop a) := by
  have hla : (v.take a).length = a := by rw [List.length_take]; omega
  have hlm : (f ((v.take b).drop a)).length = b - a := by
    rw [hf, List.length_drop, List.length_take]; omega
  have hlam : (v.take a ++ f ((v.take b).drop a)).length = b := by
    rw [List.length_append, hla, hlm]; omega
  refine ⟨?_, fun i hi => ?_, ?_⟩
  · rw [List.length_append, hlam, List.length_drop]; omega
  · by_cases h : i < a
    · rw [List.append_assoc, List.getElem?_append_left (by omega), List.getElem?_take, if_pos h]
    · rw [List.getElem?_append_right (by omega), hlam, List.getElem?_drop]
      congr 1; omega
  · rw [List.take_append_of_le_length (by omega), List.take_of_length_le (by omega),
      List.drop_append_of_le_length (by omega), List.drop_of_length_le (by omega)]
    rfl

/-- Writing through `&mut v[r]` keeps the length and all elements at positions not contained in `r`, and
does to the others what the writer did. -/
theorem C51_bounded (r : BoundedRange (Usize p)) (h1 : r.start.Noticed) (h2 : r.stop.Noticed)
    {v w : List α} (f : List α → List α)
    (hf : ∀ l, (f l).length = l.length) (h : r.indexSliceMut v f = .ok w) :
    w.length = v.length ∧ (∀ i, Usize.holds r.contains i = false → w[i]? = v[i]?) ∧
      select w (Usize.holds r.contains) = f (select v (Usize.holds r.contains)) := by
  rcases r.toRange_bind h1 h2 (fun a b => sliceRangeMut v a b f) with ⟨e, _⟩ | ⟨⟨m, e⟩, _⟩
  · rw [show r.indexSliceMut v f = _ from e, sliceRangeMut_ok] at h
    obtain ⟨ha, hb, rfl⟩ := h
    obtain ⟨s1, s2, s3⟩ := splice_spec v ha hb f hf
    refine ⟨s1, fun i hi => s2 i ?_, ?_⟩
    · rw [r.holds_iff, Bool.and_eq_false_iff, decide_eq_false_iff_not, decide_eq_false_iff_not] at hi
      omega
    · rw [r.select_eq, r.select_eq, s3]
  · rw [show r.indexSliceMut v f = _ from e] at h; cases h

theorem C51_lower (r : LowerBoundedRange (Usize p)) (h1 : r.start.Noticed) {v w : List α}
    (hv : v.length < p.usizeCount) (f : List α → List α) (hf : ∀ l, (f l).length = l.length)
    (h : r.indexSliceMut v f = .ok w) :
    w.length = v.length ∧ (∀ i, i < v.length → Usize.holds r.contains i = false → w[i]? = v[i]?) ∧
      select w (Usize.holds r.contains) = f (select v (Usize.holds r.contains)) := by
  rcases r.toRangeFrom_bind h1 (fun a => sliceFromMut v a f) with ⟨e, _⟩ | ⟨⟨m, e⟩, _⟩
  · rw [show r.indexSliceMut v f = _ from e, sliceFromMut_ok] at h
    obtain ⟨ha, rfl⟩ := h
    have := splice_spec v ha (le_refl _) f hf
    rw [List.take_length, List.drop_length, List.append_nil] at this
    obtain ⟨s1, s2, s3⟩ := this
    refine ⟨s1, fun i hl hi => s2 i ?_, ?_⟩
    · rw [r.holds_iff, Bool.and_eq_false_iff, decide_eq_false_iff_not, decide_eq_false_iff_not] at hi
      omega
    · rw [List.take_of_length_le s1.le] at s3
      rw [r.select_eq hv, r.select_eq (by rw [s1]; exact hv), s3]
  · rw [show r.indexSliceMut v f = _ from e] at h; cases h

theorem C51_upper (r : UpperBoundedRange (Usize p)) (h1 : r.stop.Noticed) {v w : List α}
    (f : List α → List α) (hf : ∀ l, (f l).length = l.length)
    (h : r.indexSliceMut v f = .ok w) :
    w.length = v.length ∧ (∀ i, Usize.holds r.contains i = false → w[i]? = v[i]?) ∧
      select w (Usize.holds r.contains) = f (select v (Usize.holds r.contains)) := by
  rcases r.toRangeTo_bind h1 (fun b => sliceToMut v b f) with ⟨e, _⟩ | ⟨⟨m, e⟩, _⟩
  · rw [show r.indexSliceMut v f = _ from e, sliceToMut, sliceRangeMut_ok] at h
    obtain ⟨ha, hb, rfl⟩ := h
    obtain ⟨s1, s2, s3⟩ := splice_spec v ha hb f hf
    refine ⟨s1, fun i hi => s2 i ?_, ?_⟩
    · rw [r.holds_iff, Bool.and_eq_false_iff, decide_eq_false_iff_not, decide_eq_false_iff_not] at hi
      omega
    · rw [r.select_eq, r.select_eq]
      exact s3
  · rw [show r.indexSliceMut v f = _ from e] at h; cases h

/-- Through `&mut v[UnboundedRange]` every position can be written, in one go. -/
theorem C51_unbounded {v w : List α} (f : List α → List α) (hf : ∀ l, (f l).length = l.length)
    (h : UnboundedRange.indexMut v f = .ok w) :
    w.length = v.length ∧ select w (fun _ => true) = f (select v (fun _ => true)) := by
  cases h
  have : ∀ u : List α, select u (fun _ => true) = u := fun u => by
    unfold select
    rw [List.filter_eq_self.2 (fun _ _ => rfl)]
    simp
  exact ⟨hf v, by rw [this, this]⟩

example : UnboundedRange.indexMut [1, 2, 3] List.reverse = .ok [3, 2, 1] := rfl

/-- `&mut v[r]` panics exactly when `&v[r]` does, in every build. -/
theorem C51_same_panics (v : List α) (f : List α → List α) :
    (∀ r : BoundedRange (Usize p), (∃ w, r.indexSliceMut v f = .ok w) ↔ ∃ w, r.indexSlice v = .ok w) ∧
    (∀ r : LowerBoundedRange (Usize p),
      (∃ w, r.indexSliceMut v f = .ok w) ↔ ∃ w, r.indexSlice v = .ok w) ∧
    (∀ r : UpperBoundedRange (Usize p),
      (∃ w, r.indexSliceMut v f = .ok w) ↔ ∃ w, r.indexSlice v = .ok w) := by
  refine ⟨fun r => ?_, fun r => ?_, fun r => ?_⟩
  · unfold BoundedRange.indexSliceMut BoundedRange.indexSlice
    cases r.toRange (Usize.step p) with
    | panic m => exact ⟨fun ⟨_, h⟩ => (by cases h), fun ⟨_, h⟩ => by cases h⟩
    | ok q =>
      simp only [Res.bind_ok, sliceRangeMut_ok, sliceRange_ok]
      exact ⟨fun ⟨_, h, h', _⟩ => ⟨_, h, h', rfl⟩, fun ⟨_, h, h', _⟩ => ⟨_, h, h', rfl⟩⟩
  · unfold LowerBoundedRange.indexSliceMut LowerBoundedRange.indexSlice
    cases r.toRangeFrom (Usize.step p) with
    | panic m => exact ⟨fun ⟨_, h⟩ => (by cases h), fun ⟨_, h⟩ => by cases h⟩
    | ok q =>
      simp only [Res.bind_ok, sliceFromMut_ok, sliceFrom_ok]
      exact ⟨fun ⟨_, h, _⟩ => ⟨_, h, rfl⟩, fun ⟨_, h, _⟩ => ⟨_, h, rfl⟩⟩
  · unfold UpperBoundedRange.indexSliceMut UpperBoundedRange.indexSlice
    cases r.toRangeTo (Usize.step p) with
    | panic m => exact ⟨fun ⟨_, h⟩ => (by cases h), fun ⟨_, h⟩ => by cases h⟩
    | ok q =>
      simp only [Res.bind_ok, sliceToMut, sliceTo, sliceRangeMut_ok, sliceRange_ok]
      exact ⟨fun ⟨_, h, h', _⟩ => ⟨_, h, h', rfl⟩, fun ⟨_, h, h', _⟩ => ⟨_, h, h', rfl⟩⟩

example : (p13 debug64).indexSliceMut ['a', 'b', 'c', 'd', 'e'] List.reverse =
    .ok ['a', 'b', 'd', 'c', 'e'] := by decide

/-! ## C52 -/

/-- Indexing the encoding of a string returns exactly when both ends are boundaries between characters,
in order; the result is the encoding of the characters between them (so it is valid UTF-8) and consists of
the bytes at the contained positions. -/
theorem C52_str_bounded (r : BoundedRange (Usize p)) (h1 : r.start.Noticed) (h2 : r.stop.Noticed)
    (cs : List Scalar) (hv : (utf8 cs).length < p.usizeCount) (w : List Nat) :
    r.indexStr (utf8 cs) = .ok w ↔ ∃ a b, a ≤ b ∧ b ≤ cs.length ∧
      r.start.first = (utf8 (cs.take a)).length ∧ r.stop.past = (utf8 (cs.take b)).length ∧
      w = utf8 ((cs.take b).drop a) := by
  have key : ∀ x y, strRange (utf8 cs) x y = .ok w ↔ ∃ a b, a ≤ b ∧ b ≤ cs.length ∧
      x = (utf8 (cs.take a)).length ∧ y = (utf8 (cs.take b)).length ∧
      w = utf8 ((cs.take b).drop a) := by
    intro x y
    unfold strRange
    constructor
    · intro h
      split at h
      · rename_i hc
        simp only [Bool.and_eq_true, decide_eq_true_eq, isCharBoundary_utf8] at hc
        obtain ⟨⟨hxy, a, ha, rfl⟩, b, hb, rfl⟩ := hc
        have hab := utf8_take_length_le cs ha hxy
        rw [utf8_slice cs hab] at h
        cases h
        exact ⟨a, b, hab, hb, rfl, rfl, rfl⟩
      · cases h
    · rintro ⟨a, b, hab, hb, rfl, rfl, rfl⟩
      have hle : (utf8 (cs.take a)).length ≤ (utf8 (cs.take b)).length := by
        rcases Nat.lt_or_eq_of_le hab with h | h
        · exact (utf8_take_length_lt cs h hb).le
        · rw [h]
      rw [if_pos, utf8_slice cs hab]
      simp only [Bool.and_eq_true, decide_eq_true_eq, isCharBoundary_utf8]
      exact ⟨⟨hle, a, by omega, rfl⟩, b, hb, rfl⟩
  rcases r.toRange_bind h1 h2 (strRange (utf8 cs)) with ⟨e, _⟩ | ⟨⟨m, e⟩, h⟩
  · rw [← key, ← e]; rfl
  · rw [show r.indexStr (utf8 cs) = .panic m from e]
    refine ⟨fun h => (by cases h), ?_⟩
    rintro ⟨a, b, hab, hb, hx, hy, _⟩
    have hl : ∀ k, (utf8 (cs.take k)).length ≤ (utf8 cs).length := fun k => by
      rw [← utf8_take, List.length_take]; omega
    have := hl a
    have := hl b
    omega

theorem C52_str_lower (r : LowerBoundedRange (Usize p)) (h1 : r.start.Noticed) (cs : List Scalar)
    (hv : (utf8 cs).length < p.usizeCount) (w : List Nat) :
    r.indexStr (utf8 cs) = .ok w ↔ ∃ a, a ≤ cs.length ∧
      r.start.first = (utf8 (cs.take a)).length ∧ w = utf8 (cs.drop a) := by
  have key : ∀ x, strFrom (utf8 cs) x = .ok w ↔ ∃ a, a ≤ cs.length ∧
      x = (utf8 (cs.take a)).length ∧ w = utf8 (cs.drop a) := by
    intro x
    unfold strFrom
    constructor
    · intro h
      split at h
      · rename_i hc
        obtain ⟨a, ha, rfl⟩ := (isCharBoundary_utf8 cs x).1 hc
        rw [utf8_drop] at h
        cases h
        exact ⟨a, ha, rfl, rfl⟩
      · cases h
    · rintro ⟨a, ha, rfl, rfl⟩
      rw [if_pos ((isCharBoundary_utf8 _ _).2 ⟨a, ha, rfl⟩), utf8_drop]
  rcases r.toRangeFrom_bind h1 (strFrom (utf8 cs)) with ⟨e, _⟩ | ⟨⟨m, e⟩, h⟩
  · rw [← key, ← e]; rfl
  · rw [show r.indexStr (utf8 cs) = .panic m from e]
    refine ⟨fun h => (by cases h), ?_⟩
    rintro ⟨a, ha, hx, _⟩
    have : (utf8 (cs.take a)).length ≤ (utf8 cs).length := by
      rw [← utf8_take, List.length_take]; omega
    omega

theorem C52_str_upper (r : UpperBoundedRange (Usize p)) (h1 : r.stop.Noticed) (cs : List Scalar)
    (hv : (utf8 cs).length < p.usizeCount) (w : List Nat) :
    r.indexStr (utf8 cs) = .ok w ↔ ∃ b, b ≤ cs.length ∧
      r.stop.past = (utf8 (cs.take b)).length ∧ w = utf8 (cs.take b) := by
  have key : ∀ x, strTo (utf8 cs) x = .ok w ↔ ∃ b, b ≤ cs.length ∧
      x = (utf8 (cs.take b)).length ∧ w = utf8 (cs.take b) := by
    intro x
    unfold strTo
    constructor
    · intro h
      split at h
      · rename_i hc
        obtain ⟨a, ha, rfl⟩ := (isCharBoundary_utf8 cs x).1 hc
        rw [utf8_take] at h
        cases h
        exact ⟨a, ha, rfl, rfl⟩
      · cases h
    · rintro ⟨a, ha, rfl, rfl⟩
      rw [if_pos ((isCharBoundary_utf8 _ _).2 ⟨a, ha, rfl⟩), utf8_take]
  rcases r.toRangeTo_bind h1 (strTo (utf8 cs)) with ⟨e, _⟩ | ⟨⟨m, e⟩, h⟩
  · rw [← key, ← e]; rfl
  · rw [show r.indexStr (utf8 cs) = .panic m from e]
    refine ⟨fun h => (by cases h), ?_⟩
    rintro ⟨a, ha, hx, _⟩
    have : (utf8 (cs.take a)).length ≤ (utf8 cs).length := by
      rw [← utf8_take, List.length_take]; omega
    omega

/-- When indexing a string returns, it returns exactly the bytes at the contained positions. -/
theorem C52_str_bytes (s : List Nat) (hv : s.length < p.usizeCount) :
    (∀ (r : BoundedRange (Usize p)) (w : List Nat), r.start.Noticed → r.stop.Noticed →
      r.indexStr s = .ok w → w = select s (Usize.holds r.contains)) ∧
    (∀ (r : LowerBoundedRange (Usize p)) (w : List Nat), r.start.Noticed →
      r.indexStr s = .ok w → w = select s (Usize.holds r.contains)) ∧
    (∀ (r : UpperBoundedRange (Usize p)) (w : List Nat), r.stop.Noticed →
      r.indexStr s = .ok w → w = select s (Usize.holds r.contains)) := by
  refine ⟨fun r w h1 h2 h => ?_, fun r w h1 h => ?_, fun r w h1 h => ?_⟩
  · rw [r.select_eq]
    rcases r.toRange_bind h1 h2 (strRange s) with ⟨e, _⟩ | ⟨⟨m, e⟩, _⟩
    · rw [show r.indexStr s = _ from e, strRange] at h
      split at h
      · cases h; rfl
      · cases h
    · rw [show r.indexStr s = _ from e] at h; cases h
  · rw [r.select_eq hv]
    rcases r.toRangeFrom_bind h1 (strFrom s) with ⟨e, _⟩ | ⟨⟨m, e⟩, _⟩
    · rw [show r.indexStr s = _ from e, strFrom] at h
      split at h
      · cases h; rfl
      · cases h
    · rw [show r.indexStr s = _ from e] at h; cases h
  · rw [r.select_eq]
    rcases r.toRangeTo_bind h1 (strTo s) with ⟨e, _⟩ | ⟨⟨m, e⟩, _⟩
    · rw [show r.indexStr s = _ from e, strTo] at h
      split at h
      · cases h; rfl
      · cases h
    · rw [show r.indexStr s = _ from e] at h; cases h

/-- Writing through `&mut s[r]` (which can only replace characters by others with encodings of the same
total length) leaves an encoded string: the characters outside are kept. -/
theorem C52_str_mut (r : BoundedRange (Usize p)) (h1 : r.start.Noticed) (h2 : r.stop.Noticed)
    (cs : List Scalar) (f : List Nat → List Nat) (w : List Nat)
    (hf : ∀ ds, ∃ es, f (utf8 ds) = utf8 es ∧ (utf8 es).length = (utf8 ds).length)
    (h : r.indexStrMut (utf8 cs) f = .ok w) :
    ∃ a b es, a ≤ b ∧ b ≤ cs.length ∧ r.start.first = (utf8 (cs.take a)).length ∧
      r.stop.past = (utf8 (cs.take b)).length ∧ utf8 es = f (utf8 ((cs.take b).drop a)) ∧
      w = utf8 (cs.take a ++ es ++ cs.drop b) ∧ w.length = (utf8 cs).length := by
  rcases r.toRange_bind h1 h2 (fun x y => strRangeMut (utf8 cs) x y f) with ⟨e, _⟩ | ⟨⟨m, e⟩, _⟩
  · rw [show r.indexStrMut (utf8 cs) f = _ from e, strRangeMut] at h
    split at h
    · rename_i hc
      simp only [Bool.and_eq_true, decide_eq_true_eq, isCharBoundary_utf8] at hc
      obtain ⟨⟨hxy, a, ha, hx⟩, b, hb, hy⟩ := hc
      rw [hx, hy] at hxy
      have hab := utf8_take_length_le cs ha hxy
      rw [hx, hy, utf8_slice cs hab, utf8_take, utf8_drop] at h
      obtain ⟨es, he, hl⟩ := hf ((cs.take b).drop a)
      rw [he] at h
      cases h
      refine ⟨a, b, es, hab, hb, hx, hy, he.symm, by rw [utf8_append, utf8_append], ?_⟩
      rw [List.length_append, List.length_append, hl, ← List.length_append, ← List.length_append,
        ← utf8_append, ← utf8_append]
      congr 2
      conv_rhs => rw [← List.take_append_drop b cs, ← List.take_append_drop a (cs.take b)]
      rw [List.take_take, min_eq_left hab]
    · cases h
  · rw [show r.indexStrMut (utf8 cs) f = _ from e] at h; cases h

theorem C52_str_mut_lower (r : LowerBoundedRange (Usize p)) (h1 : r.start.Noticed)
    (cs : List Scalar) (f : List Nat → List Nat) (w : List Nat)
    (hf : ∀ ds, ∃ es, f (utf8 ds) = utf8 es ∧ (utf8 es).length = (utf8 ds).length)
    (h : r.indexStrMut (utf8 cs) f = .ok w) :
    ∃ a es, a ≤ cs.length ∧ r.start.first = (utf8 (cs.take a)).length ∧
      utf8 es = f (utf8 (cs.drop a)) ∧ w = utf8 (cs.take a ++ es) ∧ w.length = (utf8 cs).length := by
  rcases r.toRangeFrom_bind h1 (fun x => strFromMut (utf8 cs) x f) with ⟨e, _⟩ | ⟨⟨m, e⟩, _⟩
  · rw [show r.indexStrMut (utf8 cs) f = _ from e, strFromMut] at h
    split at h
    · rename_i hc
      obtain ⟨a, ha, hx⟩ := (isCharBoundary_utf8 _ _).1 hc
      rw [hx, utf8_take, utf8_drop] at h
      obtain ⟨es, he, hl⟩ := hf (cs.drop a)
      rw [he] at h
      cases h
      refine ⟨a, es, ha, hx, he.symm, by rw [utf8_append], ?_⟩
      rw [List.length_append, hl, ← List.length_append, ← utf8_append, List.take_append_drop]
    · cases h
  · rw [show r.indexStrMut (utf8 cs) f = _ from e] at h; cases h

theorem C52_str_mut_upper (r : UpperBoundedRange (Usize p)) (h1 : r.stop.Noticed)
    (cs : List Scalar) (f : List Nat → List Nat) (w : List Nat)
    (hf : ∀ ds, ∃ es, f (utf8 ds) = utf8 es ∧ (utf8 es).length = (utf8 ds).length)
    (h : r.indexStrMut (utf8 cs) f = .ok w) :
    ∃ b es, b ≤ cs.length ∧ r.stop.past = (utf8 (cs.take b)).length ∧
      utf8 es = f (utf8 (cs.take b)) ∧ w = utf8 (es ++ cs.drop b) ∧ w.length = (utf8 cs).length := by
  rcases r.toRangeTo_bind h1 (fun x => strToMut (utf8 cs) x f) with ⟨e, _⟩ | ⟨⟨m, e⟩, _⟩
  · rw [show r.indexStrMut (utf8 cs) f = _ from e, strToMut] at h
    split at h
    · rename_i hc
      obtain ⟨a, ha, hx⟩ := (isCharBoundary_utf8 _ _).1 hc
      rw [hx, utf8_take, utf8_drop] at h
      obtain ⟨es, he, hl⟩ := hf (cs.take a)
      rw [he] at h
      cases h
      refine ⟨a, es, ha, hx, he.symm, by rw [utf8_append], ?_⟩
      rw [List.length_append, hl, ← List.length_append, ← utf8_append, List.take_append_drop]
    · cases h
  · rw [show r.indexStrMut (utf8 cs) f = _ from e] at h; cases h

/-- The hypothesis on `f` is met by upper-casing, byte by byte, every `a`. -/
example : ∀ ds, ∃ es, (utf8 ds).map (fun b => if b = 0x61 then 0x41 else b) = utf8 es ∧
    (utf8 es).length = (utf8 ds).length := by
  intro ds
  have hc : ∀ c : Scalar, (utf8Char c).map (fun b => if b = 0x61 then 0x41 else b) =
      utf8Char (if c.1 = 0x61 then ⟨0x41, by decide⟩ else c) := by
    intro c
    have h := c.2
    unfold IsScalar at h
    by_cases e : c.1 = 0x61
    · have : c = ⟨0x61, by decide⟩ := Subtype.ext e
      subst this; decide
    · rw [if_neg e]
      refine (List.map_congr_left fun b hb => ?_).trans (List.map_id _)
      rw [if_neg]; rfl
      rintro rfl
      unfold utf8Char at hb
      dsimp only at hb
      split at hb
      · simp only [List.mem_singleton] at hb; omega
      · split at hb
        · simp only [List.mem_cons, List.not_mem_nil, or_false] at hb; omega
        · split at hb <;> simp only [List.mem_cons, List.not_mem_nil, or_false] at hb <;> omega
  refine ⟨ds.map (fun c => if c.1 = 0x61 then ⟨0x41, by decide⟩ else c), ?_, ?_⟩
  · induction ds with
    | nil => rfl
    | cons d ds ih => rw [utf8_cons, List.map_append, ih, hc, List.map_cons, utf8_cons]
  · induction ds with
    | nil => rfl
    | cons d ds ih =>
      rw [List.map_cons, utf8_cons, utf8_cons, List.length_append, List.length_append, ih, ← hc,
        List.length_map]

/-- `c[r]` for a `CStr`: the suffix with the terminator, again a C string; a panic past the terminator. -/
theorem C52_cstr (r : LowerBoundedRange (Usize p)) (h1 : r.start.Noticed) (c : List Nat)
    (hc : IsCStr c) (hv : c.length < p.usizeCount) :
    (r.start.first < c.length → ∃ w, r.indexCStr c = .ok w ∧ IsCStr w ∧
      w = select c (Usize.holds r.contains)) ∧
    (c.length ≤ r.start.first → ∃ m, r.indexCStr c = .panic m) := by
  rcases r.toRangeFrom_bind h1 (cstrFrom c) with ⟨e, _⟩ | ⟨⟨m, e⟩, h⟩
  · rw [show r.indexCStr c = _ from e]
    refine ⟨fun h => ⟨c.drop r.start.first, by rw [cstrFrom, if_pos h], ?_, (r.select_eq hv).symm⟩,
      fun h => ⟨"index out of bounds", by rw [cstrFrom, if_neg (by omega)]⟩⟩
    obtain ⟨bs, h0, rfl⟩ := hc
    rw [List.length_append, List.length_singleton] at h
    exact ⟨bs.drop r.start.first, fun hm => h0 (List.mem_of_mem_drop hm),
      List.drop_append_of_le_length (by omega)⟩
  · rw [show r.indexCStr c = _ from e]
    exact ⟨fun h' => (by omega), fun _ => ⟨m, rfl⟩⟩

/-- By `UnboundedRange` the whole, by `EmptyRange` the empty string; never a panic. -/
theorem C52_unbounded_empty (p : Platform) (s : List Nat) :
    UnboundedRange.index s = .ok s ∧ EmptyRange.indexStr p s = .ok [] := by
  refine ⟨rfl, ?_⟩
  simp [EmptyRange.indexStr, EmptyRange.toRange, strRange, isCharBoundary, Usize.zero, Usize.nat]

/-- "aé€": three characters in 1 + 2 + 3 bytes. -/
def sampleStr : List Scalar := [⟨0x61, by decide⟩, ⟨0xE9, by decide⟩, ⟨0x20AC, by decide⟩]

example : utf8 sampleStr = [0x61, 0xC3, 0xA9, 0xE2, 0x82, 0xAC] := by decide
/-- `"aé€"[1..=2] == "é"`. -/
example : (BoundedRange.mk (.included (pos debug64 1)) (.included (pos debug64 2))).indexStr
    (utf8 sampleStr) = .ok [0xC3, 0xA9] := by decide
/-- `"aé€"[1..2]` panics. -/
example : ∃ m, (BoundedRange.mk (.included (pos debug64 1)) (.excluded (pos debug64 2))).indexStr
    (utf8 sampleStr) = .panic m := ⟨_, rfl⟩
example : IsCStr [104, 105, 0] := ⟨[104, 105], by decide, rfl⟩
/-- Past the terminator a `CStr` panics where a slice would be empty. -/
example : ∃ m, (LowerBoundedRange.mk (.included (pos debug64 3))).indexCStr [104, 105, 0] = .panic m :=
  ⟨_, rfl⟩

end Rangetools
