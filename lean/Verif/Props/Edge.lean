import Verif.Props.Emptiness
import Verif.Props.Index
import Verif.Spec.Samples

/-!
# C53, C54: exhausted `RangeInclusive`s, and indexing that wraps
-/

namespace Rangetools
open Iv Samples

/-! ### C53 Exhausted `RangeInclusive`s -/

section
variable {T : Type}

theorem Any.refresh_fresh (a : Any T) : a.refresh.Fresh := by cases a <;> first | rfl | trivial

theorem Any.toInner_refresh (a : Any T) : a.refresh.toInner = a.toInner := by cases a <;> rfl

variable [LinearOrder T]

theorem Any.toSet_refresh (a : Any T) : a.refresh.toSet = a.toSet := by cases a <;> rfl

theorem Any.inter_refresh (a b : Any T) : a.refresh.inter b.refresh = a.inter b := by
  cases a <;> cases b <;> rfl

theorem Any.union_dispatch {a b : Any T} (h1 : a ≠ .inner .er) (h2 : a ≠ .inner .ur) :
    a.union b = (match b.toSet with
      | .ur => .ok (.inner .ur)
      | .er => .ok a
      | o => do return .inner (← a.toSet.union o).toInner) := by
  rcases a with _ | _ | _ | _ | _ | _ | i <;> try rfl
  cases i <;> first | rfl | exact absurd rfl h1 | exact absurd rfl h2

/-- C53. No operation looks at the flag: with or without it, the results are the same.  (`union` with
an `EmptyRange` hands the range back as it is, flag included.) -/
theorem C53_flag_ignored (a b : Any T) :
    a.refresh.isEmpty = a.isEmpty ∧ a.refresh.toInner = a.toInner ∧ a.refresh.toSet = a.toSet ∧
      a.refresh.complement = a.complement ∧ a.refresh.inter b.refresh = a.inter b ∧
      a.refresh.disjoint b.refresh = a.disjoint b ∧
      a.refresh.intersects b.refresh = a.intersects b ∧
      ∃ c, a.union b = .ok c ∧ a.refresh.union b.refresh = .ok c.refresh := by
  refine ⟨by cases a <;> rfl, a.toInner_refresh, a.toSet_refresh, by cases a <;> rfl, a.inter_refresh b, ?_, ?_, ?_⟩
  · rw [Any.disjoint, Any.disjoint, a.inter_refresh]
  · rw [Any.intersects, Any.intersects, Any.disjoint, Any.disjoint, a.inter_refresh]
  · obtain ⟨c, hc⟩ := (C04_no_panic a b).1
    refine ⟨c, hc, ?_⟩
    by_cases h1 : a = .inner .er
    · subst h1
      obtain rfl : b = c := by injection hc
      rfl
    by_cases h2 : a = .inner .ur
    · subst h2
      obtain rfl : Any.inner .ur = c := by injection hc
      rfl
    have h1' : a.refresh ≠ .inner .er := by cases a <;> first | exact h1 | simp [Any.refresh]
    have h2' : a.refresh ≠ .inner .ur := by cases a <;> first | exact h2 | simp [Any.refresh]
    rw [Any.union_dispatch h1 h2] at hc
    rw [Any.union_dispatch h1' h2', a.toSet_refresh, b.toSet_refresh]
    cases hb : b.toSet with
    | ur => rw [hb] at hc; obtain rfl : Any.inner .ur = c := by injection hc
            rfl
    | er => rw [hb] at hc; obtain rfl : a = c := by injection hc
            rfl
    | _ =>
      rw [hb] at hc
      obtain ⟨x, _, hx⟩ := Res.bind_eq_ok.mp hc
      obtain rfl : Any.inner x.toInner = c := by injection hx
      exact hc

/-- C53, members: every result is about the range as it was before it was iterated. -/
theorem C53_members (a b : Any T) :
    (∃ c, a.union b = .ok c ∧
      ∀ t, c.refresh.contains t = (a.refresh.contains t || b.refresh.contains t)) ∧
    (∃ c, a.complement = .ok c ∧ ∀ t, c.contains t = !a.refresh.contains t) ∧
    (Lossless a b → ∃ c, a.inter b = .ok c ∧
      ∀ t, c.contains t = (a.refresh.contains t && b.refresh.contains t)) ∧
    ∀ t, a.toInner.contains t = a.refresh.contains t := by
  have ha := a.refresh_fresh
  have hb := b.refresh_fresh
  refine ⟨?_, ?_, fun h => ?_, fun t => ?_⟩
  · obtain ⟨c, hc, hc'⟩ := (C53_flag_ignored a b).2.2.2.2.2.2.2
    obtain ⟨d, hd, hs⟩ := C01_union_contains _ _ ha hb
    obtain rfl : c.refresh = d := by rw [hd] at hc'; injection hc' with h; exact h.symm
    exact ⟨c, hc, hs⟩
  · rw [← (C53_flag_ignored a b).2.2.2.1]
    exact C03_complement_contains _ ha
  · rw [← a.inter_refresh b]
    refine C02_inter_contains_partial _ _ ha hb ?_
    unfold Lossless
    rw [a.toInner_refresh, b.toInner_refresh]
    exact h
  · rw [← a.toInner_refresh]
    exact a.refresh.contains_toInner ha t

/-- `0..=3` after it has been iterated to its end: std leaves `3..=3`, flagged. -/
def spent : Any Int := .rangeInclusive ⟨3, 3, true⟩

example : spent.refresh = .rangeInclusive ⟨3, 3, false⟩ := rfl
example : ∃ c, spent.union (.range ⟨5, 7⟩) = .ok c ∧ c.contains 3 = true :=
  ⟨.inner (.bs ⟨[cc 3 3, co 5 7]⟩), by decide +kernel, by decide⟩

/-- An exhausted range contains nothing, yet it is not empty, it intersects, its complement lacks its
last element, and its union has it. -/
theorem C53_counterexample :
    ∃ (a : Any Int) (c : Inner Int) (u : Any Int) (t : Int), (∀ x, a.contains x = false) ∧
      a.isEmpty = false ∧ a.complement = .ok c ∧ c.contains t = false ∧
      a.union (.range ⟨0, 0⟩) = .ok u ∧ u.contains t = true ∧
      a.intersects (.range ⟨0, 9⟩) = .ok true := by
  refine ⟨spent, .us (.piecewise ⟨io 3, ⟨[]⟩, ⟨.excluded 3⟩⟩), .inner (.bs ⟨[cc 3 3]⟩), 3,
    fun x => ?_, by decide +kernel⟩
  simp only [spent, Any.contains, RangeInclusive.contains]
  simp

end

/-! ### C54 Indexing that wraps -/

section
variable {α : Type} {p : Platform}

/-- Without overflow checks, `Step::forward(x, 1)` wraps. -/
theorem Usize.forward_wraps (hp : p.overflowChecks = false) (x : Usize p) :
    ∃ y : Usize p, (Usize.step p).forward x 1 = .ok y ∧ y.nat = (x.nat + 1) % p.usizeCount := by
  rcases Usize.forward_one x with ⟨h, e⟩ | ⟨_, h, _⟩ | ⟨h, _⟩
  · exact ⟨_, e, by rw [Usize.nat_ofNat, Nat.mod_eq_of_lt h]⟩
  · rw [h] at hp; cases hp
  · have hN := p.le_usizeCount
    have hx := Usize.nat_cast x
    have hm := Usize.max_eq p
    obtain ⟨(y : Usize p), hy, hd⟩ := (C46_forward p (IntTy.usize p) x 1 (by omega)).2.2 (by omega) hp
    refine ⟨y, hy, ?_⟩
    rw [h, Nat.mod_self]
    have hy1 := Usize.nat_cast y
    have hy2 := y.nat_lt
    have hb : (2 ^ (IntTy.usize p).bits : Int) = (p.usizeCount : Int) := by
      show ((2 : Int) ^ p.usizeBits) = ((2 ^ p.usizeBits : Nat) : Int)
      push_cast; rfl
    rw [hb, ← hy1, ← hx] at hd
    have h' : ((x.nat : Int) + (1 : Nat)) = (p.usizeCount : Int) := by exact_mod_cast h
    rw [h'] at hd
    have : ((p.usizeCount : Int)) ∣ (y.nat : Int) := (dvd_sub_self_right).mp hd
    have : p.usizeCount ∣ y.nat := by exact_mod_cast this
    exact Nat.eq_zero_of_dvd_of_lt this hy2

theorem LowerBoundedRange.toRangeFrom_wraps (hp : p.overflowChecks = false)
    (r : LowerBoundedRange (Usize p)) :
    ∃ q, r.toRangeFrom (Usize.step p) = .ok q ∧ q.start.nat = r.start.first % p.usizeCount := by
  obtain ⟨⟨s⟩⟩ := r
  cases s with
  | included a => exact ⟨_, rfl, (Nat.mod_eq_of_lt a.nat_lt).symm⟩
  | excluded a =>
    obtain ⟨y, hy, hn⟩ := Usize.forward_wraps hp a
    exact ⟨⟨y⟩, by simp [LowerBoundedRange.toRangeFrom, LowerBound.toBound, hy], hn⟩

theorem UpperBoundedRange.toRangeTo_wraps (hp : p.overflowChecks = false)
    (r : UpperBoundedRange (Usize p)) :
    ∃ q, r.toRangeTo (Usize.step p) = .ok q ∧ q.stop.nat = r.stop.past % p.usizeCount := by
  obtain ⟨⟨s⟩⟩ := r
  cases s with
  | excluded a => exact ⟨_, rfl, (Nat.mod_eq_of_lt a.nat_lt).symm⟩
  | included a =>
    obtain ⟨y, hy, hn⟩ := Usize.forward_wraps hp a
    exact ⟨⟨y⟩, by simp [UpperBoundedRange.toRangeTo, UpperBound.toBound, hy], hn⟩

theorem BoundedRange.toRange_wraps (hp : p.overflowChecks = false) (r : BoundedRange (Usize p)) :
    ∃ q, r.toRange (Usize.step p) = .ok q ∧ q.start.nat = r.start.first % p.usizeCount ∧
      q.stop.nat = r.stop.past % p.usizeCount := by
  obtain ⟨a, ha, ha'⟩ := LowerBoundedRange.toRangeFrom_wraps hp ⟨r.start⟩
  obtain ⟨b, hb, hb'⟩ := UpperBoundedRange.toRangeTo_wraps hp ⟨r.stop⟩
  exact ⟨⟨a.start, b.stop⟩, by rw [BoundedRange.toRange_eq, ha, hb]; rfl, ha', hb'⟩

/-- C54. Without overflow checks, `v[r]` is `v[first % 2^w .. past % 2^w]`, where `first` and `past` are
the positions at which `r` begins and ends and `w` is the width of `usize`. -/
theorem C54_bounded (hp : p.overflowChecks = false) (r : BoundedRange (Usize p)) (v w : List α) :
    r.indexSlice v = .ok w ↔ r.start.first % p.usizeCount ≤ r.stop.past % p.usizeCount ∧
      r.stop.past % p.usizeCount ≤ v.length ∧
      w = select v (fun i => decide (r.start.first % p.usizeCount ≤ i) &&
        decide (i < r.stop.past % p.usizeCount)) := by
  obtain ⟨q, hq, h1, h2⟩ := r.toRange_wraps hp
  rw [select_interval, ← h1, ← h2, BoundedRange.indexSlice, hq, Res.ok_bind, sliceRange_ok]

theorem C54_lower (hp : p.overflowChecks = false) (r : LowerBoundedRange (Usize p))
    (v w : List α) :
    r.indexSlice v = .ok w ↔ r.start.first % p.usizeCount ≤ v.length ∧
      w = v.drop (r.start.first % p.usizeCount) := by
  obtain ⟨q, hq, h1⟩ := r.toRangeFrom_wraps hp
  rw [← h1, LowerBoundedRange.indexSlice, hq, Res.ok_bind, sliceFrom_ok]

theorem C54_upper (hp : p.overflowChecks = false) (r : UpperBoundedRange (Usize p))
    (v w : List α) :
    r.indexSlice v = .ok w ↔ r.stop.past % p.usizeCount ≤ v.length ∧
      w = v.take (r.stop.past % p.usizeCount) := by
  obtain ⟨q, hq, h1⟩ := r.toRangeTo_wraps hp
  rw [← h1, UpperBoundedRange.indexSlice, hq, Res.ok_bind, sliceTo, sliceRange_ok]
  simp

example : release64.overflowChecks = false := rfl
example : (p13 release64).start.first % release64.usizeCount = 2 ∧
    (p13 release64).stop.past % release64.usizeCount = 4 := by decide

/-- The wrapping cases: `v[..=usize::MAX]` is empty for every `v`, and the range that begins after
`usize::MAX`, which contains no position, selects and lets one overwrite everything. -/
theorem C54_at_max (hp : p.overflowChecks = false) (v : List α) (s : List Nat)
    (f : List α → List α) :
    (UpperBoundedRange.mk (.included (posMax p))).indexSlice v = .ok [] ∧
    (UpperBoundedRange.mk (.included (posMax p))).indexStr s = .ok [] ∧
    (LowerBoundedRange.mk (.excluded (posMax p))).indexSlice v = .ok v ∧
    (LowerBoundedRange.mk (.excluded (posMax p))).indexSliceMut v f = .ok (f v) ∧
    ∀ t, (LowerBoundedRange.mk (.excluded (posMax p))).contains t = false := by
  have hN := p.le_usizeCount
  have hm : (posMax p).nat + 1 = p.usizeCount := by rw [posMax, Usize.nat_ofNat]; omega
  have h1 : (UpperBound.included (posMax p)).past % p.usizeCount = 0 := by
    show ((posMax p).nat + 1) % _ = 0
    rw [hm, Nat.mod_self]
  have h2 : (LowerBound.excluded (posMax p)).first % p.usizeCount = 0 := by
    show ((posMax p).nat + 1) % _ = 0
    rw [hm, Nat.mod_self]
  obtain ⟨q, hq, e1⟩ := (UpperBoundedRange.mk (.included (posMax p))).toRangeTo_wraps hp
  obtain ⟨q', hq', e2⟩ := (LowerBoundedRange.mk (.excluded (posMax p))).toRangeFrom_wraps hp
  rw [h1] at e1
  rw [h2] at e2
  refine ⟨?_, ?_, ?_, ?_, fun t => ?_⟩
  · rw [UpperBoundedRange.indexSlice, hq, Res.ok_bind, e1]; simp [sliceTo, sliceRange]
  · rw [UpperBoundedRange.indexStr, hq, Res.ok_bind, e1]; simp [strTo, isCharBoundary]
  · rw [LowerBoundedRange.indexSlice, hq', Res.ok_bind, e2]; simp [sliceFrom]
  · rw [LowerBoundedRange.indexSliceMut, hq', Res.ok_bind, e2]; simp [sliceFromMut]
  · have := t.nat_lt
    have hle : t ≤ posMax p := (Usize.le_iff _ _).mpr (by omega)
    simp only [LowerBoundedRange.contains, LowerBound.excluded]
    simpa using hle

/-- With overflow checks the same conversions panic, for every slice. -/
theorem C54_checked (hp : p.overflowChecks = true) (v : List α) :
    (∃ m, (UpperBoundedRange.mk (.included (posMax p))).indexSlice v = .panic m) ∧
    (∃ m, (LowerBoundedRange.mk (.excluded (posMax p))).indexSlice v = .panic m) ∧
    (∀ e, ∃ m, (BoundedRange.mk (.excluded (posMax p)) e).indexSlice v = .panic m) ∧
    ∀ b, ∃ m, (BoundedRange.mk b (.included (posMax p))).indexSlice v = .panic m := by
  have hN := p.le_usizeCount
  have hm : (posMax p).nat + 1 = p.usizeCount := by rw [posMax, Usize.nat_ofNat]; omega
  refine ⟨?_, ?_, fun e => ?_, fun b => ?_⟩
  · rcases (UpperBoundedRange.mk (.included (posMax p))).toRangeTo_cases with
      ⟨h, _⟩ | ⟨_, _, m, e⟩ | ⟨_, h⟩
    · exact absurd h (by show ¬ (posMax p).nat + 1 < _; omega)
    · exact ⟨m, by rw [UpperBoundedRange.indexSlice, e]; rfl⟩
    · rw [hp] at h; cases h
  · rcases (LowerBoundedRange.mk (.excluded (posMax p))).toRangeFrom_cases with
      ⟨h, _⟩ | ⟨_, _, m, e⟩ | ⟨_, h⟩
    · exact absurd h (by show ¬ (posMax p).nat + 1 < _; omega)
    · exact ⟨m, by rw [LowerBoundedRange.indexSlice, e]; rfl⟩
    · rw [hp] at h; cases h
  · rcases (BoundedRange.mk (.excluded (posMax p)) e).toRange_cases with
      ⟨h, _⟩ | ⟨_, _, m, e⟩ | ⟨_, h⟩
    · exact absurd h (by show ¬ (posMax p).nat + 1 < _; omega)
    · exact ⟨m, by rw [BoundedRange.indexSlice, e]; rfl⟩
    · rw [hp] at h; cases h
  · rcases (BoundedRange.mk b (.included (posMax p))).toRange_cases with
      ⟨_, h, _⟩ | ⟨_, _, m, e⟩ | ⟨_, h⟩
    · exact absurd h (by show ¬ (posMax p).nat + 1 < _; omega)
    · exact ⟨m, by rw [BoundedRange.indexSlice, e]; rfl⟩
    · rw [hp] at h; cases h

example : debug64.overflowChecks = true := rfl

end
end Rangetools
