import Verif.Proofs.StdIter
import Verif.Props.IterLimits

/-!
# C72: the crate's iterators and those of the standard library
-/

namespace Rangetools
variable {T : Type} [LinearOrder T] {p : Platform} {S : Step T} {idx : T → Int}

/-- A `Range` iterates over what it contains, whatever is done to it. -/
theorem Range.iterates (L : LawfulStep p S idx) (r : Range T) {l : List T} (hl : Lists l r.contains) (ops : List Op)
    (ha : UsizeArgs p ops) (hs : (∃ op ∈ ops, op.isSize = true) → l.length < p.usizeCount) :
    ∃ r', runOps (Range.call p S) r ops = .ok ((listRun l ops).1, r') := by
  have hrep : StdRep idx r l := by
    refine (L.lists_iff fun hle => ⟨L.has_idx _, L.has_between (L.has_idx r.start) (L.has_idx r.stop) hle (by omega)⟩).mp
      ⟨hl.1, fun t => ?_⟩
    rw [hl.2, Range.contains, Bool.and_eq_true, decide_eq_true_eq, decide_eq_true_eq, L.le_iff, L.lt_iff]
    omega
  obtain ⟨r', e, -⟩ := run_of_calls (Range.call_spec L) ops hrep ha hs
  exact ⟨r', e⟩

/-- A fresh `RangeInclusive` iterates over what it contains, whatever is done to it. -/
theorem RangeInclusive.iterates (L : LawfulStep p S idx) (r : RangeInclusive T) (hr : r.exhausted = false) {l : List T}
    (hl : Lists l r.contains) (ops : List Op) (ha : UsizeArgs p ops)
    (hs : (∃ op ∈ ops, op.isSize = true) → l.length < p.usizeCount) :
    ∃ r', runOps (RangeInclusive.call p S) r ops = .ok ((listRun l ops).1, r') := by
  have hrep : InclRep idx r l := by
    rw [InclRep, hr]
    refine (L.lists_iff fun hle => ⟨L.has_idx _, L.has_idx _⟩).mp ⟨hl.1, fun t => ?_⟩
    rw [hl.2, RangeInclusive.contains, hr, Bool.and_eq_true, decide_eq_true_eq, L.le_iff]
    simp [L.le_iff]
  obtain ⟨r', e, -⟩ := run_of_calls (RangeInclusive.call_spec L) ops hrep ha hs
  exact ⟨r', e⟩

/-- C72. Iterating over `BoundedRange::from(a..b)` is iterating over `a..b`: no schedule of calls the crate's
iterator affords can tell the difference. -/
theorem C72_range (L : LawfulStep p S idx) (r : Range T) (hr : (BoundedRange.ofRange r).Representable idx) :
    ∃ it, (BoundedRange.ofRange r).intoIter S = .ok it ∧ ∀ ops, (BoundedRange.ofRange r).Affords p idx ops →
      ∃ os it' r', runOps (BoundedRangeIter.call p S) it ops = .ok (os, it') ∧
        runOps (Range.call p S) r ops = .ok (os, r') := by
  obtain ⟨it, l, e, hl, hlen, hrun⟩ := BoundedRange.iterates L hr
  refine ⟨it, e, fun ops ho => ?_⟩
  obtain ⟨it', e1, -⟩ := hrun ops ho
  obtain ⟨r', e2⟩ := Range.iterates L r (l := l) hl ops ho.args (by rw [hlen]; exact ho.sizes)
  exact ⟨_, it', r', e1, e2⟩

/-- C72 for `a..=b`. -/
theorem C72_range_inclusive (L : LawfulStep p S idx) (r : RangeInclusive T) (hf : r.exhausted = false) :
    ∃ it, (BoundedRange.ofRangeInclusive r).intoIter S = .ok it ∧
      ∀ ops, (BoundedRange.ofRangeInclusive r).Affords p idx ops →
      ∃ os it' r', runOps (BoundedRangeIter.call p S) it ops = .ok (os, it') ∧
        runOps (RangeInclusive.call p S) r ops = .ok (os, r') := by
  obtain ⟨it, l, e, hl, hlen, hrun⟩ := BoundedRange.iterates L (r := BoundedRange.ofRangeInclusive r)
    ⟨L.has_idx _, L.has_idx _⟩
  refine ⟨it, e, fun ops ho => ?_⟩
  obtain ⟨it', e1, -⟩ := hrun ops ho
  have hl' : Lists l r.contains := by
    refine ⟨hl.1, fun t => (hl.2 t).trans ?_⟩
    simp only [RangeInclusive.contains, hf, Bool.false_eq_true, if_false]
    rfl
  obtain ⟨r', e2⟩ := RangeInclusive.iterates L r hf hl' ops ho.args (by rw [hlen]; exact ho.sizes)
  exact ⟨_, it', r', e1, e2⟩

/-- C72 for a `for` loop over a non-empty `a..b`: no condition. -/
theorem C72_for_loop (L : LawfulStep p S idx) (r : Range T) (h : r.start < r.stop) (k : Nat) :
    ∃ it os it' r', (BoundedRange.ofRange r).intoIter S = .ok it ∧
      runOps (BoundedRangeIter.call p S) it (List.replicate k .next) = .ok (os, it') ∧
      runOps (Range.call p S) r (List.replicate k .next) = .ok (os, r') := by
  have hu := p.le_usizeCount
  have h' := (L.lt_iff _ _).mp h
  obtain ⟨it, e, hrun⟩ := C72_range L r ⟨L.has_idx _, L.has_between (L.has_idx r.start) (L.has_idx r.stop)
    (show idx r.start ≤ idx r.stop - 1 by omega) (show idx r.stop - 1 ≤ _ by omega)⟩
  have hno : ∀ op ∈ List.replicate k Op.next, op = .next := fun op h => List.eq_of_mem_replicate h
  obtain ⟨os, it', r', e1, e2⟩ := hrun (List.replicate k .next)
    { args := fun op h => by rw [hno op h]; exact ⟨by simp [Op.skipFront]; omega, by simp [Op.skipBack]; omega⟩
      front := fun _ => ⟨r.stop, by
        simp only [BoundedRange.ofRange, LowerBound.firstIdx, LowerBound.included, UpperBound.lastIdx,
          UpperBound.excluded, skipsFront, List.map_replicate, Op.skipFront]
        simp; omega⟩
      back := fun ⟨op, h, h'⟩ => by rw [hno op h] at h'; cases h'
      sizes := fun ⟨op, h, h'⟩ => by rw [hno op h] at h'; cases h' }
  exact ⟨it, os, it', r', e, e1, e2⟩

omit [LinearOrder T] in
/-- C72 for `a..`: the same under every schedule and for every `Step`, panics included. -/
theorem C72_range_from (S : Step T) (r : RangeFrom T) (ops : List FrontOp) (h : .min ∉ ops) :
    ∃ it, (LowerBoundedRange.ofRangeFrom r).intoIter S = .ok it ∧
      (do let (os, _) ← runFront (LowerBoundedRangeIter.call S) it ops; return os) =
        (do let (os, _) ← runFront (RangeFrom.call S) r ops; return os : Res (List (Out T))) := by
  refine ⟨⟨r.start⟩, rfl, ?_⟩
  have key : ∀ (x : T) (ops : List FrontOp), .min ∉ ops →
      runFront (LowerBoundedRangeIter.call S) ⟨x⟩ ops =
        (do let (os, s) ← runFront (RangeFrom.call S) ⟨x⟩ ops; return (os, ⟨s.start⟩)) := by
    intro x ops
    induction ops generalizing x with
    | nil => intro _; rfl
    | cons op ops ih =>
      intro h
      have ih := fun y => ih y fun hm => h (List.mem_cons_of_mem _ hm)
      cases op with
      | min => exact absurd List.mem_cons_self h
      | next =>
        simp only [runFront, LowerBoundedRangeIter.call, LowerBoundedRangeIter.next, RangeFrom.call, RangeFrom.next]
        cases S.forward x 1 with
        | panic m => rfl
        | ok y =>
          simp only [Res.bind_ok, Res.pure_eq, ih]
          cases runFront (RangeFrom.call S) ⟨y⟩ ops <;> rfl
      | nth n =>
        simp only [runFront, LowerBoundedRangeIter.call, LowerBoundedRangeIter.nth, LowerBoundedRangeIter.next,
          RangeFrom.call, RangeFrom.nth]
        cases S.forward x n with
        | panic m => rfl
        | ok z =>
          simp only [Res.bind_ok]
          cases S.forward z 1 with
          | panic m => rfl
          | ok y =>
            simp only [Res.bind_ok, Res.pure_eq, ih]
            cases runFront (RangeFrom.call S) ⟨y⟩ ops <;> rfl
  rw [key r.start ops h]
  cases runFront (RangeFrom.call S) r ops <;> rfl

/-- Where the two differ: `a..=MAX` is gone through by std, and then over; the crate's iterator panics instead
of ending, or, without overflow checks, starts again. -/
theorem C72_differs (p : Platform) (τ : IntTy) (a : τ.Val) :
    (∀ k : Nat, ∃ l r', Lists l (⟨a, τ.top, false⟩ : RangeInclusive τ.Val).contains ∧
      runOps (RangeInclusive.call p (IntTy.step p τ)) ⟨a, τ.top, false⟩ (List.replicate (l.length + k) .next) =
        .ok (l.map (fun t => .item (some t)) ++ List.replicate k (.item none), r')) ∧
    (p.overflowChecks = true → ∀ k : Nat, τ.max - a.1 < k → ∃ it m,
      (BoundedRange.ofRangeInclusive (⟨a, τ.top, false⟩ : RangeInclusive τ.Val)).intoIter (IntTy.step p τ) = .ok it ∧
      runOps (BoundedRangeIter.call p (IntTy.step p τ)) it (List.replicate k .next) = .panic m) ∧
    (p.overflowChecks = false → ∃ it,
      (BoundedRange.ofRangeInclusive (⟨a, τ.top, false⟩ : RangeInclusive τ.Val)).intoIter (IntTy.step p τ) = .ok it ∧
      ∀ k, ∃ (xs : List τ.Val) (it' : _), xs.length = k ∧
        runOps (BoundedRangeIter.call p (IntTy.step p τ)) it (List.replicate k .next) =
          .ok (xs.map (fun t => .item (some t)), it')) := by
  refine ⟨fun k => ?_, fun hp k hk => C43_checked_panics p hp τ a k hk, fun hp => C43_unchecked_never_ends p hp τ a⟩
  have L := IntTy.lawful p τ
  have hu := p.le_usizeCount
  obtain ⟨-, l, -, hl, -⟩ := BoundedRange.iterates L
    (r := BoundedRange.ofRangeInclusive (⟨a, τ.top, false⟩ : RangeInclusive τ.Val)) ⟨L.has_idx _, L.has_idx _⟩
  have hl' : Lists l (⟨a, τ.top, false⟩ : RangeInclusive τ.Val).contains := ⟨hl.1, fun t => hl.2 t⟩
  have hno : ∀ op ∈ List.replicate (l.length + k) Op.next, op = .next := fun op h => List.eq_of_mem_replicate h
  obtain ⟨r', e⟩ := RangeInclusive.iterates L ⟨a, τ.top, false⟩ rfl hl' (List.replicate (l.length + k) .next)
    (fun op h => by rw [hno op h]; exact ⟨by simp [Op.skipFront]; omega, by simp [Op.skipBack]; omega⟩)
    (fun ⟨op, h, h'⟩ => by rw [hno op h] at h'; cases h')
  refine ⟨l, r', hl', ?_⟩
  rw [e, (listRun_next _ _).2, List.take_of_length_le (by omega), Nat.add_sub_cancel_left]

/-- `0..0` has no first position to step back from: std ends at once, the crate's `into_iter` panics. -/
theorem C72_differs_empty :
    (∃ m, (BoundedRange.ofRange (⟨byte 0, byte 0⟩ : Range u8.Val)).intoIter (IntTy.step debug64 u8) = .panic m) ∧
      (⟨byte 0, byte 0⟩ : Range u8.Val).next (IntTy.step debug64 u8) = .ok (none, ⟨byte 0, byte 0⟩) :=
  ⟨((C43_empty_fails debug64 u8).1 rfl), by decide⟩

-- the hypotheses of `C72_range` and `C72_range_inclusive` hold of `3..7` and `3..=6` and a schedule of all calls
example : (BoundedRange.ofRange (⟨byte 3, byte 7⟩ : Range u8.Val)).Representable IntTy.idx ∧
    (BoundedRange.ofRange (⟨byte 3, byte 7⟩ : Range u8.Val)).Affords debug64 IntTy.idx mixed ∧
    (BoundedRange.ofRangeInclusive (⟨byte 3, byte 6, false⟩ : RangeInclusive u8.Val)).Affords debug64 IntTy.idx mixed :=
  ⟨⟨IntTy.has_iff.2 (by decide), IntTy.has_iff.2 (by decide)⟩,
    ⟨by unfold UsizeArgs; decide, fun _ => IntTy.has_iff.2 (by decide), fun _ => IntTy.has_iff.2 (by decide),
      fun _ => by decide⟩,
    ⟨by unfold UsizeArgs; decide, fun _ => IntTy.has_iff.2 (by decide), fun _ => IntTy.has_iff.2 (by decide),
      fun _ => by decide⟩⟩

-- `3..7` and `3..=6`, from both ends
example : (do let (os, _) ← runOps (Range.call debug64 (IntTy.step debug64 u8)) ⟨byte 3, byte 7⟩
                [.sizeHint, .next, .nextBack, .nth 1, .len, .next, .nextBack]
              return os) =
    .ok [.hint 4 (some 4), .item (some (byte 3)), .item (some (byte 6)), .item (some (byte 5)), .num 0, .item none,
      .item none] := by decide
example : (do let (os, _) ← runOps (RangeInclusive.call debug64 (IntTy.step debug64 u8)) ⟨byte 3, byte 6, false⟩
                [.sizeHint, .next, .nextBack, .nth 1, .len, .next, .nextBack]
              return os) =
    .ok [.hint 4 (some 4), .item (some (byte 3)), .item (some (byte 6)), .item (some (byte 5)), .num 0, .item none,
      .item none] := by decide

end Rangetools
