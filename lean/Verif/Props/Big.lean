import Verif.Proofs.Big
import Verif.Props.Step
import Verif.Props.Iter

/-!
# C90: pieces with more elements than `usize::MAX`
-/

namespace Rangetools
variable {T : Type} [LinearOrder T] {p : Platform} {S : Step T} {idx : T → Int}

theorem Pieces.filter {rs : List (BoundedRange T)} (h : Pieces rs) (q : BoundedRange T → Bool) : Pieces (rs.filter q) :=
  ⟨fun r hr => h.1 r (List.mem_filter.1 hr).1, h.2.sublist List.filter_sublist⟩

/-- `0..=2^64 + 5` and `2^70..=2^70 + 1` as `u128`s. -/
def bigAndSmall : BoundedSet u128.Val :=
  ⟨[⟨⟨.included ⟨0, by decide⟩⟩, ⟨.included ⟨2 ^ 64 + 5, by decide⟩⟩⟩,
    ⟨⟨.included ⟨2 ^ 70, by decide⟩⟩, ⟨.included ⟨2 ^ 70 + 1, by decide⟩⟩⟩]⟩

/-- `MAX - 1..=MAX` as `u64`s. -/
def top64 : BoundedSet (IntTy.Val ⟨false, 64⟩) :=
  ⟨[⟨⟨.included ⟨2 ^ 64 - 2, by decide⟩⟩, ⟨.included ⟨2 ^ 64 - 1, by decide⟩⟩⟩]⟩

/-- `254..=255` as `u8`s. -/
def top8 : BoundedSet u8.Val := ⟨[⟨⟨.included (byte 254)⟩, ⟨.included (byte 255)⟩⟩]⟩

/-- `0..=MAX` as `u64`s. -/
def all64 : BoundedSet (IntTy.Val ⟨false, 64⟩) :=
  ⟨[⟨⟨.included ⟨0, by decide⟩⟩, ⟨.included ⟨2 ^ 64 - 1, by decide⟩⟩⟩]⟩

/-- C90. Whatever the `Step` implementation does: the answers of a set's iterator do not depend on the pieces that report
length 0, no matter where they are. -/
theorem C90_invisible (p : Platform) (S : Step T) (its : List (BoundedRangeIter T)) (ops : List Op) :
    (runOps (BoundedSetIter.call p S) ⟨its⟩ ops >>= fun x => Res.ok x.1) =
      (runOps (BoundedSetIter.call p S) ⟨its.filter fun i => i.len p S != .ok 0⟩ ops >>= fun x => Res.ok x.1) := by
  have h : Alike p S its (its.filter fun i => i.len p S != .ok 0) := by
    unfold Alike Shows; rw [List.filter_filter]; simp only [Bool.and_self]
  have := BoundedSetIter.runOps_alike (p := p) (S := S) ops (a := ⟨its⟩) (b := ⟨_⟩) h
  revert this
  generalize runOps (BoundedSetIter.call p S) ⟨its⟩ ops = x
  generalize runOps (BoundedSetIter.call p S) ⟨its.filter fun i => i.len p S != .ok 0⟩ ops = y
  intro h
  cases h with
  | ok h => exact congrArg Res.ok h.1
  | panic => rfl

/-- C90. The iterator of a set delivers the pieces with at most `usize::MAX` elements, and passes over the larger ones without
a word.  (With overflow checks, no piece may have exactly one more than `usize::MAX`: see `C90_panics`.) -/
theorem C90_skips (L : LawfulStep p S idx) (s : BoundedSet T) (hs : Pieces s.ranges)
    (hx : p.overflowChecks = true → ∀ r ∈ s.ranges, r.size idx ≠ p.usizeCount) :
    ∃ it l, s.intoIter S = .ok it ∧ Lists l (s.fitting p idx).contains ∧
      ∀ ops, (s.fitting p idx).Affords p idx ops → ∃ it',
        runOps (BoundedSetIter.call p S) it ops = .ok ((listRun l ops).1, it') := by
  obtain ⟨it, e, hat, -⟩ := s.intoIter_spec L hs (fun r hr => r.representable_of_nonempty L (hs.1 r hr))
  have hs' : Pieces (s.fitting p idx).ranges := hs.filter _
  obtain ⟨it1, l, e1, hl, -, hrun⟩ := BoundedSet.iterates (p := p) L hs'
  obtain ⟨it2, e2, hat', -⟩ := (s.fitting p idx).intoIter_spec L hs'
    (fun r hr => r.representable_of_nonempty L (hs'.1 r hr))
  obtain rfl : it1 = it2 := by rw [e1] at e2; injection e2
  refine ⟨it, l, e, hl, fun ops ho => ?_⟩
  obtain ⟨it', e', -⟩ := hrun ops ho
  have := BoundedSetIter.runOps_alike ops (atEnds_fitting L hat hat' (fun r hr hp => hx hp r hr))
  rw [e'] at this
  revert this
  generalize runOps (BoundedSetIter.call p S) it ops = x
  intro h
  cases h with
  | @ok a _ h => exact ⟨a.2, congrArg Res.ok (Prod.ext h.1 rfl)⟩

/-- The `2^64 + 6` smallest elements of `bigAndSmall` are passed over; it is normal, and no piece has exactly `2^64`. -/
example : Pieces bigAndSmall.ranges ∧ (∀ r ∈ bigAndSmall.ranges, r.size IntTy.idx ≠ debug64.usizeCount) ∧
    bigAndSmall.contains ⟨7, by decide⟩ = true ∧
    (do let it ← bigAndSmall.intoIter (IntTy.step debug64 u128)
        let (os, _) ← runOps (BoundedSetIter.call debug64 (IntTy.step debug64 u128)) it [.len, .next, .next, .next]
        return os) =
      .ok [.num 2, .item (some ⟨2 ^ 70, by decide⟩), .item (some ⟨2 ^ 70 + 1, by decide⟩), .item none] := by
  refine ⟨?_, ?_, ?_, ?_⟩ <;> decide +kernel

/-- C90. The same for the pieces in front of a half-line: `m` more elements are those of the half-line. -/
theorem C90_lower_set (L : LawfulStep p S idx) (s : LowerBoundedSet T) (hs : Inner.Normal (.lbs s)) (m : Nat)
    (h : Has idx (s.lowerBoundedRange.start.firstIdx idx + m))
    (hx : p.overflowChecks = true → ∀ r ∈ s.ranges.ranges, r.size idx ≠ p.usizeCount)
    (hz : ((s.ranges.fitting p idx).ranges.map (BoundedRange.size idx)).sum < p.usizeCount) :
    ∃ it l, s.intoIter S = .ok it ∧ Initial l (s.fitting p idx).contains ∧
      l.length = ((s.ranges.fitting p idx).ranges.map (BoundedRange.size idx)).sum + m ∧
      ∀ ops : List FrontOp, UsizeArgs p (ops.map FrontOp.toOp) → needs ops ≤ l.length → ∃ it',
        runFront (LowerBoundedSetIter.call p S) it ops = .ok ((listRun l (ops.map FrontOp.toOp)).1, it') := by
  obtain ⟨hp, hn⟩ := hs
  have hs' : Inner.Normal (.lbs (s.fitting p idx)) :=
    ⟨hp.filter _, fun r hr => hn r (List.mem_filter.1 hr).1⟩
  obtain ⟨it1, l, e1, hl, hlen, hrun⟩ := LowerBoundedSet.iterates L hs' (m := m) h hz
  obtain ⟨it, e, hat, -⟩ := s.ranges.intoIter_spec L hp (fun r hr => r.representable_of_nonempty L (hp.1 r hr))
  obtain ⟨it2, e2, hat', -⟩ := (s.ranges.fitting p idx).intoIter_spec L hs'.1
    (fun r hr => r.representable_of_nonempty L (hs'.1.1 r hr))
  obtain ⟨i, -, ei, -⟩ := LowerBoundedRange.iterates (p := p) L h
  have e3 : (s.fitting p idx).intoIter S = .ok ⟨it2, i⟩ := by
    simp only [LowerBoundedSet.intoIter, LowerBoundedSet.fitting, e2, ei, Res.bind_ok]; rfl
  obtain rfl : it1 = ⟨it2, i⟩ := by rw [e1] at e3; injection e3
  refine ⟨⟨it, i⟩, l, by simp only [LowerBoundedSet.intoIter, e, ei, Res.bind_ok]; rfl, hl, hlen, fun ops ha hneed => ?_⟩
  obtain ⟨it', e'⟩ := hrun ops ha hneed
  have := LowerBoundedSetIter.runFront_alike ops (a := ⟨it, i⟩) (b := ⟨it2, i⟩)
    (atEnds_fitting L hat hat' (fun r hr hp => hx hp r hr)) rfl
  rw [e'] at this
  revert this
  generalize runFront (LowerBoundedSetIter.call p S) ⟨it, i⟩ ops = x
  intro h
  cases h with
  | @ok a _ h => exact ⟨a.2, congrArg Res.ok (Prod.ext h.1 rfl)⟩

/-- `bigAndSmall` with `2^80..`: the iterator starts at `2^70`. -/
example : (do let it ← (⟨bigAndSmall, ⟨⟨.included ⟨2 ^ 80, by decide⟩⟩⟩⟩ : LowerBoundedSet u128.Val).intoIter
                (IntTy.step debug64 u128)
              let (os, _) ← runFront (LowerBoundedSetIter.call debug64 (IntTy.step debug64 u128)) it [.next, .nth 1, .next]
              return os) =
    .ok [.item (some ⟨2 ^ 70, by decide⟩), .item (some ⟨2 ^ 80, by decide⟩), .item (some ⟨2 ^ 80 + 1, by decide⟩)] := by
  decide +kernel

/-- C90. With overflow checks, if the first piece has exactly one element more than `usize::MAX`, every look at the front
panics, and so does every question for the size. -/
theorem C90_panics (L : LawfulStep p S idx) (hp : p.overflowChecks = true) (r : BoundedRange T) (rs : List (BoundedRange T))
    (hs : Pieces (r :: rs)) (hr : r.size idx = p.usizeCount) :
    ∃ it, (⟨r :: rs⟩ : BoundedSet T).intoIter S = .ok it ∧
      it.next p S = .panic "attempt to add with overflow" ∧
      (∀ n, it.nth p S n = .panic "attempt to add with overflow") ∧
      it.len p S = .panic "attempt to add with overflow" := by
  obtain ⟨it, e, hat, -⟩ := (⟨r :: rs⟩ : BoundedSet T).intoIter_spec L hs
    (fun r' hr' => r'.representable_of_nonempty L (hs.1 r' hr'))
  refine ⟨it, e, ?_⟩
  obtain ⟨its⟩ := it
  cases hat with
  | @cons _ i _ is h1 h2 =>
    have hn : r.size idx = (idx i.last - idx i.current + 1).toNat := by rw [BoundedRange.size, h1.1, h1.2]
    have hl : i.len p S = .panic "attempt to add with overflow" := by rw [i.len_eq L hn, if_pos ⟨hr, hp⟩]
    refine ⟨?_, fun n => ?_, ?_⟩
    · simp [BoundedSetIter.next, BoundedSetIter.popEmpty, hl]
    · simp [BoundedSetIter.nth, BoundedSetIter.skip, hl]
    · simp [BoundedSetIter.len, BoundedSetIter.sizeHint, BoundedSetIter.sumLens, hl]

/-- `0..=u64::MAX` as a set. -/
example : Pieces all64.ranges ∧ (∀ r ∈ all64.ranges, r.size IntTy.idx = debug64.usizeCount) ∧
    debug64.overflowChecks = true := by
  refine ⟨?_, ?_, ?_⟩ <;> decide +kernel

/-- C90. The iterator of a range, in contrast, delivers its elements however many there are, but claims with `size_hint` and
`len` that there are none. -/
theorem C90_range_hint (L : LawfulStep p S idx) (r : BoundedRange T) (hr : p.usizeCount < r.size idx)
    (hrep : r.Representable idx) :
    ∃ it, r.intoIter S = .ok it ∧ it.sizeHint p S = .ok (0, some 0) ∧ it.len p S = .ok 0 ∧
      ∃ t it', it.next S = .ok (some t, it') ∧ r.contains t = true := by
  obtain ⟨it, e, h1, h2⟩ := r.intoIter_spec L hrep
  have hn : r.size idx = (idx it.last - idx it.current + 1).toNat := by rw [BoundedRange.size, h1, h2]
  have hu := p.le_usizeCount
  have hh : it.sizeHint p S = .ok (0, some 0) := by
    simp only [BoundedRangeIter.sizeHint, L.stepsBetween, Res.bind_ok]
    rw [if_neg (by omega)]; rfl
  obtain ⟨c, hc⟩ : Has idx (idx it.current + 1) :=
    L.has_between (L.has_idx it.current) (L.has_idx it.last) (by omega) (by omega)
  refine ⟨it, e, hh, by simp [BoundedRangeIter.len, hh, assert], it.current, ⟨c, it.last⟩, ?_, ?_⟩
  · rw [BoundedRangeIter.next, if_neg (by rw [gt_iff_lt, L.lt_iff]; omega),
      L.forward_some _ 1 c (by omega) (by push_cast; omega)]; rfl
  · rw [r.contains_idx L]; omega

/-- The first piece of `bigAndSmall`. -/
example : ∀ r ∈ bigAndSmall.ranges.head?, debug64.usizeCount < r.size IntTy.idx := by decide +kernel

/-- Without overflow checks, integers wrap. -/
theorem IntTy.wraps (p : Platform) (hp : p.overflowChecks = false) (τ : IntTy) :
    (IntTy.step p τ).Wraps IntTy.idx τ.min τ.max := by
  have hu := p.le_usizeCount
  have hcard : τ.min + τ.card = τ.max + 1 := by unfold IntTy.max; omega
  have hpos := τ.card_pos
  refine ⟨⟨⟨τ.min, ?_⟩, rfl⟩, ⟨⟨τ.max, ?_⟩, rfl⟩, fun t => t.2, fun t ht => ?_, fun t ht => ?_⟩
  · unfold IntTy.max; omega
  · unfold IntTy.max; omega
  · refine ⟨τ.wrap (t.1 + (1 : Nat)), ?_, ?_⟩
    · rw [IntTy.forward_eq p τ t 1 (by omega), dif_neg (by unfold IntTy.idx at ht; omega), hp]; rfl
    · have e : t.1 + ((1 : Nat) : Int) = τ.min + 1 * τ.card := by unfold IntTy.idx at ht; omega
      rw [e, IntTy.wrap_congr 1 rfl, IntTy.wrap_of_mem ⟨le_refl _, by unfold IntTy.max; omega⟩]; rfl
  · refine ⟨τ.wrap (t.1 - (1 : Nat)), ?_, ?_⟩
    · rw [IntTy.backward_eq p τ t 1 (by omega), dif_neg (by unfold IntTy.idx at ht; omega), hp]; rfl
    · have e : t.1 - ((1 : Nat) : Int) = τ.max + (-1) * τ.card := by unfold IntTy.idx at ht; omega
      rw [e, IntTy.wrap_congr (-1) rfl, IntTy.wrap_of_mem ⟨by unfold IntTy.max; omega, le_refl _⟩]; rfl

/-- C90. Without overflow checks, on an integer type at least as wide as `usize`: the iterator of any normal set delivers
every element of its pieces with at most `usize::MAX` elements, whatever calls are made, also when a piece reaches the least or
the greatest value of the type (where a range's iterator never ends, C43): there it wraps around to the whole type, and the
whole type reports length 0. -/
theorem C90_wide (p : Platform) (hp : p.overflowChecks = false) (τ : IntTy) (hw : p.usizeBits ≤ τ.bits)
    (s : BoundedSet τ.Val) (hs : Pieces s.ranges) :
    ∃ it l, s.intoIter (IntTy.step p τ) = .ok it ∧ Lists l (s.fitting p IntTy.idx).contains ∧
      ∀ ops, ((∃ op ∈ ops, op.isSize = true) → l.length < p.usizeCount) → ∃ it',
        runOps (BoundedSetIter.call p (IntTy.step p τ)) it ops = .ok ((listRun l ops).1, it') := by
  have L := IntTy.lawful p τ
  obtain ⟨it, e, hat, -⟩ := s.intoIter_spec L hs (fun r hr => r.representable_of_nonempty L (hs.1 r hr))
  have hs' : Pieces (s.fitting p IntTy.idx).ranges := hs.filter _
  obtain ⟨it2, e2, hat', hl⟩ := (s.fitting p IntTy.idx).intoIter_spec L hs'
    (fun r hr => r.representable_of_nonempty L (hs'.1 r hr))
  obtain ⟨ls, h1, -⟩ := atEnds_rep L hat'
  have hgood : BoundedSetIter.SetGood p (IntTy.step p τ) IntTy.idx it2 ls.flatten := by
    refine ⟨ls, ?_, rfl⟩
    have hsm : ∀ r ∈ (s.fitting p IntTy.idx).ranges, r.size IntTy.idx < p.usizeCount :=
      fun r hr => by simpa using (List.mem_filter.1 hr).2
    clear hl e2 hs'
    generalize it2.rangeIters = its at hat' h1
    generalize (s.fitting p IntTy.idx).ranges = rs at hat' hsm
    induction hat' generalizing ls with
    | nil => cases h1; exact .nil
    | cons hr hrs ih =>
      cases h1 with
      | cons hr1 hrs1 =>
        exact .cons (.inl ⟨hr1, by rw [hr.length hr1]; exact hsm _ List.mem_cons_self⟩)
          (ih _ hrs1 (fun r hr => hsm r (List.mem_cons_of_mem _ hr)))
  have hbig : (p.usizeCount : Int) ≤ τ.max - τ.min + 1 := by
    have h2 : τ.card = 2 ^ τ.bits := rfl
    have h3 : ((2 ^ p.usizeBits : Nat) : Int) ≤ ((2 ^ τ.bits : Nat) : Int) := by
      exact_mod_cast Nat.pow_le_pow_right (by decide) hw
    unfold IntTy.max Platform.usizeCount
    push_cast at *
    omega
  refine ⟨it, ls.flatten, e, (hl _).2 ⟨ls, h1, rfl⟩, fun ops hz => ?_⟩
  obtain ⟨it', e', -⟩ := BoundedSetIter.run_good L (IntTy.wraps p hp τ) hp hbig ops hgood hz
  have := BoundedSetIter.runOps_alike ops (atEnds_fitting L hat hat' (fun r hr h => by rw [hp] at h; cases h))
  rw [e'] at this
  revert this
  generalize runOps (BoundedSetIter.call p (IntTy.step p τ)) it ops = x
  intro h
  cases h with
  | @ok a _ h => exact ⟨a.2, congrArg Res.ok (Prod.ext h.1 rfl)⟩

/-- `MAX - 1..=MAX` as `u64`s in a release build ends, at both ends. -/
example : Pieces top64.ranges ∧
    (do let it ← top64.intoIter (IntTy.step release64 ⟨false, 64⟩)
        let (os, _) ← runOps (BoundedSetIter.call release64 (IntTy.step release64 ⟨false, 64⟩)) it
          [.next, .next, .next, .nextBack, .len]
        return os) =
      .ok [.item (some ⟨2 ^ 64 - 2, by decide⟩), .item (some ⟨2 ^ 64 - 1, by decide⟩), .item none, .item none, .num 0] := by
  refine ⟨?_, ?_⟩ <;> decide +kernel

/-- The width is needed: `254..=255` as `u8`s starts again at 0. -/
example :
    (do let it ← top8.intoIter (IntTy.step release64 u8)
        let (os, _) ← runOps (BoundedSetIter.call release64 (IntTy.step release64 u8)) it [.next, .next, .next, .len]
        return os) =
      .ok [.item (some (byte 254)), .item (some (byte 255)), .item (some (byte 0)), .num 255] := by decide +kernel

end Rangetools
