import Verif.Proofs.RepairIter
import Verif.Props.StdIter

/-!
# C114: a flag, an emptiness test and not asking for lengths are all the iterators lack

The repaired iterators of Spec/RepairIter.lean need none of the conditions of C33 to C43: neither room above or
below the range, nor representable ends, nor pieces whose length fits `usize`.
-/

namespace Rangetools
variable {T : Type} [LinearOrder T] {p : Platform} {S : Step T} {idx : T → Int}

/-- C114. The repaired iterator of any range answers every schedule of calls as the list of the range's elements
does.  Only an answer that is itself a size has to fit `usize`. -/
theorem C114_range (L : LawfulStep p S idx) (r : BoundedRange T) :
    ∃ it l, r.intoIterRepaired S = .ok it ∧ Lists l r.contains ∧
      ∀ ops, UsizeArgs p ops → ((∃ op ∈ ops, op.isSize = true) → l.length < p.usizeCount) →
        ∃ it', runOps (RangeInclusive.call p S) it ops = .ok ((listRun l ops).1, it') := by
  obtain ⟨it, l, e, hl, hr⟩ := r.intoIterRepaired_spec L
  refine ⟨it, l, e, hl, fun ops ha hs => ?_⟩
  obtain ⟨it', e', -⟩ := run_of_calls (RangeInclusive.call_spec L) ops hr ha hs
  exact ⟨it', e'⟩

/-- C114 for sets: pieces that follow one another are enough, even empty ones. -/
theorem C114_set (L : LawfulStep p S idx) (s : BoundedSet T)
    (hs : s.ranges.Pairwise fun r r' => NoOverlap r.stop r'.start) :
    ∃ it l, s.intoIterRepaired S = .ok it ∧ Lists l s.contains ∧
      ∀ ops, UsizeArgs p ops → ((∃ op ∈ ops, op.isSize = true) → l.length < p.usizeCount) →
        ∃ it', runOps (RepairedSetIter.call p S) it ops = .ok ((listRun l ops).1, it') := by
  obtain ⟨its, ls, e, h1, h2⟩ := intoItersRepaired_spec L s.ranges
  refine ⟨⟨its⟩, ls.flatten, by simp only [BoundedSet.intoIterRepaired, e, Res.bind_ok]; rfl, pieces_lists hs h1,
    fun ops ha hz => ?_⟩
  obtain ⟨it', e', -⟩ := run_of_calls (R := fun it l => InclReps idx (RepairedSetIter.rangeIters it) l)
    (RepairedSetIter.call_spec L) ops ⟨ls, h2, rfl⟩ ha hz
  exact ⟨it', e'⟩

/-- C114. Wherever the crate's iterator affords a schedule, the repair changes no answer. -/
theorem C114_range_same (L : LawfulStep p S idx) (r : BoundedRange T) (hr : r.Representable idx) :
    ∃ it it₂, r.intoIter S = .ok it ∧ r.intoIterRepaired S = .ok it₂ ∧ ∀ ops, r.Affords p idx ops →
      ∃ os it' it₂', runOps (BoundedRangeIter.call p S) it ops = .ok (os, it') ∧
        runOps (RangeInclusive.call p S) it₂ ops = .ok (os, it₂') := by
  obtain ⟨it, l, e, hl, hlen, hrun⟩ := BoundedRange.iterates L hr
  obtain ⟨it₂, l₂, e₂, hl₂, hrun₂⟩ := C114_range L r
  obtain rfl := hl₂.unique hl
  refine ⟨it, it₂, e, e₂, fun ops ho => ?_⟩
  obtain ⟨it', e', -⟩ := hrun ops ho
  obtain ⟨it₂', e₂'⟩ := hrun₂ ops ho.args (by rw [hlen]; exact ho.sizes)
  exact ⟨_, it', it₂', e', e₂'⟩

/-- C114. The same for sets. -/
theorem C114_set_same (L : LawfulStep p S idx) (s : BoundedSet T) (hs : Pieces s.ranges) :
    ∃ it it₂, s.intoIter S = .ok it ∧ s.intoIterRepaired S = .ok it₂ ∧ ∀ ops, s.Affords p idx ops →
      ∃ os it' it₂', runOps (BoundedSetIter.call p S) it ops = .ok (os, it') ∧
        runOps (RepairedSetIter.call p S) it₂ ops = .ok (os, it₂') := by
  obtain ⟨it, l, e, hl, hlen, hrun⟩ := BoundedSet.iterates (p := p) L hs
  obtain ⟨it₂, l₂, e₂, hl₂, hrun₂⟩ := C114_set L s hs.2
  obtain rfl := hl₂.unique hl
  refine ⟨it, it₂, e, e₂, fun ops ho => ?_⟩
  obtain ⟨it', e', -⟩ := hrun ops ho
  obtain ⟨it₂', e₂'⟩ := hrun₂ ops ho.args (by rw [hlen]; exact ho.sizes)
  exact ⟨_, it', it₂', e', e₂'⟩

/-- C114 for the loop of C41 and C43: over any range of any type, `next` yields every element and then `None` for
ever. -/
theorem C114_for_loop (L : LawfulStep p S idx) (r : BoundedRange T) :
    ∃ it l, r.intoIterRepaired S = .ok it ∧ Lists l r.contains ∧ ∀ k, ∃ it',
      runOps (RangeInclusive.call p S) it (List.replicate (l.length + k) .next) =
        .ok (l.map (fun t => .item (some t)) ++ List.replicate k (.item none), it') := by
  obtain ⟨it, l, e, hl, hrun⟩ := C114_range L r
  have hu := p.le_usizeCount
  refine ⟨it, l, e, hl, fun k => ?_⟩
  have hno : ∀ op ∈ List.replicate (l.length + k) Op.next, op = .next := fun op h => List.eq_of_mem_replicate h
  obtain ⟨it', e'⟩ := hrun (List.replicate (l.length + k) .next)
    (fun op h => by rw [hno op h]; exact ⟨by simp [Op.skipFront]; omega, by simp [Op.skipBack]; omega⟩)
    (fun ⟨op, h, h'⟩ => by rw [hno op h] at h'; cases h')
  refine ⟨it', ?_⟩
  rw [e', (listRun_next _ _).2, List.take_of_length_le (by omega), Nat.add_sub_cancel_left]

/-- What each of the three changes is for: the crate's iterators panic at the last value and at `0..0`, and a set
with a piece as long as all of `u128` yields nothing. -/
theorem C114_each_needed :
    (∃ it m, (⟨.included (byte 254), .included (byte 255)⟩ : BoundedRange u8.Val).intoIter (IntTy.step debug64 u8) =
        .ok it ∧ runOps (BoundedRangeIter.call debug64 (IntTy.step debug64 u8)) it [.next, .next] = .panic m) ∧
    (∃ m, (⟨.included (byte 0), .excluded (byte 0)⟩ : BoundedRange u8.Val).intoIter (IntTy.step debug64 u8) =
        .panic m) ∧
    (∃ it it', (⟨[⟨.included u128.bot, .included u128.top⟩]⟩ : BoundedSet u128.Val).intoIter
        (IntTy.step debug64 u128) = .ok it ∧
        runOps (BoundedSetIter.call debug64 (IntTy.step debug64 u128)) it [.next] = .ok ([.item none], it')) :=
  ⟨⟨⟨byte 254, byte 255⟩, "attempt to compute with overflow", rfl, by decide⟩, ⟨_, rfl⟩,
    ⟨⟨[⟨u128.bot, u128.top⟩]⟩, ⟨[]⟩, rfl, by decide +kernel⟩⟩

-- the repaired iterators do all of it: `254..=255`, `0..0`, and all of `u128`
example : (do let it ← (⟨.included (byte 254), .included (byte 255)⟩ : BoundedRange u8.Val).intoIterRepaired
                (IntTy.step debug64 u8)
              let (os, _) ← runOps (RangeInclusive.call debug64 (IntTy.step debug64 u8)) it [.next, .len, .next, .next]
              return os) =
    .ok [.item (some (byte 254)), .num 1, .item (some (byte 255)), .item none] := by decide
example : (do let it ← (⟨.included (byte 0), .excluded (byte 0)⟩ : BoundedRange u8.Val).intoIterRepaired
                (IntTy.step debug64 u8)
              let (os, _) ← runOps (RangeInclusive.call debug64 (IntTy.step debug64 u8)) it [.next, .nextBack, .len]
              return os) =
    .ok [.item none, .item none, .num 0] := by decide
example : (do let it ← (⟨[⟨.included u128.bot, .included u128.top⟩]⟩ : BoundedSet u128.Val).intoIterRepaired
                (IntTy.step debug64 u128)
              let (os, _) ← runOps (RepairedSetIter.call debug64 (IntTy.step debug64 u128)) it [.next, .nextBack]
              return os) =
    .ok [.item (some u128.bot), .item (some u128.top)] := by decide +kernel

-- the hypotheses of `C114_range_same`, `C114_set` and `C114_set_same` hold of `3..7` and of a set of two pieces
example : r37.Representable IntTy.idx ∧ r37.Affords debug64 IntTy.idx mixed ∧ Pieces s37.ranges ∧
    s37.Affords debug64 IntTy.idx mixed :=
  ⟨⟨IntTy.has_iff.2 (by decide), IntTy.has_iff.2 (by decide)⟩,
    ⟨by unfold UsizeArgs; decide, fun _ => IntTy.has_iff.2 (by decide), fun _ => IntTy.has_iff.2 (by decide),
      fun _ => by decide⟩, by decide,
    ⟨by unfold UsizeArgs; decide, by decide, fun _ => s37_above, fun _ => s37_below, fun _ => by decide⟩⟩

-- the two answer a mixed schedule alike
example : (do let it ← s37.intoIterRepaired (IntTy.step debug64 u8)
              let (os, _) ← runOps (RepairedSetIter.call debug64 (IntTy.step debug64 u8)) it mixed
              return os) =
    (do let it ← s37.intoIter (IntTy.step debug64 u8)
        let (os, _) ← runOps (BoundedSetIter.call debug64 (IntTy.step debug64 u8)) it mixed
        return os) := by decide

end Rangetools
