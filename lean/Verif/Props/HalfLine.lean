import Verif.Proofs.LowerChecked
import Verif.Props.IterLimits

/-!
# C61: iterators of half-lines at the end of the element type

C35 and C36 say what the iterators of `LowerBoundedRange` and `LowerBoundedSet` yield while there is a
successor.  Here the end of the type comes in: the iterators never return `None`.
-/

namespace Rangetools
variable {T : Type} [LinearOrder T] {p : Platform} {S : Step T} {idx : T → Int}

omit [LinearOrder T] in
/-- C61. Whatever the `Step` implementation does, the iterator of a half-line never returns `None`, and
its `size_hint` is always `(usize::MAX, None)`. -/
theorem C61_range_never_none (p : Platform) (S : Step T) (it it' : LowerBoundedRangeIter T) (o : Option T)
    (n : Nat) (h : it.next S = .ok (o, it') ∨ it.nth S n = .ok (o, it')) :
    o ≠ none ∧ it'.sizeHint p = (2 ^ p.usizeBits - 1, none) := by
  have key : ∀ i : LowerBoundedRangeIter T, i.next S = .ok (o, it') → o ≠ none := by
    intro i h e
    obtain ⟨c, _, h⟩ := Res.bind_eq_ok.1 h
    rw [e] at h
    cases h
  refine ⟨?_, rfl⟩
  rcases h with h | h
  · exact key it h
  · obtain ⟨c, _, h⟩ := Res.bind_eq_ok.1 h
    exact key _ h

example : (LowerBoundedRangeIter.mk (byte 254)).next (IntTy.step debug64 u8) =
    .ok (some (byte 254), ⟨byte 255⟩) := by decide

/-- C61. The same for a set with a half-line. -/
theorem C61_set_never_none (p : Platform) (S : Step T) (it it' : LowerBoundedSetIter T) (o : Option T)
    (n : Nat) (h : it.next p S = .ok (o, it') ∨ it.nth p S n = .ok (o, it')) :
    o ≠ none ∧ it'.sizeHint p = (2 ^ p.usizeBits - 1, none) := by
  refine ⟨?_, rfl⟩
  rintro rfl
  rcases h with h | h
  · obtain ⟨⟨o, si⟩, _, h⟩ := Res.bind_eq_ok.1 h
    cases o with
    | some t => cases h
    | none =>
      obtain ⟨⟨o, ri⟩, hy, h⟩ := Res.bind_eq_ok.1 h
      cases h
      exact (C61_range_never_none p S _ _ _ 0 (.inl hy)).1 rfl
  · obtain ⟨k, _, h⟩ := Res.bind_eq_ok.1 h
    obtain ⟨⟨o, si⟩, _, h⟩ := Res.bind_eq_ok.1 h
    cases o with
    | some t => cases h
    | none =>
      obtain ⟨m, _, h⟩ := Res.bind_eq_ok.1 h
      obtain ⟨⟨o, ri⟩, hy, h⟩ := Res.bind_eq_ok.1 h
      cases h
      exact (C61_range_never_none p S _ _ _ _ (.inr hy)).1 rfl

example : (LowerBoundedSetIter.mk ⟨[]⟩ ⟨byte 254⟩).next debug64 (IntTy.step debug64 u8) =
    .ok (some (byte 254), ⟨⟨[]⟩, ⟨byte 255⟩⟩) := by decide

/-- C61. With overflow checks: a schedule returns exactly when it asks for fewer elements than the
half-line has, and then sees exactly the elements in increasing order.  So every element is delivered
except the greatest value of the type, on which the iterator panics. -/
theorem C61_range_checked (L : LawfulStep p S idx) (C : S.Checked p idx) (F : Step.Fits p idx)
    (r : LowerBoundedRange T) (it : LowerBoundedRangeIter T) (hit : r.intoIter S = .ok it) :
    ∃ l, Lists l r.contains ∧ ∀ ops : List FrontOp, UsizeArgs p (ops.map FrontOp.toOp) →
      (needs ops < l.length → ∃ it', runFront (LowerBoundedRangeIter.call S) it ops =
        .ok ((listRun l (ops.map FrontOp.toOp)).1, it')) ∧
      (l.length ≤ needs ops → ∃ m, runFront (LowerBoundedRangeIter.call S) it ops = .panic m) := by
  obtain ⟨l, hl⟩ := LFull.exists L F it
  have hok : ∀ {ops : List FrontOp} {x}, UsizeArgs p (ops.map FrontOp.toOp) →
      runFront (LowerBoundedRangeIter.call S) it ops = .ok x →
      x.1 = (listRun l (ops.map FrontOp.toOp)).1 ∧ needs ops < l.length := by
    intro ops x ha e
    refine runFront_ok (R := LFull idx)
      (A := fun op => op.skipFront < p.usizeCount ∧ op.skipBack < p.usizeCount)
      (fun _ _ h => h.1) ?_ ?_ ?_ ops hl ha e
    · intro s l x h e
      obtain ⟨y, hy, e⟩ := Res.bind_eq_ok.1 e
      cases e
      obtain ⟨h1, h2⟩ := s.next_ok L C h hy
      exact ⟨congrArg _ h1, h2⟩
    · intro s l n x h ha e
      obtain ⟨y, hy, e⟩ := Res.bind_eq_ok.1 e
      cases e
      obtain ⟨h1, h2⟩ := s.nth_ok L C h ha.1 hy
      exact ⟨congrArg _ h1, h2⟩
    · intro s l x h e
      obtain ⟨y, hy, e⟩ := Res.bind_eq_ok.1 e
      obtain ⟨z, hz, hy⟩ := Res.bind_eq_ok.1 hy
      cases e; cases hy
      obtain ⟨h1, h2⟩ := s.next_ok L C h hz
      exact ⟨congrArg _ h1, rfl, _, h2⟩
  refine ⟨l, hl.lists L (r.intoIter_ok L C hit), fun ops ha => ⟨fun hn => ?_, fun hn => ?_⟩⟩
  · obtain ⟨it', e⟩ := LowerBoundedRangeIter.run_spec L ops hl.rep
      (by rw [List.length_dropLast]; omega) ha
    exact ⟨it', by rw [e, (hok ha e).1]⟩
  · cases e : runFront (LowerBoundedRangeIter.call S) it ops with
    | panic m => exact ⟨m, rfl⟩
    | ok x => have := (hok ha e).2; omega

/-- A strictly increasing list is no longer than the distance between two values of the type. -/
theorem LawfulStep.exists_far (L : LawfulStep p S idx) :
    ∀ (l : List T) (a : T), (a :: l).Pairwise (· < ·) → ∃ b, idx a + l.length ≤ idx b := by
  intro l
  induction l with
  | nil => intro a _; exact ⟨a, by simp⟩
  | cons c l ih =>
    intro a h
    obtain ⟨h1, h2⟩ := List.pairwise_cons.1 h
    obtain ⟨b, hb⟩ := ih c h2
    have := (L.lt_iff _ _).1 (h1 c List.mem_cons_self)
    exact ⟨b, by rw [List.length_cons]; push_cast; omega⟩

/-- C61. The same for a normal set with a half-line: the elements of the pieces, then those of the
half-line but for the greatest value of the type. -/
theorem C61_set_checked (L : LawfulStep p S idx) (C : S.Checked p idx) (F : Step.Fits p idx)
    (hp : p.overflowChecks = true) (s : LowerBoundedSet T) (hs : Inner.Normal (.lbs s))
    (it : LowerBoundedSetIter T) (hit : s.intoIter S = .ok it) :
    ∃ l, Lists l s.contains ∧ ∀ ops : List FrontOp, UsizeArgs p (ops.map FrontOp.toOp) →
      (needs ops < l.length → ∃ it', runFront (LowerBoundedSetIter.call p S) it ops =
        .ok ((listRun l (ops.map FrontOp.toOp)).1, it')) ∧
      (l.length ≤ needs ops → ∃ m, runFront (LowerBoundedSetIter.call p S) it ops = .panic m) := by
  obtain ⟨si, hsi, hit⟩ := Res.bind_eq_ok.1 hit
  obtain ⟨ri, hri, hit⟩ := Res.bind_eq_ok.1 hit
  cases hit
  obtain ⟨its, hits, hsi'⟩ := Res.bind_eq_ok.1 hsi
  cases hsi'
  have hat := intoIters_ok L C hits
  obtain ⟨ls, h1, h2⟩ := atEnds_rep L hat
  have hl1 : SetRep idx its ls.flatten := ⟨ls, h1, rfl⟩
  have hL1 : Lists ls.flatten s.ranges.contains := (atEnds_setRep L hs.1.2 hat _).2 hl1
  obtain ⟨l2, hl2⟩ := LFull.exists L F ri
  have hcur := s.lowerBoundedRange.intoIter_ok L C hri
  have hL2 : Lists l2 s.lowerBoundedRange.contains := hl2.lists L hcur
  have hlt : ∀ x ∈ ls.flatten, ∀ y ∈ l2, x < y := by
    intro x hx y hy
    have hx' := (hL1.2 x).1 hx
    have hy' := (hL2.2 y).1 hy
    simp only [BoundedSet.contains, List.any_eq_true] at hx'
    obtain ⟨r, hr, hxr⟩ := hx'
    have h1 := noOverlap_idx L (hs.2 r hr)
    rw [LowerBoundedRange.contains_idx L] at hy'
    rw [r.contains_idx L] at hxr
    rw [L.lt_iff]; omega
  have hlists : Lists (ls.flatten ++ l2) s.contains := by
    refine ⟨List.pairwise_append.2 ⟨hL1.1, hL2.1, hlt⟩, fun t => ?_⟩
    rw [List.mem_append, hL1.2, hL2.2, LowerBoundedSet.contains, Bool.or_eq_true, or_comm]
  have hfull : LSFull idx ⟨⟨its⟩, ri⟩ (ls.flatten ++ l2) := ⟨_, _, rfl, hl1, hl2⟩
  have hok : ∀ {ops : List FrontOp} {x}, UsizeArgs p (ops.map FrontOp.toOp) →
      runFront (LowerBoundedSetIter.call p S) ⟨⟨its⟩, ri⟩ ops = .ok x →
      x.1 = (listRun (ls.flatten ++ l2) (ops.map FrontOp.toOp)).1 ∧
        needs ops < (ls.flatten ++ l2).length := by
    intro ops x ha e
    refine runFront_ok (R := LSFull idx)
      (A := fun op => op.skipFront < p.usizeCount ∧ op.skipBack < p.usizeCount)
      ?_ ?_ ?_ ?_ ops hfull ha e
    · rintro s _ ⟨l1, l2, rfl, _, h⟩ e
      exact h.1 (List.append_eq_nil_iff.1 e).2
    · intro s l x h e
      obtain ⟨y, hy, e⟩ := Res.bind_eq_ok.1 e
      cases e
      obtain ⟨h1, h2⟩ := s.next_ok L C F hp h hy
      exact ⟨congrArg _ h1, h2⟩
    · intro s l n x h ha e
      obtain ⟨y, hy, e⟩ := Res.bind_eq_ok.1 e
      cases e
      obtain ⟨h1, h2⟩ := s.nth_ok L C F hp h ha.1 hy
      exact ⟨congrArg _ h1, h2⟩
    · intro s l x h e
      obtain ⟨y, hy, e⟩ := Res.bind_eq_ok.1 e
      obtain ⟨z, hz, hy⟩ := Res.bind_eq_ok.1 hy
      cases e; cases hy
      obtain ⟨h1, h2⟩ := s.next_ok L C F hp h hz
      exact ⟨congrArg _ h1, rfl, _, h2⟩
  refine ⟨_, hlists, fun ops ha => ⟨fun hn => ?_, fun hn => ?_⟩⟩
  · have hpos := List.length_pos_iff.2 hl2.1
    have hlen1 : ls.flatten.length < p.usizeCount := by
      cases hh : ls.flatten ++ l2 with
      | nil => rw [(List.append_eq_nil_iff.1 hh).1]; have := p.le_usizeCount; simp; omega
      | cons a t =>
        obtain ⟨b, hb⟩ := L.exists_far t a (hh ▸ hlists.1)
        have := F a b
        have e2 := congrArg List.length hh
        rw [List.length_append, List.length_cons] at e2
        omega
    have hroom : ∀ r ∈ s.ranges.ranges, r.RoomAbove idx 0 := fun r hr =>
      r.roomAbove_of_lt L (hs.1.1 r hr) (c := ri.current)
        (by have := noOverlap_idx L (hs.2 r hr); omega)
    have hrange : ∀ {its : List (BoundedRangeIter T)} {ls : List (List T)},
        List.Forall₂ (Rep idx) its ls → ls.flatten.length < p.usizeCount →
        ∀ i ∈ its, Small p idx i := by
      intro its ls h
      induction h with
      | nil => intro _ i hi; cases hi
      | @cons i l its ls hr hrs ih =>
        intro hz j hj
        rw [List.flatten_cons, List.length_append] at hz
        rcases List.mem_cons.1 hj with rfl | hj
        · have := hr.length
          have := p.le_usizeCount
          simp only [Small]; omega
        · exact ih (by omega) j hj
    obtain ⟨it', e⟩ := LowerBoundedSetIter.run_spec (p := p) (S := S) L ops (it := ⟨⟨its⟩, ri⟩) hl1 hl2.rep
      hlen1 (hrange h1 hlen1) (forall_of_atEnds hat (fun r i h hr => frontOk_of_room h hr) hroom)
      (by rw [List.length_append] at hn ⊢; rw [List.length_dropLast]; omega) ha
    exact ⟨it', by rw [e, (hok ha e).1]⟩
  · cases e : runFront (LowerBoundedSetIter.call p S) ⟨⟨its⟩, ri⟩ ops with
    | panic m => exact ⟨m, rfl⟩
    | ok x => have := (hok ha e).2; omega

/-- `(Excluded(250u8), ..)` has five elements; four are delivered, the fifth call panics. -/
example : (do let it ← (⟨.excluded (byte 250)⟩ : LowerBoundedRange u8.Val).intoIter (IntTy.step debug64 u8)
              let (os, _) ← runFront (LowerBoundedRangeIter.call (IntTy.step debug64 u8)) it
                (List.replicate 5 .next)
              return os) = .panic "attempt to compute with overflow" := by decide
example : ∃ it, l37.intoIter (IntTy.step debug64 u8) = .ok it ∧ Inner.Normal (.lbs l37) :=
  ⟨_, rfl, by decide⟩

/-- C61. Without overflow checks the iterator of an integer half-line never stops: after the greatest
value it starts again at the least.  The `i`-th item is `start + i`, wrapped. -/
theorem C61_range_wraps (p : Platform) (hp : p.overflowChecks = false) (τ : IntTy) (a : τ.Val) (k : Nat) :
    ∃ it', runFront (LowerBoundedRangeIter.call (IntTy.step p τ)) ⟨a⟩ (List.replicate k .next) =
      .ok ((List.range k).map (fun i : Nat => .item (some (τ.wrap (a.1 + i)))), it') ∧
      it'.current = τ.wrap (a.1 + k) := by
  induction k generalizing a with
  | zero => exact ⟨⟨a⟩, rfl, by simpa using (IntTy.wrap_of_mem a.2).symm⟩
  | succ k ih =>
    have hf : (IntTy.step p τ).forward a 1 = .ok (τ.wrap (a.1 + 1)) := by
      rw [IntTy.forward_eq p τ a 1 (IntTy.one_lt p)]
      split
      · rename_i h
        exact congrArg _ (IntTy.wrap_of_mem (by have := a.2; push_cast at h ⊢; omega)).symm
      · rw [if_neg (by simp [hp])]; rfl
    obtain ⟨j, hj⟩ := τ.wrap_spec (a.1 + 1)
    have hw : ∀ i : Nat, τ.wrap ((τ.wrap (a.1 + 1)).1 + i) = τ.wrap (a.1 + (i + 1 : Nat)) :=
      fun i => IntTy.wrap_congr j (by rw [hj]; push_cast; ring)
    obtain ⟨it', e, hc⟩ := ih (τ.wrap (a.1 + 1))
    refine ⟨it', ?_, by rw [hc, hw]⟩
    simp only [List.replicate_succ, runFront, LowerBoundedRangeIter.call, LowerBoundedRangeIter.next, hf,
      Res.bind_ok, Res.pure_eq, e, List.range_succ_eq_map, List.map_cons, List.map_map]
    congr 3
    · simpa using (IntTy.wrap_of_mem a.2).symm
    · refine List.map_congr_left fun i _ => ?_
      simp only [Function.comp, hw i]

/-- `(254u8..)` in a release build: 254, 255, 0, 1. -/
example : (do let (os, _) ← runFront (LowerBoundedRangeIter.call (IntTy.step release64 u8)) ⟨byte 254⟩
                (List.replicate 4 .next)
              return os) =
    .ok [.item (some (byte 254)), .item (some (byte 255)), .item (some (byte 0)), .item (some (byte 1))] := by
  decide

/-! ### `EmptyRange` -/

omit [LinearOrder T] in
/-- C61. The iterator of an `EmptyRange` yields nothing, at either end, by any method. -/
theorem C61_empty (n : Nat) :
    (EmptyRange.intoIter : EmptyIter T).next = (none, EmptyRange.intoIter) ∧
    (EmptyRange.intoIter : EmptyIter T).nextBack = (none, EmptyRange.intoIter) ∧
    (EmptyRange.intoIter : EmptyIter T).nth n = (none, EmptyRange.intoIter) ∧
    (EmptyRange.intoIter : EmptyIter T).nthBack n = (none, EmptyRange.intoIter) ∧
    (EmptyRange.intoIter : EmptyIter T).sizeHint = (0, some 0) :=
  ⟨rfl, rfl, by cases n <;> rfl, by cases n <;> rfl, rfl⟩

end Rangetools
