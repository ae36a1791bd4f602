import Verif.Spec.BrokenIter
import Verif.Props.Iter
import Verif.Props.Lattice

/-!
# C115: iterating over sets that break the private invariant
-/

namespace Rangetools

section Samples
/-- `[5..8, 3..=3, 2..7, 9..4]`: out of order, overlapping, and with an empty piece.  By C62 it can be deserialized. -/
def brokenSet : BoundedSet u8.Val :=
  ⟨[⟨.included (byte 5), .excluded (byte 8)⟩, ⟨.included (byte 3), .included (byte 3)⟩,
    ⟨.included (byte 2), .excluded (byte 7)⟩, ⟨.included (byte 9), .excluded (byte 4)⟩]⟩

theorem brokenSet_representable : ∀ r ∈ brokenSet.ranges, r.Representable IntTy.idx := by
  simp only [brokenSet, List.mem_cons, List.not_mem_nil, or_false, forall_eq_or_imp, forall_eq]
  refine ⟨?_, ?_, ?_, ?_⟩ <;> exact ⟨IntTy.has_iff.2 (by decide), IntTy.has_iff.2 (by decide)⟩

theorem brokenSet_above : ∀ r ∈ brokenSet.ranges, r.RoomAbove IntTy.idx 0 := by
  simp only [brokenSet, List.mem_cons, List.not_mem_nil, or_false, forall_eq_or_imp, forall_eq]
  refine ⟨?_, ?_, ?_, ?_⟩ <;> exact IntTy.has_iff.2 (by decide)

theorem brokenSet_below : ∀ r ∈ brokenSet.ranges, r.RoomBelow IntTy.idx 0 := by
  simp only [brokenSet, List.mem_cons, List.not_mem_nil, or_false, forall_eq_or_imp, forall_eq]
  refine ⟨?_, ?_, ?_, ?_⟩ <;> exact IntTy.has_iff.2 (by decide)

example : ¬ (Inner.bs brokenSet).Normal := by decide
example : brokenSet.Affords debug64 IntTy.idx mixed :=
  ⟨by unfold UsizeArgs; decide, by decide, fun _ => brokenSet_above, fun _ => brokenSet_below, fun _ => by decide⟩
/-- 5, 6, 7, 3, 2, 3, …: not in order and not once each. -/
example : (do
    let it ← brokenSet.intoIter (IntTy.step debug64 u8)
    let (os, _) ← runOps (BoundedSetIter.call debug64 (IntTy.step debug64 u8)) it
      [.len, .min, .next, .next, .next, .next, .next, .next, .nextBack, .len]
    return os) =
    .ok [.num 9, .item (some (byte 5)), .item (some (byte 5)), .item (some (byte 6)), .item (some (byte 7)),
      .item (some (byte 3)), .item (some (byte 2)), .item (some (byte 3)), .item (some (byte 6)), .num 2] := by decide +kernel
end Samples

variable {T : Type} [LinearOrder T] {p : Platform} {S : Step T} {idx : T → Int}

/-! ## What is yielded -/

theorem ListsPieces.unique {rs : List (BoundedRange T)} {l l' : List T} (h : ListsPieces rs l)
    (h' : ListsPieces rs l') : l = l' := by
  obtain ⟨ls, h, rfl⟩ := h
  obtain ⟨ls', h', rfl⟩ := h'
  congr 1
  induction h generalizing ls' with
  | nil => cases h'; rfl
  | cons hr hrs ih =>
    cases h' with
    | cons hr' hrs' => rw [hr.unique hr', ih _ hrs']

theorem BoundedSet.iterates_any (L : LawfulStep p S idx) (s : BoundedSet T)
    (hr : ∀ r ∈ s.ranges, r.Representable idx) :
    ∃ it l, s.intoIter S = .ok it ∧ ListsPieces s.ranges l ∧
      l.length = (s.ranges.map (BoundedRange.size idx)).sum ∧ SetRep idx it.rangeIters l ∧
      List.Forall₂ (AtEnds idx) s.ranges it.rangeIters := by
  obtain ⟨its, e, hat⟩ := intoIters_spec L hr
  obtain ⟨ls, h1, h2⟩ := atEnds_rep L hat
  refine ⟨⟨its⟩, ls.flatten, by simp only [BoundedSet.intoIter, e, Res.bind_ok]; rfl, ⟨ls, h2, rfl⟩, ?_,
    ⟨ls, h1, rfl⟩, hat⟩
  rw [List.length_flatten]
  clear e h2 hr
  generalize s.ranges = rs at hat
  induction hat generalizing ls with
  | nil => cases h1; rfl
  | cons hr hrs ih =>
    cases h1 with
    | cons hr1 hrs1 => simp only [List.map_cons, List.sum_cons, hr.length hr1, ih _ hrs1]

/-- C115. Whatever pieces a `BoundedSet` has, every schedule of calls on its iterator sees what it would see popping the
concatenation of the pieces' elements: `len` counts repetitions, `min` is the first element of the first piece that has any,
`max` the last of the last. -/
theorem C115_bounded_set (L : LawfulStep p S idx) (s : BoundedSet T) (hr : ∀ r ∈ s.ranges, r.Representable idx) :
    ∃ it l, s.intoIter S = .ok it ∧ ListsPieces s.ranges l ∧
      ∀ ops, s.Affords p idx ops → ∃ it',
        runOps (BoundedSetIter.call p S) it ops = .ok ((listRun l ops).1, it') := by
  obtain ⟨it, l, e, hl, hlen, hrep, hat⟩ := s.iterates_any L hr
  refine ⟨it, l, e, hl, fun ops ho => ?_⟩
  have hsm := forall_of_atEnds hat (P := fun r => r.size idx < p.usizeCount) (Q := Small p idx)
    (fun r i h hr => small_of_size h hr) ho.pieces
  obtain ⟨it', e', -⟩ := BoundedSetIter.run_spec L ops hrep hsm ho.args
    (fun h => forall_of_atEnds hat (P := fun r => r.RoomAbove idx 0) (fun r i h hr => frontOk_of_room h hr)
      (ho.front h))
    (fun h => forall_of_atEnds hat (P := fun r => r.RoomBelow idx 0) (fun r i h hr => backOk_of_room h hr)
      (ho.back h))
    (fun h => by rw [hlen]; exact ho.sizes h)
  exact ⟨it', e'⟩

example : ∃ it l, brokenSet.intoIter (IntTy.step debug64 u8) = .ok it ∧ ListsPieces brokenSet.ranges l ∧
    ∀ ops, brokenSet.Affords debug64 IntTy.idx ops → ∃ it',
      runOps (BoundedSetIter.call debug64 (IntTy.step debug64 u8)) it ops = .ok ((listRun l ops).1, it') :=
  C115_bounded_set (IntTy.lawful debug64 u8) brokenSet brokenSet_representable

/-- C115. A `LowerBoundedSet` with any pieces: the concatenation of the pieces, then the half-line from its start, even if the
pieces reach into it. -/
theorem C115_lower_bounded_set (L : LawfulStep p S idx) (s : LowerBoundedSet T) (m : Nat)
    (hr : ∀ r ∈ s.ranges.ranges, r.Representable idx) (ha : ∀ r ∈ s.ranges.ranges, r.RoomAbove idx 0)
    (h : Has idx (s.lowerBoundedRange.start.firstIdx idx + m))
    (hz : (s.ranges.ranges.map (BoundedRange.size idx)).sum < p.usizeCount) :
    ∃ it l l', s.intoIter S = .ok it ∧ ListsPieces s.ranges.ranges l ∧ Initial l' s.lowerBoundedRange.contains ∧
      l'.length = m ∧ ∀ ops : List FrontOp, UsizeArgs p (ops.map FrontOp.toOp) → needs ops ≤ (l ++ l').length →
        ∃ it', runFront (LowerBoundedSetIter.call p S) it ops =
          .ok ((listRun (l ++ l') (ops.map FrontOp.toOp)).1, it') := by
  obtain ⟨it1, l, e1, hl, hlen, hrep, hat⟩ := s.ranges.iterates_any L hr
  obtain ⟨it2, l', e2, hi, hlen', hrep'⟩ := LowerBoundedRange.iterates L h
  refine ⟨⟨it1, it2⟩, l, l', by simp only [LowerBoundedSet.intoIter, e1, e2, Res.bind_ok]; rfl, hl, hi, hlen',
    fun ops hargs hneed => ?_⟩
  refine LowerBoundedSetIter.run_spec L ops hrep hrep' (by rw [hlen]; exact hz) ?_ ?_ hneed hargs
  · exact forall_of_atEnds hat (P := fun r => r.size idx < p.usizeCount) (fun r i h hr => small_of_size h hr)
      fun r hr => lt_of_le_of_lt (le_sum_of_mem (List.mem_map_of_mem hr)) hz
  · exact forall_of_atEnds hat (P := fun r => r.RoomAbove idx 0) (fun r i h hr => frontOk_of_room h hr) ha

example : ∃ it l l', (⟨brokenSet, ⟨.included (byte 4)⟩⟩ : LowerBoundedSet u8.Val).intoIter (IntTy.step debug64 u8) = .ok it ∧
    ListsPieces brokenSet.ranges l ∧
    Initial l' (⟨.included (byte 4)⟩ : LowerBoundedRange u8.Val).contains ∧ l'.length = 100 ∧
    ∀ ops : List FrontOp, UsizeArgs debug64 (ops.map FrontOp.toOp) → needs ops ≤ (l ++ l').length →
      ∃ it', runFront (LowerBoundedSetIter.call debug64 (IntTy.step debug64 u8)) it ops =
        .ok ((listRun (l ++ l') (ops.map FrontOp.toOp)).1, it') :=
  C115_lower_bounded_set (IntTy.lawful debug64 u8) ⟨brokenSet, ⟨.included (byte 4)⟩⟩ 100 brokenSet_representable brokenSet_above
    (IntTy.has_iff.2 (by decide)) (by decide)

/-! ## When that is right -/

/-- C115. No element of the set is missed and nothing else is yielded; every element is yielded once for each piece it
is in. -/
theorem C115_multiplicity {rs : List (BoundedRange T)} {l : List T} (h : ListsPieces rs l) (t : T) :
    l.count t = rs.countP (fun r => r.contains t) ∧ (t ∈ l ↔ (⟨rs⟩ : BoundedSet T).contains t = true) := by
  have key : l.count t = rs.countP (fun r => r.contains t) := by
    obtain ⟨ls, h, rfl⟩ := h
    induction h with
    | nil => rfl
    | @cons r l rs ls hr hrs ih =>
      have hn : l.Nodup := hr.1.imp fun h => ne_of_lt h
      rw [List.flatten_cons, List.count_append, ih, List.countP_cons, Nat.add_comm]
      congr 1
      by_cases ht : r.contains t = true
      · rw [if_pos ht]; exact List.count_eq_one_of_mem hn ((hr.2 t).2 ht)
      · rw [if_neg ht]; exact List.count_eq_zero_of_not_mem fun hm => ht ((hr.2 t).1 hm)
  refine ⟨key, ?_⟩
  rw [← List.count_pos_iff, key, List.countP_pos_iff, BoundedSet.contains, List.any_eq_true]

/-- C115. The iterator lists the set, in increasing order, exactly if the pieces that have elements are in order and do not
overlap; nothing is yielded twice exactly if no two pieces share an element. -/
theorem C115_right_iff {rs : List (BoundedRange T)} {l : List T} (h : ListsPieces rs l) :
    (Lists l (⟨rs⟩ : BoundedSet T).contains ↔ Ascending rs) ∧ (l.Nodup ↔ Apart rs) := by
  have hmem := fun t => (C115_multiplicity h t).2
  have hl : Lists l (⟨rs⟩ : BoundedSet T).contains ↔ l.Pairwise (· < ·) := ⟨fun h => h.1, fun h => ⟨h, hmem⟩⟩
  rw [hl]
  clear hl hmem
  obtain ⟨ls, h, rfl⟩ := h
  have hall : ∀ {rs : List (BoundedRange T)} {ls : List (List T)},
      List.Forall₂ (fun r l => Lists l (BoundedRange.contains r)) rs ls → ∀ P : T → Prop,
      (∀ y ∈ ls.flatten, P y) ↔ ∀ r ∈ rs, ∀ y, r.contains y = true → P y := by
    intro rs ls h P
    have hm : ∀ y, y ∈ ls.flatten ↔ ∃ r ∈ rs, r.contains y = true := fun y => by
      rw [(C115_multiplicity ⟨ls, h, rfl⟩ y).2, BoundedSet.contains, List.any_eq_true]
    constructor
    · intro hp r hr y hy; exact hp y ((hm y).2 ⟨r, hr, hy⟩)
    · intro hp y hy; obtain ⟨r, hr, hy⟩ := (hm y).1 hy; exact hp r hr y hy
  induction h with
  | nil => exact ⟨⟨fun _ => .nil, fun _ => .nil⟩, ⟨fun _ => .nil, fun _ => .nil⟩⟩
  | @cons r l rs ls hr hrs ih =>
    have hn : l.Nodup := hr.1.imp fun h => ne_of_lt h
    unfold Ascending Apart
    rw [List.flatten_cons, List.pairwise_append, List.pairwise_cons, List.nodup_append, List.pairwise_cons]
    refine ⟨?_, ?_⟩
    · rw [ih.1]
      constructor
      · rintro ⟨-, h2, h3⟩
        exact ⟨fun r' hr' x y hx hy => (hall hrs (x < ·)).1 (h3 x ((hr.2 x).2 hx)) r' hr' y hy, h2⟩
      · rintro ⟨h1, h2⟩
        exact ⟨hr.1, h2, fun x hx => (hall hrs (x < ·)).2 fun r' hr' y hy => h1 r' hr' x y ((hr.2 x).1 hx) hy⟩
    · rw [ih.2]
      constructor
      · rintro ⟨-, h2, h3⟩
        exact ⟨fun r' hr' x hx => (hall hrs (x ≠ ·)).1 (h3 x ((hr.2 x).2 hx.1)) r' hr' x hx.2 rfl, h2⟩
      · rintro ⟨h1, h2⟩
        refine ⟨hn, h2, fun x hx => (hall hrs (x ≠ ·)).2 fun r' hr' y hy => ?_⟩
        rintro rfl
        exact h1 r' hr' x ⟨(hr.2 x).1 hx, hy⟩

/-- The pieces of `brokenSet` overlap. -/
example : ¬ Apart brokenSet.ranges := by
  unfold Apart brokenSet
  rw [List.pairwise_cons]
  exact fun h => h.1 ⟨.included (byte 2), .excluded (byte 7)⟩ (by simp) (byte 5) (by decide)
/-- The pieces `0..3` and `3..5` touch, and an empty one between them does no harm. -/
example : Ascending [(⟨.included (byte 0), .excluded (byte 3)⟩ : BoundedRange u8.Val),
    ⟨.included (byte 9), .excluded (byte 4)⟩, ⟨.included (byte 3), .excluded (byte 5)⟩] := by
  have h : ∀ t, (⟨.included (byte 9), .excluded (byte 4)⟩ : BoundedRange u8.Val).contains t = false :=
    fun t => C18_isEmpty_sound (.inner (.br ⟨.included (byte 9), .excluded (byte 4)⟩)) (by decide) t
  have h1 : ∀ x, (⟨.included (byte 0), .excluded (byte 3)⟩ : BoundedRange u8.Val).contains x = true → x < byte 3 := by
    intro x hx
    simp only [BoundedRange.contains, Bool.and_eq_true] at hx
    exact of_decide_eq_true hx.2
  have h2 : ∀ x, (⟨.included (byte 3), .excluded (byte 5)⟩ : BoundedRange u8.Val).contains x = true → byte 3 ≤ x := by
    intro x hx
    simp only [BoundedRange.contains, Bool.and_eq_true] at hx
    exact of_decide_eq_true hx.1
  unfold Ascending
  simp only [List.pairwise_cons, List.mem_cons, List.not_mem_nil, or_false, forall_eq_or_imp, forall_eq, h]
  exact ⟨⟨fun _ _ _ hy => by simp at hy, fun x y hx hy => lt_of_lt_of_le (h1 x hx) (h2 y hy)⟩, fun _ _ hx => by simp at hx,
    fun _ h => h.elim, .nil⟩

/-- C115. Complementing twice before iterating always helps: the result is iterated over in increasing order, every element
of the broken set once. -/
theorem C115_repair (L : LawfulStep p S idx) (s : BoundedSet T) :
    ∃ c d, (Any.inner (.bs s)).complement = .ok c ∧ (Any.inner c).complement = .ok (.bs d) ∧
      ∃ it l, d.intoIter S = .ok it ∧ Lists l s.contains ∧ ∀ ops, d.Affords p idx ops → ∃ it',
        runOps (BoundedSetIter.call p S) it ops = .ok ((listRun l ops).1, it') := by
  obtain ⟨c, d, hc, hd, hn, hk, hm⟩ := C57_repair (.bs s) trivial
  match d, hd, hn, hk, hm with
  | .bs d, hd, hn, _, hm =>
  obtain ⟨it, l, e, hl, hrun⟩ := C37_set_schedule L d hn
  exact ⟨c, d, hc, hd, it, l, e, ⟨hl.1, fun t => (hl.2 t).trans (Iff.of_eq (congrArg (· = true) (hm t)))⟩, hrun⟩

end Rangetools
