import Verif.Proofs.Checked
import Verif.Props.Step

/-!
# C33 – C40: iteration

`idx` numbers the values of the element type (`LawfulStep`); C48 shows that every integer type and
`char` are lawful.  `RoomAbove`, `RoomBelow` and `Affords` (Spec/Iter.lean) say that the schedule does
not have to step out of the element type; what happens otherwise is the subject of C42 and C43.
-/

namespace Rangetools

section Samples
/-- A `u8`. -/
def byte (n : Int) (h : 0 ≤ n ∧ n ≤ 255 := by decide) : u8.Val := ⟨n, h⟩
/-- `3..7u8` -/
def r37 : BoundedRange u8.Val := ⟨.included (byte 3), .excluded (byte 7)⟩
/-- `(3..7u8) ∪ (Excluded(9), Included(12))` -/
def s37 : BoundedSet u8.Val := ⟨[r37, ⟨.excluded (byte 9), .included (byte 12)⟩]⟩
/-- `(3..7u8) ∪ (Excluded(9), Included(12)) ∪ (20..)` -/
def l37 : LowerBoundedSet u8.Val := ⟨s37, ⟨.included (byte 20)⟩⟩
/-- All calls, some of them past the end. -/
def mixed : List Op :=
  [.next, .len, .nextBack, .min, .max, .nth 0, .sizeHint, .nthBack 0, .count, .next, .nextBack, .len]

example : r37.Representable IntTy.idx := ⟨IntTy.has_iff.2 (by decide), IntTy.has_iff.2 (by decide)⟩
example : r37.RoomAbove IntTy.idx 0 := IntTy.has_iff.2 (by decide)
example : r37.Affords debug64 IntTy.idx mixed :=
  ⟨by unfold UsizeArgs; decide, fun _ => IntTy.has_iff.2 (by decide), fun _ => IntTy.has_iff.2 (by decide),
    fun _ => by decide⟩
example : Pieces s37.ranges := by decide
theorem s37_above : ∀ r ∈ s37.ranges, r.RoomAbove IntTy.idx 0 := by
  simp only [s37, List.mem_cons, List.not_mem_nil, or_false, forall_eq_or_imp, forall_eq]
  exact ⟨IntTy.has_iff.2 (by decide), IntTy.has_iff.2 (by decide)⟩
theorem s37_below : ∀ r ∈ s37.ranges, r.RoomBelow IntTy.idx 0 := by
  simp only [s37, List.mem_cons, List.not_mem_nil, or_false, forall_eq_or_imp, forall_eq]
  exact ⟨IntTy.has_iff.2 (by decide), IntTy.has_iff.2 (by decide)⟩
example : s37.Affords debug64 IntTy.idx mixed :=
  ⟨by unfold UsizeArgs; decide, by decide,
    fun _ => s37_above,
    fun _ => s37_below,
    fun _ => by decide⟩
example : Inner.Normal (.lbs l37) := by decide
end Samples

variable {T : Type} [LinearOrder T] {p : Platform} {S : Step T} {idx : T → Int}

/-! ## C33 -/

/-- `into_iter` yields exactly the contained elements, increasing, and then `None` for ever. -/
theorem C33_range_iteration (L : LawfulStep p S idx) (r : BoundedRange T) (hr : r.Representable idx)
    (hroom : r.RoomAbove idx 0) :
    ∃ it l, r.intoIter S = .ok it ∧ Lists l r.contains ∧
      ∀ k, ∃ it', runOps (BoundedRangeIter.call p S) it (List.replicate (l.length + k) .next) =
        .ok (l.map (fun t => .item (some t)) ++ List.replicate k (.item none), it') := by
  obtain ⟨it, l, e, hl, _, hrun⟩ := BoundedRange.iterates L hr
  refine ⟨it, l, e, hl, fun k => ?_⟩
  have hp := p.le_usizeCount
  have hno : ∀ op ∈ List.replicate (l.length + k) Op.next, op = .next :=
    fun op h => List.eq_of_mem_replicate h
  obtain ⟨it', e', _⟩ := hrun (List.replicate (l.length + k) .next)
    { args := fun op h => by rw [hno op h]; exact ⟨by simp [Op.skipFront]; omega, by simp [Op.skipBack]; omega⟩
      front := fun _ => by simpa [skipsFront, Op.skipFront] using hroom
      back := fun ⟨op, h, h'⟩ => by rw [hno op h] at h'; cases h'
      sizes := fun ⟨op, h, h'⟩ => by rw [hno op h] at h'; cases h' }
  refine ⟨it', ?_⟩
  rw [e', (listRun_next _ l).2, List.take_of_length_le (by omega)]
  congr 4; omega

/-- A non-empty range can always be turned into an iterator. -/
theorem C33_nonempty_into_iter (L : LawfulStep p S idx) (r : BoundedRange T) (h : r.isEmpty = false) :
    ∃ it, r.intoIter S = .ok it := by
  obtain ⟨it, _, e, _⟩ := BoundedRange.iterates L (r.representable_of_nonempty L h)
  exact ⟨it, e⟩

/-- `(3..7u8).into_iter()`, asked six times. -/
example : (do let it ← r37.intoIter (IntTy.step debug64 u8)
              let (os, _) ← runOps (BoundedRangeIter.call debug64 (IntTy.step debug64 u8)) it
                (List.replicate 6 .next)
              return os) =
    .ok [.item (some (byte 3)), .item (some (byte 4)), .item (some (byte 5)), .item (some (byte 6)),
      .item none, .item none] := by decide

/-! ## C34 -/

/-- The same for a set of non-empty increasing pieces (by C06, every reachable set). -/
theorem C34_set_iteration (L : LawfulStep p S idx) (s : BoundedSet T) (hs : Pieces s.ranges)
    (hsize : ∀ r ∈ s.ranges, r.size idx < p.usizeCount)
    (hroom : ∀ r ∈ s.ranges, r.RoomAbove idx 0) :
    ∃ it l, s.intoIter S = .ok it ∧ Lists l s.contains ∧
      ∀ k, ∃ it', runOps (BoundedSetIter.call p S) it (List.replicate (l.length + k) .next) =
        .ok (l.map (fun t => .item (some t)) ++ List.replicate k (.item none), it') := by
  obtain ⟨it, l, e, hl, _, hrun⟩ := BoundedSet.iterates (p := p) L hs
  refine ⟨it, l, e, hl, fun k => ?_⟩
  have hp := p.le_usizeCount
  have hno : ∀ op ∈ List.replicate (l.length + k) Op.next, op = .next :=
    fun op h => List.eq_of_mem_replicate h
  obtain ⟨it', e', _⟩ := hrun (List.replicate (l.length + k) .next)
    { args := fun op h => by rw [hno op h]; exact ⟨by simp [Op.skipFront]; omega, by simp [Op.skipBack]; omega⟩
      pieces := hsize
      front := fun _ => hroom
      back := fun ⟨op, h, h'⟩ => by rw [hno op h] at h'; cases h'
      sizes := fun ⟨op, h, h'⟩ => by rw [hno op h] at h'; cases h' }
  refine ⟨it', ?_⟩
  rw [e', (listRun_next _ l).2, List.take_of_length_le (by omega)]
  congr 4; omega

/-- `{3,4,5,6,10,11,12}` -/
example : (do let it ← s37.intoIter (IntTy.step debug64 u8)
              let (os, _) ← runOps (BoundedSetIter.call debug64 (IntTy.step debug64 u8)) it
                (List.replicate 8 .next)
              return os) =
    .ok [.item (some (byte 3)), .item (some (byte 4)), .item (some (byte 5)), .item (some (byte 6)),
      .item (some (byte 10)), .item (some (byte 11)), .item (some (byte 12)), .item none] := by
  decide +kernel

/-! ## C35 -/

/-- The iterator of a half-line with more than `k` elements: its first `k` items are the `k` smallest
contained elements.  The same holds when some are skipped with `nth`. -/
theorem C35_half_line_iteration (L : LawfulStep p S idx) (r : LowerBoundedRange T) (k : Nat)
    (h : Has idx (r.start.firstIdx idx + k)) :
    ∃ it l, r.intoIter S = .ok it ∧ Initial l r.contains ∧ l.length = k ∧
      (∃ it', runFront (LowerBoundedRangeIter.call S) it (List.replicate k .next) =
        .ok (l.map (fun t => .item (some t)), it')) ∧
      ∀ ops : List FrontOp, UsizeArgs p (ops.map FrontOp.toOp) → needs ops ≤ k → ∃ it',
        runFront (LowerBoundedRangeIter.call S) it ops =
          .ok ((listRun l (ops.map FrontOp.toOp)).1, it') := by
  obtain ⟨it, l, e, hi, hlen, hrep⟩ := LowerBoundedRange.iterates L h
  have hp := p.le_usizeCount
  have key : ∀ ops : List FrontOp, UsizeArgs p (ops.map FrontOp.toOp) → needs ops ≤ k → ∃ it',
      runFront (LowerBoundedRangeIter.call S) it ops =
        .ok ((listRun l (ops.map FrontOp.toOp)).1, it') :=
    fun ops ha hn => LowerBoundedRangeIter.run_spec L ops hrep (by omega) ha
  refine ⟨it, l, e, hi, hlen, ?_, key⟩
  have hneeds : ∀ k, needs (List.replicate k .next) = k := by
    intro k; induction k with
    | zero => rfl
    | succ k ih => simp only [List.replicate_succ, needs, ih]; omega
  obtain ⟨it', e'⟩ := key (List.replicate k .next)
    (fun op h => by
      rw [List.map_replicate] at h
      rw [List.eq_of_mem_replicate h]
      exact ⟨by simp [FrontOp.toOp, Op.skipFront]; omega, by simp [FrontOp.toOp, Op.skipBack]; omega⟩)
    (le_of_eq (hneeds k))
  refine ⟨it', ?_⟩
  rw [e', List.map_replicate]
  show Res.ok ((listRun l (List.replicate k Op.next)).1, it') = _
  rw [(listRun_next k l).2, List.take_of_length_le (by omega), hlen, Nat.sub_self]
  simp

/-- `(Excluded(250u8), ..)` has five elements; the iterator delivers four of them. -/
example : Has (IntTy.idx (τ := u8)) ((⟨.excluded (byte 250)⟩ : LowerBoundedRange u8.Val).start.firstIdx
    IntTy.idx + (4 : Nat)) := IntTy.has_iff.2 (by decide)
example : (do let it ← (⟨.excluded (byte 250)⟩ : LowerBoundedRange u8.Val).intoIter (IntTy.step debug64 u8)
              let (os, _) ← runFront (LowerBoundedRangeIter.call (IntTy.step debug64 u8)) it
                [.next, .min, .nth 1, .next]
              return os) =
    .ok [.item (some (byte 251)), .item (some (byte 252)), .item (some (byte 253)),
      .item (some (byte 254))] := by decide

/-! ## C36 -/

/-- The iterator of a set with a half-line that has more than `m` elements: its items are the smallest
contained elements, those of the pieces first, then `m` of the half-line. -/
theorem C36_lower_bounded_set_iteration (L : LawfulStep p S idx) (s : LowerBoundedSet T)
    (hs : Inner.Normal (.lbs s)) (m : Nat)
    (h : Has idx (s.lowerBoundedRange.start.firstIdx idx + m))
    (hsize : (s.ranges.ranges.map (BoundedRange.size idx)).sum < p.usizeCount) :
    ∃ it l, s.intoIter S = .ok it ∧ Initial l s.contains ∧
      l.length = (s.ranges.ranges.map (BoundedRange.size idx)).sum + m ∧
      (∃ it', runFront (LowerBoundedSetIter.call p S) it (List.replicate l.length .next) =
        .ok (l.map (fun t => .item (some t)), it')) ∧
      ∀ ops : List FrontOp, UsizeArgs p (ops.map FrontOp.toOp) → needs ops ≤ l.length → ∃ it',
        runFront (LowerBoundedSetIter.call p S) it ops =
          .ok ((listRun l (ops.map FrontOp.toOp)).1, it') := by
  obtain ⟨it, l, e, hi, hlen, key⟩ := LowerBoundedSet.iterates L hs h hsize
  have hp := p.le_usizeCount
  refine ⟨it, l, e, hi, hlen, ?_, key⟩
  have hneeds : ∀ k, needs (List.replicate k .next) = k := by
    intro k; induction k with
    | zero => rfl
    | succ k ih => simp only [List.replicate_succ, needs, ih]; omega
  obtain ⟨it', e'⟩ := key (List.replicate l.length .next)
    (fun op h => by
      rw [List.map_replicate] at h
      rw [List.eq_of_mem_replicate h]
      exact ⟨by simp [FrontOp.toOp, Op.skipFront]; omega, by simp [FrontOp.toOp, Op.skipBack]; omega⟩)
    (le_of_eq (hneeds _))
  refine ⟨it', ?_⟩
  rw [e', List.map_replicate]
  show Res.ok ((listRun l (List.replicate l.length Op.next)).1, it') = _
  rw [(listRun_next _ l).2, List.take_of_length_le (by omega), Nat.sub_self]
  simp

example : Has (IntTy.idx (τ := u8)) (l37.lowerBoundedRange.start.firstIdx IntTy.idx + (200 : Nat)) :=
  IntTy.has_iff.2 (by decide)
example : (l37.ranges.ranges.map (BoundedRange.size IntTy.idx)).sum < debug64.usizeCount := by decide
example : (do let it ← l37.intoIter (IntTy.step debug64 u8)
              let (os, _) ← runFront (LowerBoundedSetIter.call debug64 (IntTy.step debug64 u8)) it
                [.next, .nth 3, .nth 2, .min, .nth 4]
              return os) =
    .ok [.item (some (byte 3)), .item (some (byte 10)), .item (some (byte 20)), .item (some (byte 21)),
      .item (some (byte 25))] := by decide +kernel

/-! ## C37 -/

/-- Every schedule of calls at both ends of a range iterator sees what it would see popping the
increasing list of the contained elements. -/
theorem C37_range_schedule (L : LawfulStep p S idx) (r : BoundedRange T) (hr : r.Representable idx) :
    ∃ it l, r.intoIter S = .ok it ∧ Lists l r.contains ∧
      ∀ ops, r.Affords p idx ops → ∃ it',
        runOps (BoundedRangeIter.call p S) it ops = .ok ((listRun l ops).1, it') := by
  obtain ⟨it, l, e, hl, _, hrun⟩ := BoundedRange.iterates L hr
  exact ⟨it, l, e, hl, fun ops ho => (hrun ops ho).imp fun _ h => h.1⟩

/-- The same for a set. -/
theorem C37_set_schedule (L : LawfulStep p S idx) (s : BoundedSet T) (hs : Pieces s.ranges) :
    ∃ it l, s.intoIter S = .ok it ∧ Lists l s.contains ∧
      ∀ ops, s.Affords p idx ops → ∃ it',
        runOps (BoundedSetIter.call p S) it ops = .ok ((listRun l ops).1, it') := by
  obtain ⟨it, l, e, hl, _, hrun⟩ := BoundedSet.iterates (p := p) L hs
  exact ⟨it, l, e, hl, fun ops ho => (hrun ops ho).imp fun _ h => h.1⟩

/-- `Lists` determines the list, so the schedules above leave no freedom. -/
theorem C37_list_unique {l l' : List T} {P : T → Bool} (h : Lists l P) (h' : Lists l' P) : l = l' :=
  h.unique h'

example : (do let it ← s37.intoIter (IntTy.step release32 u8)
              let (os, _) ← runOps (BoundedSetIter.call release32 (IntTy.step release32 u8)) it
                [.next, .nextBack, .nth 2, .nextBack, .len, .next, .nextBack, .next]
              return os) =
    .ok [.item (some (byte 3)), .item (some (byte 12)), .item (some (byte 6)), .item (some (byte 11)),
      .num 1, .item (some (byte 10)), .item none, .item none] := by decide +kernel

/-! ## C38 -/

omit [LinearOrder T] in
theorem listRun_nth (l : List T) (n : Nat) (post : List Op) :
    (listRun l (.nth n :: post)).1 = .item l[n]? :: (listRun (l.drop (n + 1)) post).1 ∧
    (listRun l (List.replicate n .next ++ .next :: post)).1 =
      (listRun l (List.replicate n .next)).1 ++ .item l[n]? :: (listRun (l.drop (n + 1)) post).1 := by
  refine ⟨rfl, ?_⟩
  rw [listRun_append]
  simp only [listRun, listCall, (listRun_next n l).1, List.head?_drop, List.tail_drop]

omit [LinearOrder T] in
theorem listRun_nthBack (l : List T) (n : Nat) (post : List Op) :
    (listRun l (.nthBack n :: post)).1 =
      .item l.reverse[n]? :: (listRun ((l.reverse.drop (n + 1)).reverse) post).1 ∧
    (listRun l (List.replicate n .nextBack ++ .nextBack :: post)).1 =
      (listRun l (List.replicate n .nextBack)).1 ++
        .item l.reverse[n]? :: (listRun ((l.reverse.drop (n + 1)).reverse) post).1 := by
  refine ⟨rfl, ?_⟩
  rw [listRun_append]
  simp only [listRun, listCall, (listRun_nextBack n l).1, List.getLast?_reverse, List.head?_drop,
    List.dropLast_reverse, List.tail_drop]

/-- Replacing one call by others of the same kind that skip no more. -/
theorem mem_swap {pre post : List Op} {a b : Op} {n : Nat} {P : Op → Bool} (hab : P b = P a)
    (h : ∃ op ∈ pre ++ (List.replicate n b ++ b :: post), P op = true) :
    ∃ op ∈ pre ++ a :: post, P op = true := by
  obtain ⟨op, h, hp⟩ := h
  simp only [List.mem_append, List.mem_cons] at h
  rcases h with h | h | h | h
  · exact ⟨op, by simp [h], hp⟩
  · exact ⟨a, by simp, by rw [← hab, ← List.eq_of_mem_replicate h]; exact hp⟩
  · exact ⟨a, by simp, by rw [← hab, ← h]; exact hp⟩
  · exact ⟨op, by simp [h], hp⟩

theorem usizeArgs_swap {pre post : List Op} {a b : Op} {n : Nat} (ha : UsizeArgs p (pre ++ a :: post))
    (h1 : b.skipFront = 0) (h2 : b.skipBack = 0) :
    UsizeArgs p (pre ++ (List.replicate n b ++ b :: post)) := by
  have hp := p.le_usizeCount
  intro op h
  simp only [List.mem_append, List.mem_cons] at h
  rcases h with h | h | h | h
  · exact ha op (by simp [h])
  · rw [List.eq_of_mem_replicate h, h1, h2]; omega
  · rw [h, h1, h2]; omega
  · exact ha op (by simp [h])

theorem BoundedRange.Affords.swap (L : LawfulStep p S idx) {r : BoundedRange T}
    (hr : r.Representable idx) {pre post : List Op} {a b : Op} {n : Nat}
    (h : r.Affords p idx (pre ++ a :: post)) (h1 : b.skipFront = 0) (h2 : b.skipBack = 0)
    (hf : b.isFront = a.isFront) (hb : b.isBack = a.isBack) (hs : b.isSize = a.isSize) :
    r.Affords p idx (pre ++ (List.replicate n b ++ b :: post)) :=
  h.of_le L hr (usizeArgs_swap h.args h1 h2)
    (fun h' => ⟨mem_swap hf h', by simp [skipsFront, h1]⟩)
    (fun h' => ⟨mem_swap hb h', by simp [skipsBack, h2]⟩) (fun h' => mem_swap hs h')

omit [LinearOrder T] in
theorem BoundedSet.Affords.swap {s : BoundedSet T} {pre post : List Op} {a b : Op} {n : Nat}
    (h : s.Affords p idx (pre ++ a :: post)) (h1 : b.skipFront = 0) (h2 : b.skipBack = 0)
    (hf : b.isFront = a.isFront) (hb : b.isBack = a.isBack) (hs : b.isSize = a.isSize) :
    s.Affords p idx (pre ++ (List.replicate n b ++ b :: post)) where
  args := usizeArgs_swap h.args h1 h2
  pieces := h.pieces
  front h' := h.front (mem_swap hf h')
  back h' := h.back (mem_swap hb h')
  sizes h' := h.sizes (mem_swap hs h')

/-- At any point of any schedule, `nth(n)` returns what `n` discarded calls of `next` and one more
return, and no later call can tell the difference. -/
theorem C38_range_nth (L : LawfulStep p S idx) (r : BoundedRange T) (hr : r.Representable idx) :
    ∃ it, r.intoIter S = .ok it ∧ ∀ pre n post, r.Affords p idx (pre ++ .nth n :: post) →
      ∃ os skipped o os' a b, os.length = pre.length ∧ skipped.length = n ∧
        runOps (BoundedRangeIter.call p S) it (pre ++ .nth n :: post) = .ok (os ++ o :: os', a) ∧
        runOps (BoundedRangeIter.call p S) it (pre ++ (List.replicate n .next ++ .next :: post)) =
          .ok (os ++ (skipped ++ o :: os'), b) := by
  obtain ⟨it, l, e, hl, _, hrun⟩ := BoundedRange.iterates L hr
  refine ⟨it, e, fun pre n post ho => ?_⟩
  obtain ⟨a, e1, _⟩ := hrun _ ho
  obtain ⟨b, e2, _⟩ := hrun _ (ho.swap L hr (b := .next) (n := n) rfl rfl rfl rfl rfl)
  rw [listRun_append, (listRun_nth _ n post).1] at e1
  rw [listRun_append, (listRun_nth _ n post).2] at e2
  exact ⟨_, _, _, _, a, b, listRun_length _ _, by rw [listRun_length, List.length_replicate], e1, e2⟩

/-- `nth_back(n)` likewise. -/
theorem C38_range_nth_back (L : LawfulStep p S idx) (r : BoundedRange T) (hr : r.Representable idx) :
    ∃ it, r.intoIter S = .ok it ∧ ∀ pre n post, r.Affords p idx (pre ++ .nthBack n :: post) →
      ∃ os skipped o os' a b, os.length = pre.length ∧ skipped.length = n ∧
        runOps (BoundedRangeIter.call p S) it (pre ++ .nthBack n :: post) = .ok (os ++ o :: os', a) ∧
        runOps (BoundedRangeIter.call p S) it
            (pre ++ (List.replicate n .nextBack ++ .nextBack :: post)) =
          .ok (os ++ (skipped ++ o :: os'), b) := by
  obtain ⟨it, l, e, hl, _, hrun⟩ := BoundedRange.iterates L hr
  refine ⟨it, e, fun pre n post ho => ?_⟩
  obtain ⟨a, e1, _⟩ := hrun _ ho
  obtain ⟨b, e2, _⟩ := hrun _ (ho.swap L hr (b := .nextBack) (n := n) rfl rfl rfl rfl rfl)
  rw [listRun_append, (listRun_nthBack _ n post).1] at e1
  rw [listRun_append, (listRun_nthBack _ n post).2] at e2
  exact ⟨_, _, _, _, a, b, listRun_length _ _, by rw [listRun_length, List.length_replicate], e1, e2⟩

/-- `nth(n)` on a set iterator. -/
theorem C38_set_nth (L : LawfulStep p S idx) (s : BoundedSet T) (hs : Pieces s.ranges) :
    ∃ it, s.intoIter S = .ok it ∧ ∀ pre n post, s.Affords p idx (pre ++ .nth n :: post) →
      ∃ os skipped o os' a b, os.length = pre.length ∧ skipped.length = n ∧
        runOps (BoundedSetIter.call p S) it (pre ++ .nth n :: post) = .ok (os ++ o :: os', a) ∧
        runOps (BoundedSetIter.call p S) it (pre ++ (List.replicate n .next ++ .next :: post)) =
          .ok (os ++ (skipped ++ o :: os'), b) := by
  obtain ⟨it, l, e, hl, _, hrun⟩ := BoundedSet.iterates (p := p) L hs
  refine ⟨it, e, fun pre n post ho => ?_⟩
  obtain ⟨a, e1, _⟩ := hrun _ ho
  obtain ⟨b, e2, _⟩ := hrun _ (ho.swap (b := .next) (n := n) rfl rfl rfl rfl rfl)
  rw [listRun_append, (listRun_nth _ n post).1] at e1
  rw [listRun_append, (listRun_nth _ n post).2] at e2
  exact ⟨_, _, _, _, a, b, listRun_length _ _, by rw [listRun_length, List.length_replicate], e1, e2⟩

/-- `nth_back(n)` on a set iterator. -/
theorem C38_set_nth_back (L : LawfulStep p S idx) (s : BoundedSet T) (hs : Pieces s.ranges) :
    ∃ it, s.intoIter S = .ok it ∧ ∀ pre n post, s.Affords p idx (pre ++ .nthBack n :: post) →
      ∃ os skipped o os' a b, os.length = pre.length ∧ skipped.length = n ∧
        runOps (BoundedSetIter.call p S) it (pre ++ .nthBack n :: post) = .ok (os ++ o :: os', a) ∧
        runOps (BoundedSetIter.call p S) it
            (pre ++ (List.replicate n .nextBack ++ .nextBack :: post)) =
          .ok (os ++ (skipped ++ o :: os'), b) := by
  obtain ⟨it, l, e, hl, _, hrun⟩ := BoundedSet.iterates (p := p) L hs
  refine ⟨it, e, fun pre n post ho => ?_⟩
  obtain ⟨a, e1, _⟩ := hrun _ ho
  obtain ⟨b, e2, _⟩ := hrun _ (ho.swap (b := .nextBack) (n := n) rfl rfl rfl rfl rfl)
  rw [listRun_append, (listRun_nthBack _ n post).1] at e1
  rw [listRun_append, (listRun_nthBack _ n post).2] at e2
  exact ⟨_, _, _, _, a, b, listRun_length _ _, by rw [listRun_length, List.length_replicate], e1, e2⟩

/-- Past the end of a set: `nth(9)` skips both pieces. -/
example : s37.Affords debug64 IntTy.idx ([.next] ++ .nth 9 :: [.next, .len]) :=
  ⟨by unfold UsizeArgs; decide, by decide,
    fun _ => s37_above,
    fun _ => s37_below, fun _ => by decide⟩

/-! ## C39 -/

/-- At any point, `size_hint`, `len` and `count` tell the number of items still to come. -/
theorem C39_range_sizes (L : LawfulStep p S idx) (r : BoundedRange T) (hr : r.Representable idx) :
    ∃ it, r.intoIter S = .ok it ∧ ∀ pre, r.Affords p idx (pre ++ [.sizeHint, .len, .count]) →
      ∃ (os : List (Out T)) (items : List T) (a : _),
        runOps (BoundedRangeIter.call p S) it (pre ++ [.sizeHint, .len, .count]) =
          .ok (os ++ [.hint items.length (some items.length), .num items.length, .num items.length], a) ∧
        ∀ k, r.Affords p idx (pre ++ List.replicate (items.length + k) .next) → ∃ b,
          runOps (BoundedRangeIter.call p S) it (pre ++ List.replicate (items.length + k) .next) =
            .ok (os ++ (items.map (fun t => .item (some t)) ++ List.replicate k (.item none)), b) := by
  obtain ⟨it, l, e, hl, _, hrun⟩ := BoundedRange.iterates L hr
  refine ⟨it, e, fun pre ho => ?_⟩
  obtain ⟨a, e1, _⟩ := hrun _ ho
  refine ⟨(listRun l pre).1, (listRun l pre).2, a, by rw [e1, listRun_append]; rfl, fun k hk => ?_⟩
  obtain ⟨b, e2, _⟩ := hrun _ hk
  refine ⟨b, ?_⟩
  rw [e2, listRun_append, (listRun_next _ _).2, List.take_of_length_le (by omega)]
  rw [Nat.add_sub_cancel_left]

/-- The same for a set. -/
theorem C39_set_sizes (L : LawfulStep p S idx) (s : BoundedSet T) (hs : Pieces s.ranges) :
    ∃ it, s.intoIter S = .ok it ∧ ∀ pre, s.Affords p idx (pre ++ [.sizeHint, .len, .count]) →
      ∃ (os : List (Out T)) (items : List T) (a : _),
        runOps (BoundedSetIter.call p S) it (pre ++ [.sizeHint, .len, .count]) =
          .ok (os ++ [.hint items.length (some items.length), .num items.length, .num items.length], a) ∧
        ∀ k, s.Affords p idx (pre ++ List.replicate (items.length + k) .next) → ∃ b,
          runOps (BoundedSetIter.call p S) it (pre ++ List.replicate (items.length + k) .next) =
            .ok (os ++ (items.map (fun t => .item (some t)) ++ List.replicate k (.item none)), b) := by
  obtain ⟨it, l, e, hl, _, hrun⟩ := BoundedSet.iterates (p := p) L hs
  refine ⟨it, e, fun pre ho => ?_⟩
  obtain ⟨a, e1, _⟩ := hrun _ ho
  refine ⟨(listRun l pre).1, (listRun l pre).2, a, by rw [e1, listRun_append]; rfl, fun k hk => ?_⟩
  obtain ⟨b, e2, _⟩ := hrun _ hk
  refine ⟨b, ?_⟩
  rw [e2, listRun_append, (listRun_next _ _).2, List.take_of_length_le (by omega)]
  rw [Nat.add_sub_cancel_left]

/-- The bound on sizes is needed: `(0..=1u128 << 64).into_iter().size_hint() == (0, Some(0))`. -/
theorem C39_wide_counterexample :
    (do let it ← (⟨.included ⟨0, by decide⟩, .included ⟨2 ^ 64, by decide⟩⟩ :
          BoundedRange u128.Val).intoIter (IntTy.step release64 u128)
        it.sizeHint release64 (IntTy.step release64 u128)) = .ok (0, some 0) := by decide

/-- And `(0..=u64::MAX).into_iter().len()` panics with overflow checks, and is 0 without. -/
theorem C39_full_counterexample (p : Platform) (hp : p.usizeBits = 64) :
    (do let it ← (⟨.included ⟨0, by decide⟩, .included ⟨2 ^ 64 - 1, by decide⟩⟩ :
          BoundedRange (IntTy.mk false 64).Val).intoIter (IntTy.step p ⟨false, 64⟩)
        it.len p (IntTy.step p ⟨false, 64⟩)) =
      if p.overflowChecks then .panic "attempt to add with overflow" else .ok 0 := by
  rcases p with ⟨b, c, w⟩
  subst hp
  cases c <;> decide +revert

/-! ## C40 -/

/-- At any point, `min` is the least and `max` and `last` are the greatest of the remaining elements. -/
theorem C40_range_extremes (L : LawfulStep p S idx) (r : BoundedRange T) (hr : r.Representable idx) :
    ∃ it l, r.intoIter S = .ok it ∧ Lists l r.contains ∧ ∀ pre, r.Affords p idx pre →
      ∃ os it', runOps (BoundedRangeIter.call p S) it pre = .ok (os, it') ∧
        (r.Affords p idx (pre ++ [.min]) → ∃ o, it'.min S = .ok o ∧ LeastOf (listRun l pre).2 o) ∧
        (r.Affords p idx (pre ++ [.max]) → ∃ o, it'.max S = .ok o ∧ GreatestOf (listRun l pre).2 o) ∧
        GreatestOf (listRun l pre).2 it'.lastItem := by
  obtain ⟨it, l, e, hl, _, hrun⟩ := BoundedRange.iterates L hr
  refine ⟨it, l, e, hl, fun pre ho => ?_⟩
  obtain ⟨it', e1, hrep⟩ := hrun _ ho
  have hsorted := hl.1.sublist (listRun_sublist pre l)
  refine ⟨_, it', e1, fun h => ?_, fun h => ?_, ?_⟩
  · obtain ⟨a, e2, _⟩ := hrun _ h
    rw [listRun_append] at e2
    have e3 := runOps_of_append e1 e2
    simp only [runOps, BoundedRangeIter.call, listRun, listCall] at e3
    cases hm : it'.min S with
    | panic m => rw [hm] at e3; cases e3
    | ok o =>
      rw [hm] at e3
      injection e3 with e3; injection e3 with e3; injection e3 with e3; injection e3 with e3
      exact ⟨o, rfl, e3 ▸ leastOf_head hsorted⟩
  · obtain ⟨a, e2, _⟩ := hrun _ h
    rw [listRun_append] at e2
    have e3 := runOps_of_append e1 e2
    simp only [runOps, BoundedRangeIter.call, listRun, listCall] at e3
    cases hm : it'.max S with
    | panic m => rw [hm] at e3; cases e3
    | ok o =>
      rw [hm] at e3
      injection e3 with e3; injection e3 with e3; injection e3 with e3; injection e3 with e3
      exact ⟨o, rfl, e3 ▸ greatestOf_getLast hsorted⟩
  · rw [BoundedRangeIter.lastItem_spec L hrep]
    exact greatestOf_getLast hsorted

/-- The same for a set.  `last` loops over `next`, so it returns once it is given more turns than there
are elements, and it needs the element after the last one. -/
theorem C40_set_extremes (L : LawfulStep p S idx) (s : BoundedSet T) (hs : Pieces s.ranges) :
    ∃ it l, s.intoIter S = .ok it ∧ Lists l s.contains ∧ ∀ pre, s.Affords p idx pre →
      ∃ os it', runOps (BoundedSetIter.call p S) it pre = .ok (os, it') ∧
        (s.Affords p idx (pre ++ [.min]) → ∃ o, it'.min p S = .ok o ∧ LeastOf (listRun l pre).2 o) ∧
        (s.Affords p idx (pre ++ [.max]) →
          ∃ o, it'.max p S = .ok o ∧ GreatestOf (listRun l pre).2 o) ∧
        ((∀ r ∈ s.ranges, r.RoomAbove idx 0) → ∃ o, GreatestOf (listRun l pre).2 o ∧
          ∀ turns, (listRun l pre).2.length < turns → it'.lastItem p S turns = .ok (some o)) := by
  obtain ⟨it, l, e, hl, _, hrun⟩ := BoundedSet.iterates (p := p) L hs
  refine ⟨it, l, e, hl, fun pre ho => ?_⟩
  obtain ⟨it', e1, hrep, hsm, hfr⟩ := hrun _ ho
  have hsorted := hl.1.sublist (listRun_sublist pre l)
  refine ⟨_, it', e1, fun h => ?_, fun h => ?_, fun h => ?_⟩
  · obtain ⟨a, e2, _⟩ := hrun _ h
    rw [listRun_append] at e2
    have e3 := runOps_of_append e1 e2
    simp only [runOps, BoundedSetIter.call, listRun, listCall] at e3
    cases hm : it'.min p S with
    | panic m => rw [hm] at e3; cases e3
    | ok o =>
      rw [hm] at e3
      injection e3 with e3; injection e3 with e3; injection e3 with e3; injection e3 with e3
      exact ⟨o, rfl, e3 ▸ leastOf_head hsorted⟩
  · obtain ⟨a, e2, _⟩ := hrun _ h
    rw [listRun_append] at e2
    have e3 := runOps_of_append e1 e2
    simp only [runOps, BoundedSetIter.call, listRun, listCall] at e3
    cases hm : it'.max p S with
    | panic m => rw [hm] at e3; cases e3
    | ok o =>
      rw [hm] at e3
      injection e3 with e3; injection e3 with e3; injection e3 with e3; injection e3 with e3
      exact ⟨o, rfl, e3 ▸ greatestOf_getLast hsorted⟩
  · exact ⟨_, greatestOf_getLast hsorted,
      fun turns ht => BoundedSetIter.lastItem_spec L hrep hsm (hfr h) turns ht⟩

example : (do let it ← s37.intoIter (IntTy.step debug64 u8)
              let (_, it) ← it.nextBack debug64 (IntTy.step debug64 u8)
              it.lastItem debug64 (IntTy.step debug64 u8) 7) = .ok (some (some (byte 11))) := by
  decide +kernel

omit [LinearOrder T] in
theorem runFront_snoc {σ : Type} {call : σ → FrontOp → Res (Out T × σ)} (ops : List FrontOp) (op : FrontOp) {s s'' : σ}
    {os : List (Out T)} {o : Out T} (h : runFront call s (ops ++ [op]) = .ok (os ++ [o], s'')) :
    ∃ s', runFront call s ops = .ok (os, s') ∧ call s' op = .ok (o, s'') := by
  induction ops generalizing s os with
  | nil =>
    simp only [List.nil_append, runFront] at h
    obtain ⟨⟨o', a⟩, h1, h⟩ := Res.bind_eq_ok.1 h
    injection h with h
    injection h with h2 h3
    have h2 : [o'] = os ++ [o] := h2
    have h3 : a = s'' := h3
    cases os with
    | nil =>
      injection h2 with h2
      exact ⟨s, rfl, by rw [h1, h2, h3]⟩
    | cons x xs => simp at h2
  | cons q ops ih =>
    simp only [List.cons_append, runFront] at h
    obtain ⟨⟨o', a⟩, h1, h⟩ := Res.bind_eq_ok.1 h
    obtain ⟨⟨os', b⟩, h2, h⟩ := Res.bind_eq_ok.1 h
    injection h with h
    injection h with h3 h4
    have h3 : o' :: os' = os ++ [o] := h3
    have h4 : b = s'' := h4
    cases os with
    | nil =>
      have hl := congrArg List.length h3
      simp only [List.length_cons, List.nil_append, List.length_nil] at hl
      obtain rfl : os' = [] := List.length_eq_zero_iff.1 (by omega)
      cases ops with
      | nil =>
        simp only [List.nil_append, runFront] at h2
        obtain ⟨y, -, h2⟩ := Res.bind_eq_ok.1 h2
        injection h2 with h2
        injection h2 with h2
        cases h2
      | cons q' ops =>
        simp only [List.cons_append, runFront] at h2
        obtain ⟨y, -, h2⟩ := Res.bind_eq_ok.1 h2
        obtain ⟨z, -, h2⟩ := Res.bind_eq_ok.1 h2
        injection h2 with h2
        injection h2 with h2
        cases h2
    | cons x xs =>
      injection h3 with h5 h6
      subst h5 h6 h4
      obtain ⟨s', e1, e2⟩ := ih h2
      refine ⟨s', ?_, e2⟩
      simp only [runFront, h1, e1, Res.bind_ok]
      rfl

omit [LinearOrder T] in
theorem head_of_needs (ops : List FrontOp) (l : List T) (h : needs (ops ++ [.min]) ≤ l.length) :
    ∃ t, (listRun l (ops.map FrontOp.toOp)).2.head? = some t := by
  induction ops generalizing l with
  | nil =>
    cases l with
    | nil => simp [needs] at h
    | cons t l => exact ⟨t, rfl⟩
  | cons q ops ih =>
    cases q <;> simp only [List.cons_append, needs] at h
    · exact ih l.tail (by simp; omega)
    · exact ih (l.drop _) (by simp; omega)
    · exact ih l (by omega)

/-- On a half-line and on a set with one, `min` is at any point the least element that remains, the one `next` would return, if
the type goes on for long enough. -/
theorem C40_half_line_min (L : LawfulStep p S idx) :
    (∀ (r : LowerBoundedRange T) (k : Nat), Has idx (r.start.firstIdx idx + k) →
      ∃ it l, r.intoIter S = .ok it ∧ Initial l r.contains ∧ l.length = k ∧
        ∀ pre : List FrontOp, UsizeArgs p (pre.map FrontOp.toOp) → needs (pre ++ [.min]) ≤ k →
          ∃ it' t, runFront (LowerBoundedRangeIter.call S) it pre = .ok ((listRun l (pre.map FrontOp.toOp)).1, it') ∧
            it'.min S = .ok (some t) ∧ LeastOf (listRun l (pre.map FrontOp.toOp)).2 (some t) ∧
            (∃ it'', it'.next S = .ok (some t, it''))) ∧
    ∀ (s : LowerBoundedSet T) (m : Nat), Inner.Normal (.lbs s) → Has idx (s.lowerBoundedRange.start.firstIdx idx + m) →
      (s.ranges.ranges.map (BoundedRange.size idx)).sum < p.usizeCount →
      ∃ it l, s.intoIter S = .ok it ∧ Initial l s.contains ∧
        l.length = (s.ranges.ranges.map (BoundedRange.size idx)).sum + m ∧
        ∀ pre : List FrontOp, UsizeArgs p (pre.map FrontOp.toOp) → needs (pre ++ [.min]) ≤ l.length →
          ∃ it' t, runFront (LowerBoundedSetIter.call p S) it pre = .ok ((listRun l (pre.map FrontOp.toOp)).1, it') ∧
            it'.min p S = .ok (some t) ∧ LeastOf (listRun l (pre.map FrontOp.toOp)).2 (some t) ∧
            (∃ it'', it'.next p S = .ok (some t, it'')) := by
  have hu := p.le_usizeCount
  have hargs : ∀ pre : List FrontOp, UsizeArgs p (pre.map FrontOp.toOp) →
      UsizeArgs p ((pre ++ [FrontOp.min]).map FrontOp.toOp) := by
    intro pre h op ho
    rw [List.map_append, List.mem_append] at ho
    rcases ho with ho | ho
    · exact h op ho
    · rw [List.mem_singleton.1 ho]
      exact ⟨by simp [FrontOp.toOp, Op.skipFront]; omega, by simp [FrontOp.toOp, Op.skipBack]; omega⟩
  have hsplit : ∀ (l : List T) (pre : List FrontOp) (t : T), (listRun l (pre.map FrontOp.toOp)).2.head? = some t →
      (listRun l ((pre ++ [FrontOp.min]).map FrontOp.toOp)).1 = (listRun l (pre.map FrontOp.toOp)).1 ++ [.item (some t)] := by
    intro l pre t ht
    rw [List.map_append, listRun_append]
    show _ ++ [Out.item (listRun l (pre.map FrontOp.toOp)).2.head?] = _
    rw [ht]
  constructor
  · intro r k h
    obtain ⟨it, l, e, hi, hlen, -, hrun⟩ := C35_half_line_iteration (S := S) (p := p) L r k h
    refine ⟨it, l, e, hi, hlen, fun pre ha hn => ?_⟩
    obtain ⟨t, ht⟩ := head_of_needs pre l (by omega)
    obtain ⟨it'', e1⟩ := hrun _ (hargs pre ha) hn
    rw [hsplit l pre t ht] at e1
    obtain ⟨it', e2, e3⟩ := runFront_snoc pre .min e1
    refine ⟨it', t, e2, ?_, ht ▸ leastOf_head (hi.1.sublist (listRun_sublist _ l)), ?_⟩
    · obtain ⟨o, h1, h2⟩ := Res.bind_eq_ok.1 e3
      injection h2 with h2; injection h2 with h2; injection h2 with h2
      rw [h1, h2]
    · obtain ⟨o, h1, h2⟩ := Res.bind_eq_ok.1 e3
      injection h2 with h2; injection h2 with h2; injection h2 with h2
      obtain ⟨⟨o', it3⟩, h3, h4⟩ := Res.bind_eq_ok.1 h1
      injection h4 with h4
      exact ⟨it3, by rw [h3, ← h2, ← h4]⟩
  · intro s m hs h hsize
    obtain ⟨it, l, e, hi, hlen, -, hrun⟩ := C36_lower_bounded_set_iteration (S := S) (p := p) L s hs m h hsize
    refine ⟨it, l, e, hi, hlen, fun pre ha hn => ?_⟩
    obtain ⟨t, ht⟩ := head_of_needs pre l (by omega)
    obtain ⟨it'', e1⟩ := hrun _ (hargs pre ha) hn
    rw [hsplit l pre t ht] at e1
    obtain ⟨it', e2, e3⟩ := runFront_snoc pre .min e1
    refine ⟨it', t, e2, ?_, ht ▸ leastOf_head (hi.1.sublist (listRun_sublist _ l)), ?_⟩
    · obtain ⟨o, h1, h2⟩ := Res.bind_eq_ok.1 e3
      injection h2 with h2; injection h2 with h2; injection h2 with h2
      rw [h1, h2]
    · obtain ⟨o, h1, h2⟩ := Res.bind_eq_ok.1 e3
      injection h2 with h2; injection h2 with h2; injection h2 with h2
      obtain ⟨⟨o', it3⟩, h3, h4⟩ := Res.bind_eq_ok.1 h1
      injection h4 with h4
      exact ⟨it3, by rw [h3, ← h2, ← h4]⟩

/-- `l37` after six elements: the least that remains is the first of the half-line. -/
example : needs ([.next, .nth 4] ++ [.min] : List FrontOp) ≤ 8 ∧ (do
    let it ← l37.intoIter (IntTy.step debug64 u8)
    let (_, it) ← runFront (LowerBoundedSetIter.call debug64 (IntTy.step debug64 u8)) it [.next, .nth 4]
    it.min debug64 (IntTy.step debug64 u8)) = .ok (some (byte 12)) := by
  refine ⟨by decide, by decide +kernel⟩

end Rangetools
