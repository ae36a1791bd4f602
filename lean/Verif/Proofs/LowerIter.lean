import Verif.Proofs.IntoIter

/-!
# The iterators of half-lines
-/

namespace Rangetools
variable {T : Type} [LinearOrder T] {p : Platform} {S : Step T} {idx : T → Int}

/-! ### `LowerBoundedRangeIter` -/

/-- The iterator yields `l` first, and the type has one more value after that. -/
def LRep (idx : T → Int) (it : LowerBoundedRangeIter T) (l : List T) : Prop :=
  l.map idx = ints (idx it.current) (idx it.current + l.length - 1) ∧
    Has idx (idx it.current + l.length)

theorem LRep.getElem? (L : LawfulStep p S idx) {it : LowerBoundedRangeIter T} {l : List T}
    (h : LRep idx it l) {n : Nat} {t : T} (ht : idx t = idx it.current + n) (hn : n < l.length) :
    l[n]? = some t := by
  have h1 : (l.map idx)[n]? = some (idx t) := by rw [h.1, ints_getElem?, if_pos (by omega), ht]
  rw [List.getElem?_map] at h1
  cases hx : l[n]? with
  | none => rw [hx] at h1; cases h1
  | some u =>
    rw [hx] at h1
    rw [L.inj (Option.some.inj h1)]

omit [LinearOrder T] in
theorem LRep.drop {it it' : LowerBoundedRangeIter T} {l : List T}
    (h : LRep idx it l) {n : Nat} (hc : idx it'.current = idx it.current + n) (hn : n ≤ l.length) :
    LRep idx it' (l.drop n) := by
  have e : idx it'.current + (l.drop n).length = idx it.current + l.length := by
    rw [List.length_drop, hc]; omega
  constructor
  · rw [List.map_drop, h.1, ints_drop, e, hc]
  · rw [e]; exact h.2

theorem LowerBoundedRangeIter.nth_spec (L : LawfulStep p S idx) {it : LowerBoundedRangeIter T}
    {l : List T} (h : LRep idx it l) {n : Nat} (hn : n < l.length) (hu : n < p.usizeCount) :
    ∃ it', it.nth S n = .ok (l[n]?, it') ∧ LRep idx it' (l.drop (n + 1)) := by
  have hp := p.le_usizeCount
  obtain ⟨c, hc⟩ := L.has_between (L.has_idx it.current) h.2 (k := idx it.current + n)
    (by omega) (by omega)
  obtain ⟨d, hd⟩ := L.has_between (L.has_idx it.current) h.2 (k := idx it.current + n + 1)
    (by omega) (by omega)
  refine ⟨⟨d⟩, ?_, h.drop (by push_cast; show idx d = _; omega) (by omega)⟩
  simp only [LowerBoundedRangeIter.nth, LowerBoundedRangeIter.next, L.forward_some _ n c hu hc,
    L.forward_some c 1 d (by omega) (by push_cast; omega), Res.bind_ok, h.getElem? L hc hn]
  rfl

theorem LowerBoundedRangeIter.next_spec (L : LawfulStep p S idx) {it : LowerBoundedRangeIter T}
    {l : List T} (h : LRep idx it l) (hn : 0 < l.length) :
    ∃ it', it.next S = .ok (l.head?, it') ∧ LRep idx it' l.tail := by
  have hp := p.le_usizeCount
  have := it.nth_spec L h (n := 0) hn (by omega)
  simp only [LowerBoundedRangeIter.nth, L.forward_some it.current 0 it.current (by omega) (by simp),
    Res.bind_ok] at this
  simpa [List.head?_eq_getElem?] using this

theorem LowerBoundedRangeIter.run_spec (L : LawfulStep p S idx) (ops : List FrontOp) :
    ∀ {it : LowerBoundedRangeIter T} {l : List T}, LRep idx it l → needs ops ≤ l.length →
    UsizeArgs p (ops.map FrontOp.toOp) →
    ∃ it', runFront (LowerBoundedRangeIter.call S) it ops =
      .ok ((listRun l (ops.map FrontOp.toOp)).1, it') := by
  induction ops with
  | nil => intro it l _ _ _; exact ⟨it, rfl⟩
  | cons op ops ih =>
    intro it l h hn ha
    have ha' : UsizeArgs p (ops.map FrontOp.toOp) := fun o ho => ha o (List.mem_cons_of_mem _ ho)
    cases op with
    | next =>
      simp only [needs] at hn
      obtain ⟨it', e, hr⟩ := it.next_spec L h (by omega)
      obtain ⟨it'', e'⟩ := ih hr (by rw [List.length_tail]; omega) ha'
      refine ⟨it'', ?_⟩
      simp only [runFront, LowerBoundedRangeIter.call, e, e', Res.bind_ok, List.map_cons,
        FrontOp.toOp, listRun, listCall, Res.pure_eq]
    | nth n =>
      simp only [needs] at hn
      obtain ⟨it', e, hr⟩ := it.nth_spec L h (n := n) (by omega) (ha _ List.mem_cons_self).1
      obtain ⟨it'', e'⟩ := ih hr (by rw [List.length_drop]; omega) ha'
      refine ⟨it'', ?_⟩
      simp only [runFront, LowerBoundedRangeIter.call, e, e', Res.bind_ok, List.map_cons,
        FrontOp.toOp, listRun, listCall, Res.pure_eq]
    | min =>
      simp only [needs] at hn
      obtain ⟨it', e, _⟩ := it.next_spec L h (by omega)
      obtain ⟨it'', e'⟩ := ih h (by omega) ha'
      refine ⟨it'', ?_⟩
      simp only [runFront, LowerBoundedRangeIter.call, LowerBoundedRangeIter.min, e, e', Res.bind_ok,
        List.map_cons, FrontOp.toOp, listRun, listCall, Res.pure_eq]

theorem LowerBoundedRange.intoIter_spec (L : LawfulStep p S idx) (r : LowerBoundedRange T)
    (h : Has idx (r.start.firstIdx idx)) :
    ∃ it, r.intoIter S = .ok it ∧ idx it.current = r.start.firstIdx idx := by
  obtain ⟨c, hc⟩ := h
  have hu := p.le_usizeCount
  refine ⟨⟨c⟩, ?_, hc⟩
  rcases r with ⟨⟨s | s⟩⟩
  · simp only [LowerBoundedRange.intoIter,
      L.forward_some s 1 c (by omega) (by simpa [LowerBound.firstIdx] using hc)]; rfl
  · have : s = c := L.inj (by simpa [LowerBound.firstIdx] using hc.symm)
    simp only [LowerBoundedRange.intoIter, this]; rfl

theorem LowerBoundedRange.contains_idx (L : LawfulStep p S idx) (r : LowerBoundedRange T) (t : T) :
    r.contains t = true ↔ r.start.firstIdx idx ≤ idx t := by
  rcases r with ⟨⟨s | s⟩⟩ <;>
    simp only [LowerBoundedRange.contains, LowerBound.firstIdx,
      decide_eq_true_eq, gt_iff_lt, ge_iff_le, L.lt_iff, L.le_iff]
  omega

/-- The first `k` values of a half-line. -/
theorem LowerBoundedRange.exists_initial (L : LawfulStep p S idx) (r : LowerBoundedRange T) (k : Nat)
    {i : Int} (hi : i = r.start.firstIdx idx) (h0 : Has idx i) (h : Has idx (i + k)) :
    ∃ l : List T, l.length = k ∧ Initial l r.contains ∧ l.map idx = ints i (i + k - 1) := by
  obtain ⟨l, hl⟩ := L.exists_list (i := i) (j := i + k - 1)
    (fun hle => ⟨h0, L.has_between h0 h (by omega) (by omega)⟩)
  have hlen : l.length = k := by
    rw [← List.length_map (f := idx), hl, length_ints]; omega
  obtain ⟨hs, hm⟩ := (L.lists_iff (fun hle => ⟨h0, L.has_between h0 h (by omega) (by omega)⟩)).2 hl
  refine ⟨l, hlen, ⟨hs, ?_, ?_⟩, hl⟩
  · intro t ht
    rw [r.contains_idx L, ← hi]
    exact ((hm t).1 ht).1
  · intro t ht hnt x hx
    rw [r.contains_idx L, ← hi] at ht
    rw [hm] at hnt hx
    rw [L.lt_iff]
    omega

/-! ### Pieces of a set -/

/-- A non-empty piece has a first and a last position in the type. -/
theorem BoundedRange.representable_of_nonempty (L : LawfulStep p S idx) {r : BoundedRange T}
    (h : r.isEmpty = false) : r.Representable idx := by
  rcases r with ⟨⟨s | s⟩, ⟨e | e⟩⟩ <;>
    simp only [BoundedRange.isEmpty, decide_eq_false_iff_not, ge_iff_le, not_le, gt_iff_lt, not_lt,
      L.lt_iff, L.le_iff] at h <;>
    simp only [BoundedRange.Representable, LowerBound.firstIdx, UpperBound.lastIdx] <;>
    refine ⟨L.has_between (L.has_idx s) (L.has_idx e) ?_ ?_,
      L.has_between (L.has_idx s) (L.has_idx e) ?_ ?_⟩ <;> omega

/-- A non-empty piece below an existing value leaves room above. -/
theorem BoundedRange.roomAbove_of_lt (L : LawfulStep p S idx) {r : BoundedRange T}
    (h : r.isEmpty = false) {c : T} (hc : r.stop.lastIdx idx < idx c) : r.RoomAbove idx 0 := by
  rcases r with ⟨⟨s | s⟩, ⟨e | e⟩⟩ <;>
    simp only [BoundedRange.isEmpty, decide_eq_false_iff_not, ge_iff_le, not_le, gt_iff_lt, not_lt,
      L.lt_iff, L.le_iff] at h <;>
    simp only [BoundedRange.RoomAbove, LowerBound.firstIdx, UpperBound.lastIdx] at * <;>
    first
    | exact L.has_between (L.has_idx s) (L.has_idx e) (by omega) (by omega)
    | exact L.has_between (L.has_idx s) (L.has_idx c) (by omega) (by omega)

omit [LinearOrder T] in
theorem frontOk_of_room {r : BoundedRange T} {it : BoundedRangeIter T} (h : AtEnds idx r it)
    (hr : r.RoomAbove idx 0) : FrontOk idx it := by
  simpa [FrontOk, BoundedRange.RoomAbove, h.1, h.2] using hr

omit [LinearOrder T] in
theorem backOk_of_room {r : BoundedRange T} {it : BoundedRangeIter T} (h : AtEnds idx r it)
    (hr : r.RoomBelow idx 0) : BackOk idx it := by
  simpa [BackOk, BoundedRange.RoomBelow, h.1, h.2] using hr

omit [LinearOrder T] in
theorem small_of_size {r : BoundedRange T} {it : BoundedRangeIter T} (h : AtEnds idx r it)
    (hr : r.size idx < p.usizeCount) : Small p idx it := by
  have := p.le_usizeCount
  simp only [BoundedRange.size] at hr
  simp only [Small, h.1, h.2]
  omega

omit [LinearOrder T] in
theorem forall_of_atEnds {rs : List (BoundedRange T)} {its : List (BoundedRangeIter T)}
    (h : List.Forall₂ (AtEnds idx) rs its) {P : BoundedRange T → Prop} {Q : BoundedRangeIter T → Prop}
    (hPQ : ∀ r it, AtEnds idx r it → P r → Q it) (hP : ∀ r ∈ rs, P r) : ∀ it ∈ its, Q it := by
  induction h with
  | nil => intro it hit; cases hit
  | @cons r it rs its hr hrs ih =>
    intro i hi
    rcases List.mem_cons.1 hi with rfl | hi
    · exact hPQ r i hr (hP r List.mem_cons_self)
    · exact ih (fun r' hr' => hP r' (List.mem_cons_of_mem _ hr')) i hi

/-! ### `LowerBoundedSetIter` -/

/-- The iterator yields `l` first: what remains of the pieces, then part of the half-line. -/
def LSRep (idx : T → Int) (it : LowerBoundedSetIter T) (l : List T) : Prop :=
  ∃ l1 l2, l = l1 ++ l2 ∧ SetRep idx it.setIter.rangeIters l1 ∧ LRep idx it.rangeIter l2

theorem LowerBoundedSetIter.next_spec (L : LawfulStep p S idx) {it : LowerBoundedSetIter T}
    {l : List T} (h : LSRep idx it l) (hs : ∀ i ∈ it.setIter.rangeIters, Small p idx i)
    (hf : ∀ i ∈ it.setIter.rangeIters, FrontOk idx i) (hn : 0 < l.length) :
    ∃ it', it.next p S = .ok (l.head?, it') ∧ LSRep idx it' l.tail ∧
      ShrinksAll idx it.setIter.rangeIters it'.setIter.rangeIters := by
  obtain ⟨l1, l2, rfl, h1, h2⟩ := h
  obtain ⟨si, e, hr, hsh⟩ := it.setIter.next_spec L h1 hs hf
  cases l1 with
  | nil =>
    obtain ⟨ri, e2, hr2⟩ := it.rangeIter.next_spec L h2 (by simpa using hn)
    refine ⟨⟨si, ri⟩, ?_, ⟨[], l2.tail, rfl, hr, hr2⟩, hsh⟩
    simp only [LowerBoundedSetIter.next, e, e2, Res.bind_ok, List.head?_nil, List.nil_append]
    rfl
  | cons a l1 =>
    refine ⟨⟨si, it.rangeIter⟩, ?_, ⟨l1, l2, rfl, hr, h2⟩, hsh⟩
    simp only [LowerBoundedSetIter.next, e, Res.bind_ok, List.head?_cons, List.cons_append]
    rfl

theorem LowerBoundedSetIter.nth_spec (L : LawfulStep p S idx) {it : LowerBoundedSetIter T}
    {l : List T} (h : LSRep idx it l) (hs : ∀ i ∈ it.setIter.rangeIters, Small p idx i)
    (hf : ∀ i ∈ it.setIter.rangeIters, FrontOk idx i)
    (hz : ∀ l1, SetRep idx it.setIter.rangeIters l1 → l1.length < p.usizeCount)
    {n : Nat} (hn : n < l.length) (hu : n < p.usizeCount) :
    ∃ it', it.nth p S n = .ok (l[n]?, it') ∧ LSRep idx it' (l.drop (n + 1)) ∧
      ShrinksAll idx it.setIter.rangeIters it'.setIter.rangeIters := by
  obtain ⟨l1, l2, rfl, h1, h2⟩ := h
  obtain ⟨si, e, hr, hsh⟩ := it.setIter.nth_spec L h1 hs hf hu
  have hlen := it.setIter.len_spec L h1 (hz l1 h1)
  simp only [LowerBoundedSetIter.nth, hlen, e, Res.bind_ok]
  by_cases hc : n < l1.length
  · have hx : (l1 ++ l2)[n]? = l1[n]? := List.getElem?_append_left hc
    rw [hx, List.getElem?_eq_getElem hc]
    refine ⟨⟨si, it.rangeIter⟩, rfl, ⟨l1.drop (n + 1), l2, ?_, hr, h2⟩, hsh⟩
    rw [List.drop_append_of_le_length (by omega)]
  · rw [List.length_append] at hn
    rw [List.getElem?_eq_none_iff.2 (by omega : l1.length ≤ n),
      List.getElem?_append_right (by omega)]
    obtain ⟨ri, e2, hr2⟩ := it.rangeIter.nth_spec L h2 (n := n - l1.length) (by omega) (by omega)
    refine ⟨⟨si, ri⟩, ?_, ⟨[], l2.drop (n - l1.length + 1), ?_, ?_, hr2⟩, hsh⟩
    · simp only [Platform.subUsize, if_pos (show l1.length ≤ n by omega), e2, Res.bind_ok]; rfl
    · rw [List.drop_append, List.drop_eq_nil_of_le (by omega)]
      congr 2; omega
    · rw [List.drop_eq_nil_of_le (by omega)] at hr; exact hr

theorem SetRep.unique {its its' : List (BoundedRangeIter T)} {l l' : List T}
    (h : SetRep idx its l) (h' : SetRep idx its' l') (L : LawfulStep p S idx) (e : its = its') :
    l = l' := by
  subst e
  obtain ⟨ls, h, rfl⟩ := h
  obtain ⟨ls', h', rfl⟩ := h'
  congr 1
  induction h generalizing ls' with
  | nil => cases h'; rfl
  | cons hr hrs ih =>
    cases h' with
    | cons hr1 hrs1 => rw [ih _ hrs1, L.map_inj (hr.trans hr1.symm)]

/-- A schedule, as long as it looks at no more than the elements known to exist. -/
theorem LowerBoundedSetIter.run_spec (L : LawfulStep p S idx) (ops : List FrontOp) :
    ∀ {it : LowerBoundedSetIter T} {l1 l2 : List T}, SetRep idx it.setIter.rangeIters l1 →
    LRep idx it.rangeIter l2 → l1.length < p.usizeCount →
    (∀ i ∈ it.setIter.rangeIters, Small p idx i) → (∀ i ∈ it.setIter.rangeIters, FrontOk idx i) →
    needs ops ≤ (l1 ++ l2).length → UsizeArgs p (ops.map FrontOp.toOp) →
    ∃ it', runFront (LowerBoundedSetIter.call p S) it ops =
      .ok ((listRun (l1 ++ l2) (ops.map FrontOp.toOp)).1, it') := by
  have key : ∀ (ops : List FrontOp) {it : LowerBoundedSetIter T} {l : List T}, LSRep idx it l →
      (∀ l1, SetRep idx it.setIter.rangeIters l1 → l1.length < p.usizeCount) →
      (∀ i ∈ it.setIter.rangeIters, Small p idx i) →
      (∀ i ∈ it.setIter.rangeIters, FrontOk idx i) →
      needs ops ≤ l.length → UsizeArgs p (ops.map FrontOp.toOp) →
      ∃ it', runFront (LowerBoundedSetIter.call p S) it ops =
        .ok ((listRun l (ops.map FrontOp.toOp)).1, it') := by
    intro ops
    induction ops with
    | nil => intro it l _ _ _ _ _ _; exact ⟨it, rfl⟩
    | cons op ops ih =>
      intro it l h hz hsm hf hn ha
      have ha' : UsizeArgs p (ops.map FrontOp.toOp) := fun o ho => ha o (List.mem_cons_of_mem _ ho)
      have hp := p.le_usizeCount
      cases op with
      | next =>
        simp only [needs] at hn
        obtain ⟨it', e, hr, hsh⟩ := it.next_spec L h hsm hf (by omega)
        have hz' : ∀ l1', SetRep idx it'.setIter.rangeIters l1' → l1'.length < p.usizeCount := by
          obtain ⟨a, b, rfl, h1, h2⟩ := h
          obtain ⟨si, e3, hr3, _⟩ := it.setIter.next_spec L h1 hsm hf
          have es : it'.setIter = si := by
            simp only [LowerBoundedSetIter.next, e3, Res.bind_ok] at e
            cases hh : a.head? with
            | some x =>
              simp only [hh] at e
              injection e with e; injection e with _ e; rw [← e]
            | none =>
              simp only [hh] at e
              cases hx : it.rangeIter.next S with
              | panic m => rw [hx] at e; cases e
              | ok y =>
                rw [hx] at e
                injection e with e; injection e with _ e; rw [← e]
          intro l1' h1'
          rw [h1'.unique hr3 L (by rw [es])]
          have := hz a h1
          rw [List.length_tail]; omega
        obtain ⟨it'', e'⟩ := ih hr hz'
          (fun i hi => by obtain ⟨j, hj, hx⟩ := hsh i hi; exact hx.small (hsm j hj))
          (fun i hi => by obtain ⟨j, hj, hx⟩ := hsh i hi; exact hx.frontOk L (hf j hj))
          (by rw [List.length_tail]; omega) ha'
        refine ⟨it'', ?_⟩
        simp only [runFront, LowerBoundedSetIter.call, e, e', Res.bind_ok, List.map_cons,
          FrontOp.toOp, listRun, listCall, Res.pure_eq]
      | nth n =>
        simp only [needs] at hn
        have hu := (ha _ List.mem_cons_self).1
        simp only [FrontOp.toOp, Op.skipFront] at hu
        obtain ⟨it', e, hr, hsh⟩ := it.nth_spec L h hsm hf hz (n := n) (by omega) hu
        have hz' : ∀ l1', SetRep idx it'.setIter.rangeIters l1' → l1'.length < p.usizeCount := by
          obtain ⟨a, b, rfl, h1, h2⟩ := h
          obtain ⟨si, e3, hr3, _⟩ := it.setIter.nth_spec L h1 hsm hf hu
          have es : it'.setIter = si := by
            simp only [LowerBoundedSetIter.nth, e3, Res.bind_ok,
              it.setIter.len_spec L h1 (hz a h1)] at e
            cases hh : a[n]? with
            | some x =>
              simp only [hh] at e
              injection e with e; injection e with _ e; rw [← e]
            | none =>
              simp only [hh] at e
              cases hx : p.subUsize n a.length with
              | panic m => rw [hx] at e; cases e
              | ok m =>
                rw [hx, Res.bind_ok] at e
                cases hy : it.rangeIter.nth S m with
                | panic m => rw [hy] at e; cases e
                | ok y =>
                  rw [hy] at e
                  injection e with e; injection e with _ e; rw [← e]
          intro l1' h1'
          rw [h1'.unique hr3 L (by rw [es])]
          have := hz a h1
          rw [List.length_drop]; omega
        obtain ⟨it'', e'⟩ := ih hr hz'
          (fun i hi => by obtain ⟨j, hj, hx⟩ := hsh i hi; exact hx.small (hsm j hj))
          (fun i hi => by obtain ⟨j, hj, hx⟩ := hsh i hi; exact hx.frontOk L (hf j hj))
          (by rw [List.length_drop]; omega) ha'
        refine ⟨it'', ?_⟩
        simp only [runFront, LowerBoundedSetIter.call, e, e', Res.bind_ok, List.map_cons,
          FrontOp.toOp, listRun, listCall, Res.pure_eq]
      | min =>
        simp only [needs] at hn
        obtain ⟨it', e, _⟩ := it.next_spec L h hsm hf (by omega)
        obtain ⟨it'', e'⟩ := ih h hz hsm hf (by omega) ha'
        refine ⟨it'', ?_⟩
        simp only [runFront, LowerBoundedSetIter.call, LowerBoundedSetIter.min, e, e', Res.bind_ok,
          List.map_cons, FrontOp.toOp, listRun, listCall, Res.pure_eq]
  intro it l1 l2 h1 h2 hz hsm hf hn ha
  exact key ops ⟨l1, l2, rfl, h1, h2⟩ (fun l h => by rw [h.unique h1 L rfl]; exact hz) hsm hf hn ha

end Rangetools
