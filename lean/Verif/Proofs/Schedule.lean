import Verif.Proofs.LowerIter

/-!
# Schedules from the start of an iteration
-/

namespace Rangetools
variable {T : Type} [LinearOrder T] {p : Platform} {S : Step T} {idx : T → Int}

/-! ### Lists -/

omit [LinearOrder T] in
theorem listRun_append (ops ops' : List Op) : ∀ l : List T,
    listRun l (ops ++ ops') =
      ((listRun l ops).1 ++ (listRun (listRun l ops).2 ops').1, (listRun (listRun l ops).2 ops').2) := by
  induction ops with
  | nil => intro l; rfl
  | cons op ops ih => intro l; simp only [List.cons_append, listRun, ih]

omit [LinearOrder T] in
theorem listRun_length (ops : List Op) : ∀ l : List T, (listRun l ops).1.length = ops.length := by
  induction ops with
  | nil => intro l; rfl
  | cons op ops ih => intro l; simp only [listRun, List.length_cons, ih]

omit [LinearOrder T] in
theorem listRun_next (n : Nat) : ∀ l : List T,
    (listRun l (List.replicate n .next)).2 = l.drop n ∧
    (listRun l (List.replicate n .next)).1 =
      (l.take n).map (fun t => Out.item (some t)) ++ List.replicate (n - l.length) (.item none) := by
  induction n with
  | zero => intro l; simp [listRun]
  | succ n ih =>
    intro l
    simp only [List.replicate_succ, listRun, listCall]
    obtain ⟨h1, h2⟩ := ih l.tail
    refine ⟨by rw [h1]; cases l <;> simp, ?_⟩
    rw [h2]
    cases l with
    | nil => simp [List.replicate_succ]
    | cons a l => simp

omit [LinearOrder T] in
theorem listRun_nextBack (n : Nat) : ∀ l : List T,
    (listRun l (List.replicate n .nextBack)).2 = (l.reverse.drop n).reverse ∧
    (listRun l (List.replicate n .nextBack)).1 =
      (l.reverse.take n).map (fun t => Out.item (some t)) ++
        List.replicate (n - l.length) (.item none) := by
  induction n with
  | zero => intro l; simp [listRun]
  | succ n ih =>
    intro l
    simp only [List.replicate_succ, listRun, listCall]
    obtain ⟨h1, h2⟩ := ih l.dropLast
    have e : l.dropLast.reverse = l.reverse.tail := by
      rw [List.tail_reverse]
    rw [h1, h2, e, List.length_dropLast, List.getLast?_eq_head?_reverse]
    generalize hm : l.reverse = m
    have hlen : l.length = m.length := by rw [← hm, List.length_reverse]
    rw [hlen]
    refine ⟨by cases m <;> simp, ?_⟩
    cases m with
    | nil => simp [List.replicate_succ]
    | cons a m => simp

omit [LinearOrder T] in
theorem listCall_sublist (op : Op) (l : List T) : (listCall l op).2.Sublist l := by
  cases op <;> simp only [listCall]
  · exact List.tail_sublist l
  · exact List.dropLast_sublist l
  · exact List.drop_sublist _ l
  · have := (List.drop_sublist (‹Nat› + 1) l.reverse).reverse
    rwa [List.reverse_reverse] at this
  all_goals exact List.Sublist.refl _

omit [LinearOrder T] in
theorem listRun_sublist (ops : List Op) : ∀ l : List T, (listRun l ops).2.Sublist l := by
  induction ops with
  | nil => intro l; exact List.Sublist.refl _
  | cons op ops ih => intro l; exact (ih _).trans (listCall_sublist op l)

theorem leastOf_head {l : List T} (h : l.Pairwise (· < ·)) : LeastOf l l.head? := by
  cases l with
  | nil => rfl
  | cons a l =>
    rw [List.pairwise_cons] at h
    refine ⟨List.mem_cons_self, fun y hy => ?_⟩
    rcases List.mem_cons.1 hy with rfl | hy
    · exact le_refl _
    · exact le_of_lt (h.1 y hy)

theorem greatestOf_getLast {l : List T} (h : l.Pairwise (· < ·)) : GreatestOf l l.getLast? := by
  rw [List.getLast?_eq_head?_reverse]
  rw [← List.pairwise_reverse] at h
  have : ∀ y ∈ l, y ∈ l.reverse := fun y => List.mem_reverse.2
  have h0 : l.reverse = [] → l = [] := fun e => by simpa using e
  have hm : ∀ y ∈ l.reverse, y ∈ l := fun y => List.mem_reverse.1
  generalize l.reverse = m at *
  cases m with
  | nil => exact h0 rfl
  | cons a m =>
    rw [List.pairwise_cons] at h
    refine ⟨hm a List.mem_cons_self, fun y hy => ?_⟩
    rcases List.mem_cons.1 (this y hy) with rfl | hy
    · exact le_refl _
    · exact le_of_lt (h.1 y hy)

/-! ### Ranges -/

/-- A range whose ends can be stored is listed by a list with `size` elements, and its iterator follows
the list under every schedule it affords. -/
theorem BoundedRange.iterates (L : LawfulStep p S idx) {r : BoundedRange T} (hr : r.Representable idx) :
    ∃ it l, r.intoIter S = .ok it ∧ Lists l r.contains ∧ l.length = r.size idx ∧
      ∀ ops, r.Affords p idx ops → ∃ it',
        runOps (BoundedRangeIter.call p S) it ops = .ok ((listRun l ops).1, it') ∧
        Rep idx it' (listRun l ops).2 := by
  obtain ⟨it, e, h1, h2⟩ := r.intoIter_spec L hr
  have hat : AtEnds idx r it := ⟨h1, h2⟩
  obtain ⟨l, hl⟩ := hat.exists_rep L
  have hlen := hl.length
  have hsz : l.length = r.size idx := by
    simp only [BoundedRange.size, ← h1, ← h2]; omega
  refine ⟨it, l, e, (hat.lists_iff L l).2 hl, hsz, fun ops ho => ?_⟩
  exact BoundedRangeIter.run_spec L ops hl ho.args
    (fun h => by simpa [BoundedRange.RoomAbove, h1, h2] using ho.front h)
    (fun h => by simpa [BoundedRange.RoomBelow, h1, h2] using ho.back h)
    (fun h => by rw [hsz]; exact ho.sizes h)

omit [LinearOrder T] in
theorem AtEnds.length {r : BoundedRange T} {it : BoundedRangeIter T} (h : AtEnds idx r it) {l : List T}
    (hl : Rep idx it l) : l.length = r.size idx := by
  have hlen := hl.length
  simp only [BoundedRange.size, ← h.1, ← h.2]; omega

/-- The same for a set of non-empty, increasing pieces. -/
theorem BoundedSet.iterates (L : LawfulStep p S idx) {s : BoundedSet T} (hs : Pieces s.ranges) :
    ∃ it l, s.intoIter S = .ok it ∧ Lists l s.contains ∧
      l.length = (s.ranges.map (BoundedRange.size idx)).sum ∧
      ∀ ops, s.Affords p idx ops → ∃ it',
        runOps (BoundedSetIter.call p S) it ops = .ok ((listRun l ops).1, it') ∧
        SetRep idx it'.rangeIters (listRun l ops).2 ∧
        (∀ i ∈ it'.rangeIters, Small p idx i) ∧
        ((∀ r ∈ s.ranges, r.RoomAbove idx 0) → ∀ i ∈ it'.rangeIters, FrontOk idx i) := by
  obtain ⟨it, e, hat, hl⟩ := s.intoIter_spec L hs
    (fun r hr => r.representable_of_nonempty L (hs.1 r hr))
  obtain ⟨ls, h1, h2⟩ := atEnds_rep L hat
  have hrep : SetRep idx it.rangeIters ls.flatten := ⟨ls, h1, rfl⟩
  have hlen : ls.flatten.length = (s.ranges.map (BoundedRange.size idx)).sum := by
    rw [List.length_flatten]
    clear hl hrep e hs h2
    generalize it.rangeIters = its at hat h1
    generalize s.ranges = rs at hat
    induction hat generalizing ls with
    | nil => cases h1; rfl
    | cons hr hrs ih =>
      cases h1 with
      | cons hr1 hrs1 => simp only [List.map_cons, List.sum_cons, hr.length hr1, ih _ hrs1]
  refine ⟨it, ls.flatten, e, (hl _).2 hrep, hlen, fun ops ho => ?_⟩
  have hsm := forall_of_atEnds hat (P := fun r => r.size idx < p.usizeCount) (Q := Small p idx)
    (fun r i h hr => small_of_size h hr) ho.pieces
  obtain ⟨it', e', hr', hsh⟩ := BoundedSetIter.run_spec L ops hrep hsm ho.args
    (fun h => forall_of_atEnds hat (P := fun r => r.RoomAbove idx 0) (fun r i h hr => frontOk_of_room h hr)
      (ho.front h))
    (fun h => forall_of_atEnds hat (P := fun r => r.RoomBelow idx 0) (fun r i h hr => backOk_of_room h hr)
      (ho.back h))
    (fun h => by rw [hlen]; exact ho.sizes h)
  refine ⟨it', e', hr', fun i hi => ?_, fun hroom i hi => ?_⟩
  · obtain ⟨j, hj, hx⟩ := hsh i hi; exact hx.small (hsm j hj)
  · obtain ⟨j, hj, hx⟩ := hsh i hi
    exact hx.frontOk L (forall_of_atEnds hat (P := fun r => r.RoomAbove idx 0)
      (fun r i h hr => frontOk_of_room h hr) hroom j hj)

omit [LinearOrder T] in
theorem runOps_det {σ : Type} {call : σ → Op → Res (Out T × σ)} {s : σ} {ops : List Op}
    {a b : List (Out T) × σ} (h : runOps call s ops = .ok a) (h' : runOps call s ops = .ok b) : a = b := by
  rw [h] at h'; exact Res.ok.inj h'

/-! ### Schedules that afford no more -/

omit [LinearOrder T] in
theorem skipsFront_append (a b : List Op) : skipsFront (a ++ b) = skipsFront a + skipsFront b := by
  simp [skipsFront]

omit [LinearOrder T] in
theorem skipsBack_append (a b : List Op) : skipsBack (a ++ b) = skipsBack a + skipsBack b := by
  simp [skipsBack]

theorem BoundedRange.RoomAbove.mono (L : LawfulStep p S idx) {r : BoundedRange T}
    (hr : r.Representable idx) {k k' : Nat} (h : r.RoomAbove idx k) (hk : k' ≤ k) :
    r.RoomAbove idx k' := by
  obtain ⟨_, hl⟩ := hr
  unfold BoundedRange.RoomAbove at *
  rcases le_total (r.start.firstIdx idx) (r.stop.lastIdx idx + 1) with hm | hm
  · rw [max_eq_right hm] at h ⊢
    exact L.has_between hl h (by omega) (by omega)
  · rw [max_eq_left hm] at h ⊢
    exact L.has_between hl h (by omega) (by omega)

theorem BoundedRange.RoomBelow.mono (L : LawfulStep p S idx) {r : BoundedRange T}
    (hr : r.Representable idx) {k k' : Nat} (h : r.RoomBelow idx k) (hk : k' ≤ k) :
    r.RoomBelow idx k' := by
  obtain ⟨hf, _⟩ := hr
  unfold BoundedRange.RoomBelow at *
  rcases le_total (r.stop.lastIdx idx) (r.start.firstIdx idx - 1) with hm | hm
  · rw [min_eq_left hm] at h ⊢
    exact L.has_between h hf (by omega) (by omega)
  · rw [min_eq_right hm] at h ⊢
    exact L.has_between h hf (by omega) (by omega)

/-- A schedule that skips no more, and moves no other end, is afforded too. -/
theorem BoundedRange.Affords.of_le (L : LawfulStep p S idx) {r : BoundedRange T}
    (hr : r.Representable idx) {ops ops' : List Op} (h : r.Affords p idx ops)
    (ha : UsizeArgs p ops')
    (hf : (∃ op ∈ ops', op.isFront = true) → (∃ op ∈ ops, op.isFront = true) ∧
      skipsFront ops' ≤ skipsFront ops)
    (hb : (∃ op ∈ ops', op.isBack = true) → (∃ op ∈ ops, op.isBack = true) ∧
      skipsBack ops' ≤ skipsBack ops)
    (hs : (∃ op ∈ ops', op.isSize = true) → ∃ op ∈ ops, op.isSize = true) :
    r.Affords p idx ops' where
  args := ha
  front h' := (h.front (hf h').1).mono L hr (hf h').2
  back h' := (h.back (hb h').1).mono L hr (hb h').2
  sizes h' := h.sizes (hs h')

omit [LinearOrder T] in
theorem runOps_append {σ : Type} {call : σ → Op → Res (Out T × σ)} (ops ops' : List Op) : ∀ s : σ,
    runOps call s (ops ++ ops') = (do
      let (os, s') ← runOps call s ops
      let (os', s'') ← runOps call s' ops'
      return (os ++ os', s'')) := by
  induction ops with
  | nil =>
    intro s
    simp only [List.nil_append, runOps, Res.bind_ok]
    cases runOps call s ops' <;> rfl
  | cons op ops ih =>
    intro s
    simp only [List.cons_append, runOps]
    cases call s op with
    | panic m => rfl
    | ok x =>
      simp only [Res.bind_ok, ih]
      cases runOps call x.2 ops with
      | panic m => rfl
      | ok y =>
        simp only [Res.bind_ok, Res.pure_eq]
        cases runOps call y.2 ops' <;> rfl

omit [LinearOrder T] in
/-- The end of a successful schedule, from the state in between. -/
theorem runOps_of_append {σ : Type} {call : σ → Op → Res (Out T × σ)} {ops ops' : List Op} {s s' s'' : σ}
    {os os' : List (Out T)} (h : runOps call s ops = .ok (os, s'))
    (h' : runOps call s (ops ++ ops') = .ok (os ++ os', s'')) :
    runOps call s' ops' = .ok (os', s'') := by
  rw [runOps_append, h, Res.bind_ok] at h'
  dsimp only at h'
  cases hx : runOps call s' ops' with
  | panic m => rw [hx] at h'; cases h'
  | ok y =>
    rw [hx, Res.bind_ok, Res.pure_eq] at h'
    injection h' with h'
    injection h' with h1 h2
    rw [← List.append_cancel_left h1, ← h2]

theorem noOverlap_idx (L : LawfulStep p S idx) {b : UpperBound T} {a : LowerBound T}
    (h : NoOverlap b a) : b.lastIdx idx < a.firstIdx idx := by
  rcases b with ⟨e | e⟩ <;> rcases a with ⟨s | s⟩ <;>
    simp only [NoOverlap, L.lt_iff, L.le_iff] at h <;>
    simp only [UpperBound.lastIdx, LowerBound.firstIdx] <;> omega

/-- If the type has a value beyond the start of a half-line, it has the first one. -/
theorem LowerBoundedRange.has_first (L : LawfulStep p S idx) {r : LowerBoundedRange T} {k : Nat}
    (h : Has idx (r.start.firstIdx idx + k)) : Has idx (r.start.firstIdx idx) := by
  rcases r with ⟨⟨s | s⟩⟩
  · exact L.has_between (L.has_idx s) h (by simp [LowerBound.firstIdx]) (by omega)
  · exact L.has_idx s

/-- The first elements of a half-line, and its iterator. -/
theorem LowerBoundedRange.iterates (L : LawfulStep p S idx) {r : LowerBoundedRange T} {k : Nat}
    (h : Has idx (r.start.firstIdx idx + k)) :
    ∃ it l, r.intoIter S = .ok it ∧ Initial l r.contains ∧ l.length = k ∧ LRep idx it l := by
  have h0 := LowerBoundedRange.has_first L h
  obtain ⟨it, e, hc⟩ := r.intoIter_spec L h0
  obtain ⟨l, hlen, hi, hm⟩ := r.exists_initial L k rfl h0 h
  refine ⟨it, l, e, hi, hlen, ?_, ?_⟩
  · rw [hm, hc, hlen]
  · rw [hc, hlen]; exact h

omit [LinearOrder T] in
theorem le_sum_of_mem {l : List Nat} {n : Nat} (h : n ∈ l) : n ≤ l.sum := by
  induction l with
  | nil => cases h
  | cons a l ih =>
    rw [List.sum_cons]
    rcases List.mem_cons.1 h with rfl | h
    · omega
    · have := ih h; omega

/-- The first elements of a lower-bounded set, and its iterator. -/
theorem LowerBoundedSet.iterates (L : LawfulStep p S idx) {s : LowerBoundedSet T}
    (hs : Inner.Normal (.lbs s)) {m : Nat}
    (h : Has idx (s.lowerBoundedRange.start.firstIdx idx + m))
    (hz : (s.ranges.ranges.map (BoundedRange.size idx)).sum < p.usizeCount) :
    ∃ it l, s.intoIter S = .ok it ∧ Initial l s.contains ∧
      l.length = (s.ranges.ranges.map (BoundedRange.size idx)).sum + m ∧
      ∀ ops : List FrontOp, UsizeArgs p (ops.map FrontOp.toOp) → needs ops ≤ l.length → ∃ it',
        runFront (LowerBoundedSetIter.call p S) it ops =
          .ok ((listRun l (ops.map FrontOp.toOp)).1, it') := by
  obtain ⟨hp, hn⟩ := hs
  have hrepr : ∀ r ∈ s.ranges.ranges, r.Representable idx :=
    fun r hr => r.representable_of_nonempty L (hp.1 r hr)
  obtain ⟨it1, e1, hat, hl⟩ := s.ranges.intoIter_spec L hp hrepr
  obtain ⟨it2, l2, e2, hi2, hlen2, hrep2⟩ := LowerBoundedRange.iterates L h
  obtain ⟨it1', l1, e1', hl1, hlen1, _⟩ := BoundedSet.iterates (p := p) L hp
  have hrep1 := (hl l1).1 hl1
  obtain ⟨c, hc⟩ := h
  have hroom : ∀ r ∈ s.ranges.ranges, r.RoomAbove idx 0 := fun r hr =>
    r.roomAbove_of_lt L (hp.1 r hr) (c := c) (by have := noOverlap_idx L (hn r hr); omega)
  have hsize : ∀ r ∈ s.ranges.ranges, r.size idx < p.usizeCount := fun r hr =>
    lt_of_le_of_lt (le_sum_of_mem (List.mem_map_of_mem hr)) hz
  refine ⟨⟨it1, it2⟩, l1 ++ l2, ?_, ?_, by rw [List.length_append, hlen1, hlen2], ?_⟩
  · simp only [LowerBoundedSet.intoIter, e1, e2, Res.bind_ok]; rfl
  · have hlt : ∀ x ∈ l1, ∀ y, s.lowerBoundedRange.contains y = true → x < y := by
      intro x hx y hy
      have hx' := (hl1.2 x).1 hx
      simp only [BoundedSet.contains, List.any_eq_true] at hx'
      obtain ⟨r, hr, hxr⟩ := hx'
      have h1 := noOverlap_idx L (hn r hr)
      rw [LowerBoundedRange.contains_idx L] at hy
      rw [r.contains_idx L] at hxr
      rw [L.lt_iff]; omega
    refine ⟨?_, ?_, ?_⟩
    · rw [List.pairwise_append]
      exact ⟨hl1.1, hi2.1, fun x hx y hy => hlt x hx y (hi2.2.1 y hy)⟩
    · intro t ht
      simp only [LowerBoundedSet.contains, Bool.or_eq_true]
      rcases List.mem_append.1 ht with ht | ht
      · exact .inr ((hl1.2 t).1 ht)
      · exact .inl (hi2.2.1 t ht)
    · intro t ht hnt x hx
      simp only [List.mem_append, not_or] at hnt
      simp only [LowerBoundedSet.contains, Bool.or_eq_true] at ht
      have ht' : s.lowerBoundedRange.contains t = true := by
        rcases ht with ht | ht
        · exact ht
        · exact absurd ((hl1.2 t).2 ht) hnt.1
      rcases List.mem_append.1 hx with hx | hx
      · exact hlt x hx t ht'
      · exact hi2.2.2 t ht' hnt.2 x hx
  · intro ops ha hneed
    refine LowerBoundedSetIter.run_spec L ops hrep1 hrep2 (by rw [hlen1]; exact hz) ?_ ?_ hneed ha
    · exact forall_of_atEnds hat (P := fun r => r.size idx < p.usizeCount)
        (fun r i h hr => small_of_size h hr) hsize
    · exact forall_of_atEnds hat (P := fun r => r.RoomAbove idx 0)
        (fun r i h hr => frontOk_of_room h hr) hroom

/-- Values of an integer type. -/
theorem IntTy.has_iff {τ : IntTy} {k : Int} : Has (IntTy.idx (τ := τ)) k ↔ τ.min ≤ k ∧ k ≤ τ.max :=
  ⟨fun ⟨x, hx⟩ => hx ▸ x.2, fun h => ⟨⟨k, h⟩, rfl⟩⟩

end Rangetools
