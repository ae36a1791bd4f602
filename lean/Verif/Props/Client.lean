import Verif.Proofs.Client
import Verif.Props.IterLimits

/-!
# C89: programs and std adapters on the crate's iterators
-/

namespace Rangetools
variable {T : Type} [LinearOrder T] {p : Platform} {S : Step T} {idx : T → Int}

/-! ### No program can tell an iterator from the list -/

/-- C89. A program that chooses its calls by the answers it gets ends on a range's iterator as it does on the list of the
range's elements, if the calls it makes on that list stay inside the element type. -/
theorem C89_range (L : LawfulStep p S idx) (r : BoundedRange T) (hr : r.Representable idx) :
    ∃ it l, r.intoIter S = .ok it ∧ Lists l r.contains ∧ ∀ (R : Type) (c : Client Op (Out T) R),
      r.Affords p idx (c.trace listCall l) → c.run (BoundedRangeIter.call p S) it = .ok (c.onList listCall l) := by
  obtain ⟨it, l, e, hl, _, hrun⟩ := BoundedRange.iterates L hr
  refine ⟨it, l, e, hl, fun R c hc => ?_⟩
  obtain ⟨it', e', -⟩ := hrun _ hc
  exact c.run_of_runOps e'

/-- C89. The same for a normal set. -/
theorem C89_set (L : LawfulStep p S idx) (s : BoundedSet T) (hs : Pieces s.ranges) :
    ∃ it l, s.intoIter S = .ok it ∧ Lists l s.contains ∧ ∀ (R : Type) (c : Client Op (Out T) R),
      s.Affords p idx (c.trace listCall l) → c.run (BoundedSetIter.call p S) it = .ok (c.onList listCall l) := by
  obtain ⟨it, l, e, hl, _, hrun⟩ := BoundedSet.iterates (p := p) L hs
  refine ⟨it, l, e, hl, fun R c hc => ?_⟩
  obtain ⟨it', e', -⟩ := hrun _ hc
  exact c.run_of_runOps e'

/-- C89. The same for a half-line and a program that looks at no more than `k` elements. -/
theorem C89_half_line (L : LawfulStep p S idx) (r : LowerBoundedRange T) (k : Nat)
    (h : Has idx (r.start.firstIdx idx + k)) :
    ∃ it l, r.intoIter S = .ok it ∧ Initial l r.contains ∧ l.length = k ∧ ∀ (R : Type) (c : Client FrontOp (Out T) R),
      UsizeArgs p ((c.trace listFront l).map FrontOp.toOp) → needs (c.trace listFront l) ≤ k →
        c.run (LowerBoundedRangeIter.call S) it = .ok (c.onList listFront l) := by
  obtain ⟨it, l, e, hi, hlen, hrep⟩ := LowerBoundedRange.iterates L h
  refine ⟨it, l, e, hi, hlen, fun R c ha hn => ?_⟩
  obtain ⟨it', e'⟩ := LowerBoundedRangeIter.run_spec L _ hrep (by rw [hlen]; exact hn) ha
  exact c.run_of_runFront e'

/-- C89. The same for a normal set with a half-line. -/
theorem C89_lower_set (L : LawfulStep p S idx) (s : LowerBoundedSet T) (hs : Inner.Normal (.lbs s)) (m : Nat)
    (h : Has idx (s.lowerBoundedRange.start.firstIdx idx + m))
    (hsize : (s.ranges.ranges.map (BoundedRange.size idx)).sum < p.usizeCount) :
    ∃ it l, s.intoIter S = .ok it ∧ Initial l s.contains ∧
      l.length = (s.ranges.ranges.map (BoundedRange.size idx)).sum + m ∧ ∀ (R : Type) (c : Client FrontOp (Out T) R),
      UsizeArgs p ((c.trace listFront l).map FrontOp.toOp) → needs (c.trace listFront l) ≤ l.length →
        c.run (LowerBoundedSetIter.call p S) it = .ok (c.onList listFront l) := by
  obtain ⟨it, l, e, hi, hlen, key⟩ := LowerBoundedSet.iterates L hs h hsize
  refine ⟨it, l, e, hi, hlen, fun R c ha hn => ?_⟩
  obtain ⟨it', e'⟩ := key _ ha hn
  exact c.run_of_runFront e'

/-- C89. With overflow checks a program on a range's or a set's iterator panics or ends as on the list: no condition on the
calls but that their arguments are `usize`s. -/
theorem C89_checked (L : LawfulStep p S idx) (C : S.Checked p idx) (F : Step.Fits p idx) (hp : p.overflowChecks = true) :
    (∀ (r : BoundedRange T) (it : BoundedRangeIter T), r.intoIter S = .ok it → ∃ l, Lists l r.contains ∧
      ∀ (R : Type) (c : Client Op (Out T) R) (x : R), UsizeArgs p (c.trace listCall l) →
        c.run (BoundedRangeIter.call p S) it = .ok x → x = c.onList listCall l) ∧
    ∀ (s : BoundedSet T) (it : BoundedSetIter T), Pieces s.ranges → s.intoIter S = .ok it → ∃ l, Lists l s.contains ∧
      ∀ (R : Type) (c : Client Op (Out T) R) (x : R), UsizeArgs p (c.trace listCall l) →
        c.run (BoundedSetIter.call p S) it = .ok x → x = c.onList listCall l := by
  constructor
  · intro r it hit
    have hat := r.intoIter_ok L C hit
    obtain ⟨l, hl⟩ := hat.exists_rep L
    exact ⟨l, (hat.lists_iff L l).2 hl, fun R c x ha e => Client.run_ok (R' := Rep idx)
      (P := fun op : Op => op.skipFront < p.usizeCount ∧ op.skipBack < p.usizeCount)
      (fun s l op x h ha e => s.call_ok L C F hp h op ha e) c hl ha e⟩
  · intro s it hs hit
    obtain ⟨its, hits, hit⟩ := Res.bind_eq_ok.1 hit
    cases hit
    have hat := intoIters_ok L C hits
    obtain ⟨ls, h1, h2⟩ := atEnds_rep L hat
    have hl : SetRep idx its ls.flatten := ⟨ls, h1, rfl⟩
    exact ⟨ls.flatten, (atEnds_setRep L hs.2 hat _).2 hl, fun R c x ha e => Client.run_ok
      (R' := fun it : BoundedSetIter T => SetRep idx it.rangeIters)
      (P := fun op : Op => op.skipFront < p.usizeCount ∧ op.skipBack < p.usizeCount)
      (fun s l op x h ha e => s.call_ok L C F hp h op ha e) c (s := ⟨its⟩) hl ha e⟩

/-- Takes from the front while the elements are below 5, then the last element: the second call depends on the first. -/
example : (Client.ask Op.next fun
      | .item (some a) => if a < byte 5 then .ask .nextBack fun o => .done (some (a, o)) else .done none
      | _ => .done none : Client Op (Out u8.Val) (Option (u8.Val × Out u8.Val))).run
        (BoundedRangeIter.call debug64 (IntTy.step debug64 u8)) ⟨byte 3, byte 6⟩ =
    .ok (some (byte 3, .item (some (byte 6)))) := by decide

/-! ### Loops over std adapters -/

/-- C89. On a normal set, where no piece reaches an end of the element type: `for` loops over the iterator itself, `rev()`,
`skip(n)`, `step_by(k)` and `rev().step_by(k)` see all elements in order, in reverse, all but the first `n`, and every
`k`-th one. -/
theorem C89_set_loops (L : LawfulStep p S idx) (s : BoundedSet T) (hs : Pieces s.ranges)
    (hsize : ∀ r ∈ s.ranges, r.size idx < p.usizeCount) (habove : ∀ r ∈ s.ranges, r.RoomAbove idx 0)
    (hbelow : ∀ r ∈ s.ranges, r.RoomBelow idx 0) :
    ∃ it l, s.intoIter S = .ok it ∧ Lists l s.contains ∧ ∀ fuel, l.length < fuel →
      (Client.forLoop fuel).run (BoundedSetIter.call p S) it = .ok (some l) ∧
      (Client.forRev fuel).run (BoundedSetIter.call p S) it = .ok (some l.reverse) ∧
      (∀ n, n < p.usizeCount → (Client.forSkip n fuel).run (BoundedSetIter.call p S) it = .ok (some (l.drop n))) ∧
      ∀ k, 0 < k → k ≤ p.usizeCount →
        (∃ r, (Client.forStepBy k fuel).run (BoundedSetIter.call p S) it = .ok (some r) ∧ EveryNth k l r) ∧
        ∃ r, (Client.forRevStepBy k fuel).run (BoundedSetIter.call p S) it = .ok (some r) ∧ EveryNth k l.reverse r := by
  have hu := p.le_usizeCount
  obtain ⟨it, l, e, hl, hc⟩ := C89_set (p := p) L s hs
  have aff : ∀ ops : List Op, (∀ op ∈ ops, op.skipFront < p.usizeCount ∧ op.skipBack < p.usizeCount ∧ op.isSize = false) →
      s.Affords p idx ops := fun ops h =>
    ⟨fun op ho => ⟨(h op ho).1, (h op ho).2.1⟩, hsize, fun _ => habove, fun _ => hbelow,
      fun ⟨op, ho, hz⟩ => by rw [(h op ho).2.2] at hz; cases hz⟩
  refine ⟨it, l, e, hl, fun fuel hf => ⟨?_, ?_, fun n hn => ?_, fun k hk hku => ⟨?_, ?_⟩⟩⟩
  · rw [Client.forLoop, hc _ _ (aff _ fun op ho => ?_), Client.drain_next l fuel hf]
    rw [Client.drain_trace _ _ _ op ho]
    exact ⟨by simp [Op.skipFront]; omega, by simp [Op.skipBack]; omega, rfl⟩
  · rw [Client.forRev, hc _ _ (aff _ fun op ho => ?_), Client.drain_nextBack l fuel hf]
    rw [Client.drain_trace _ _ _ op ho]
    exact ⟨by simp [Op.skipFront]; omega, by simp [Op.skipBack]; omega, rfl⟩
  · have hnext : ∀ l' : List T, ∀ op ∈ (Client.drain .next fuel).trace listCall l',
        op.skipFront < p.usizeCount ∧ op.skipBack < p.usizeCount ∧ op.isSize = false := fun l' op ho => by
      rw [Client.drain_trace _ _ _ op ho]
      exact ⟨by simp [Op.skipFront]; omega, by simp [Op.skipBack]; omega, rfl⟩
    rw [Client.forSkip]
    split
    · rename_i h0
      subst h0
      rw [hc _ _ (aff _ (hnext l)), Client.drain_next l fuel hf, List.drop_zero]
    · rw [hc _ _ (aff _ fun op ho => ?_)]
      · rw [Client.andThen, Client.onList]
        simp only [listCall]
        cases hd : l.drop n with
        | nil =>
          have : l[n]? = none := by simpa [List.drop_eq_nil_iff] using hd
          simp only [this, Client.onList]
        | cons x xs =>
          have h1 : l[n]? = some x := by
            have := congrArg (·[0]?) hd
            simpa using this
          have h2 : l.drop (n + 1) = xs := by rw [← List.tail_drop, hd]; rfl
          have h3 := congrArg List.length hd
          simp only [List.length_drop, List.length_cons] at h3
          simp only [h1, h2, Client.map_onList]
          rw [Client.drain_next xs fuel (by omega)]
          rfl
      · rcases Client.andThen_trace _ _ _ op ho with rfl | ho
        · exact ⟨hn, by simp [Op.skipBack]; omega, rfl⟩
        · exact hnext _ op ho
  · rw [Client.forStepBy, hc _ _ (aff _ fun op ho => ?_)]
    · rw [Client.andThen, Client.onList]
      simp only [listCall]
      cases l with
      | nil => exact ⟨[], rfl, fun j => by simp⟩
      | cons x xs =>
        simp only [List.getElem?_cons_zero, Client.map_onList, Nat.zero_add, List.drop_succ_cons, List.drop_zero]
        rw [Client.drain_nth _ _ _ (by simp at hf; omega)]
        refine ⟨_, rfl, fun j => ?_⟩
        cases j with
        | zero => simp
        | succ j =>
          rw [List.getElem?_cons_succ, Client.strides_getElem?]
          obtain ⟨k, rfl⟩ := Nat.exists_eq_succ_of_ne_zero (by omega : k ≠ 0)
          rw [show (j + 1) * k.succ = (k + j * (k + 1)) + 1 by rw [Nat.succ_eq_add_one]; ring, List.getElem?_cons_succ]
          rfl
    · rcases Client.andThen_trace _ _ _ op ho with rfl | ho
      · exact ⟨by simp [Op.skipFront]; omega, by simp [Op.skipBack]; omega, rfl⟩
      · rw [Client.drain_trace _ _ _ op ho]
        exact ⟨by simp [Op.skipFront]; omega, by simp [Op.skipBack]; omega, rfl⟩
  · rw [Client.forRevStepBy, hc _ _ (aff _ fun op ho => ?_)]
    · rw [Client.andThen, Client.onList]
      simp only [listCall]
      generalize hm : l.reverse = m at *
      have hlm : m.length = l.length := by rw [← hm, List.length_reverse]
      cases m with
      | nil => exact ⟨[], rfl, fun j => by simp⟩
      | cons x xs =>
        simp only [List.getElem?_cons_zero, Client.map_onList, Nat.zero_add, List.drop_succ_cons, List.drop_zero]
        rw [Client.drain_nthBack _ _ _ (by simp at hlm ⊢; omega), List.reverse_reverse]
        refine ⟨_, rfl, fun j => ?_⟩
        cases j with
        | zero => simp
        | succ j =>
          rw [List.getElem?_cons_succ, Client.strides_getElem?]
          obtain ⟨k, rfl⟩ := Nat.exists_eq_succ_of_ne_zero (by omega : k ≠ 0)
          rw [show (j + 1) * k.succ = (k + j * (k + 1)) + 1 by rw [Nat.succ_eq_add_one]; ring, List.getElem?_cons_succ]
          rfl
    · rcases Client.andThen_trace _ _ _ op ho with rfl | ho
      · exact ⟨by simp [Op.skipFront]; omega, by simp [Op.skipBack]; omega, rfl⟩
      · rw [Client.drain_trace _ _ _ op ho]
        exact ⟨by simp [Op.skipFront]; omega, by simp [Op.skipBack]; omega, rfl⟩

example : Pieces s37.ranges ∧ (∀ r ∈ s37.ranges, r.RoomAbove IntTy.idx 0) ∧ (∀ r ∈ s37.ranges, r.RoomBelow IntTy.idx 0) ∧
    (do let it ← s37.intoIter (IntTy.step debug64 u8)
        (Client.forStepBy 3 9).run (BoundedSetIter.call debug64 (IntTy.step debug64 u8)) it) = .ok (some [byte 3, byte 6, byte 12]) :=
  ⟨by decide, s37_above, s37_below, by decide +kernel⟩

/-- C89. On a range: a `for` loop sees all elements in order, if there is a value after the last, one over `rev()` sees them in
reverse, if there is a value before the first, and one over `skip(n)` all but the first `n`, if there are `n` more. -/
theorem C89_range_loops (L : LawfulStep p S idx) (r : BoundedRange T) (hr : r.Representable idx) :
    ∃ it l, r.intoIter S = .ok it ∧ Lists l r.contains ∧ ∀ fuel, l.length < fuel →
      (r.RoomAbove idx 0 → (Client.forLoop fuel).run (BoundedRangeIter.call p S) it = .ok (some l)) ∧
      (r.RoomBelow idx 0 → (Client.forRev fuel).run (BoundedRangeIter.call p S) it = .ok (some l.reverse)) ∧
      ∀ n, n < p.usizeCount → r.RoomAbove idx n →
        (Client.forSkip n fuel).run (BoundedRangeIter.call p S) it = .ok (some (l.drop n)) := by
  have hu := p.le_usizeCount
  obtain ⟨it, l, e, hl, hc⟩ := C89_range (S := S) (p := p) L r hr
  have hdrain : ∀ (o : Op) (fuel : Nat) (l' : List T), o.skipFront = 0 → o.skipBack = 0 →
      UsizeArgs p ((Client.drain (T := T) o fuel).trace listCall l') ∧
      skipsFront ((Client.drain (T := T) o fuel).trace listCall l') = 0 ∧
      skipsBack ((Client.drain (T := T) o fuel).trace listCall l') = 0 := by
    intro o fuel l' h1 h2
    have hd := Client.drain_trace (T := T) (lc := listCall) o fuel l'
    refine ⟨fun op ho => by rw [hd op ho, h1, h2]; exact ⟨by omega, by omega⟩, ?_, ?_⟩
    · refine List.sum_eq_zero_iff_forall_eq_nat.2 fun x hx => ?_
      obtain ⟨op, ho, rfl⟩ := List.mem_map.1 hx
      rw [hd op ho, h1]
    · refine List.sum_eq_zero_iff_forall_eq_nat.2 fun x hx => ?_
      obtain ⟨op, ho, rfl⟩ := List.mem_map.1 hx
      rw [hd op ho, h2]
  have hfor : ∀ fuel, l.length < fuel → r.RoomAbove idx 0 →
      (Client.drain .next fuel).run (BoundedRangeIter.call p S) it = .ok (some l) := by
    intro fuel hf hroom
    obtain ⟨h1, h2, h3⟩ := hdrain .next fuel l rfl rfl
    have hd := Client.drain_trace (T := T) (lc := listCall) .next fuel l
    rw [hc _ _ ⟨h1, fun _ => by rw [h2]; exact hroom, ?_, ?_⟩, Client.drain_next l fuel hf]
    · rintro ⟨op, ho, h⟩; rw [hd op ho] at h; cases h
    · rintro ⟨op, ho, h⟩; rw [hd op ho] at h; cases h
  refine ⟨it, l, e, hl, fun fuel hf => ⟨hfor fuel hf, fun hroom => ?_, fun n hn hroom => ?_⟩⟩
  · obtain ⟨h1, h2, h3⟩ := hdrain .nextBack fuel l rfl rfl
    have hd := Client.drain_trace (T := T) (lc := listCall) .nextBack fuel l
    rw [Client.forRev, hc _ _ ⟨h1, ?_, fun _ => by rw [h3]; exact hroom, ?_⟩, Client.drain_nextBack l fuel hf]
    · rintro ⟨op, ho, h⟩; rw [hd op ho] at h; cases h
    · rintro ⟨op, ho, h⟩; rw [hd op ho] at h; cases h
  · rw [Client.forSkip]
    split
    · rename_i h0
      subst h0
      rw [hfor fuel hf hroom, List.drop_zero]
    · have htr := Client.andThen_trace (T := T) (lc := listCall) (.nth n) (Client.drain .next fuel) l
      have hd := Client.drain_trace (T := T) (lc := listCall) .next fuel (listCall l (.nth n)).2
      have hops : ∀ op ∈ (Client.andThen (.nth n) (Client.drain (T := T) .next fuel)).trace listCall l,
          op = .nth n ∨ op = .next := fun op ho => (htr op ho).imp_right (hd op)
      have hsk : skipsFront ((Client.andThen (.nth n) (Client.drain (T := T) .next fuel)).trace listCall l) = n := by
        have h0 := (hdrain .next fuel (l.drop (n + 1)) rfl rfl).2.1
        simp only [Client.andThen, Client.trace, listCall, skipsFront, List.map_cons, List.sum_cons, Op.skipFront] at h0 ⊢
        cases l[n]? with
        | none => simp [Client.trace]
        | some t => simp only [Client.map_trace]; rw [h0, Nat.add_zero]
      have hargs : UsizeArgs p ((Client.andThen (.nth n) (Client.drain (T := T) .next fuel)).trace listCall l) := fun op ho => by
        rcases hops op ho with rfl | rfl
        · exact ⟨hn, by simp [Op.skipBack]; omega⟩
        · exact ⟨by simp [Op.skipFront]; omega, by simp [Op.skipBack]; omega⟩
      rw [hc _ _ ⟨hargs, fun _ => by rw [hsk]; exact hroom, ?_, ?_⟩]
      · rw [Client.andThen, Client.onList]
        simp only [listCall]
        cases hd : l.drop n with
        | nil =>
          have : l[n]? = none := by simpa [List.drop_eq_nil_iff] using hd
          simp only [this, Client.onList]
        | cons x xs =>
          have h1 : l[n]? = some x := by
            have := congrArg (·[0]?) hd
            simpa using this
          have h2 : l.drop (n + 1) = xs := by rw [← List.tail_drop, hd]; rfl
          have h3 := congrArg List.length hd
          simp only [List.length_drop, List.length_cons] at h3
          simp only [h1, h2, Client.map_onList]
          rw [Client.drain_next xs fuel (by omega)]
          rfl
      · rintro ⟨op, ho, h⟩; rcases hops op ho with rfl | rfl <;> cases h
      · rintro ⟨op, ho, h⟩; rcases hops op ho with rfl | rfl <;> cases h

/-- `3..7u8`; and `253..=254u8`, which `skip(2)` takes beyond the greatest `u8`. -/
example : (Client.forSkip 2 5).run (BoundedRangeIter.call debug64 (IntTy.step debug64 u8)) ⟨byte 3, byte 6⟩ =
      .ok (some [byte 5, byte 6]) ∧
    (Client.forLoop 5).run (BoundedRangeIter.call debug64 (IntTy.step debug64 u8)) ⟨byte 253, byte 254⟩ =
      .ok (some [byte 253, byte 254]) ∧
    (Client.forSkip 3 5).run (BoundedRangeIter.call debug64 (IntTy.step debug64 u8)) ⟨byte 253, byte 254⟩ =
      .panic "attempt to compute with overflow" := by
  refine ⟨?_, ?_, ?_⟩ <;> decide

/-- C89. `take(n)` on a half-line gives its first `n` elements, if the type goes on for one more. -/
theorem C89_take (L : LawfulStep p S idx) (r : LowerBoundedRange T) (n : Nat) (h : Has idx (r.start.firstIdx idx + n)) :
    ∃ it l, r.intoIter S = .ok it ∧ Initial l r.contains ∧ l.length = n ∧
      (Client.forTake FrontOp.next n).run (LowerBoundedRangeIter.call S) it = .ok l := by
  have hu := p.le_usizeCount
  obtain ⟨it, l, e, hl, hlen, hc⟩ := C89_half_line L r n h
  refine ⟨it, l, e, hl, hlen, ?_⟩
  obtain ⟨k, hk, et⟩ := Client.forTake_trace (lc := listFront) FrontOp.next n l
  have hneeds : ∀ k, needs (List.replicate k FrontOp.next) = k := by
    intro k
    induction k with
    | zero => rfl
    | succ k ih => rw [List.replicate_succ, needs, ih, Nat.add_comm]
  rw [hc _ _ ?_ ?_, Client.forTake_front, ← hlen, List.take_length]
  · rw [et]
    intro op ho
    simp only [List.map_replicate, List.mem_replicate] at ho
    rw [ho.2]
    exact ⟨by simp [Op.skipFront, FrontOp.toOp]; omega, by simp [Op.skipBack, FrontOp.toOp]; omega⟩
  · rw [et, hneeds]; exact hk

example : (do let it ← (⟨.excluded (byte 251)⟩ : LowerBoundedRange u8.Val).intoIter (IntTy.step debug64 u8)
              (Client.forTake FrontOp.next 3).run (LowerBoundedRangeIter.call (IntTy.step debug64 u8)) it) =
    .ok [byte 252, byte 253, byte 254] := by decide

/-! ### `step_by` on a range needs the values it steps to -/

namespace BoundedRangeIter

theorem nth_returns (L : LawfulStep p S idx) (C : S.Checked p idx) (it : BoundedRangeIter T) {n : Nat}
    (hn : n < p.usizeCount) :
    (∃ x, it.nth S n = .ok x ∧ idx x.2.current = idx it.current + n + (if idx it.current + n ≤ idx it.last then 1 else 0) ∧
        x.2.last = it.last) ↔
      Has idx (idx it.current + n) ∧ (idx it.current + n ≤ idx it.last → Has idx (idx it.current + n + 1)) := by
  have hu := p.le_usizeCount
  constructor
  · rintro ⟨x, e, -⟩
    unfold nth at e
    obtain ⟨c, hc, e⟩ := Res.bind_eq_ok.1 e
    have hc' := C.forward_ok L hn hc
    refine ⟨⟨c, hc'⟩, fun hle => ?_⟩
    simp only [next] at e
    rw [if_neg (by rw [gt_iff_lt, L.lt_iff]; omega), Res.bind_eq_ok] at e
    obtain ⟨d, hd, _⟩ := e
    have := C.forward_ok L (by omega) hd
    exact ⟨d, by push_cast at this; omega⟩
  · rintro ⟨⟨c, hc⟩, h2⟩
    simp only [nth, L.forward_some _ n c hn hc, Res.bind_ok, next]
    by_cases hle : idx it.current + n ≤ idx it.last
    · obtain ⟨d, hd⟩ := h2 hle
      rw [if_neg (by rw [gt_iff_lt, L.lt_iff]; omega), L.forward_some c 1 d (by omega) (by push_cast; omega), if_pos hle]
      exact ⟨_, rfl, hd, rfl⟩
    · rw [if_pos (by rw [gt_iff_lt, L.lt_iff]; omega), if_neg hle]
      exact ⟨_, rfl, by simpa using hc, rfl⟩

/-- `nth` returns, and where it leaves the iterator. -/
theorem nth_ok_iff (L : LawfulStep p S idx) (C : S.Checked p idx) (it : BoundedRangeIter T) {n : Nat}
    (hn : n < p.usizeCount) : (∃ x, it.nth S n = .ok x) ↔
      Has idx (idx it.current + n) ∧ (idx it.current + n ≤ idx it.last → Has idx (idx it.current + n + 1)) := by
  rw [← nth_returns L C it hn]
  refine ⟨fun ⟨x, e⟩ => ?_, fun ⟨x, e, _⟩ => ⟨x, e⟩⟩
  have hu := p.le_usizeCount
  refine ⟨x, e, ?_⟩
  unfold nth at e
  obtain ⟨c, hc, e⟩ := Res.bind_eq_ok.1 e
  have hc' := C.forward_ok L hn hc
  simp only [next] at e
  by_cases hle : idx it.current + n ≤ idx it.last
  · rw [if_neg (by rw [gt_iff_lt, L.lt_iff]; omega), Res.bind_eq_ok] at e
    obtain ⟨d, hd, e⟩ := e
    cases e
    have := C.forward_ok L (by omega) hd
    rw [if_pos hle]
    exact ⟨by push_cast at this; simp only; omega, rfl⟩
  · rw [if_pos (by rw [gt_iff_lt, L.lt_iff]; omega)] at e
    cases e
    rw [if_neg hle]
    exact ⟨by simpa using hc', rfl⟩

theorem ask_nth (c : Client Op (Out T) (Option (List T))) (m : Nat) (it : BoundedRangeIter T) :
    (∃ x, (Client.andThen (.nth m) c).run (BoundedRangeIter.call p S) it = .ok x) ↔
      ∃ y, it.nth S m = .ok y ∧ (y.1 = none ∨ ∃ x, c.run (BoundedRangeIter.call p S) y.2 = .ok x) := by
  simp only [Client.andThen, Client.run, call]
  cases it.nth S m with
  | panic m => simp
  | ok y =>
    rcases y with ⟨_ | t, it'⟩
    · simp [Client.run]
    · simp only [Res.bind_ok, Res.pure_eq, Client.map_run, Res.ok.injEq, exists_eq_left', reduceCtorEq, false_or]
      cases c.run (BoundedRangeIter.call p S) it' <;> simp

omit [LinearOrder T] in
theorem drain_eq (o : Op) (f : Nat) : (Client.drain o (f + 1) : Client Op (Out T) _) = Client.andThen o (Client.drain o f) :=
  rfl

theorem drain_nth_returns (L : LawfulStep p S idx) (C : S.Checked p idx) {m : Nat} (hm : m < p.usizeCount) (fuel : Nat) :
    ∀ {it : BoundedRangeIter T} {l : List T}, Rep idx it l → l.length < fuel →
      ((∃ x, (Client.drain (.nth m) fuel).run (BoundedRangeIter.call p S) it = .ok x) ↔
        Has idx (idx it.current + m + (m + 1) * (l.length / (m + 1) : Nat))) := by
  induction fuel with
  | zero => intro it l _ h; omega
  | succ f ih =>
    intro it l h hf
    have hlen := h.length
    have hret := nth_returns L C it hm
    rw [drain_eq, ask_nth]
    by_cases hle : m < l.length
    · have hq : l.length / (m + 1) = (l.length - (m + 1)) / (m + 1) + 1 := by
        rw [← Nat.add_div_right _ (Nat.succ_pos m)]; congr 1; omega
      have hle' : idx it.current + m ≤ idx it.last := by omega
      have hnn : (0 : Int) ≤ (m + 1) * (((l.length - (m + 1)) / (m + 1) : Nat) : Int) := by positivity
      have heq : idx it.current + m + (m + 1) * ((l.length / (m + 1) : Nat) : Int) =
          (idx it.current + m + 1) + m + (m + 1) * (((l.length - (m + 1)) / (m + 1) : Nat) : Int) := by
        rw [hq]; push_cast; ring
      rw [heq]
      rw [if_pos hle'] at hret
      have step : ∀ y, it.nth S m = .ok y → idx y.2.current = idx it.current + m + 1 →
          ((∃ x, (Client.drain (.nth m) f).run (BoundedRangeIter.call p S) y.2 = .ok x) ↔
            Has idx (idx it.current + m + 1 + m + (m + 1) * (((l.length - (m + 1)) / (m + 1) : Nat) : Int))) := by
        intro y hy hc
        have hr := (it.nth_ok L C h hm hy).2
        have := ih hr (by rw [List.length_drop]; omega)
        rw [hc, List.length_drop] at this
        exact this
      constructor
      · rintro ⟨y, hy, h0 | hx⟩
        · rw [(it.nth_ok L C h hm hy).1, List.getElem?_eq_none_iff] at h0
          omega
        · obtain ⟨y', hy', hc, -⟩ := hret.2 ((nth_ok_iff L C it hm).1 ⟨y, hy⟩)
          obtain rfl : y = y' := by rw [hy] at hy'; injection hy'
          exact (step y hy hc).1 hx
      · intro hq'
        have hcur := L.has_idx it.current
        obtain ⟨y, hy, hc, -⟩ := hret.2 ⟨L.has_between hcur hq' (by omega) (by omega),
          fun _ => L.has_between hcur hq' (by omega) (by omega)⟩
        exact ⟨y, hy, .inr ((step y hy hc).2 hq')⟩
    · have hle' : ¬idx it.current + m ≤ idx it.last := by omega
      have hd : l.length / (m + 1) = 0 := Nat.div_eq_of_lt (by omega)
      rw [hd]
      simp only [Nat.cast_zero, mul_zero, add_zero]
      constructor
      · rintro ⟨y, hy, -⟩
        exact ((nth_ok_iff L C it hm).1 ⟨y, hy⟩).1
      · intro hq
        obtain ⟨y, hy⟩ := (nth_ok_iff L C it hm).2 ⟨hq, fun h => absurd h hle'⟩
        refine ⟨y, hy, .inl ?_⟩
        rw [(it.nth_ok L C h hm hy).1, List.getElem?_eq_none_iff]
        omega

end BoundedRangeIter

/-- C89. `for x in range.into_iter().step_by(k)` on a non-empty range sees every `k`-th element, if the first value that it
steps to beyond the range exists in the element type; otherwise it panics (std's own ranges do not).  `n` is the number of
elements. -/
theorem C89_range_step_by (L : LawfulStep p S idx) (C : S.Checked p idx) (r : BoundedRange T) (it : BoundedRangeIter T)
    (hit : r.intoIter S = .ok it) (l : List T) (hl : Lists l r.contains) (hne : l ≠ []) (k fuel : Nat) (hk : 0 < k)
    (hku : k ≤ p.usizeCount) (hf : l.length < fuel) :
    (Has idx (r.start.firstIdx idx + k * ((l.length + k - 1) / k : Nat)) →
      ∃ r', (Client.forStepBy k fuel).run (BoundedRangeIter.call p S) it = .ok (some r') ∧ EveryNth k l r') ∧
    (¬Has idx (r.start.firstIdx idx + k * ((l.length + k - 1) / k : Nat)) →
      ∃ m, (Client.forStepBy k fuel).run (BoundedRangeIter.call p S) it = .panic m) := by
  have hu := p.le_usizeCount
  have hat := r.intoIter_ok L C hit
  have hrep := (hat.lists_iff L l).1 hl
  have hlen := hrep.length
  have hpos : 0 < l.length := List.length_pos_iff.2 hne
  obtain ⟨m, rfl⟩ := Nat.exists_eq_succ_of_ne_zero (by omega : k ≠ 0)
  rw [Nat.succ_eq_add_one] at *
  have hq : ((l.length + (m + 1) - 1) / (m + 1) : Nat) = (l.length - 1) / (m + 1) + 1 := by
    rw [← Nat.add_div_right _ (Nat.succ_pos m)]; congr 1; omega
  have hnn : (0 : Int) ≤ (m + 1) * (((l.length - 1) / (m + 1) : Nat) : Int) := by positivity
  have heq : r.start.firstIdx idx + (m + 1 : Nat) * ((l.length + (m + 1) - 1) / (m + 1) : Nat) =
      (idx it.current + 1) + m + (m + 1) * (((l.length - 1) / (m + 1) : Nat) : Int) := by
    rw [hq, ← hat.1]; push_cast; ring
  rw [heq]
  have key : (∃ x, (Client.forStepBy (m + 1) fuel).run (BoundedRangeIter.call p S) it = .ok x) ↔
      Has idx ((idx it.current + 1) + m + (m + 1) * (((l.length - 1) / (m + 1) : Nat) : Int)) := by
    rw [Client.forStepBy, BoundedRangeIter.ask_nth, Nat.add_sub_cancel]
    have h0 := BoundedRangeIter.nth_returns L C it (n := 0) (by omega)
    rw [if_pos (by push_cast; omega)] at h0
    have step : ∀ y, it.nth S 0 = .ok y → idx y.2.current = idx it.current + 1 →
        ((∃ x, (Client.drain (.nth m) fuel).run (BoundedRangeIter.call p S) y.2 = .ok x) ↔
          Has idx (idx it.current + 1 + m + (m + 1) * (((l.length - 1) / (m + 1) : Nat) : Int))) := by
      intro y hy hc
      have := BoundedRangeIter.drain_nth_returns L C (m := m) (by omega) fuel (it.nth_ok L C hrep (by omega) hy).2
        (by rw [List.length_drop]; omega)
      rw [hc, List.length_drop] at this
      exact this
    constructor
    · rintro ⟨y, hy, hn | hx⟩
      · rw [(it.nth_ok L C hrep (by omega) hy).1, List.getElem?_eq_none_iff] at hn
        omega
      · obtain ⟨y', hy', hc, -⟩ := h0.2 ((BoundedRangeIter.nth_ok_iff L C it (by omega)).1 ⟨y, hy⟩)
        obtain rfl : y = y' := by rw [hy] at hy'; injection hy'
        exact (step y hy (by push_cast at hc; omega)).1 hx
    · intro hq'
      have hcur := L.has_idx it.current
      obtain ⟨y, hy, hc, -⟩ := h0.2 ⟨by simpa using hcur, fun _ => L.has_between hcur hq' (by omega) (by omega)⟩
      exact ⟨y, hy, .inr ((step y hy (by push_cast at hc; omega)).2 hq')⟩
  constructor
  · intro hq'
    obtain ⟨x, hx⟩ := key.2 hq'
    have := Client.run_ok (R' := Rep idx) (lc := listCall) (P := fun o => ∃ n, n < p.usizeCount ∧ o = .nth n) (by
      rintro s l o x h ⟨n, hn, rfl⟩ e
      obtain ⟨y, hy, e⟩ := Res.bind_eq_ok.1 e
      cases e
      obtain ⟨h1, h2⟩ := s.nth_ok L C h hn hy
      exact ⟨congrArg _ h1, h2⟩) _ hrep (by
      intro o ho
      rcases Client.andThen_trace _ _ _ o ho with rfl | ho
      · exact ⟨0, by omega, rfl⟩
      · exact ⟨m, by omega, Client.drain_trace _ _ _ o ho⟩) hx
    rw [hx, this, Client.forStepBy, Client.andThen, Client.onList]
    simp only [listCall]
    cases l with
    | nil => exact absurd rfl hne
    | cons x xs =>
      simp only [List.getElem?_cons_zero, Client.map_onList, Nat.zero_add, List.drop_succ_cons, List.drop_zero,
        Nat.add_sub_cancel]
      rw [Client.drain_nth _ _ _ (by simp at hf; omega)]
      refine ⟨_, rfl, fun j => ?_⟩
      cases j with
      | zero => simp
      | succ j =>
        rw [List.getElem?_cons_succ, Client.strides_getElem?,
          show (j + 1) * (m + 1) = (m + j * (m + 1)) + 1 by ring, List.getElem?_cons_succ]
  · intro hq'
    cases h : (Client.forStepBy (m + 1) fuel).run (BoundedRangeIter.call p S) it with
    | ok x => exact absurd (key.1 ⟨x, h⟩) hq'
    | panic s => exact ⟨s, rfl⟩

/-- `(240..250u8).step_by(3)` gives four elements; by 8 it gives 240 and panics before the end of the loop, as it tries to
step from 248 to 256. -/
example :
    (Client.forStepBy 3 20).run (BoundedRangeIter.call debug64 (IntTy.step debug64 u8)) ⟨byte 240, byte 249⟩ =
      .ok (some [byte 240, byte 243, byte 246, byte 249]) ∧
    (Client.forStepBy 8 20).run (BoundedRangeIter.call debug64 (IntTy.step debug64 u8)) ⟨byte 240, byte 249⟩ =
      .panic "attempt to compute with overflow" := by
  constructor <;> decide

end Rangetools
