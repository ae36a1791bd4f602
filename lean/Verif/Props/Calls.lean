import Verif.Proofs.Calls

/-!
# C93, C105: the calls of `Step` and the comparisons that the iterators make, under implementations with side effects
-/

namespace Rangetools
variable {T σ : Type} {p : Platform}

open Calls

/-! ### The two models agree -/

theorem BoundedRangeIter.lenC_agree [LinearOrder T] (S : Step T) (it : BoundedRangeIter T) :
    ((it.lenC p).exec S.effects ()).1 = it.len p S := by
  simp only [lenC, Calls.exec, len, sizeHint, Step.effects]
  rcases S.stepsBetween it.current it.last with (_ | k) | m
  · simp [Calls.exec, assert]
  · simp only [Calls.exec, Res.bind_ok]
    rcases p.addUsize k 1 with l | m
    · simp [assert]
    · rfl
  · rfl

theorem BoundedSetIter.popEmptyC_agree [LinearOrder T] (S : Step T) (l : List (BoundedRangeIter T)) :
    ((popEmptyC p l).exec S.effects ()).1 = popEmptyU p S l := by
  induction l with
  | nil => rfl
  | cons i is ih =>
    rw [popEmptyC, popEmptyU, effects_bind, i.lenC_agree]
    cases i.len p S with
    | ok k =>
      dsimp only
      split
      · exact ih
      · rfl
    | panic m => rfl

theorem BoundedSetIter.skipC_agree [LinearOrder T] (S : Step T) (l : List (BoundedRangeIter T)) (n : Nat) :
    ((skipC p l n).exec S.effects ()).1 = skipU p S l n := by
  induction l generalizing n with
  | nil => rfl
  | cons i is ih =>
    rw [skipC, skipU, effects_bind, i.lenC_agree]
    cases i.len p S with
    | ok k =>
      dsimp only
      split
      · cases p.subUsize n k with
        | ok n => exact ih n
        | panic m => rfl
      · rfl
    | panic m => rfl

theorem BoundedSetIter.lenC_agree [LinearOrder T] (S : Step T) (it : BoundedSetIter T) :
    ((it.lenC p).exec S.effects ()).1 = it.len p S := by
  have h : ∀ l acc, ((sumLensC p acc l).exec S.effects ()).1 = sumLens p S acc l := by
    intro l
    induction l with
    | nil => intro acc; rfl
    | cons i is ih =>
      intro acc
      rw [sumLensC, sumLens, effects_bind, i.lenC_agree]
      cases i.len p S with
      | ok k =>
        simp only [Res.bind_ok]
        cases p.addUsize acc k with
        | ok n => exact ih n
        | panic m => rfl
      | panic m => rfl
  rw [lenC, h, len, sizeHint]
  rcases sumLens p S 0 it.rangeIters with n | m
  · simp [assert]
  · rfl

/-- C93. With an implementation without side effects the programs are the methods of the other models: those of
`Model/Unwind.lean` (and so, by C88, of `Model/Iter.lean`), `into_iter` and `len`. -/
theorem C93_agree [LinearOrder T] (p : Platform) (S : Step T) (n : Nat) :
    (∀ it : BoundedRangeIter T, ((it.nextC).exec S.effects ()).1 = it.nextU S ∧
      ((it.nextBackC).exec S.effects ()).1 = it.nextBackU S ∧ ((it.nthC n).exec S.effects ()).1 = it.nthU S n ∧
      ((it.nthBackC n).exec S.effects ()).1 = it.nthBackU S n ∧ ((it.lenC p).exec S.effects ()).1 = it.len p S) ∧
    (∀ it : BoundedSetIter T, ((it.nextC p).exec S.effects ()).1 = it.nextU p S ∧
      ((it.nextBackC p).exec S.effects ()).1 = it.nextBackU p S ∧ ((it.nthC p n).exec S.effects ()).1 = it.nthU p S n ∧
      ((it.nthBackC p n).exec S.effects ()).1 = it.nthBackU p S n ∧ ((it.lenC p).exec S.effects ()).1 = it.len p S) ∧
    (∀ it : LowerBoundedRangeIter T, ((it.nextC).exec S.effects ()).1 = it.nextU S ∧
      ((it.nthC n).exec S.effects ()).1 = it.nthU S n) ∧
    (∀ it : LowerBoundedSetIter T, ((it.nextC p).exec S.effects ()).1 = it.nextU p S ∧
      ((it.nthC p n).exec S.effects ()).1 = it.nthU p S n) ∧
    (∀ r : BoundedRange T, ((r.intoIterC).exec S.effects ()).1 = r.intoIter S) ∧
    (∀ s : BoundedSet T, ((s.intoIterC).exec S.effects ()).1 = s.intoIter S) ∧
    (∀ r : LowerBoundedRange T, ((r.intoIterC).exec S.effects ()).1 = r.intoIter S) ∧
    ∀ s : LowerBoundedSet T, ((s.intoIterC).exec S.effects ()).1 = s.intoIter S := by
  have r1 : ∀ it : BoundedRangeIter T, ((it.nextC).exec S.effects ()).1 = it.nextU S := fun it => by
    unfold BoundedRangeIter.nextC BoundedRangeIter.nextU
    simp only [Calls.exec, Step.effects]
    split_ifs with h
    · simp only [h, decide_true]; rfl
    · simp only [h, decide_false, Calls.exec]
      cases S.forward it.current 1 <;> rfl
  have r2 : ∀ it : BoundedRangeIter T, ((it.nextBackC).exec S.effects ()).1 = it.nextBackU S := fun it => by
    unfold BoundedRangeIter.nextBackC BoundedRangeIter.nextBackU
    simp only [Calls.exec, Step.effects]
    split_ifs with h
    · simp only [h, decide_true]; rfl
    · simp only [h, decide_false, Calls.exec]
      cases S.backward it.last 1 <;> rfl
  have r3 : ∀ (it : BoundedRangeIter T) n, ((it.nthC n).exec S.effects ()).1 = it.nthU S n := fun it n => by
    unfold BoundedRangeIter.nthC BoundedRangeIter.nthU
    rw [Calls.exec]
    change ((match S.forward it.current n with | .ok c => _ | .panic m => _ : Calls T _).exec S.effects ()).1 = _
    cases S.forward it.current n with
    | ok c => exact r1 _
    | panic m => rfl
  have r4 : ∀ (it : BoundedRangeIter T) n, ((it.nthBackC n).exec S.effects ()).1 = it.nthBackU S n := fun it n => by
    unfold BoundedRangeIter.nthBackC BoundedRangeIter.nthBackU
    rw [Calls.exec]
    change ((match S.backward it.last n with | .ok c => _ | .panic m => _ : Calls T _).exec S.effects ()).1 = _
    cases S.backward it.last n with
    | ok c => exact r2 _
    | panic m => rfl
  have s1 : ∀ it : BoundedSetIter T, ((it.nextC p).exec S.effects ()).1 = it.nextU p S := fun it => by
    unfold BoundedSetIter.nextC BoundedSetIter.nextU
    rw [effects_bind, BoundedSetIter.popEmptyC_agree]
    rcases BoundedSetIter.popEmptyU p S it.rangeIters with ⟨_ | _, _ | _⟩
    · rfl
    · dsimp only
      rw [effects_bind, r1]; rfl
    · rfl
    · rfl
  have s3 : ∀ (it : BoundedSetIter T) n, ((it.nthC p n).exec S.effects ()).1 = it.nthU p S n := fun it n => by
    unfold BoundedSetIter.nthC BoundedSetIter.nthU
    rw [effects_bind, BoundedSetIter.skipC_agree]
    rcases BoundedSetIter.skipU p S it.rangeIters n with ⟨_ | _, _ | _⟩
    · rfl
    · dsimp only
      rw [effects_bind, r3]; rfl
    · rfl
    · rfl
  have h1 : ∀ it : LowerBoundedRangeIter T, ((it.nextC).exec S.effects ()).1 = it.nextU S := fun it => by
    unfold LowerBoundedRangeIter.nextC LowerBoundedRangeIter.nextU
    simp only [Calls.exec, Step.effects]
    cases S.forward it.current 1 <;> rfl
  have h2 : ∀ (it : LowerBoundedRangeIter T) n, ((it.nthC n).exec S.effects ()).1 = it.nthU S n := fun it n => by
    unfold LowerBoundedRangeIter.nthC LowerBoundedRangeIter.nthU
    rw [Calls.exec]
    change ((match S.forward it.current n with | .ok c => _ | .panic m => _ : Calls T _).exec S.effects ()).1 = _
    cases S.forward it.current n with
    | ok c => exact h1 _
    | panic m => rfl
  have i0 : ∀ b : LowerBound T, ((b.firstC).exec S.effects ()).1 =
      (match b.b with | .excluded t => S.forward t 1 | .included t => .ok t) := by
    rintro ⟨t | t⟩ <;> rfl
  have i0' : ∀ b : UpperBound T, ((b.lastC).exec S.effects ()).1 =
      (match b.b with | .excluded t => S.backward t 1 | .included t => .ok t) := by
    rintro ⟨t | t⟩ <;> rfl
  have i1 : ∀ r : BoundedRange T, ((r.intoIterC).exec S.effects ()).1 = r.intoIter S := fun r => by
    unfold BoundedRange.intoIterC BoundedRange.intoIter
    rw [effects_bind, i0]
    rcases r with ⟨⟨a | a⟩, ⟨b | b⟩⟩ <;> dsimp only
    · cases S.forward a 1 with
      | ok c =>
        dsimp only
        rw [effects_bind, i0']
        dsimp only
        cases S.backward b 1 <;> rfl
      | panic m => rfl
    · cases S.forward a 1 with
      | ok c => rfl
      | panic m => rfl
    · rw [effects_bind, i0']
      dsimp only
      cases S.backward b 1 <;> rfl
    · rfl
  have i2 : ∀ s : BoundedSet T, ((s.intoIterC).exec S.effects ()).1 = s.intoIter S := fun s => by
    have h : ∀ l, ((intoItersC l).exec S.effects ()).1 = intoIters S l := by
      intro l
      induction l with
      | nil => rfl
      | cons r rs ih =>
        rw [intoItersC, intoIters, effects_bind, i1]
        cases r.intoIter S with
        | ok i =>
          dsimp only
          rw [effects_bind, ih]
          cases intoIters S rs <;> rfl
        | panic m => rfl
    unfold BoundedSet.intoIterC BoundedSet.intoIter
    rw [effects_bind, h]
    cases intoIters S s.ranges <;> rfl
  have i3 : ∀ r : LowerBoundedRange T, ((r.intoIterC).exec S.effects ()).1 = r.intoIter S := fun r => by
    unfold LowerBoundedRange.intoIterC LowerBoundedRange.intoIter
    rw [effects_bind, i0]
    rcases r with ⟨⟨a | a⟩⟩ <;> dsimp only
    · cases S.forward a 1 <;> rfl
    · rfl
  refine ⟨fun it => ⟨r1 it, r2 it, r3 it n, r4 it n, it.lenC_agree S⟩,
    fun it => ⟨s1 it, ?_, s3 it n, ?_, it.lenC_agree S⟩, fun it => ⟨h1 it, h2 it n⟩, fun it => ⟨?_, ?_⟩, i1, i2, i3,
    fun s => ?_⟩
  · unfold BoundedSetIter.nextBackC BoundedSetIter.nextBackU
    rw [effects_bind, BoundedSetIter.popEmptyC_agree]
    rcases BoundedSetIter.popEmptyU p S it.rangeIters.reverse with ⟨_ | _, _ | _⟩
    · rfl
    · dsimp only
      rw [effects_bind, r2]; rfl
    · rfl
    · rfl
  · unfold BoundedSetIter.nthBackC BoundedSetIter.nthBackU
    rw [effects_bind, BoundedSetIter.skipC_agree]
    rcases BoundedSetIter.skipU p S it.rangeIters.reverse n with ⟨_ | _, _ | _⟩
    · rfl
    · dsimp only
      rw [effects_bind, r4]; rfl
    · rfl
    · rfl
  · unfold LowerBoundedSetIter.nextC LowerBoundedSetIter.nextU
    rw [effects_bind, s1]
    rcases it.setIter.nextU p S with ⟨(_ | _) | _, _⟩
    · dsimp only
      rw [effects_bind, h1]; rfl
    · rfl
    · rfl
  · unfold LowerBoundedSetIter.nthC LowerBoundedSetIter.nthU
    rw [effects_bind, it.setIter.lenC_agree]
    cases it.setIter.len p S with
    | panic m => rfl
    | ok b =>
      dsimp only
      rw [effects_bind, s3]
      rcases it.setIter.nthU p S n with ⟨(_ | _) | _, _⟩
      · dsimp only
        cases p.subUsize n b with
        | panic m => rfl
        | ok k =>
          dsimp only
          rw [effects_bind, h2]; rfl
      · rfl
      · rfl
  · unfold LowerBoundedSet.intoIterC LowerBoundedSet.intoIter
    rw [effects_bind, i2]
    cases s.ranges.intoIter S with
    | ok si =>
      dsimp only
      rw [effects_bind, i3]
      cases s.lowerBoundedRange.intoIter S <;> rfl
    | panic m => rfl

/-! ### How many calls -/

variable (E : Effects σ T)

section

/-- C93. A schedule of calls on the iterator of a range, panics caught, never asks for a distance and takes at most one step
for a `next` or `next_back` and two for an `nth` or `nth_back`, whatever `Step` and `>` do. -/
theorem C93_range_work (it : BoundedRangeIter T) (ms : List Move) (s : σ) :
    asksIn ((caughtC BoundedRangeIter.moveC it ms).trace E s) = 0 ∧
      stepsIn ((caughtC BoundedRangeIter.moveC it ms).trace E s) ≤ (ms.map Move.steps).sum := by
  suffices h : ∀ cs r, Path E.answers (caughtC BoundedRangeIter.moveC it ms) cs r →
      asksIn cs = 0 ∧ stepsIn cs ≤ (ms.map Move.steps).sum from h _ _ (exec_path E _ s)
  induction ms generalizing it with
  | nil =>
    intro cs r h
    obtain ⟨rfl, -⟩ := path_done.1 h
    simp
  | cons m ms ih =>
    intro cs r h
    obtain ⟨o, s', c1, c2, rs, h1, h2, rfl, -⟩ := path_caught h
    obtain ⟨w1, w2, -⟩ := BoundedRangeIter.path_work h1
    obtain ⟨v1, v2⟩ := ih s' _ _ h2
    rw [asksIn_append, stepsIn_append, w1, v1, List.map_cons, List.sum_cons]
    omega

/-- C93. One call on the iterator of a set asks each piece that it drops for its length once, and the piece that stays, if
any, once. -/
theorem C93_set_call (it : BoundedSetIter T) (m : Move) (s : σ) :
    asksIn ((it.moveC p m).trace E s) + ((it.moveC p m).exec E s).1.2.rangeIters.length =
        it.rangeIters.length + (if ((it.moveC p m).exec E s).1.2.rangeIters = [] then 0 else 1) ∧
      stepsIn ((it.moveC p m).trace E s) ≤ m.steps :=
  ⟨(BoundedSetIter.path_work (exec_path E _ s)).1, (BoundedSetIter.path_work (exec_path E _ s)).2.1⟩

/-- C93. So a schedule on a set of `k` pieces of which `k'` are left at the end asks at most `k - k'` times, and once more
for each call: the pieces cost nothing beyond being dropped once. -/
theorem C93_set_work (it : BoundedSetIter T) (ms : List Move) (s : σ) :
    asksIn ((caughtC (BoundedSetIter.moveC p) it ms).trace E s) +
        ((caughtC (BoundedSetIter.moveC p) it ms).exec E s).1.2.rangeIters.length ≤ it.rangeIters.length + ms.length ∧
      stepsIn ((caughtC (BoundedSetIter.moveC p) it ms).trace E s) ≤ (ms.map Move.steps).sum := by
  suffices h : ∀ cs r, Path E.answers (caughtC (BoundedSetIter.moveC p) it ms) cs r →
      asksIn cs + r.2.rangeIters.length ≤ it.rangeIters.length + ms.length ∧ stepsIn cs ≤ (ms.map Move.steps).sum from
    h _ _ (exec_path E _ s)
  induction ms generalizing it with
  | nil =>
    intro cs r h
    obtain ⟨rfl, rfl⟩ := path_done.1 h
    simp
  | cons m ms ih =>
    intro cs r h
    obtain ⟨o, s', c1, c2, rs, h1, h2, rfl, rfl⟩ := path_caught h
    obtain ⟨w1, w2, -⟩ := BoundedSetIter.path_work h1
    obtain ⟨v1, v2⟩ := ih s' _ _ h2
    rw [asksIn_append, stepsIn_append, List.map_cons, List.sum_cons, List.length_cons]
    dsimp only at w1 v1 ⊢
    split at w1 <;> omega

/-- C93. One `next` on a set with a half-line is as cheap; an `nth` that returns asks every piece for its length, and then
does what `nth` on the pieces does. -/
theorem C93_lower_call (it : LowerBoundedSetIter T) (n : Nat) (s : σ) :
    (asksIn ((it.nextC p).trace E s) + ((it.nextC p).exec E s).1.2.setIter.rangeIters.length =
        it.setIter.rangeIters.length + (if ((it.nextC p).exec E s).1.2.setIter.rangeIters = [] then 0 else 1) ∧
      stepsIn ((it.nextC p).trace E s) ≤ 2) ∧
    ((∀ m, ((it.nthC p n).exec E s).1.1 ≠ .panic m) →
      asksIn ((it.nthC p n).trace E s) + ((it.nthC p n).exec E s).1.2.setIter.rangeIters.length =
        2 * it.setIter.rangeIters.length + (if ((it.nthC p n).exec E s).1.2.setIter.rangeIters = [] then 0 else 1)) ∧
    stepsIn ((it.nthC p n).trace E s) ≤ 4 :=
  ⟨⟨(LowerBoundedSetIter.path_work_next (exec_path E _ s)).1, (LowerBoundedSetIter.path_work_next (exec_path E _ s)).2.1⟩,
    (LowerBoundedSetIter.path_work_nth (exec_path E _ s)).2.2.2, (LowerBoundedSetIter.path_work_nth (exec_path E _ s)).2.1⟩

/-- C93. So `m` calls of `nth` that return, with `k'` pieces left after them, have asked at least `m` times `k'` times; and a
schedule of `m` calls on `k` pieces asks at most `k + m * (k + 1)` times. -/
theorem C93_lower_work (it : LowerBoundedSetIter T) (ms : List Move) (s : σ) :
    (asksIn ((caughtC (LowerBoundedSetIter.moveC p) it ms).trace E s) +
        ((caughtC (LowerBoundedSetIter.moveC p) it ms).exec E s).1.2.setIter.rangeIters.length ≤
      it.setIter.rangeIters.length + ms.length * (it.setIter.rangeIters.length + 1)) ∧
    ((∀ m ∈ ms, ∃ n, m = .nth n) →
      (∀ r ∈ ((caughtC (LowerBoundedSetIter.moveC p) it ms).exec E s).1.1, ∀ m, r.2 ≠ .panic m) →
      ms.length * ((caughtC (LowerBoundedSetIter.moveC p) it ms).exec E s).1.2.setIter.rangeIters.length ≤
        asksIn ((caughtC (LowerBoundedSetIter.moveC p) it ms).trace E s)) := by
  suffices h : ∀ cs r, Path E.answers (caughtC (LowerBoundedSetIter.moveC p) it ms) cs r →
      r.2.setIter.rangeIters.length ≤ it.setIter.rangeIters.length ∧
      asksIn cs + r.2.setIter.rangeIters.length ≤
        it.setIter.rangeIters.length + ms.length * (it.setIter.rangeIters.length + 1) ∧
      ((∀ m ∈ ms, ∃ n, m = .nth n) → (∀ x ∈ r.1, ∀ m, x.2 ≠ .panic m) →
        ms.length * r.2.setIter.rangeIters.length ≤ asksIn cs) from (h _ _ (exec_path E _ s)).2
  induction ms generalizing it with
  | nil =>
    intro cs r h
    obtain ⟨rfl, rfl⟩ := path_done.1 h
    simp
  | cons m ms ih =>
    intro cs r h
    obtain ⟨o, s', c1, c2, rs, h1, h2, rfl, rfl⟩ := path_caught h
    obtain ⟨v0, v1, v2⟩ := ih s' _ _ h2
    rw [asksIn_append, List.length_cons]
    dsimp only
    have key : s'.setIter.rangeIters.length ≤ it.setIter.rangeIters.length ∧
        asksIn c1 + s'.setIter.rangeIters.length ≤ 2 * it.setIter.rangeIters.length + 1 ∧
        ((∃ n, m = .nth n) → (∀ q, o ≠ .panic q) →
          asksIn c1 + s'.setIter.rangeIters.length ≥ 2 * it.setIter.rangeIters.length) := by
      have z : ∀ b : List (BoundedRangeIter T), (if b = [] then 0 else 1) ≤ 1 := fun b => by split <;> simp
      cases m with
      | next =>
        obtain ⟨w1, -⟩ := LowerBoundedSetIter.path_work_next h1
        dsimp only at w1
        have := z s'.setIter.rangeIters
        have h0 : s'.setIter.rangeIters.length ≤ it.setIter.rangeIters.length := by
          obtain ⟨d1, d2, q, t', g1, -, ⟨-, -, e⟩ | ⟨-, q', -, e⟩⟩ := LowerBoundedSetIter.path_next h1 <;>
            obtain ⟨-, rfl⟩ := Prod.mk.inj e <;> exact BoundedSetIter.path_length g1
        exact ⟨h0, by omega, by rintro ⟨n, h⟩; cases h⟩
      | nth n =>
        obtain ⟨w1, -, -, w3⟩ := LowerBoundedSetIter.path_work_nth h1
        dsimp only at w1 w3
        have := z s'.setIter.rangeIters
        have h0 : s'.setIter.rangeIters.length ≤ it.setIter.rangeIters.length := by
          obtain ⟨c0, x, -, ⟨q, -, -, e⟩ | ⟨b, d1, d2, q, t', -, g1, -, ⟨-, e, -, -⟩ | ⟨-, k, q', -, -, e⟩⟩⟩ :=
            LowerBoundedSetIter.path_nth h1
          · obtain ⟨-, rfl⟩ := Prod.mk.inj e
            exact le_rfl
          · dsimp only at e
            subst e
            exact BoundedSetIter.path_length g1
          · obtain ⟨-, rfl⟩ := Prod.mk.inj e
            exact BoundedSetIter.path_length g1
        exact ⟨h0, by omega, fun _ hq => by have := w3 hq; omega⟩
      | nextBack =>
        obtain ⟨rfl, e⟩ := path_done.1 h1
        obtain ⟨-, rfl⟩ := Prod.mk.inj e
        exact ⟨le_rfl, by simp; omega, by rintro ⟨n, h⟩; cases h⟩
      | nthBack n =>
        obtain ⟨rfl, e⟩ := path_done.1 h1
        obtain ⟨-, rfl⟩ := Prod.mk.inj e
        exact ⟨le_rfl, by simp; omega, by rintro ⟨n, h⟩; cases h⟩
    obtain ⟨k0, k1, k2⟩ := key
    refine ⟨le_trans v0 k0, ?_, fun hm hr => ?_⟩
    · have : ms.length * (s'.setIter.rangeIters.length + 1) ≤ ms.length * (it.setIter.rangeIters.length + 1) :=
        Nat.mul_le_mul_left _ (by omega)
      have e : (ms.length + 1) * (it.setIter.rangeIters.length + 1) =
        ms.length * (it.setIter.rangeIters.length + 1) + (it.setIter.rangeIters.length + 1) := by ring
      omega
    · have v2 := v2 (fun m' h' => hm m' (List.mem_cons_of_mem _ h')) (fun x hx => hr x (List.mem_cons_of_mem _ hx))
      have k2 := k2 (hm m (by simp)) (hr (m, o) (by simp))
      have e : (ms.length + 1) * rs.2.setIter.rangeIters.length =
        ms.length * rs.2.setIter.rangeIters.length + rs.2.setIter.rangeIters.length := by ring
      omega

/-- C93. A loop that calls `next` on a set of `k` pieces until it says `None` and is given `n` elements has asked exactly
`n + k` times and taken exactly `n` steps, if `steps_between` never says `Some` where `>` may say `true`. -/
theorem C93_drain (hb : ∀ a b k, E.answers.between a b (.ok (some k)) → ¬E.answers.greater a b (.ok true)) (it : BoundedSetIter T) (m : Nat) (s : σ)
    (hr : ∀ r ∈ ((caughtC (BoundedSetIter.moveC p) it (List.replicate m .next)).exec E s).1.1, ∀ q, r.2 ≠ .panic q)
    (hn : (delivered ((caughtC (BoundedSetIter.moveC p) it (List.replicate m .next)).exec E s).1.1).length < m) :
    asksIn ((caughtC (BoundedSetIter.moveC p) it (List.replicate m .next)).trace E s) =
        (delivered ((caughtC (BoundedSetIter.moveC p) it (List.replicate m .next)).exec E s).1.1).length +
          it.rangeIters.length ∧
      stepsIn ((caughtC (BoundedSetIter.moveC p) it (List.replicate m .next)).trace E s) =
        (delivered ((caughtC (BoundedSetIter.moveC p) it (List.replicate m .next)).exec E s).1.1).length := by
  suffices h : ∀ cs r, Path E.answers (caughtC (BoundedSetIter.moveC p) it (List.replicate m .next)) cs r →
      (∀ x ∈ r.1, ∀ q, x.2 ≠ .panic q) →
      asksIn cs + r.2.rangeIters.length = (delivered r.1).length + it.rangeIters.length ∧
        stepsIn cs = (delivered r.1).length ∧ (r.2.rangeIters = [] ∨ m = (delivered r.1).length) by
    obtain ⟨h1, h2, h3 | h3⟩ := h _ _ (exec_path E _ s) hr
    · rw [h3] at h1
      exact ⟨h1, h2⟩
    · omega
  clear hr hn
  have hd : ∀ r : List (Move × Res (Option T)), (delivered r).length = (fronts r).length + (backs r).length := fun r => by
    simp [delivered]
  induction m generalizing it with
  | zero =>
    intro cs r h _
    obtain ⟨rfl, rfl⟩ := path_done.1 h
    simp [delivered, fronts, backs]
  | succ m ih =>
    intro cs r h hr
    obtain ⟨o, s', c1, c2, rs, h1, h2, rfl, rfl⟩ := path_caught h
    have hr' : ∀ x ∈ rs.1, ∀ q, x.2 ≠ .panic q := fun x hx => hr x (List.mem_cons_of_mem _ hx)
    obtain ⟨v1, v2, v3⟩ := ih s' _ _ h2 hr'
    obtain ⟨w1, -⟩ := BoundedSetIter.path_work h1
    rw [asksIn_append, stepsIn_append]
    dsimp only at w1 ⊢
    obtain ⟨x1, x2⟩ | ⟨t, x1, x2, x3⟩ := BoundedSetIter.path_next_cases hb h1 (hr (.next, o) (by simp))
    · obtain ⟨rfl, rfl⟩ := x1
      have y1 := BoundedSetIter.path_nil h2
      simp only [delivered, fronts, backs] at v1 v2 v3 ⊢
      refine ⟨?_, by omega, Or.inl y1⟩
      rw [y1] at v1 ⊢
      simp only [List.length_nil, if_true] at v1 w1 ⊢
      omega
    · subst x1
      rw [hd] at v1 v2 v3
      rw [hd]
      simp only [fronts, backs, Move.isFront, if_true, List.length_cons]
      rw [if_neg x3] at w1
      refine ⟨by omega, by omega, v3.imp id fun h => by omega⟩

end

/-- A lawful implementation qualifies for `C93_drain`. -/
theorem drain_lawful [LinearOrder T] {S : Step T} {idx : T → Int} (L : LawfulStep p S idx) :
    ∀ a b k, S.effects.answers.between a b (.ok (some k)) → ¬S.effects.answers.greater a b (.ok true) := by
  rintro a b k ⟨s, h⟩ ⟨s', h'⟩
  change _ = S.stepsBetween a b at h
  have h' : b < a := by simpa [Step.effects] using h'
  rw [L.stepsBetween] at h
  split at h
  · rename_i hx; exact absurd hx.1 (not_le.2 h')
  · cases h

/-- 3..=7 and 10..=12 as `u8`: eight elements, two pieces. -/
example :
    (delivered ((caughtC (BoundedSetIter.moveC debug64) ⟨[⟨byte 3, byte 7⟩, ⟨byte 10, byte 12⟩]⟩
      (List.replicate 9 .next)).exec (IntTy.step debug64 u8).effects ()).1.1).length = 8 ∧
    (∀ r ∈ ((caughtC (BoundedSetIter.moveC debug64) ⟨[⟨byte 3, byte 7⟩, ⟨byte 10, byte 12⟩]⟩
      (List.replicate 9 .next)).exec (IntTy.step debug64 u8).effects ()).1.1, r.2 ∉ [.panic "attempt to compute with overflow"]) ∧
    asksIn ((caughtC (BoundedSetIter.moveC debug64) ⟨[⟨byte 3, byte 7⟩, ⟨byte 10, byte 12⟩]⟩
      (List.replicate 9 .next)).trace (IntTy.step debug64 u8).effects ()) = 10 := by
  refine ⟨?_, ?_, ?_⟩ <;> decide +kernel

/-- Four pieces of one element and a half-line: the calls of `nth(0)` ask 5, 6, 5, 4, 2 and 0 times, those of `next` at most twice. -/
example : let it : LowerBoundedSetIter u8.Val :=
      ⟨⟨[⟨byte 1, byte 1⟩, ⟨byte 3, byte 3⟩, ⟨byte 5, byte 5⟩, ⟨byte 7, byte 7⟩]⟩, ⟨byte 9⟩⟩
    (List.range 7).map (fun m => asksIn ((caughtC (LowerBoundedSetIter.moveC debug64) it
      (List.replicate m (.nth 0))).trace (IntTy.step debug64 u8).effects ())) = [0, 5, 11, 16, 20, 22, 22] ∧
    (List.range 7).map (fun m => asksIn ((caughtC (LowerBoundedSetIter.moveC debug64) it
      (List.replicate m .next)).trace (IntTy.step debug64 u8).effects ())) = [0, 1, 3, 5, 7, 8, 8] := by
  decide +kernel

/-- C93. `into_iter` asks for no distance, and if it returns it has taken one step for each excluded end, of every piece. -/
theorem C93_into_iter (s : σ) :
    (∀ r : BoundedRange T, asksIn (r.intoIterC.trace E s) = 0 ∧
      ∀ it, (r.intoIterC.exec E s).1 = .ok it → stepsIn (r.intoIterC.trace E s) = r.openEnds) ∧
    (∀ b : BoundedSet T, asksIn (b.intoIterC.trace E s) = 0 ∧
      ∀ it, (b.intoIterC.exec E s).1 = .ok it →
        stepsIn (b.intoIterC.trace E s) = (b.ranges.map BoundedRange.openEnds).sum) ∧
    (∀ r : LowerBoundedRange T, asksIn (r.intoIterC.trace E s) = 0 ∧
      ∀ it, (r.intoIterC.exec E s).1 = .ok it → stepsIn (r.intoIterC.trace E s) = r.openEnds) ∧
    ∀ b : LowerBoundedSet T, asksIn (b.intoIterC.trace E s) = 0 ∧
      ∀ it, (b.intoIterC.exec E s).1 = .ok it → stepsIn (b.intoIterC.trace E s) =
        (b.ranges.ranges.map BoundedRange.openEnds).sum + b.lowerBoundedRange.openEnds := by
  refine ⟨fun r => ?_, fun b => ?_, fun r => ?_, fun b => ?_⟩
  · exact (BoundedRange.path_intoIter (exec_path E r.intoIterC s))
  · exact (BoundedSet.path_intoIter (exec_path E b.intoIterC s))
  · exact (LowerBoundedRange.path_intoIter (exec_path E r.intoIterC s))
  · exact (LowerBoundedSet.path_intoIter (exec_path E b.intoIterC s))

/-! ### Order -/

section
variable [LinearOrder T] {E}

/-- C93. A range's iterator under a `Step` with any side effects whose steps, when they return, go in the right direction:
every schedule of calls, with its panics caught, is given elements of the range, in order and none twice. -/
theorem C93_order_range (C : E.answers.Climbs p) (r : BoundedRange T) (s : σ) (it : BoundedRangeIter T)
    (hit : (r.intoIterC.exec E s).1 = .ok it) (ms : List Move) (hm : UsizeMoves p ms) (s' : σ) :
    (delivered ((caughtC BoundedRangeIter.moveC it ms).exec E s').1.1).Pairwise (· < ·) ∧
      ∀ t ∈ delivered ((caughtC BoundedRangeIter.moveC it ms).exec E s').1.1, r.contains t = true := by
  have hp := exec_path E r.intoIterC s
  rw [hit] at hp
  obtain ⟨h1, h2⟩ := caughtC_safe (R := BoundedRangeIter.Left) (I := fun _ => True) (P := fun m => m.arg < p.usizeCount)
    (fun _ _ _ _ hm _ h => BoundedRangeIter.path_safe C hm h) it trivial ms hm (exec_path E _ s')
  exact ⟨h1, fun t ht => r.path_left C hp (h2 t ht)⟩

/-- C93. The same for a normal `BoundedSet`. -/
theorem C93_order_set (C : E.answers.Climbs p) (b : BoundedSet T) (hb : Inner.Normal (.bs b)) (s : σ)
    (it : BoundedSetIter T) (hit : (b.intoIterC.exec E s).1 = .ok it) (ms : List Move) (hm : UsizeMoves p ms) (s' : σ) :
    (delivered ((caughtC (BoundedSetIter.moveC p) it ms).exec E s').1.1).Pairwise (· < ·) ∧
      ∀ t ∈ delivered ((caughtC (BoundedSetIter.moveC p) it ms).exec E s').1.1, b.contains t = true := by
  have hp := exec_path E b.intoIterC s
  rw [hit] at hp
  obtain ⟨y, hy, e⟩ := BoundedSet.path_intoIters hp
  rw [e it rfl] at hy
  have h := path_intoIters_left C hy
  obtain ⟨h1, h2⟩ := caughtC_safe (R := BoundedSetIter.Left) (I := BoundedSetIter.Sorted)
    (P := fun m => m.arg < p.usizeCount) (fun _ _ _ _ hm hs h => BoundedSetIter.path_safe C hs hm h) it
    (climb_sorted h (C60_one_piece hb)) ms hm (exec_path E _ s')
  refine ⟨h1, fun t ht => ?_⟩
  simpa [BoundedSet.contains] using climb_sets_left h (h2 t ht)

/-- C93. The same for a half-line. -/
theorem C93_order_half_line (C : E.answers.Climbs p) (r : LowerBoundedRange T) (s : σ) (it : LowerBoundedRangeIter T)
    (hit : (r.intoIterC.exec E s).1 = .ok it) (ms : List Move) (hm : UsizeMoves p ms) (s' : σ) :
    (delivered ((caughtC LowerBoundedRangeIter.moveC it ms).exec E s').1.1).Pairwise (· < ·) ∧
      ∀ t ∈ delivered ((caughtC LowerBoundedRangeIter.moveC it ms).exec E s').1.1, r.contains t = true := by
  have hp := exec_path E r.intoIterC s
  rw [hit] at hp
  obtain ⟨h1, h2⟩ := caughtC_safe (R := LowerBoundedRangeIter.Left) (I := fun _ => True)
    (P := fun m => m.arg < p.usizeCount) (fun _ _ _ _ hm _ h => LowerBoundedRangeIter.path_safe C hm h) it trivial ms hm
    (exec_path E _ s')
  exact ⟨h1, fun t ht => r.path_left C hp (h2 t ht)⟩

/-- C93. The same for a normal set with a half-line, if moreover `steps_between` never promises steps that `forward`, in
whatever state, may take past the end. -/
theorem C93_order_lower_set (C : E.answers.Climbs p) (P : E.answers.Promises p) (b : LowerBoundedSet T)
    (hb : Inner.Normal (.lbs b)) (s : σ) (it : LowerBoundedSetIter T) (hit : (b.intoIterC.exec E s).1 = .ok it)
    (ms : List Move) (hm : UsizeMoves p ms) (s' : σ) :
    (delivered ((caughtC (LowerBoundedSetIter.moveC p) it ms).exec E s').1.1).Pairwise (· < ·) ∧
      ∀ t ∈ delivered ((caughtC (LowerBoundedSetIter.moveC p) it ms).exec E s').1.1, b.contains t = true := by
  have hp := exec_path E b.intoIterC s
  rw [hit] at hp
  obtain ⟨y, c1, hy, ⟨m, m', -, e, -⟩ | ⟨si, z, c2, rfl, hz, -, e⟩⟩ := LowerBoundedSet.path_intoIters hp
  · cases e
  obtain ⟨rfl, rfl⟩ := e it rfl
  obtain ⟨y, hy, e⟩ := BoundedSet.path_intoIters hy
  rw [e _ rfl] at hy
  have h := path_intoIters_left C hy
  obtain ⟨h1, h2⟩ := caughtC_safe (R := LowerBoundedSetIter.Left) (I := LowerBoundedSetIter.Sorted)
    (P := fun m => m.arg < p.usizeCount) (fun _ _ _ _ hm hs h => LowerBoundedSetIter.path_safe C P hs hm h) it
    ⟨climb_sorted h (C60_one_piece hb.1), fun t u ht hu =>
      pieces_before_half_line hb (climb_sets_left h ht) (LowerBoundedRange.path_left C hz hu)⟩ ms hm (exec_path E _ s')
  refine ⟨h1, fun t ht => ?_⟩
  rw [← Inner.contains, (C60_sets b.ranges.ranges ⟨.included t⟩ b.lowerBoundedRange t).2.1]
  exact (h2 t ht).imp (climb_sets_left h) (LowerBoundedRange.path_left C hz)

end

/-! ### An implementation with side effects -/

/-- A `Step` on the integers that counts its calls: each step is longer than the one before, and every fifth call
panics; comparisons are counted with them. -/
def moodyStep : Effects Nat Int where
  stepsBetween a b s := (if s % 5 = 4 then .panic "mood" else if a ≤ b then .ok (some 0) else .ok none, s + 1)
  forward a n s := (if s % 5 = 4 then .panic "mood" else .ok (a + n * (s + 1)), s + 1)
  backward a n s := (if s % 5 = 4 then .panic "mood" else .ok (a - n * (s + 1)), s + 1)
  greater a b s := (if s % 5 = 4 then .panic "mood" else .ok (decide (b < a)), s + 1)

theorem moodyStep_climbs (p : Platform) : moodyStep.answers.Climbs p ∧ moodyStep.answers.Promises p := by
  have hp : ∀ (n s : Nat), (0 : Int) ≤ n * (s + 1) := fun n s => by positivity
  have hg : ∀ a b r, moodyStep.answers.greater a b (.ok r) → r = decide (b < a) := by
    rintro a b r ⟨s, h⟩
    simp only [moodyStep] at h
    split at h <;> cases h
    rfl
  refine ⟨⟨fun a n b _ h => ?_, fun a b h => ?_, fun a n b _ h => ?_, fun a b h => ?_, fun a b h => ?_⟩,
    ⟨fun a b k h => ?_, fun a b k n c _ h hk hc => ?_, fun a b h => ?_⟩⟩
  · obtain ⟨s, h⟩ := h
    simp only [moodyStep] at h
    split at h <;> cases h
    have := hp n s; omega
  · obtain ⟨s, h⟩ := h
    simp only [moodyStep] at h
    split at h <;> cases h
    push_cast; omega
  · obtain ⟨s, h⟩ := h
    simp only [moodyStep] at h
    split at h <;> cases h
    have := hp n s; omega
  · obtain ⟨s, h⟩ := h
    simp only [moodyStep] at h
    split at h <;> cases h
    push_cast; omega
  · simpa using hg a b _ h
  · obtain ⟨s, h⟩ := h
    simp only [moodyStep] at h
    split at h
    · cases h
    · split at h
      · assumption
      · cases h
  · obtain ⟨s, h⟩ := h
    obtain ⟨s', hc⟩ := hc
    simp only [moodyStep] at h hc
    split at h
    · cases h
    · split at h <;> cases h
      obtain rfl : n = 0 := by omega
      split at hc <;> cases hc
      simpa
  · simpa using hg a b _ h

/-- 0..=20 and from 60 on, as long as a piece is left: an element, and the comparison of the second call panics. -/
example : Inner.Normal (.lbs ⟨⟨[⟨⟨.included 0⟩, ⟨.included 20⟩⟩]⟩, ⟨⟨.included 60⟩⟩⟩ : Inner Int) ∧
    (((⟨⟨[⟨⟨.included 0⟩, ⟨.included 20⟩⟩]⟩, ⟨⟨.included 60⟩⟩⟩ : LowerBoundedSet Int).intoIterC).exec moodyStep 0).1 =
      .ok ⟨⟨[⟨0, 20⟩]⟩, ⟨60⟩⟩ ∧
    ((caughtC (LowerBoundedSetIter.moveC debug64) ⟨⟨[⟨0, 20⟩]⟩, ⟨60⟩⟩ (List.replicate 8 .next)).exec
      moodyStep 0).1.1.map Prod.snd =
    [.ok (some 0), .panic "mood", .ok (some 3), .panic "mood", .ok (some 11), .panic "mood", .ok (some 60),
      .ok (some 76)] ∧
    asksIn ((caughtC (LowerBoundedSetIter.moveC debug64) ⟨⟨[⟨0, 20⟩]⟩, ⟨60⟩⟩ (List.replicate 8 .next)).trace moodyStep 0) =
      6 ∧
    comparesIn ((caughtC (LowerBoundedSetIter.moveC debug64) ⟨⟨[⟨0, 20⟩]⟩, ⟨60⟩⟩ (List.replicate 8 .next)).trace moodyStep 0) =
      5 := by
  refine ⟨?_, ?_, ?_, ?_, ?_⟩ <;> decide +kernel

/-! ### Comparisons -/

/-- C105. Whatever `Step` and `>` do: `next` and `next_back` on a range start by asking once whether `current` is greater than
`last`, in this order, and never compare anything else. -/
theorem C105_first (E : Effects σ T) (it : BoundedRangeIter T) (s : σ) :
    (∃ cs, it.nextC.trace E s = .greater it.current it.last :: cs ∧ comparesIn cs = 0) ∧
    ∃ cs, it.nextBackC.trace E s = .greater it.current it.last :: cs ∧ comparesIn cs = 0 := by
  have key : ∀ l : List (StepCall T), comparesIn l = 1 → l.head? = some (.greater it.current it.last) →
      ∃ cs, l = .greater it.current it.last :: cs ∧ comparesIn cs = 0 := by
    intro l h1 h2
    cases l with
    | nil => cases h2
    | cons c cs =>
      simp only [List.head?_cons, Option.some.injEq] at h2
      subst h2
      exact ⟨cs, rfl, by simpa using h1⟩
  obtain ⟨-, h1, h2, -⟩ := BoundedRangeIter.path_next (exec_path E it.nextC s)
  obtain ⟨-, h3, h4, -⟩ := BoundedRangeIter.path_nextBack (exec_path E it.nextBackC s)
  exact ⟨key _ h1 h2, key _ h3 h4⟩

/-- C105. `nth` and `nth_back` take a step first; if it returns, they go on in the same way from where it leads. -/
theorem C105_then (E : Effects σ T) (it : BoundedRangeIter T) (n : Nat) (s : σ) :
    (∃ cs, (it.nthC n).trace E s = .forward it.current n :: cs ∧
      ((∃ m, (E.forward it.current n s).1 = .panic m ∧ cs = []) ∨
        ∃ c cs', (E.forward it.current n s).1 = .ok c ∧ cs = .greater c it.last :: cs' ∧ comparesIn cs' = 0)) ∧
    ∃ cs, (it.nthBackC n).trace E s = .backward it.last n :: cs ∧
      ((∃ m, (E.backward it.last n s).1 = .panic m ∧ cs = []) ∨
        ∃ c cs', (E.backward it.last n s).1 = .ok c ∧ cs = .greater it.current c :: cs' ∧ comparesIn cs' = 0) := by
  constructor
  · refine ⟨_, rfl, ?_⟩
    cases h : (E.forward it.current n s).1 with
    | panic m => exact .inl ⟨m, rfl, rfl⟩
    | ok c =>
      obtain ⟨cs', h1, h2⟩ := (C105_first E ⟨c, it.last⟩ (E.forward it.current n s).2).1
      exact .inr ⟨c, cs', rfl, h1, h2⟩
  · refine ⟨_, rfl, ?_⟩
    cases h : (E.backward it.last n s).1 with
    | panic m => exact .inl ⟨m, rfl, rfl⟩
    | ok c =>
      obtain ⟨cs', h1, h2⟩ := (C105_first E ⟨it.current, c⟩ (E.backward it.last n s).2).2
      exact .inr ⟨c, cs', rfl, h1, h2⟩

/-- C105. A schedule of calls on the iterator of a range, panics caught, compares at most once in each call, and exactly once if
none of them panics. -/
theorem C105_range (E : Effects σ T) (it : BoundedRangeIter T) (ms : List Move) (s : σ) :
    comparesIn ((caughtC BoundedRangeIter.moveC it ms).trace E s) ≤ ms.length ∧
    ((∀ r ∈ ((caughtC BoundedRangeIter.moveC it ms).exec E s).1.1, ∀ q, r.2 ≠ .panic q) →
      comparesIn ((caughtC BoundedRangeIter.moveC it ms).trace E s) = ms.length) := by
  suffices h : ∀ cs r, Path E.answers (caughtC BoundedRangeIter.moveC it ms) cs r →
      comparesIn cs ≤ ms.length ∧ ((∀ x ∈ r.1, ∀ q, x.2 ≠ .panic q) → comparesIn cs = ms.length) from
    h _ _ (exec_path E _ s)
  induction ms generalizing it with
  | nil =>
    intro cs r h
    obtain ⟨rfl, -⟩ := path_done.1 h
    simp
  | cons m ms ih =>
    intro cs r h
    obtain ⟨o, s', c1, c2, rs, h1, h2, rfl, rfl⟩ := path_caught h
    obtain ⟨-, -, w3, w4⟩ := BoundedRangeIter.path_work h1
    obtain ⟨v1, v2⟩ := ih s' _ _ h2
    rw [comparesIn_append, List.length_cons]
    refine ⟨by omega, fun hq => ?_⟩
    rw [w4 (hq _ (List.mem_cons_self ..)), v2 fun x hx => hq x (List.mem_cons_of_mem _ hx), Nat.add_comm]

/-- C105. One call on the iterator of a set compares at most once, and if it does not panic exactly once if a piece is left, and
not at all otherwise. -/
theorem C105_set_call (E : Effects σ T) (it : BoundedSetIter T) (m : Move) (s : σ) :
    comparesIn ((it.moveC p m).trace E s) ≤ 1 ∧
    ((∀ q, ((it.moveC p m).exec E s).1.1 ≠ .panic q) →
      comparesIn ((it.moveC p m).trace E s) = if ((it.moveC p m).exec E s).1.2.rangeIters = [] then 0 else 1) :=
  ⟨(BoundedSetIter.path_work (exec_path E _ s)).2.2.1, (BoundedSetIter.path_work (exec_path E _ s)).2.2.2⟩

/-- C105. A schedule on a set, or on a set with a half-line, compares at most once in each call; a half-line never compares. -/
theorem C105_sets (E : Effects σ T) (ms : List Move) (s : σ) :
    (∀ it : BoundedSetIter T, comparesIn ((caughtC (BoundedSetIter.moveC p) it ms).trace E s) ≤ ms.length) ∧
    (∀ it : LowerBoundedSetIter T, comparesIn ((caughtC (LowerBoundedSetIter.moveC p) it ms).trace E s) ≤ ms.length) ∧
    ∀ it : LowerBoundedRangeIter T, comparesIn ((caughtC LowerBoundedRangeIter.moveC it ms).trace E s) = 0 := by
  have key : ∀ {τ : Type} (call : τ → Move → Calls T (Res (Option T) × τ)) (b : Nat),
      (∀ it m cs r, Path E.answers (call it m) cs r → comparesIn cs ≤ b) → ∀ (ms : List Move) (it : τ) cs r,
      Path E.answers (caughtC call it ms) cs r → comparesIn cs ≤ b * ms.length := by
    intro τ call b hc ms
    induction ms with
    | nil =>
      intro it cs r h
      obtain ⟨rfl, -⟩ := path_done.1 h
      simp
    | cons m ms ih =>
      intro it cs r h
      obtain ⟨o, s', c1, c2, rs, h1, h2, rfl, -⟩ := path_caught h
      rw [comparesIn_append, List.length_cons, Nat.mul_add, Nat.mul_one, Nat.add_comm]
      exact Nat.add_le_add (ih _ _ _ h2) (hc _ _ _ _ h1)
  refine ⟨fun it => ?_, fun it => ?_, fun it => ?_⟩
  · have := key (BoundedSetIter.moveC p) 1 (fun _ _ _ _ h => (BoundedSetIter.path_work h).2.2.1) ms it _ _ (exec_path E _ s)
    rwa [Nat.one_mul] at this
  · have := key (LowerBoundedSetIter.moveC p) 1 (fun it m cs r h => ?_) ms it _ _ (exec_path E _ s)
    · rwa [Nat.one_mul] at this
    · cases m with
      | next => exact (LowerBoundedSetIter.path_work_next h).2.2
      | nth n => exact (LowerBoundedSetIter.path_work_nth h).2.2.1
      | nextBack => obtain ⟨rfl, -⟩ := path_done.1 h; simp
      | nthBack n => obtain ⟨rfl, -⟩ := path_done.1 h; simp
  · have := key LowerBoundedRangeIter.moveC 0 (fun _ _ _ _ h => (LowerBoundedRangeIter.path_work h).2.2.le) ms it _ _
      (exec_path E _ s)
    rw [Nat.zero_mul] at this
    exact Nat.le_zero.1 this

/-- C105. Only the comparison ends a range: if `>` never says `true`, every call that does not panic gives an element; if it never
says `false`, none does. -/
theorem C105_end (E : Effects σ T) (it : BoundedRangeIter T) (m : Move) (s : σ) :
    ((∀ a b, ¬E.answers.greater a b (.ok true)) → ((it.moveC m).exec E s).1.1 ≠ .ok none) ∧
    ((∀ a b, ¬E.answers.greater a b (.ok false)) → ∀ t, ((it.moveC m).exec E s).1.1 ≠ .ok (some t)) := by
  suffices h : ∀ cs r, Path E.answers (it.moveC m) cs r →
      ((∀ a b, ¬E.answers.greater a b (.ok true)) → r.1 ≠ .ok none) ∧
      ((∀ a b, ¬E.answers.greater a b (.ok false)) → ∀ t, r.1 ≠ .ok (some t)) from h _ _ (exec_path E _ s)
  have hn : ∀ (it : BoundedRangeIter T) cs r, Path E.answers it.nextC cs r →
      ((∀ a b, ¬E.answers.greater a b (.ok true)) → r.1 ≠ .ok none) ∧
      ((∀ a b, ¬E.answers.greater a b (.ok false)) → ∀ t, r.1 ≠ .ok (some t)) := by
    intro it cs r h
    obtain ⟨-, -, -, ⟨hg, -, rfl⟩ | ⟨m, -, rfl⟩ | ⟨hg, -, c, -, rfl⟩⟩ := BoundedRangeIter.path_next h
    · exact ⟨fun h' => absurd hg (h' _ _), by simp⟩
    · simp
    · exact ⟨by simp, fun h' => absurd hg (h' _ _)⟩
  have hb : ∀ (it : BoundedRangeIter T) cs r, Path E.answers it.nextBackC cs r →
      ((∀ a b, ¬E.answers.greater a b (.ok true)) → r.1 ≠ .ok none) ∧
      ((∀ a b, ¬E.answers.greater a b (.ok false)) → ∀ t, r.1 ≠ .ok (some t)) := by
    intro it cs r h
    obtain ⟨-, -, -, ⟨hg, -, rfl⟩ | ⟨m, -, rfl⟩ | ⟨hg, -, c, -, rfl⟩⟩ := BoundedRangeIter.path_nextBack h
    · exact ⟨fun h' => absurd hg (h' _ _), by simp⟩
    · simp
    · exact ⟨by simp, fun h' => absurd hg (h' _ _)⟩
  intro cs r h
  cases m with
  | next => exact hn _ _ _ h
  | nextBack => exact hb _ _ _ h
  | nth n =>
    rcases BoundedRangeIter.path_nth h with ⟨m, -, rfl, -⟩ | ⟨c, cs', -, h', -⟩
    · simp
    · exact hn _ _ _ h'
  | nthBack n =>
    rcases BoundedRangeIter.path_nthBack h with ⟨m, -, rfl, -⟩ | ⟨c, cs', -, h', -⟩
    · simp
    · exact hb _ _ _ h'

/-- The steps of the integers, with a `>` that answers `f`, which may depend on the number of comparisons so far. -/
def liarStep (f : Nat → Int → Int → Bool) : Effects Nat Int where
  stepsBetween a b s := (if a ≤ b then .ok (some (b - a).toNat) else .ok none, s)
  forward a n s := (.ok (a + n), s)
  backward a n s := (.ok (a - n), s)
  greater a b s := (.ok (f s a b), s + 1)

example : ∀ a b, ¬(liarStep fun _ _ _ => false).answers.greater a b (.ok true) := by
  rintro a b ⟨s, h⟩
  cases h

theorem liarStep_climbs (f : Nat → Int → Int → Bool) (hf : ∀ n a b, f n a b = false → a ≤ b) :
    (liarStep f).answers.Climbs p := by
  refine ⟨?_, ?_, ?_, ?_, ?_⟩
  · rintro a n b - ⟨s, h⟩; simp only [liarStep, Res.ok.injEq] at h; omega
  · rintro a b ⟨s, h⟩; simp only [liarStep, Res.ok.injEq] at h; omega
  · rintro a n b - ⟨s, h⟩; simp only [liarStep, Res.ok.injEq] at h; omega
  · rintro a b ⟨s, h⟩; simp only [liarStep, Res.ok.injEq] at h; omega
  · rintro a b ⟨s, h⟩; simp only [liarStep, Res.ok.injEq] at h; exact hf s a b h.symm

/-- C105. Both conditions on `>` in C93 are needed.  With the steps of the integers and a `>` that says `false` of 2 and 1, the
iterator of `0..=1` gives 2.  With a `>` that is wrong only once, and only in saying `true`, the iterator of `0..=3` and `10..`
gives 10 before 0, though the steps and distances are right and `false` is never a lie. -/
theorem C105_lies :
    (2 ∈ delivered ((caughtC BoundedRangeIter.moveC ⟨0, 1⟩ [.next, .next, .next]).exec
        (liarStep fun _ a b => decide (b < a) && !decide (a = 2 ∧ b = 1)) 0).1.1 ∧
      ((⟨⟨.included 0⟩, ⟨.included 1⟩⟩ : BoundedRange Int).intoIterC.exec
        (liarStep fun _ a b => decide (b < a) && !decide (a = 2 ∧ b = 1)) 0).1 = .ok ⟨0, 1⟩) ∧
    (delivered ((caughtC (LowerBoundedSetIter.moveC debug64) ⟨⟨[⟨0, 3⟩]⟩, ⟨10⟩⟩ [.next, .next]).exec
        (liarStep fun n a b => decide (n = 0) || decide (b < a)) 0).1.1 = [10, 0] ∧
      ((⟨⟨[⟨⟨.included 0⟩, ⟨.included 3⟩⟩]⟩, ⟨⟨.included 10⟩⟩⟩ : LowerBoundedSet Int).intoIterC.exec
        (liarStep fun n a b => decide (n = 0) || decide (b < a)) 0).1 = .ok ⟨⟨[⟨0, 3⟩]⟩, ⟨10⟩⟩ ∧
      (liarStep fun n a b => decide (n = 0) || decide (b < a)).answers.Climbs debug64) := by
  refine ⟨⟨by decide +kernel, by decide⟩, by decide +kernel, by decide, liarStep_climbs _ fun n a b h => ?_⟩
  simp only [Bool.or_eq_false_iff, decide_eq_false_iff_not, not_lt] at h
  exact h.2

end Rangetools
