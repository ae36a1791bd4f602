import Verif.Proofs.CallsConsume
import Verif.Props.Calls

/-!
# C108: the calls that `count`, `last`, `min` and `max` make, under implementations with side effects
-/

namespace Rangetools
variable {T σ : Type} {p : Platform}

open Calls

/-! ### The two models agree -/

/-- C108. With an implementation without side effects the programs are the methods of `Model/Iter.lean`. -/
theorem C108_agree [LinearOrder T] (p : Platform) (S : Step T) (fuel : Nat) :
    (∀ it : BoundedRangeIter T, ((it.countC p).exec S.effects ()).1 = it.count p S ∧
      (it.lastItemC.exec S.effects ()).1 = .ok it.lastItem ∧ (it.minC.exec S.effects ()).1 = it.min S ∧
      (it.maxC.exec S.effects ()).1 = it.max S) ∧
    (∀ it : BoundedSetIter T, ((it.countC p).exec S.effects ()).1 = it.count p S ∧
      ((it.lastItemC p fuel).exec S.effects ()).1 = it.lastItem p S fuel ∧
      ((it.minC p).exec S.effects ()).1 = it.min p S ∧ ((it.maxC p).exec S.effects ()).1 = it.max p S) ∧
    (∀ it : LowerBoundedRangeIter T, (it.minC.exec S.effects ()).1 = it.min S) ∧
    ∀ it : LowerBoundedSetIter T, ((it.minC p).exec S.effects ()).1 = it.min p S := by
  obtain ⟨r, s, l, b, -⟩ := C93_agree p S 0
  obtain ⟨r', s', l', b'⟩ := C88_agree p S 0
  have hf : ∀ (fuel : Nat) (it : BoundedRangeIter T) acc,
      ((it.foldLastC fuel acc).exec S.effects ()).1 = it.foldLast S fuel acc := by
    intro fuel
    induction fuel with
    | zero => intro it acc; rfl
    | succ fuel ih =>
      intro it acc
      rw [BoundedRangeIter.foldLastC, BoundedRangeIter.foldLast, effects_bind, (r it).1, ← (r' it).1]
      rcases it.nextU S with ⟨(_ | t) | m, it'⟩
      · rfl
      · exact ih it' (some t)
      · rfl
  have hp : ∀ l : List (BoundedRangeIter T), BoundedSetIter.popEmpty p S l =
      (match BoundedSetIter.popEmptyU p S l with | (.ok _, l) => .ok l | (.panic m, _) => .panic m) := by
    intro l
    induction l with
    | nil => rfl
    | cons i is ih =>
      rw [BoundedSetIter.popEmpty, BoundedSetIter.popEmptyU]
      cases i.len p S with
      | ok k =>
        simp only [Res.bind_ok]
        split
        · exact ih
        · rfl
      | panic m => rfl
  have h1 : ∀ {τ : Type} (x : Res (Option T) × τ),
      ((pure x.1 : Calls T (Res (Option T))).exec S.effects ()).1 = (do return (← forget x).1) := by
    rintro τ ⟨_ | _, _⟩ <;> rfl
  refine ⟨fun it => ⟨it.lenC_agree S, ?_, ?_, ?_⟩, fun it => ⟨it.lenC_agree S, ?_, ?_, ?_⟩, fun it => ?_, fun it => ?_⟩
  · simp only [BoundedRangeIter.lastItemC, BoundedRangeIter.lastItem, Calls.exec, Step.effects]
    split_ifs with h
    · simp only [h, decide_true]; rfl
    · simp only [h, decide_false]; rfl
  · rw [BoundedRangeIter.minC, BoundedRangeIter.min, effects_bind, (r it).1, ← (r' it).1]
    exact h1 _
  · rw [BoundedRangeIter.maxC, BoundedRangeIter.max, effects_bind, (r it).2.1, ← (r' it).2.1]
    exact h1 _
  · rw [BoundedSetIter.lastItemC, BoundedSetIter.lastItem, effects_bind, BoundedSetIter.popEmptyC_agree, hp]
    rcases BoundedSetIter.popEmptyU p S it.rangeIters.reverse with ⟨_ | _, _ | ⟨i, is⟩⟩
    · rfl
    · exact hf fuel i none
    · rfl
    · rfl
  · rw [BoundedSetIter.minC, BoundedSetIter.min, effects_bind, (s it).1, ← (s' it).1]
    exact h1 _
  · rw [BoundedSetIter.maxC, BoundedSetIter.max, effects_bind, (s it).2.1, ← (s' it).2.1]
    exact h1 _
  · rw [LowerBoundedRangeIter.minC, LowerBoundedRangeIter.min, effects_bind, (l it).1, ← (l' it).1]
    exact h1 _
  · rw [LowerBoundedSetIter.minC, LowerBoundedSetIter.min, effects_bind, (b it).1, ← (b' it).1]
    exact h1 _

/-! ### `count` -/

/-- C108. `count` of a range's iterator asks once for the distance from `current` to `last`, and does nothing else.  `count` of a
set's asks the pieces from the front, each at most once; if it returns, it has asked every piece, and the number is one more
than the distance for each piece that answered with one: exactly with overflow checks, and up to the width of `usize` without. -/
theorem C108_count (E : Effects σ T) (s : σ) :
    (∀ it : BoundedRangeIter T, (it.countC p).trace E s = [.between it.current it.last]) ∧
    (∀ it : BoundedSetIter T,
      (∃ k ≤ it.rangeIters.length,
        (it.countC p).trace E s = (it.rangeIters.take k).map fun i => .between i.current i.last) ∧
      ∀ n, ((it.countC p).exec E s).1 = .ok n →
        (it.countC p).trace E s = it.rangeIters.map (fun i => .between i.current i.last) ∧
        ∃ os : List (Option Nat), List.Forall₂ (fun i o => E.answers.between i.current i.last (.ok o)) it.rangeIters os ∧
          n % p.usizeCount = (os.map fun o => o.elim 0 (· + 1)).sum % p.usizeCount ∧
          (p.overflowChecks = true → n = (os.map fun o => o.elim 0 (· + 1)).sum)) := by
  refine ⟨fun it => ?_, fun it => ?_⟩
  · obtain ⟨o, -, -, h⟩ := BoundedRangeIter.path_len.1 (exec_path E (it.lenC p) s)
    exact h
  · obtain ⟨h1, h2⟩ := BoundedSetIter.path_sumLens_calls (exec_path E (it.countC p) s)
    exact ⟨h1, fun n hn => by simpa using h2 n hn⟩

/-! ### `min` and `max` -/

/-- C108. `min` and `max` of a range's iterator compare `current` with `last`; if the answer is `false` they go on to take a step
whose result nobody sees, and whose panic is theirs.  `last` only compares. -/
theorem C108_range_ends (E : Effects σ T) (it : BoundedRangeIter T) (s : σ) :
    (it.lastItemC.trace E s = [.greater it.current it.last] ∧
      it.lastItemC.exec E s = ((fun g => if g then none else some it.last) <$> (E.greater it.current it.last s).1,
        (E.greater it.current it.last s).2)) ∧
    (∀ m s', E.greater it.current it.last s = (.panic m, s') →
      it.minC.exec E s = (.panic m, s') ∧ it.minC.trace E s = [.greater it.current it.last] ∧
      it.maxC.exec E s = (.panic m, s') ∧ it.maxC.trace E s = [.greater it.current it.last]) ∧
    (∀ s', E.greater it.current it.last s = (.ok true, s') →
      it.minC.exec E s = (.ok none, s') ∧ it.minC.trace E s = [.greater it.current it.last] ∧
      it.maxC.exec E s = (.ok none, s') ∧ it.maxC.trace E s = [.greater it.current it.last]) ∧
    ∀ s', E.greater it.current it.last s = (.ok false, s') →
      it.minC.exec E s = ((fun _ => some it.current) <$> (E.forward it.current 1 s').1, (E.forward it.current 1 s').2) ∧
      it.minC.trace E s = [.greater it.current it.last, .forward it.current 1] ∧
      it.maxC.exec E s = ((fun _ => some it.last) <$> (E.backward it.last 1 s').1, (E.backward it.last 1 s').2) ∧
      it.maxC.trace E s = [.greater it.current it.last, .backward it.last 1] := by
  refine ⟨?_, fun m s' h => ?_, fun s' h => ?_, fun s' h => ?_⟩
  · simp only [BoundedRangeIter.lastItemC, Calls.exec, Calls.trace]
    rcases E.greater it.current it.last s with ⟨(_ | _) | _, _⟩ <;> exact ⟨rfl, rfl⟩
  · simp only [BoundedRangeIter.minC, BoundedRangeIter.maxC, BoundedRangeIter.nextC, BoundedRangeIter.nextBackC, bind_eq,
      Calls.bind, Calls.exec, Calls.trace, h]
    exact ⟨rfl, rfl, rfl, rfl⟩
  · simp only [BoundedRangeIter.minC, BoundedRangeIter.maxC, BoundedRangeIter.nextC, BoundedRangeIter.nextBackC, bind_eq,
      Calls.bind, Calls.exec, Calls.trace, h]
    exact ⟨rfl, rfl, rfl, rfl⟩
  · simp only [BoundedRangeIter.minC, BoundedRangeIter.maxC, BoundedRangeIter.nextC, BoundedRangeIter.nextBackC, bind_eq,
      Calls.bind, Calls.exec, Calls.trace, h]
    rcases E.forward it.current 1 s' with ⟨_ | _, _⟩ <;> rcases E.backward it.last 1 s' with ⟨_ | _, _⟩ <;>
      exact ⟨rfl, rfl, rfl, rfl⟩

/-- C108. `min` of a half-line's iterator takes one step and does not compare. -/
theorem C108_half_line_min (E : Effects σ T) (it : LowerBoundedRangeIter T) (s : σ) :
    it.minC.exec E s = ((fun _ => some it.current) <$> (E.forward it.current 1 s).1, (E.forward it.current 1 s).2) ∧
      it.minC.trace E s = [.forward it.current 1] := by
  simp only [LowerBoundedRangeIter.minC, LowerBoundedRangeIter.nextC, bind_eq, Calls.bind, Calls.exec, Calls.trace]
  rcases E.forward it.current 1 s with ⟨_ | _, _⟩ <;> exact ⟨rfl, rfl⟩

/-! ### `last` of a set -/

/-- C108. `last` of a set's iterator asks the pieces from the back until one has elements.  Then it does not call the `last` of
that piece's iterator but walks through the piece from its front: it compares, steps forward, compares, and so on, until `>` says
`true`; what it returns is the last value from which it stepped. -/
theorem C108_set_last (E : Effects σ T) (it : BoundedSetIter T) (fuel : Nat) (s : σ) (r : Option T)
    (hr : ((it.lastItemC p fuel).exec E s).1 = .ok (some r)) :
    ∃ pre rest cs, it.rangeIters.reverse = pre ++ rest ∧
      (it.lastItemC p fuel).trace E s = (pre ++ rest.take 1).map (fun i => .between i.current i.last) ++ cs ∧
      (∀ i ∈ pre, ∃ o, E.answers.between i.current i.last (.ok o) ∧ o.elim 0 (· + 1) % p.usizeCount = 0) ∧
      (rest = [] ∧ cs = [] ∧ r = none ∨
        ∃ i is vs w, rest = i :: is ∧ (∃ k, E.answers.between i.current i.last (.ok (some k))) ∧ (vs ++ [w]).head? = some i.current ∧
          (vs ++ [w]).IsChain (fun a b => E.answers.forward a 1 (.ok b)) ∧
          (∀ v ∈ vs, E.answers.greater v i.last (.ok false)) ∧ E.answers.greater w i.last (.ok true) ∧
          cs = vs.flatMap (fun v => [.greater v i.last, .forward v 1]) ++ [.greater w i.last] ∧ r = vs.getLast?) := by
  have h := exec_path E (it.lastItemC p fuel) s
  rw [hr, BoundedSetIter.lastItemC, path_bind] at h
  obtain ⟨⟨o, l⟩, c1, c2, h1, h2, e⟩ := h
  obtain ⟨pre, p1, rfl, p2, p3⟩ := BoundedSetIter.path_popEmpty_calls h1
  refine ⟨pre, l, c2, p1, e, fun i hi => ?_, ?_⟩
  · obtain ⟨o, o1, o2⟩ := p2 i hi
    rcases o with (_ | k) | m
    · exact ⟨none, o1, by simp⟩
    · refine ⟨some k, o1, ?_⟩
      simp only [lenOf, Platform.addUsize] at o2
      split at o2
      · cases o2
      · split at o2
        · cases o2
        · simpa using o2
    · cases o2
  rcases o with _ | _
  · cases l with
    | nil =>
      obtain ⟨rfl, e'⟩ := path_done.1 h2
      cases e'
      exact .inl ⟨rfl, rfl, rfl⟩
    | cons i is =>
      obtain ⟨vs, w, v1, -, v2, v3, v4, v5, v6⟩ := BoundedRangeIter.path_foldLast h2
      obtain ⟨o, n, o1, o2, o3⟩ := p3 i is rfl
      obtain ⟨k, rfl, -⟩ := lenOf_pos o2 o3
      exact .inr ⟨i, is, vs, w, rfl, ⟨k, o1⟩, v1, v2, v3, v4, v5, by simpa using v6⟩
  · obtain ⟨-, e'⟩ := path_done.1 h2
    cases e'

/-- C108. The number of turns only matters while `last` has not returned. -/
theorem C108_fuel (E : Effects σ T) (it : BoundedSetIter T) (fuel fuel' : Nat) (hf : fuel ≤ fuel') (s : σ) (r : Option T)
    (hr : ((it.lastItemC p fuel).exec E s).1 = .ok (some r)) :
    (it.lastItemC p fuel').exec E s = (it.lastItemC p fuel).exec E s := by
  have key : ∀ (fuel fuel' : Nat), fuel ≤ fuel' → ∀ (i : BoundedRangeIter T) acc s,
      ((i.foldLastC fuel acc).exec E s).1 = .ok (some r) →
      (i.foldLastC fuel' acc).exec E s = (i.foldLastC fuel acc).exec E s := by
    intro fuel
    induction fuel with
    | zero => intro _ _ i acc s h; cases h
    | succ fuel ih =>
      intro fuel' hf i acc s h
      obtain ⟨fuel', rfl⟩ : ∃ k, fuel' = k + 1 := ⟨fuel' - 1, by omega⟩
      rw [BoundedRangeIter.foldLastC, exec_bind] at h ⊢
      rw [BoundedRangeIter.foldLastC, exec_bind]
      generalize (i.nextC.exec E s).2 = s' at h ⊢
      generalize (i.nextC.exec E s).1 = x at h ⊢
      rcases x with ⟨(_ | t) | m, i'⟩
      · rfl
      · exact ih fuel' (by omega) _ _ _ h
      · rfl
  rw [BoundedSetIter.lastItemC, exec_bind] at hr ⊢
  rw [BoundedSetIter.lastItemC, exec_bind]
  generalize ((BoundedSetIter.popEmptyC p it.rangeIters.reverse).exec E s).2 = s' at hr ⊢
  generalize ((BoundedSetIter.popEmptyC p it.rangeIters.reverse).exec E s).1 = x at hr ⊢
  rcases x with ⟨_ | _, _ | ⟨i, is⟩⟩
  · rfl
  · exact key _ _ hf _ _ _ hr
  · rfl
  · rfl

/-- C108. So with a lawful `Step` `last` takes as many steps as the last piece with elements has, and compares once more than that;
`last` of the piece itself would compare once.  (A piece behind it either has no elements or is so long that its length is not
known to be positive.) -/
theorem C108_last_cost [LinearOrder T] {S : Step T} {idx : T → Int} (L : LawfulStep p S idx) (it : BoundedSetIter T)
    (hup : ∀ i ∈ it.rangeIters, ∃ c, idx c = idx i.last + 1) (fuel : Nat) (r : Option T)
    (hr : ((it.lastItemC p fuel).exec S.effects ()).1 = .ok (some r)) :
    (r = none ∧ stepsIn ((it.lastItemC p fuel).trace S.effects ()) = 0 ∧
      comparesIn ((it.lastItemC p fuel).trace S.effects ()) = 0) ∨
    ∃ front i back, it.rangeIters = front ++ i :: back ∧
      (∀ j ∈ back, idx j.last < idx j.current ∨ p.usizeCount ≤ idx j.last - idx j.current + 1) ∧
      idx i.current ≤ idx i.last ∧ r = some i.last ∧
      stepsIn ((it.lastItemC p fuel).trace S.effects ()) = (idx i.last + 1 - idx i.current).toNat ∧
      comparesIn ((it.lastItemC p fuel).trace S.effects ()) = (idx i.last + 1 - idx i.current).toNat + 1 := by
  obtain ⟨pre, rest, cs, h1, h2, h0, h3⟩ := C108_set_last S.effects it fuel () r hr
  have e1 : ∀ l : List (BoundedRangeIter T), stepsIn (l.map fun i => StepCall.between i.current i.last) = 0 := by
    intro l; induction l <;> simp_all
  have e2 : ∀ l : List (BoundedRangeIter T), comparesIn (l.map fun i => StepCall.between i.current i.last) = 0 := by
    intro l; induction l <;> simp_all
  rw [h2, stepsIn_append, comparesIn_append, e1, e2, Nat.zero_add, Nat.zero_add]
  obtain ⟨-, rfl, rfl⟩ | ⟨i, is, vs, w, rfl, ⟨k, hk⟩, v1, v2, v3, v4, rfl, rfl⟩ := h3
  · exact .inl ⟨rfl, rfl, rfl⟩
  · have hi : i ∈ it.rangeIters := by rw [← List.mem_reverse, h1]; simp
    have hb : ∀ a b o, S.effects.answers.between a b (.ok o) →
        o = if idx a ≤ idx b ∧ idx b - idx a < p.usizeCount then some (idx b - idx a).toNat else none := by
      rintro a b o ⟨s, h⟩
      have h : Res.ok o = S.stepsBetween a b := h
      rw [L.stepsBetween] at h
      simp only [L.le_iff] at h
      exact Res.ok.inj h
    have hle : idx i.current ≤ idx i.last := by
      have := hb _ _ _ hk
      split at this
      · rename_i h; exact h.1
      · cases this
    refine .inr ⟨is.reverse, i, pre.reverse, ?_, fun j hj => ?_, hle, ?_⟩
    · rw [← List.reverse_reverse it.rangeIters, h1]; simp
    · obtain ⟨o, o1, o2⟩ := h0 j (List.mem_reverse.1 hj)
      rw [hb _ _ _ o1] at o2
      split at o2
      · rename_i h
        simp only [Option.elim] at o2
        have := Nat.le_of_dvd (Nat.succ_pos _) (Nat.dvd_of_mod_eq_zero o2)
        right; omega
      · rename_i h
        rw [not_and_or] at h
        omega
    have e3 : ∀ l : List T, stepsIn (l.flatMap (fun v => [StepCall.greater v i.last, .forward v 1]) ++ [.greater w i.last]) =
        l.length := by
      intro l; induction l <;> simp_all
    have e4 : ∀ l : List T, comparesIn (l.flatMap (fun v => [StepCall.greater v i.last, .forward v 1]) ++
        [.greater w i.last]) = l.length + 1 := by
      intro l; induction l <;> simp_all
    rw [e3, e4]
    have hg : ∀ a b g, S.effects.answers.greater a b (.ok g) → (g = true ↔ idx b < idx a) := by
      rintro a b g ⟨s, h⟩
      have h : g = decide (b < a) := by simpa [Step.effects] using h
      rw [← L.lt_iff, h, decide_eq_true_iff]
    have hs : ∀ (us : List T) (c : T), (us ++ [w]).head? = some c →
        (us ++ [w]).IsChain (fun a b => S.effects.answers.forward a 1 (.ok b)) →
        (∀ v ∈ us, S.effects.answers.greater v i.last (.ok false)) →
        us.length = (idx i.last + 1 - idx c).toNat ∧ (idx c ≤ idx i.last → us.getLast? = some i.last) := by
      intro us
      induction us with
      | nil =>
        intro c hc _ _
        cases hc
        have := (hg _ _ _ v4).1 rfl
        exact ⟨by simp; omega, fun h => by omega⟩
      | cons u us ih =>
        intro c hc hch hf
        obtain rfl : u = c := by simpa using hc
        rw [List.forall_mem_cons] at hf
        rw [List.cons_append, List.isChain_cons] at hch
        obtain ⟨hd, htl⟩ := hch
        have hu : idx u ≤ idx i.last := by
          have := mt (hg _ _ _ hf.1).2 (by simp)
          omega
        obtain ⟨d, he⟩ : ∃ d, (us ++ [w]).head? = some d := by cases us <;> exact ⟨_, rfl⟩
        obtain ⟨s, hd⟩ := hd d he
        obtain ⟨z, hz⟩ := hup i hi
        obtain ⟨c', hc'⟩ := L.convex u z (idx u + 1) (by omega) (by omega)
        have hd : Res.ok d = S.forward u 1 := hd
        rw [L.forward_some u 1 c' (lt_of_lt_of_le (by decide) p.le_usizeCount) (by simpa using hc')] at hd
        cases hd
        obtain ⟨j1, j2⟩ := ih _ he htl hf.2
        refine ⟨by rw [List.length_cons, j1]; omega, fun _ => ?_⟩
        by_cases hl : idx d ≤ idx i.last
        · have j2 := j2 hl
          cases us with
          | nil => cases j2
          | cons a b => rw [List.getLast?_cons_cons, j2]
        · have : us = [] := List.length_eq_zero_iff.1 (by omega)
          subst this
          have : idx u = idx i.last := by omega
          rw [List.getLast?_singleton, L.inj this]
    obtain ⟨j1, j2⟩ := hs vs _ v1 v2 v3
    exact ⟨j2 hle, j1, by rw [j1]⟩

/-- 3..=7 and 10..=12 as `u8`: `last` asks the second piece for its length, then compares four times and steps three times. -/
example : ((BoundedSetIter.lastItemC debug64 5 ⟨[⟨byte 3, byte 7⟩, ⟨byte 10, byte 12⟩]⟩).exec
      (IntTy.step debug64 u8).effects ()).1 = .ok (some (some (byte 12))) ∧
    (BoundedSetIter.lastItemC debug64 5 ⟨[⟨byte 3, byte 7⟩, ⟨byte 10, byte 12⟩]⟩).trace (IntTy.step debug64 u8).effects () =
      [.between (byte 10) (byte 12), .greater (byte 10) (byte 12), .forward (byte 10) 1, .greater (byte 11) (byte 12),
        .forward (byte 11) 1, .greater (byte 12) (byte 12), .forward (byte 12) 1, .greater (byte 13) (byte 12)] ∧
    ((BoundedSetIter.countC debug64 ⟨[⟨byte 3, byte 7⟩, ⟨byte 10, byte 12⟩]⟩).exec
      (IntTy.step debug64 u8).effects ()).1 = .ok 8 := by
  decide +kernel

/-- With `moodyStep`, whose steps grow and whose fifth call panics, `last` of a set may panic where `last` of the range does not,
and `max` panics with the step that it does not need. -/
example : ((BoundedSetIter.lastItemC debug64 5 ⟨[⟨0, 20⟩]⟩).exec moodyStep 0).1 = .panic "mood" ∧
    ((BoundedSetIter.lastItemC debug64 5 ⟨[⟨0, 2⟩]⟩).exec moodyStep 0).1 = .ok (some (some 0)) ∧
    ((BoundedSetIter.lastItemC debug64 5 ⟨[⟨0, 4⟩]⟩).exec moodyStep 5).1 = .ok (some (some 0)) ∧
    (BoundedRangeIter.maxC ⟨0, 20⟩).exec moodyStep 3 = (.panic "mood", 5) ∧
    (BoundedRangeIter.lastItemC ⟨0, 20⟩).exec moodyStep 3 = (.ok (some 20), 4) := by
  decide +kernel

end Rangetools
