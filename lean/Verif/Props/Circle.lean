import Verif.Spec.Circle
import Verif.Props.Client
import Mathlib.Data.Int.GCD

/-!
# Iteration without overflow checks

C94: what `nth`, `nth_back` and `step_by` of a range of integers do in a build without overflow checks.
-/

namespace Rangetools

namespace IntTy
variable {τ : IntTy}

theorem lands_wrap (τ : IntTy) (x : Int) : Lands (τ.wrap x) x := by
  obtain ⟨k, hk⟩ := wrap_spec τ x
  exact ⟨k, by rw [hk]; simp only [card]; ring⟩

theorem lands_iff {v : τ.Val} {x : Int} : Lands v x ↔ v = τ.wrap x := by
  constructor
  · rintro ⟨k, hk⟩
    rw [wrap_congr (y := v.1) (-k) (by simp only [card]; linarith), wrap_of_mem v.2]
  · rintro rfl
    exact lands_wrap τ x

theorem wrap_add_wrap (x y : Int) : τ.wrap ((τ.wrap x).1 + y) = τ.wrap (x + y) := by
  obtain ⟨k, hk⟩ := wrap_spec τ x
  exact wrap_congr k (by rw [hk]; ring)

theorem forward_unchecked {p : Platform} (hp : p.overflowChecks = false) (a : τ.Val) {n : Nat} (hn : n < p.usizeCount) :
    (step p τ).forward a n = .ok (τ.wrap (a.1 + n)) := by
  rw [forward_eq p τ a n hn, hp]
  split
  · rw [wrap_of_mem]
  · rfl

theorem backward_unchecked {p : Platform} (hp : p.overflowChecks = false) (a : τ.Val) {n : Nat} (hn : n < p.usizeCount) :
    (step p τ).backward a n = .ok (τ.wrap (a.1 - n)) := by
  rw [backward_eq p τ a n hn, hp]
  split
  · rw [wrap_of_mem]
  · rfl

end IntTy

open IntTy

variable {p : Platform} {τ : IntTy}

namespace BoundedRangeIter

theorem nth_unchecked (hp : p.overflowChecks = false) (it : BoundedRangeIter τ.Val) {n : Nat} (hn : n < p.usizeCount) :
    it.nth (IntTy.step p τ) n = .ok (if τ.wrap (it.current.1 + n) ≤ it.last
      then (some (τ.wrap (it.current.1 + n)), ⟨τ.wrap (it.current.1 + n + 1), it.last⟩)
      else (none, ⟨τ.wrap (it.current.1 + n), it.last⟩)) := by
  have hu := p.le_usizeCount
  rw [nth, forward_unchecked hp _ hn, Res.bind_ok, next]
  by_cases h : τ.wrap (it.current.1 + n) ≤ it.last
  · rw [if_neg (not_lt.2 h), if_pos h]
    simp only [forward_unchecked hp _ (show 1 < p.usizeCount by omega), Res.bind_ok, Nat.cast_one, wrap_add_wrap]
    rfl
  · rw [if_pos (not_le.1 h), if_neg h]

theorem nthBack_unchecked (hp : p.overflowChecks = false) (it : BoundedRangeIter τ.Val) {n : Nat}
    (hn : n < p.usizeCount) :
    it.nthBack (IntTy.step p τ) n = .ok (if it.current ≤ τ.wrap (it.last.1 - n)
      then (some (τ.wrap (it.last.1 - n)), ⟨it.current, τ.wrap (it.last.1 - n - 1)⟩)
      else (none, ⟨it.current, τ.wrap (it.last.1 - n)⟩)) := by
  have hu := p.le_usizeCount
  rw [nthBack, backward_unchecked hp _ hn, Res.bind_ok, nextBack]
  by_cases h : it.current ≤ τ.wrap (it.last.1 - n)
  · rw [if_neg (not_lt.2 h), if_pos h]
    simp only [backward_unchecked hp _ (show 1 < p.usizeCount by omega), Res.bind_ok, Nat.cast_one, sub_eq_add_neg,
      wrap_add_wrap]
    rfl
  · rw [if_pos (not_le.1 h), if_neg h]

end BoundedRangeIter

/-- C94. Without overflow checks `nth(n)` goes `n` steps around the circle, whatever is left of the range, and answers with
the value found there if that is not after the end of the range.  `nth_back(n)` likewise from the other end. -/
theorem C94_nth (hp : p.overflowChecks = false) (it : BoundedRangeIter τ.Val) (n : Nat) (hn : n < p.usizeCount) :
    (∃ v w : τ.Val, Lands v (it.current.1 + n) ∧ Lands w (it.current.1 + n + 1) ∧
      it.nth (IntTy.step p τ) n = .ok (if v ≤ it.last then (some v, ⟨w, it.last⟩) else (none, ⟨v, it.last⟩))) ∧
    ∃ v w : τ.Val, Lands v (it.last.1 - n) ∧ Lands w (it.last.1 - n - 1) ∧
      it.nthBack (IntTy.step p τ) n =
        .ok (if it.current ≤ v then (some v, ⟨it.current, w⟩) else (none, ⟨it.current, v⟩)) :=
  ⟨⟨_, _, lands_wrap _ _, lands_wrap _ _, it.nth_unchecked hp hn⟩,
    _, _, lands_wrap _ _, lands_wrap _ _, it.nthBack_unchecked hp hn⟩

/-- `(0..100u8).into_iter().nth(300) == Some(44)`. -/
example : (do return (← (⟨byte 0, byte 99⟩ : BoundedRangeIter u8.Val).nth (IntTy.step release64 u8) 300).1) =
    .ok (some (byte 44)) := by decide

/-- C94. Without overflow checks the first `nth(n)` on a range gives the right answer (the `n`-th contained value, or `None`)
unless it goes past `MAX` and lands on a value that is not after the end of the range. -/
theorem C94_nth_right_iff (hp : p.overflowChecks = false) (r : BoundedRange τ.Val) (hr : r.Representable IntTy.idx)
    (n : Nat) (hn : n < p.usizeCount) :
    ∃ it l o it', r.intoIter (IntTy.step p τ) = .ok it ∧ Lists l r.contains ∧ it.nth (IntTy.step p τ) n = .ok (o, it') ∧
      (o = l[n]? ↔ ¬(τ.max < r.start.firstIdx IntTy.idx + n ∧
        ∃ v : τ.Val, Lands v (r.start.firstIdx IntTy.idx + n) ∧ v.1 ≤ r.stop.lastIdx IntTy.idx)) := by
  have L := IntTy.lawful p τ
  obtain ⟨it, e, h1, h2⟩ := r.intoIter_spec L hr
  obtain ⟨l, hl⟩ := AtEnds.exists_rep L ⟨h1, h2⟩
  have hlen := hl.length
  refine ⟨it, l, if τ.wrap (it.current.1 + n) ≤ it.last then some (τ.wrap (it.current.1 + n)) else none,
    if τ.wrap (it.current.1 + n) ≤ it.last then ⟨τ.wrap (it.current.1 + n + 1), it.last⟩
      else ⟨τ.wrap (it.current.1 + n), it.last⟩,
    e, (AtEnds.lists_iff L ⟨h1, h2⟩ l).2 hl, by rw [it.nth_unchecked hp hn]; split <;> rfl, ?_⟩
  rw [← h1, ← h2]
  simp only [lands_iff, exists_eq_left, IntTy.idx]
  simp only [IntTy.idx] at h1 h2 hlen
  have hget := congrArg (fun l => l[n]?) hl
  simp only [List.getElem?_map, ints_getElem?, IntTy.idx] at hget
  by_cases hle : it.current.1 + n ≤ it.last.1
  · have hlast := it.last.2.2
    have hw : τ.wrap (it.current.1 + n) = ⟨it.current.1 + n, by have := it.current.2; omega⟩ := wrap_of_mem _
    have hw' : τ.wrap (it.current.1 + n) ≤ it.last := by rw [hw]; exact hle
    rw [if_pos hle] at hget
    obtain ⟨t, ht, htv⟩ := Option.map_eq_some_iff.1 hget
    rw [if_pos hw', ht, hw]
    constructor
    · intro _ h; omega
    · intro _; exact congrArg some (Subtype.ext htv.symm)
  · rw [if_neg hle, Option.map_eq_none_iff] at hget
    rw [hget]
    by_cases hw : τ.wrap (it.current.1 + n) ≤ it.last
    · rw [if_pos hw]
      constructor
      · intro h; cases h
      · intro h
        refine absurd ⟨?_, hw⟩ h
        by_contra hm
        rw [wrap_of_mem ⟨by have := it.current.2; omega, by omega⟩] at hw
        exact hle hw
    · rw [if_neg hw]
      exact ⟨fun _ h => hw h.2, fun _ => rfl⟩

/-- `10..100u8` and `nth(200)`, which goes to 210 and rightly answers `None`; `nth(250)` goes to 260, lands on 4 and
answers with it. -/
example : (do return (← (⟨byte 10, byte 99⟩ : BoundedRangeIter u8.Val).nth (IntTy.step release64 u8) 200).1) = .ok none ∧
    (do return (← (⟨byte 10, byte 99⟩ : BoundedRangeIter u8.Val).nth (IntTy.step release64 u8) 250).1) =
      .ok (some (byte 4)) := by constructor <;> decide

/-! ### `step_by` -/

namespace Client
variable {T O σ : Type} {call : σ → O → Res (Out T × σ)} {o : O} {s s' : Nat → σ} {f : Nat → T} {P : Nat → Prop}
  [DecidablePred P]

theorem drain_ends (h : ∀ j, call (s j) o = .ok (if P j then (.item (some (f j)), s (j + 1)) else (.item none, s' j)))
    (J : Nat) : ∀ (i fuel : Nat), (∀ j, i ≤ j → j < i + J → P j) → ¬P (i + J) → J < fuel →
      (drain o fuel).run call (s i) = .ok (some ((List.range' i J).map f)) := by
  induction J with
  | zero =>
    intro i fuel _ hJ hf
    obtain ⟨fuel, rfl⟩ := Nat.exists_eq_succ_of_ne_zero (by omega : fuel ≠ 0)
    simp only [drain, run, h]
    rw [if_neg (by simpa using hJ)]
    rfl
  | succ J ih =>
    intro i fuel hlt hJ hf
    obtain ⟨fuel, rfl⟩ := Nat.exists_eq_succ_of_ne_zero (by omega : fuel ≠ 0)
    simp only [drain, run, h]
    rw [if_pos (hlt i (le_refl _) (by omega))]
    simp only [Res.bind_ok, map_run]
    rw [ih (i + 1) fuel (fun j h1 h2 => hlt j (by omega) (by omega)) (by rwa [show i + 1 + J = i + (J + 1) by omega])
      (by omega)]
    simp [List.range'_succ]

theorem drain_gives_up
    (h : ∀ j, call (s j) o = .ok (if P j then (.item (some (f j)), s (j + 1)) else (.item none, s' j)))
    (fuel : Nat) : ∀ i, (∀ j, i ≤ j → j < i + fuel → P j) → (drain o fuel).run call (s i) = .ok none := by
  induction fuel with
  | zero => intro i _; rfl
  | succ fuel ih =>
    intro i hP
    simp only [drain, run, h]
    rw [if_pos (hP i (le_refl _) (by omega))]
    simp only [Res.bind_ok, map_run]
    rw [ih (i + 1) fun j h1 h2 => hP j (by omega) (by omega)]
    rfl

end Client

/-- The `step_by` loop of a range, as positions on the circle. -/
theorem BoundedRangeIter.stepBy_unchecked (hp : p.overflowChecks = false) (it : BoundedRangeIter τ.Val) {k : Nat} (hk : 0 < k)
    (hku : k ≤ p.usizeCount) (fuel : Nat) :
    (∀ J : Nat, (∀ j, j < J → τ.wrap (it.current.1 + j * k) ≤ it.last) → ¬τ.wrap (it.current.1 + J * k) ≤ it.last → J ≤ fuel →
      (Client.forStepBy k fuel).run (BoundedRangeIter.call p (IntTy.step p τ)) it =
        .ok (some ((List.range J).map fun j : Nat => τ.wrap (it.current.1 + j * k)))) ∧
    ((∀ j : Nat, j ≤ fuel → τ.wrap (it.current.1 + j * k) ≤ it.last) →
      (Client.forStepBy k fuel).run (BoundedRangeIter.call p (IntTy.step p τ)) it = .ok none) := by
  have hu := p.le_usizeCount
  let s : Nat → BoundedRangeIter τ.Val := fun j => ⟨τ.wrap (it.current.1 + 1 + j * k), it.last⟩
  let s' : Nat → BoundedRangeIter τ.Val := fun j => ⟨τ.wrap (it.current.1 + (j + 1 : Nat) * k), it.last⟩
  have hcall : ∀ j, BoundedRangeIter.call p (IntTy.step p τ) (s j) (.nth (k - 1)) =
      .ok (if τ.wrap (it.current.1 + (j + 1 : Nat) * k) ≤ it.last
        then (.item (some (τ.wrap (it.current.1 + (j + 1 : Nat) * k))), s (j + 1)) else (.item none, s' j)) := by
    intro j
    rw [BoundedRangeIter.call, nth_unchecked hp _ (show k - 1 < p.usizeCount by omega)]
    simp only [s, s', wrap_add_wrap, add_assoc]
    have e1 : it.current.1 + (1 + ((j : Int) * k + ((k - 1 : Nat) : Int))) = it.current.1 + (j + 1 : Nat) * k := by
      rw [Nat.cast_sub hk]; push_cast; ring
    have e2 : it.current.1 + (1 + ((j : Int) * k + (((k - 1 : Nat) : Int) + 1))) =
        it.current.1 + (1 + (j + 1 : Nat) * k) := by
      rw [Nat.cast_sub hk]; push_cast; ring
    rw [e1, e2]
    split <;> rfl
  have h0 := it.nth_unchecked hp (n := 0) (by omega)
  simp only [Nat.cast_zero, add_zero] at h0
  have hrun : (Client.forStepBy k fuel).run (BoundedRangeIter.call p (IntTy.step p τ)) it =
      if τ.wrap it.current.1 ≤ it.last then
        ((Client.drain (.nth (k - 1)) fuel).run (BoundedRangeIter.call p (IntTy.step p τ)) (s 0) >>= fun o =>
          .ok (o.map (τ.wrap it.current.1 :: ·)))
      else .ok (some []) := by
    simp only [Client.forStepBy, Client.andThen, Client.run, BoundedRangeIter.call, h0, Res.bind_ok, Res.pure_eq]
    by_cases h : τ.wrap it.current.1 ≤ it.last
    · simp only [if_pos h, Client.map_run]
      simp [s]
    · simp only [if_neg h]
      rfl
  rw [hrun]
  constructor
  · intro J hlt hJ hf
    cases J with
    | zero => rw [if_neg (by simpa using hJ)]; rfl
    | succ J =>
      rw [if_pos (by simpa using hlt 0 (by omega)), Client.drain_ends hcall J 0 fuel (fun j _ h => hlt _ (by omega))
        (by simpa using hJ) (by omega)]
      simp [List.range_succ_eq_map, List.range_eq_range', Function.comp_def]
  · intro hP
    rw [if_pos (by simpa using hP 0 (by omega)), Client.drain_gives_up hcall fuel 0 fun j _ h => hP _ (by omega)]
    rfl

/-- The loop from the back. -/
theorem BoundedRangeIter.revStepBy_unchecked (hp : p.overflowChecks = false) (it : BoundedRangeIter τ.Val) {k : Nat} (hk : 0 < k)
    (hku : k ≤ p.usizeCount) (fuel : Nat) :
    (∀ J : Nat, (∀ j, j < J → it.current ≤ τ.wrap (it.last.1 - j * k)) → ¬it.current ≤ τ.wrap (it.last.1 - J * k) → J ≤ fuel →
      (Client.forRevStepBy k fuel).run (BoundedRangeIter.call p (IntTy.step p τ)) it =
        .ok (some ((List.range J).map fun j : Nat => τ.wrap (it.last.1 - j * k)))) ∧
    ((∀ j : Nat, j ≤ fuel → it.current ≤ τ.wrap (it.last.1 - j * k)) →
      (Client.forRevStepBy k fuel).run (BoundedRangeIter.call p (IntTy.step p τ)) it = .ok none) := by
  have hu := p.le_usizeCount
  let s : Nat → BoundedRangeIter τ.Val := fun j => ⟨it.current, τ.wrap (it.last.1 - 1 - j * k)⟩
  let s' : Nat → BoundedRangeIter τ.Val := fun j => ⟨it.current, τ.wrap (it.last.1 - (j + 1 : Nat) * k)⟩
  have hcall : ∀ j, BoundedRangeIter.call p (IntTy.step p τ) (s j) (.nthBack (k - 1)) =
      .ok (if it.current ≤ τ.wrap (it.last.1 - (j + 1 : Nat) * k)
        then (.item (some (τ.wrap (it.last.1 - (j + 1 : Nat) * k))), s (j + 1)) else (.item none, s' j)) := by
    intro j
    rw [BoundedRangeIter.call, nthBack_unchecked hp _ (show k - 1 < p.usizeCount by omega)]
    simp only [s, s', wrap_add_wrap, sub_eq_add_neg, add_assoc]
    have e1 : it.last.1 + (-1 + (-((j : Int) * k) + -((k - 1 : Nat) : Int))) = it.last.1 + -((j + 1 : Nat) * k) := by
      rw [Nat.cast_sub hk]; push_cast; ring
    have e2 : it.last.1 + (-1 + (-((j : Int) * k) + (-((k - 1 : Nat) : Int) + -1))) =
        it.last.1 + (-1 + -((j + 1 : Nat) * k)) := by
      rw [Nat.cast_sub hk]; push_cast; ring
    rw [e1, e2]
    split <;> rfl
  have h0 := it.nthBack_unchecked hp (n := 0) (by omega)
  simp only [Nat.cast_zero, sub_zero] at h0
  have hrun : (Client.forRevStepBy k fuel).run (BoundedRangeIter.call p (IntTy.step p τ)) it =
      if it.current ≤ τ.wrap it.last.1 then
        ((Client.drain (.nthBack (k - 1)) fuel).run (BoundedRangeIter.call p (IntTy.step p τ)) (s 0) >>= fun o =>
          .ok (o.map (τ.wrap it.last.1 :: ·)))
      else .ok (some []) := by
    simp only [Client.forRevStepBy, Client.andThen, Client.run, BoundedRangeIter.call, h0, Res.bind_ok, Res.pure_eq]
    by_cases h : it.current ≤ τ.wrap it.last.1
    · simp only [if_pos h, Client.map_run]
      simp [s]
    · simp only [if_neg h]
      rfl
  rw [hrun]
  constructor
  · intro J hlt hJ hf
    cases J with
    | zero => rw [if_neg (by simpa using hJ)]; rfl
    | succ J =>
      rw [if_pos (by simpa using hlt 0 (by omega)), Client.drain_ends hcall J 0 fuel (fun j _ h => hlt _ (by omega))
        (by simpa using hJ) (by omega)]
      simp [List.range_succ_eq_map, List.range_eq_range', Function.comp_def]
  · intro hP
    rw [if_pos (by simpa using hP 0 (by omega)), Client.drain_gives_up hcall fuel 0 fun j _ h => hP _ (by omega)]
    rfl

theorem eq_map_wrap {vs : List τ.Val} {g : Nat → Int} (h : ∀ (j : Nat) (hj : j < vs.length), Lands vs[j] (g j)) :
    vs = (List.range vs.length).map fun j => τ.wrap (g j) := by
  apply List.ext_getElem (by simp)
  intro j h1 h2
  simpa using lands_iff.1 (h j h1)

/-- C94. Without overflow checks a loop over `step_by(k)` goes around the circle in steps of `k`, from the first value of the
range, until it lands for the first time on a value after the end of the range.  It does not notice when it passes `MAX`. -/
theorem C94_step_by (hp : p.overflowChecks = false) (it : BoundedRangeIter τ.Val) (k fuel : Nat) (hk : 0 < k)
    (hku : k ≤ p.usizeCount) :
    (∀ (vs : List τ.Val) (v : τ.Val),
      (∀ (j : Nat) (h : j < vs.length), Lands vs[j] (it.current.1 + j * k) ∧ vs[j] ≤ it.last) →
      Lands v (it.current.1 + vs.length * k) → it.last < v → vs.length ≤ fuel →
        (Client.forStepBy k fuel).run (BoundedRangeIter.call p (IntTy.step p τ)) it = .ok (some vs)) ∧
    ((∀ (j : Nat) (v : τ.Val), Lands v (it.current.1 + j * k) → v ≤ it.last) →
      (Client.forStepBy k fuel).run (BoundedRangeIter.call p (IntTy.step p τ)) it = .ok none) := by
  obtain ⟨h1, h2⟩ := it.stepBy_unchecked hp hk hku fuel
  refine ⟨fun vs v hvs hv hlt hf => ?_, fun h => h2 fun j _ => h j _ (lands_wrap _ _)⟩
  have h3 : ∀ j, j < vs.length → τ.wrap (it.current.1 + j * k) ≤ it.last := fun j hj => by
    rw [← lands_iff.1 (hvs j hj).1]; exact (hvs j hj).2
  rw [h1 vs.length h3 (by rw [← lands_iff.1 hv]; exact not_le.2 hlt) hf]
  exact congrArg _ (congrArg _ (eq_map_wrap (g := fun j => it.current.1 + j * k) fun j hj => (hvs j hj).1).symm)

/-- C94. The same for `rev().step_by(k)`, from the last value down, until it lands on a value before the start. -/
theorem C94_rev_step_by (hp : p.overflowChecks = false) (it : BoundedRangeIter τ.Val) (k fuel : Nat) (hk : 0 < k)
    (hku : k ≤ p.usizeCount) :
    (∀ (vs : List τ.Val) (v : τ.Val),
      (∀ (j : Nat) (h : j < vs.length), Lands vs[j] (it.last.1 - j * k) ∧ it.current ≤ vs[j]) →
      Lands v (it.last.1 - vs.length * k) → v < it.current → vs.length ≤ fuel →
        (Client.forRevStepBy k fuel).run (BoundedRangeIter.call p (IntTy.step p τ)) it = .ok (some vs)) ∧
    ((∀ (j : Nat) (v : τ.Val), Lands v (it.last.1 - j * k) → it.current ≤ v) →
      (Client.forRevStepBy k fuel).run (BoundedRangeIter.call p (IntTy.step p τ)) it = .ok none) := by
  obtain ⟨h1, h2⟩ := it.revStepBy_unchecked hp hk hku fuel
  refine ⟨fun vs v hvs hv hlt hf => ?_, fun h => h2 fun j _ => h j _ (lands_wrap _ _)⟩
  have h3 : ∀ j, j < vs.length → it.current ≤ τ.wrap (it.last.1 - j * k) := fun j hj => by
    rw [← lands_iff.1 (hvs j hj).1]; exact (hvs j hj).2
  rw [h1 vs.length h3 (by rw [← lands_iff.1 hv]; exact not_le.2 hlt) hf]
  exact congrArg _ (congrArg _ (eq_map_wrap (g := fun j => it.last.1 - j * k) fun j hj => (hvs j hj).1).symm)

/-- `(0..=250u8).into_iter().step_by(10)`: after 250 comes 4, and so on up to 244; the loop sees 51 values instead of 26. -/
example : (do return (← ((Client.forStepBy 10 100).run (BoundedRangeIter.call release64 (IntTy.step release64 u8))
      ⟨byte 0, byte 250⟩ : Res (Option (List u8.Val)))).map fun vs : List u8.Val => vs.map Subtype.val) =
    .ok (some ((List.range 26).map (fun j : Nat => 10 * (j : Int)) ++ (List.range 25).map fun j : Nat => 4 + 10 * (j : Int))) := by
  decide +kernel

/-- `(5..=255u8).into_iter().rev().step_by(10)`: after 5 comes 251, and so on down to 11. -/
example : (do return (← ((Client.forRevStepBy 10 100).run (BoundedRangeIter.call release64 (IntTy.step release64 u8))
      ⟨byte 5, byte 255⟩ : Res (Option (List u8.Val)))).map fun vs : List u8.Val => vs.map Subtype.val) =
    .ok (some ((List.range 26).map (fun j : Nat => 255 - 10 * (j : Int)) ++
      (List.range 25).map fun j : Nat => 251 - 10 * (j : Int))) := by
  decide +kernel

theorem IntTy.exists_lands (a v : τ.Val) {k : Nat} (h : ((Nat.gcd k (2 ^ τ.bits) : Nat) : Int) ∣ v.1 - a.1) :
    ∃ j : Nat, Lands v (a.1 + j * k) := by
  obtain ⟨q, hq⟩ := h
  have hb := Nat.gcd_eq_gcd_ab k (2 ^ τ.bits)
  have hpos : (0 : Int) < 2 ^ τ.bits := by positivity
  set x := Nat.gcdA k (2 ^ τ.bits)
  set y := Nat.gcdB k (2 ^ τ.bits)
  refine ⟨((x * q) % 2 ^ τ.bits).toNat, ?_⟩
  rw [Int.toNat_of_nonneg (Int.emod_nonneg _ hpos.ne')]
  have hm := Int.emod_add_mul_ediv (x * q) (2 ^ τ.bits)
  refine ⟨y * q + k * (x * q / 2 ^ τ.bits), ?_⟩
  rw [hb] at hq
  push_cast at hq
  have e : (x * q) % 2 ^ τ.bits = x * q - 2 ^ τ.bits * (x * q / 2 ^ τ.bits) := by linarith
  rw [e]
  rw [sub_eq_iff_eq_add] at hq ⊢
  rw [hq]
  ring

theorem IntTy.exists_lands_back (a v : τ.Val) {k : Nat} (h : ((Nat.gcd k (2 ^ τ.bits) : Nat) : Int) ∣ v.1 - a.1) :
    ∃ j : Nat, Lands v (a.1 - j * k) := by
  obtain ⟨j, hj⟩ := IntTy.exists_lands v a ((Int.dvd_neg).1 (by rwa [neg_sub]))
  refine ⟨j, ?_⟩
  obtain ⟨c, hc⟩ := hj
  exact ⟨-c, by linarith⟩

/-- C94. The loop over `step_by(k)` ends if and only if some value after the end of the range differs from the first value by
a multiple of the greatest common divisor of `k` and `2 ^ bits`: for an odd `k` if the range does not contain `MAX`, for
larger powers of two in `k` less and less often. -/
theorem C94_step_by_ends_iff (hp : p.overflowChecks = false) (it : BoundedRangeIter τ.Val) (k : Nat) (hk : 0 < k)
    (hku : k ≤ p.usizeCount) :
    (∃ fuel vs, (Client.forStepBy k fuel).run (BoundedRangeIter.call p (IntTy.step p τ)) it = .ok (some vs)) ↔
      ∃ v : τ.Val, it.last < v ∧ ((Nat.gcd k (2 ^ τ.bits) : Nat) : Int) ∣ v.1 - it.current.1 := by
  constructor
  · rintro ⟨fuel, vs, e⟩
    by_contra hno
    rw [(it.stepBy_unchecked hp hk hku fuel).2 fun j _ => ?_] at e
    · cases e
    · by_contra hj
      refine hno ⟨_, not_le.1 hj, ?_⟩
      obtain ⟨c, hc⟩ := lands_wrap τ (it.current.1 + j * k)
      have h1 : ((Nat.gcd k (2 ^ τ.bits) : Nat) : Int) ∣ (k : Int) := Int.natCast_dvd_natCast.2 (Nat.gcd_dvd_left _ _)
      have h2 : ((Nat.gcd k (2 ^ τ.bits) : Nat) : Int) ∣ (2 ^ τ.bits : Int) := by
        have := Int.natCast_dvd_natCast.2 (Nat.gcd_dvd_right k (2 ^ τ.bits))
        simpa using this
      have e : (τ.wrap (it.current.1 + j * k)).1 - it.current.1 = j * k + 2 ^ τ.bits * c := by linarith
      rw [e]
      exact Int.dvd_add (Dvd.dvd.mul_left h1 _) (Dvd.dvd.mul_right h2 _)
  · rintro ⟨v, hv, hd⟩
    obtain ⟨j, hj⟩ := IntTy.exists_lands it.current v hd
    have hex : ∃ J : Nat, ¬τ.wrap (it.current.1 + J * k) ≤ it.last := ⟨j, by rw [← lands_iff.1 hj]; exact not_le.2 hv⟩
    exact ⟨Nat.find hex, _, (it.stepBy_unchecked hp hk hku _).1 (Nat.find hex)
      (fun j hj => not_not.1 (Nat.find_min hex hj)) (Nat.find_spec hex) (le_refl _)⟩

/-- `(0..=250u8).step_by(8)` never ends, as 251..=255 has no multiple of 8; `step_by(10)` ends at 252 or 254. -/
example : (¬∃ v : u8.Val, byte 250 < v ∧ ((Nat.gcd 8 (2 ^ u8.bits) : Nat) : Int) ∣ v.1 - (byte 0).1) ∧
    ∃ v : u8.Val, byte 250 < v ∧ ((Nat.gcd 10 (2 ^ u8.bits) : Nat) : Int) ∣ v.1 - (byte 0).1 := by
  constructor
  · rintro ⟨⟨v, h1, h2⟩, h, hd⟩
    have h3 : (250 : Int) < v := h
    have h4 : v ≤ 255 := h2
    have h5 : (8 : Int) ∣ v - 0 := hd
    omega
  · exact ⟨byte 254, by decide, by decide⟩

/-- C94. The loop over `step_by(k)` on a range with elements sees every `k`-th of them and ends, if and only if the first
value beyond the range that it steps to exists (is at most `MAX`), or else lands after the end of the range. -/
theorem C94_step_by_right_iff (hp : p.overflowChecks = false) (r : BoundedRange τ.Val) (hr : r.Representable IntTy.idx)
    (l : List τ.Val) (hl : Lists l r.contains) (hne : l ≠ []) (k : Nat) (hk : 0 < k) (hku : k ≤ p.usizeCount) :
    ∃ it, r.intoIter (IntTy.step p τ) = .ok it ∧
      ((∃ fuel vs, (Client.forStepBy k fuel).run (BoundedRangeIter.call p (IntTy.step p τ)) it = .ok (some vs) ∧
          EveryNth k l vs) ↔
        ¬(τ.max < r.start.firstIdx IntTy.idx + k * ((l.length + k - 1) / k : Nat) ∧
          ∃ v : τ.Val, Lands v (r.start.firstIdx IntTy.idx + k * ((l.length + k - 1) / k : Nat)) ∧
            v.1 ≤ r.stop.lastIdx IntTy.idx)) := by
  have L := IntTy.lawful p τ
  obtain ⟨it, e, h1, h2⟩ := r.intoIter_spec L hr
  have hrep := (AtEnds.lists_iff L ⟨h1, h2⟩ l).1 hl
  have hlen := hrep.length
  refine ⟨it, e, ?_⟩
  have hpos : 0 < l.length := List.length_pos_iff.2 hne
  rw [← h1, ← h2]
  simp only [lands_iff, exists_eq_left]
  set m := (l.length + k - 1) / k with hm
  have hm1 : ∀ j, j < m ↔ j * k < l.length := by
    intro j
    rw [hm, Nat.lt_div_iff_mul_lt hk]
    omega
  have hget : ∀ n : Nat, (l[n]?).map Subtype.val = if it.current.1 + n ≤ it.last.1 then some (it.current.1 + n) else none := by
    intro n
    have := congrArg (fun l => l[n]?) hrep
    simp only [List.getElem?_map, ints_getElem?] at this
    exact this
  simp only [IntTy.idx] at *
  have hin : ∀ j, j < m → it.current.1 + (j * k : Nat) ≤ it.last.1 := by
    intro j hj
    have := (hm1 j).1 hj
    omega
  have hwj : ∀ j, (hj : j < m) → (τ.wrap (it.current.1 + j * k)).1 = it.current.1 + (j * k : Nat) := by
    intro j hj
    have h3 := hin j hj
    have h4 := it.last.2.2
    have h5 := it.current.2.1
    push_cast at h3 ⊢
    have : (0 : Int) ≤ (j : Int) * k := by positivity
    rw [wrap_of_mem ⟨by omega, by omega⟩]
  have hle : ∀ j, j < m → τ.wrap (it.current.1 + j * k) ≤ it.last := by
    intro j hj
    show (τ.wrap (it.current.1 + j * k)).1 ≤ it.last.1
    rw [hwj j hj]; exact hin j hj
  have hbeyond : it.last.1 < it.current.1 + (k * m : Nat) := by
    have : ¬ m < m := lt_irrefl _
    rw [hm1, mul_comm] at this
    omega
  have hcomm : it.current.1 + (k : Int) * (m : Int) = it.current.1 + (m : Int) * k := by ring
  rw [hcomm]
  have hwrong : ¬(τ.max < it.current.1 + (m : Int) * k ∧ (τ.wrap (it.current.1 + (m : Int) * k)).1 ≤ it.last.1) ↔
      ¬τ.wrap (it.current.1 + (m : Int) * k) ≤ it.last := by
    refine not_congr ⟨fun h => h.2, fun h => ⟨?_, h⟩⟩
    by_contra hmax
    have h5 := it.current.2.1
    have : (0 : Int) ≤ (m : Int) * k := by positivity
    rw [wrap_of_mem ⟨by omega, by omega⟩] at h
    have h' : it.current.1 + (m : Int) * k ≤ it.last.1 := h
    push_cast at hbeyond
    rw [mul_comm] at h'
    omega
  rw [hwrong]
  constructor
  · rintro ⟨fuel, vs, hrun, hev⟩ hbad
    have hvs : vs.length = m := by
      have h3 : ∀ j, j < vs.length ↔ j < m := by
        intro j
        rw [hm1, ← not_le, ← not_le, ← List.getElem?_eq_none_iff, ← List.getElem?_eq_none_iff, hev j]
      rcases Nat.lt_trichotomy vs.length m with h | h | h
      · exact absurd ((h3 _).2 h) (lt_irrefl _)
      · exact h
      · exact absurd ((h3 _).1 h) (lt_irrefl _)
    by_cases hex : ∃ J : Nat, ¬τ.wrap (it.current.1 + J * k) ≤ it.last
    · have hJ := Nat.find_spec hex
      have hmin : ∀ j, j < Nat.find hex → τ.wrap (it.current.1 + j * k) ≤ it.last :=
        fun j hj => not_not.1 (Nat.find_min hex hj)
      by_cases hf : Nat.find hex ≤ fuel
      · rw [(it.stepBy_unchecked hp hk hku fuel).1 _ hmin hJ hf] at hrun
        simp only [Res.ok.injEq, Option.some.injEq] at hrun
        have h4 : Nat.find hex = m := by rw [← hvs, ← hrun]; simp
        rw [h4] at hJ
        exact hJ hbad
      · rw [(it.stepBy_unchecked hp hk hku fuel).2 fun j hj => hmin j (by omega)] at hrun
        cases hrun
    · rw [(it.stepBy_unchecked hp hk hku fuel).2 fun j _ => not_not.1 fun h => hex ⟨j, h⟩] at hrun
      cases hrun
  · intro hgood
    refine ⟨m, _, (it.stepBy_unchecked hp hk hku m).1 m hle hgood (le_refl _), fun j => ?_⟩
    by_cases hj : j < m
    · have h3 := hget (j * k)
      rw [if_pos (hin j hj)] at h3
      obtain ⟨t, ht, htv⟩ := Option.map_eq_some_iff.1 h3
      rw [ht]
      simp only [List.getElem?_map, List.getElem?_range hj, Option.map_some]
      exact congrArg some (Subtype.ext (by rw [hwj j hj]; exact htv.symm))
    · rw [List.getElem?_eq_none (by simpa using hj), List.getElem?_eq_none (by have := hm1 j; omega)]

/-- `0..=250u8` with its 251 elements: `step_by(10)` steps from 250 to 260, which lands on 4, and goes wrong; `step_by(50)` steps
from 250 to 300, which lands on 44, and goes wrong; `step_by(5)` steps from 250 to 255 and is right; so is `step_by(253)`. -/
example : (BoundedRange.ofRangeInclusive (⟨byte 0, byte 250, false⟩ : RangeInclusive u8.Val)).Representable IntTy.idx ∧
    ((251 + 10 - 1) / 10 = 26 ∧ u8.max < (0 : Int) + 10 * 26 ∧ Lands (byte 4) (0 + 10 * 26) ∧ byte 4 ≤ byte 250) ∧
    ((251 + 50 - 1) / 50 = 6 ∧ Lands (byte 44) (0 + 50 * 6) ∧ byte 44 ≤ byte 250) ∧
    ((251 + 5 - 1) / 5 = 51 ∧ ¬u8.max < (0 : Int) + 5 * 51) ∧ (251 + 253 - 1) / 253 = 1 ∧ ¬u8.max < (0 : Int) + 253 * 1 := by
  refine ⟨⟨IntTy.has_iff.2 (by decide), IntTy.has_iff.2 (by decide)⟩, ⟨by decide, by decide, ⟨-1, by decide⟩, by decide⟩,
    ⟨by decide, ⟨-1, by decide⟩, by decide⟩, ⟨by decide, by decide⟩, by decide, by decide⟩

/-- C94. The loop over `rev().step_by(k)` ends if and only if some value before the start of the range differs from the last
value by a multiple of the greatest common divisor. -/
theorem C94_rev_step_by_ends_iff (hp : p.overflowChecks = false) (it : BoundedRangeIter τ.Val) (k : Nat) (hk : 0 < k)
    (hku : k ≤ p.usizeCount) :
    (∃ fuel vs, (Client.forRevStepBy k fuel).run (BoundedRangeIter.call p (IntTy.step p τ)) it = .ok (some vs)) ↔
      ∃ v : τ.Val, v < it.current ∧ ((Nat.gcd k (2 ^ τ.bits) : Nat) : Int) ∣ v.1 - it.last.1 := by
  constructor
  · rintro ⟨fuel, vs, e⟩
    by_contra hno
    rw [(it.revStepBy_unchecked hp hk hku fuel).2 fun j _ => ?_] at e
    · cases e
    · by_contra hj
      refine hno ⟨_, not_le.1 hj, ?_⟩
      obtain ⟨c, hc⟩ := lands_wrap τ (it.last.1 - j * k)
      have h1 : ((Nat.gcd k (2 ^ τ.bits) : Nat) : Int) ∣ (k : Int) := Int.natCast_dvd_natCast.2 (Nat.gcd_dvd_left _ _)
      have h2 : ((Nat.gcd k (2 ^ τ.bits) : Nat) : Int) ∣ (2 ^ τ.bits : Int) := by
        have := Int.natCast_dvd_natCast.2 (Nat.gcd_dvd_right k (2 ^ τ.bits))
        simpa using this
      have e : (τ.wrap (it.last.1 - j * k)).1 - it.last.1 = -j * k + 2 ^ τ.bits * c := by linarith
      rw [e]
      exact Int.dvd_add (Dvd.dvd.mul_left h1 _) (Dvd.dvd.mul_right h2 _)
  · rintro ⟨v, hv, hd⟩
    obtain ⟨j, hj⟩ := IntTy.exists_lands_back it.last v hd
    have hex : ∃ J : Nat, ¬it.current ≤ τ.wrap (it.last.1 - J * k) := ⟨j, by rw [← lands_iff.1 hj]; exact not_le.2 hv⟩
    exact ⟨Nat.find hex, _, (it.revStepBy_unchecked hp hk hku _).1 (Nat.find hex)
      (fun j hj => not_not.1 (Nat.find_min hex hj)) (Nat.find_spec hex) (le_refl _)⟩

/-- `(1..=255u8).rev().step_by(16)` never ends, as 255 - 16 j never lands on 0; `step_by(3)` ends on 0. -/
example : (¬∃ v : u8.Val, v < byte 1 ∧ ((Nat.gcd 16 (2 ^ u8.bits) : Nat) : Int) ∣ v.1 - (byte 255).1) ∧
    ∃ v : u8.Val, v < byte 1 ∧ ((Nat.gcd 3 (2 ^ u8.bits) : Nat) : Int) ∣ v.1 - (byte 255).1 := by
  constructor
  · rintro ⟨⟨v, h1, h2⟩, h, hd⟩
    have h3 : v < 1 := h
    have h4 : 0 ≤ v := h1
    have h5 : (16 : Int) ∣ v - 255 := hd
    omega
  · exact ⟨byte 0, by decide, by decide⟩

/-- C94. The loop over `rev().step_by(k)` on a range with elements sees every `k`-th of them from the back and ends, if and only
if the first value before the range that it steps to exists (is at least `MIN`), or else lands before the start of the
range. -/
theorem C94_rev_step_by_right_iff (hp : p.overflowChecks = false) (r : BoundedRange τ.Val) (hr : r.Representable IntTy.idx)
    (l : List τ.Val) (hl : Lists l r.contains) (hne : l ≠ []) (k : Nat) (hk : 0 < k) (hku : k ≤ p.usizeCount) :
    ∃ it, r.intoIter (IntTy.step p τ) = .ok it ∧
      ((∃ fuel vs, (Client.forRevStepBy k fuel).run (BoundedRangeIter.call p (IntTy.step p τ)) it = .ok (some vs) ∧
          EveryNth k l.reverse vs) ↔
        ¬(r.stop.lastIdx IntTy.idx - k * ((l.length + k - 1) / k : Nat) < τ.min ∧
          ∃ v : τ.Val, Lands v (r.stop.lastIdx IntTy.idx - k * ((l.length + k - 1) / k : Nat)) ∧
            r.start.firstIdx IntTy.idx ≤ v.1)) := by
  have L := IntTy.lawful p τ
  obtain ⟨it, e, h1, h2⟩ := r.intoIter_spec L hr
  have hrep := (AtEnds.lists_iff L ⟨h1, h2⟩ l).1 hl
  have hlen := hrep.length
  refine ⟨it, e, ?_⟩
  have hpos : 0 < l.length := List.length_pos_iff.2 hne
  rw [← h1, ← h2]
  simp only [lands_iff, exists_eq_left]
  set m := (l.length + k - 1) / k with hm
  have hm1 : ∀ j, j < m ↔ j * k < l.length := by
    intro j
    rw [hm, Nat.lt_div_iff_mul_lt hk]
    omega
  have hget : ∀ n : Nat, it.current.1 + n ≤ it.last.1 → (l.reverse[n]?).map Subtype.val = some (it.last.1 - n) := by
    intro n hn
    simp only [IntTy.idx] at hlen
    have := congrArg (fun l' => l'[l.length - 1 - n]?) hrep
    simp only [List.getElem?_map, ints_getElem?, IntTy.idx] at this
    rw [List.getElem?_reverse (by omega)]
    rw [if_pos (by omega)] at this
    refine this.trans (congrArg some ?_)
    omega
  simp only [IntTy.idx] at *
  have hin : ∀ j, j < m → it.current.1 + (j * k : Nat) ≤ it.last.1 := by
    intro j hj
    have := (hm1 j).1 hj
    omega
  have hwj : ∀ j, (hj : j < m) → (τ.wrap (it.last.1 - j * k)).1 = it.last.1 - (j * k : Nat) := by
    intro j hj
    have h3 := hin j hj
    have h4 := it.last.2.2
    have h5 := it.current.2.1
    push_cast at h3 ⊢
    have : (0 : Int) ≤ (j : Int) * k := by positivity
    rw [wrap_of_mem ⟨by omega, by omega⟩]
  have hle : ∀ j, j < m → it.current ≤ τ.wrap (it.last.1 - j * k) := by
    intro j hj
    show it.current.1 ≤ (τ.wrap (it.last.1 - j * k)).1
    rw [hwj j hj]; have := hin j hj; omega
  have hbeyond : it.last.1 < it.current.1 + (k * m : Nat) := by
    have : ¬ m < m := lt_irrefl _
    rw [hm1, mul_comm] at this
    omega
  have hcomm : it.last.1 - (k : Int) * (m : Int) = it.last.1 - (m : Int) * k := by ring
  rw [hcomm]
  have hwrong : ¬(it.last.1 - (m : Int) * k < τ.min ∧ it.current.1 ≤ (τ.wrap (it.last.1 - (m : Int) * k)).1) ↔
      ¬it.current ≤ τ.wrap (it.last.1 - (m : Int) * k) := by
    refine not_congr ⟨fun h => h.2, fun h => ⟨?_, h⟩⟩
    by_contra hmax
    have h5 := it.last.2.2
    have : (0 : Int) ≤ (m : Int) * k := by positivity
    rw [wrap_of_mem ⟨by omega, by omega⟩] at h
    have h' : it.current.1 ≤ it.last.1 - (m : Int) * k := h
    push_cast at hbeyond
    rw [mul_comm] at h'
    omega
  rw [hwrong]
  constructor
  · rintro ⟨fuel, vs, hrun, hev⟩ hbad
    have hvs : vs.length = m := by
      have h3 : ∀ j, j < vs.length ↔ j < m := by
        intro j
        rw [hm1, ← not_le, ← not_le, ← List.getElem?_eq_none_iff, ← List.length_reverse (as := l), ← List.getElem?_eq_none_iff, hev j]
      rcases Nat.lt_trichotomy vs.length m with h | h | h
      · exact absurd ((h3 _).2 h) (lt_irrefl _)
      · exact h
      · exact absurd ((h3 _).1 h) (lt_irrefl _)
    by_cases hex : ∃ J : Nat, ¬it.current ≤ τ.wrap (it.last.1 - J * k)
    · have hJ := Nat.find_spec hex
      have hmin : ∀ j, j < Nat.find hex → it.current ≤ τ.wrap (it.last.1 - j * k) :=
        fun j hj => not_not.1 (Nat.find_min hex hj)
      by_cases hf : Nat.find hex ≤ fuel
      · rw [(it.revStepBy_unchecked hp hk hku fuel).1 _ hmin hJ hf] at hrun
        simp only [Res.ok.injEq, Option.some.injEq] at hrun
        have h4 : Nat.find hex = m := by rw [← hvs, ← hrun]; simp
        rw [h4] at hJ
        exact hJ hbad
      · rw [(it.revStepBy_unchecked hp hk hku fuel).2 fun j hj => hmin j (by omega)] at hrun
        cases hrun
    · rw [(it.revStepBy_unchecked hp hk hku fuel).2 fun j _ => not_not.1 fun h => hex ⟨j, h⟩] at hrun
      cases hrun
  · intro hgood
    refine ⟨m, _, (it.revStepBy_unchecked hp hk hku m).1 m hle hgood (le_refl _), fun j => ?_⟩
    by_cases hj : j < m
    · have h3 := hget (j * k) (hin j hj)
      obtain ⟨t, ht, htv⟩ := Option.map_eq_some_iff.1 h3
      rw [ht]
      simp only [List.getElem?_map, List.getElem?_range hj, Option.map_some]
      exact congrArg some (Subtype.ext (by rw [hwj j hj]; exact htv.symm))
    · rw [List.getElem?_eq_none (by simpa using hj), List.getElem?_eq_none (by have := hm1 j; rw [List.length_reverse]; omega)]

/-- `5..=255u8` with its 251 elements: `rev().step_by(10)` steps from 5 to -5, which lands on 251, and goes wrong;
`rev().step_by(5)` steps from 5 to 0 and is right. -/
example : (BoundedRange.ofRangeInclusive (⟨byte 5, byte 255, false⟩ : RangeInclusive u8.Val)).Representable IntTy.idx ∧
    ((251 + 10 - 1) / 10 = 26 ∧ (255 : Int) - 10 * 26 < u8.min ∧ Lands (byte 251) (255 - 10 * 26) ∧ byte 5 ≤ byte 251) ∧
    ((251 + 5 - 1) / 5 = 51 ∧ ¬(255 : Int) - 5 * 51 < u8.min) := by
  refine ⟨⟨IntTy.has_iff.2 (by decide), IntTy.has_iff.2 (by decide)⟩, ⟨by decide, by decide, ⟨1, by decide⟩, by decide⟩,
    by decide, by decide⟩

end Rangetools
