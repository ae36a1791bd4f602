import Verif.Proofs.Checked
import Verif.Props.Iter

/-!
# C41 – C43: after the end, and at the ends of the element type
-/

namespace Rangetools
variable {T : Type} [LinearOrder T] {p : Platform} {S : Step T} {idx : T → Int}

/-! ## C41 -/

omit [LinearOrder T] in
/-- A call that leaves the state alone, repeated. -/
theorem runOps_stuck {σ : Type} {call : σ → Op → Res (Out T × σ)} {s : σ} {ops : List Op}
    (h : ∀ op ∈ ops, call s op = .ok (.item none, s)) :
    runOps call s ops = .ok (List.replicate ops.length (.item none), s) := by
  induction ops with
  | nil => rfl
  | cons op ops ih =>
    simp only [runOps, h op List.mem_cons_self, Res.bind_ok,
      ih (fun o ho => h o (List.mem_cons_of_mem _ ho)), Res.pure_eq, List.length_cons,
      List.replicate_succ]

/-- Once a range iterator has returned `None` at either end, it returns `None` at both ends for ever,
whatever the `Step` implementation does. -/
theorem C41_range_fused (p : Platform) (S : Step T) (it it' : BoundedRangeIter T)
    (h : it.next S = .ok (none, it') ∨ it.nextBack S = .ok (none, it')) (ops : List Op)
    (hops : ∀ op ∈ ops, op = .next ∨ op = .nextBack) :
    runOps (BoundedRangeIter.call p S) it' ops = .ok (List.replicate ops.length (.item none), it') := by
  have key : it'.current > it'.last := by
    rcases h with h | h
    · unfold BoundedRangeIter.next at h
      split at h
      · cases h; assumption
      · obtain ⟨c, _, h⟩ := Res.bind_eq_ok.1 h
        cases h
    · unfold BoundedRangeIter.nextBack at h
      split at h
      · cases h; assumption
      · obtain ⟨c, _, h⟩ := Res.bind_eq_ok.1 h
        cases h
  refine runOps_stuck fun op hop => ?_
  rcases hops op hop with rfl | rfl
  · simp only [BoundedRangeIter.call, BoundedRangeIter.next, if_pos key, Res.bind_ok]; rfl
  · simp only [BoundedRangeIter.call, BoundedRangeIter.nextBack, if_pos key, Res.bind_ok]; rfl

example : (BoundedRangeIter.mk (byte 7) (byte 6)).next (IntTy.step release64 u8) =
    .ok (none, ⟨byte 7, byte 6⟩) := by decide

omit [LinearOrder T] in
theorem BoundedSetIter.popEmpty_idem {its its' : List (BoundedRangeIter T)}
    (h : popEmpty p S its = .ok its') : popEmpty p S its' = .ok its' := by
  induction its with
  | nil => cases h; rfl
  | cons i is ih =>
    obtain ⟨n, hn, h⟩ := Res.bind_eq_ok.1 h
    split at h
    · exact ih h
    · rename_i hne
      cases h
      simp only [popEmpty, hn, Res.bind_ok, if_neg hne]; rfl

/-- Once `next` of a set iterator has returned `None`, it returns `None` for ever, whatever the `Step`
implementation does. -/
theorem C41_set_next_fused (p : Platform) (S : Step T) (it it' : BoundedSetIter T)
    (h : it.next p S = .ok (none, it')) (k : Nat) :
    runOps (BoundedSetIter.call p S) it' (List.replicate k .next) =
      .ok (List.replicate k (.item none), it') := by
  have := runOps_stuck (call := BoundedSetIter.call p S) (s := it') (ops := List.replicate k .next) ?_
  · rw [this, List.length_replicate]
  · intro op hop
    rw [List.eq_of_mem_replicate hop]
    obtain ⟨its, hits, h⟩ := Res.bind_eq_ok.1 h
    cases its with
    | nil => cases h; rfl
    | cons i is =>
      obtain ⟨x, hx, h⟩ := Res.bind_eq_ok.1 h
      have hgt : x.1 = none → x.2 = i ∧ i.next S = .ok (none, i) := by
        intro hn
        have hx' := hx
        unfold BoundedRangeIter.next at hx
        split at hx
        · cases hx; exact ⟨rfl, hx'⟩
        · obtain ⟨c, _, hx⟩ := Res.bind_eq_ok.1 hx
          cases hx; cases hn
      simp only [Res.pure_eq, Res.ok.injEq, Prod.mk.injEq] at h
      have h0 : x.1 = none := h.1
      obtain ⟨h1, h2⟩ := hgt h0
      have h3 : it' = ⟨i :: is⟩ := by rw [← h.2, h1]
      have hid := BoundedSetIter.popEmpty_idem hits
      subst h3
      simp only [BoundedSetIter.call, BoundedSetIter.next, hid, Res.bind_ok, h2]
      rfl

/-- The same for `next_back`. -/
theorem C41_set_next_back_fused (p : Platform) (S : Step T) (it it' : BoundedSetIter T)
    (h : it.nextBack p S = .ok (none, it')) (k : Nat) :
    runOps (BoundedSetIter.call p S) it' (List.replicate k .nextBack) =
      .ok (List.replicate k (.item none), it') := by
  have := runOps_stuck (call := BoundedSetIter.call p S) (s := it') (ops := List.replicate k .nextBack) ?_
  · rw [this, List.length_replicate]
  · intro op hop
    rw [List.eq_of_mem_replicate hop]
    obtain ⟨its, hits, h⟩ := Res.bind_eq_ok.1 h
    cases its with
    | nil => cases h; rfl
    | cons i is =>
      obtain ⟨x, hx, h⟩ := Res.bind_eq_ok.1 h
      have hgt : x.1 = none → x.2 = i ∧ i.nextBack S = .ok (none, i) := by
        intro hn
        have hx' := hx
        unfold BoundedRangeIter.nextBack at hx
        split at hx
        · cases hx; exact ⟨rfl, hx'⟩
        · obtain ⟨c, _, hx⟩ := Res.bind_eq_ok.1 hx
          cases hx; cases hn
      simp only [Res.pure_eq, Res.ok.injEq, Prod.mk.injEq] at h
      have h0 : x.1 = none := h.1
      obtain ⟨h1, h2⟩ := hgt h0
      have h3 : it' = ⟨(i :: is).reverse⟩ := by rw [← h.2, h1]
      have hid := BoundedSetIter.popEmpty_idem hits
      subst h3
      simp only [BoundedSetIter.call, BoundedSetIter.nextBack, List.reverse_reverse, hid, Res.bind_ok, h2]
      rfl

/-- Both ends together, for a `Step` implementation that at least answers `None` to `steps_between`
when the end lies before the start.  Missing: a mixed schedule on a set under any other implementation,
where the claim fails (`C41_set_counterexample`). -/
theorem C41_set_fused_partial (p : Platform) (S : Step T)
    (hS : ∀ a b, b < a → S.stepsBetween a b = .ok none) (it it' : BoundedSetIter T)
    (h : it.next p S = .ok (none, it') ∨ it.nextBack p S = .ok (none, it')) (ops : List Op)
    (hops : ∀ op ∈ ops, op = .next ∨ op = .nextBack) :
    runOps (BoundedSetIter.call p S) it' ops = .ok (List.replicate ops.length (.item none), it') := by
  have hlen : ∀ i : BoundedRangeIter T, i.current > i.last → i.len p S = .ok 0 := by
    intro i hi
    simp only [BoundedRangeIter.len, BoundedRangeIter.sizeHint, hS _ _ hi, Res.bind_ok, assert]
    rfl
  have hne : ∀ i is its, BoundedSetIter.popEmpty p S its = .ok (i :: is) → ¬ i.current > i.last := by
    intro i is its hits hgt
    have hid := BoundedSetIter.popEmpty_idem hits
    simp only [BoundedSetIter.popEmpty, hlen i hgt, Res.bind_ok] at hid
    rw [if_pos (show ((0 : Nat) == 0) = true from rfl)] at hid
    have : ∀ {js ks : List (BoundedRangeIter T)}, BoundedSetIter.popEmpty p S js = .ok ks →
        ks.length ≤ js.length := by
      intro js
      induction js with
      | nil => intro ks e; cases e; exact le_refl _
      | cons j js ih =>
        intro ks e
        obtain ⟨n, _, e⟩ := Res.bind_eq_ok.1 e
        split at e
        · have := ih e; simp only [List.length_cons]; omega
        · cases e; exact le_refl _
    have := this hid
    simp only [List.length_cons] at this
    omega
  have key : it' = ⟨[]⟩ := by
    rcases h with h | h
    · obtain ⟨its, hits, h⟩ := Res.bind_eq_ok.1 h
      cases its with
      | nil => cases h; rfl
      | cons i is =>
        obtain ⟨x, hx, h⟩ := Res.bind_eq_ok.1 h
        unfold BoundedRangeIter.next at hx
        rw [if_neg (hne i is _ hits)] at hx
        obtain ⟨c, _, hx⟩ := Res.bind_eq_ok.1 hx
        cases hx; cases h
    · obtain ⟨its, hits, h⟩ := Res.bind_eq_ok.1 h
      cases its with
      | nil => cases h; rfl
      | cons i is =>
        obtain ⟨x, hx, h⟩ := Res.bind_eq_ok.1 h
        unfold BoundedRangeIter.nextBack at hx
        rw [if_neg (hne i is _ hits)] at hx
        obtain ⟨c, _, hx⟩ := Res.bind_eq_ok.1 hx
        cases hx; cases h
  subst key
  refine runOps_stuck fun op hop => ?_
  rcases hops op hop with rfl | rfl <;> rfl

/-- A `Step` implementation whose `steps_between` never answers `None`. -/
def badStep : Step Int where
  stepsBetween a b := .ok (some (b - a).natAbs)
  forwardChecked a n := .ok (some (a + n))
  backwardChecked a n := .ok (some (a - n))
  forward a n := .ok (a + n)
  backward a n := .ok (a - n)

/-- Without that condition the two ends of a set are not fused together: on the pieces `0..=1` and
`5..=6`, the third `next` answers `None` and `next_back` then answers `Some(6)`. -/
theorem C41_set_counterexample :
    (do let it ← (⟨[⟨.included 0, .included 1⟩, ⟨.included 5, .included 6⟩]⟩ : BoundedSet Int).intoIter
          badStep
        let (os, _) ← runOps (BoundedSetIter.call debug64 badStep) it [.next, .next, .next, .nextBack]
        return os) =
      .ok [.item (some 0), .item (some 1), .item none, .item (some 6)] := by decide +kernel

/-- Every integer type and `char` meet the condition of `C41_set_fused_partial`, in every build. -/
theorem C41_set_condition (p : Platform) :
    (∀ (τ : IntTy) (a b : τ.Val), b < a → (IntTy.step p τ).stepsBetween a b = .ok none) ∧
    ∀ a b : Scalar, b < a → (Scalar.step p).stepsBetween a b = .ok none := by
  constructor
  · intro τ a b h
    rw [(IntTy.lawful p τ).stepsBetween, if_neg (fun hx => absurd hx.1 (not_le.2 h))]
  · intro a b h
    rw [(Scalar.lawful p).stepsBetween, if_neg (fun hx => absurd hx.1 (not_le.2 h))]

example : (BoundedSetIter.mk [⟨byte 7, byte 6⟩, ⟨byte 9, byte 3⟩]).next release64
    (IntTy.step release64 u8) = .ok (none, ⟨[]⟩) := by decide +kernel

/-! ## C42 -/

/-- With overflow checks and no more than `2 ^ usizeBits` values: whatever the ends of the range and the
schedule, if the program gets an answer (does not panic), the answers are those of the list of the
contained elements. -/
theorem C42_range_checked (L : LawfulStep p S idx) (C : S.Checked p idx) (F : Step.Fits p idx)
    (hp : p.overflowChecks = true) (r : BoundedRange T) (it : BoundedRangeIter T)
    (hit : r.intoIter S = .ok it) :
    ∃ l, Lists l r.contains ∧ ∀ ops os it', UsizeArgs p ops →
      runOps (BoundedRangeIter.call p S) it ops = .ok (os, it') → os = (listRun l ops).1 := by
  have hat := r.intoIter_ok L C hit
  obtain ⟨l, hl⟩ := hat.exists_rep L
  refine ⟨l, (hat.lists_iff L l).2 hl, fun ops os it' ha e => ?_⟩
  exact runOps_ok (R := Rep idx)
    (A := fun op => op.skipFront < p.usizeCount ∧ op.skipBack < p.usizeCount)
    (fun s l op x h ha e => s.call_ok L C F hp h op ha e) ops hl ha e

/-- The same for a set. -/
theorem C42_set_checked (L : LawfulStep p S idx) (C : S.Checked p idx) (F : Step.Fits p idx)
    (hp : p.overflowChecks = true) (s : BoundedSet T) (hs : Pieces s.ranges) (it : BoundedSetIter T)
    (hit : s.intoIter S = .ok it) :
    ∃ l, Lists l s.contains ∧ ∀ ops os it', UsizeArgs p ops →
      runOps (BoundedSetIter.call p S) it ops = .ok (os, it') → os = (listRun l ops).1 := by
  obtain ⟨its, hits, hit⟩ := Res.bind_eq_ok.1 hit
  cases hit
  have hat := intoIters_ok L C hits
  obtain ⟨ls, h1, h2⟩ := atEnds_rep L hat
  have hl : SetRep idx its ls.flatten := ⟨ls, h1, rfl⟩
  refine ⟨ls.flatten, (atEnds_setRep L hs.2 hat _).2 hl, fun ops os it' ha e => ?_⟩
  exact runOps_ok (R := fun it : BoundedSetIter T => SetRep idx it.rangeIters)
    (A := fun op => op.skipFront < p.usizeCount ∧ op.skipBack < p.usizeCount)
    (fun s l op x h ha e => s.call_ok L C F hp h op ha e) ops (s := ⟨its⟩) hl ha e

/-- The integer types no wider than `usize` and, with at least 32-bit pointers, `char` qualify. -/
theorem C42_applies (p : Platform) (hp : p.overflowChecks = true) :
    (∀ τ : IntTy, τ.bits ≤ p.usizeBits → LawfulStep p (IntTy.step p τ) (IntTy.idx (τ := τ)) ∧
      (IntTy.step p τ).Checked p IntTy.idx ∧ Step.Fits p (IntTy.idx (τ := τ))) ∧
    (32 ≤ p.usizeBits → LawfulStep p (Scalar.step p) Scalar.idx ∧
      (Scalar.step p).Checked p Scalar.idx ∧ Step.Fits p Scalar.idx) :=
  ⟨fun τ h => ⟨IntTy.lawful p τ, IntTy.checked p τ hp, IntTy.fits p τ h⟩,
    fun h => ⟨Scalar.lawful p, Scalar.checked p, Scalar.fits p h⟩⟩

/-- The hypotheses are met by a range up to `u8::MAX`, which panics only when asked for the last item. -/
example : (do let it ← (⟨.included (byte 253), .included (byte 255)⟩ : BoundedRange u8.Val).intoIter
                (IntTy.step debug64 u8)
              let (os, _) ← runOps (BoundedRangeIter.call debug64 (IntTy.step debug64 u8)) it
                [.len, .nextBack, .next, .nth 0, .len]
              return os) =
    .ok [.num 3, .item (some (byte 255)), .item (some (byte 253)), .item (some (byte 254)), .num 0] := by
  decide

/-- Without overflow checks `nth` past the end can wrap: `(0..10u8).into_iter().nth(256) == Some(0)`. -/
theorem C42_unchecked_counterexample :
    (do let it ← (⟨.included (byte 0), .excluded (byte 10)⟩ : BoundedRange u8.Val).intoIter
          (IntTy.step release64 u8)
        return (← it.nth (IntTy.step release64 u8) 256).1) = .ok (some (byte 0)) := by decide

/-! ## C43 -/

namespace IntTy

/-- `MAX`. -/
def top (τ : IntTy) : τ.Val := ⟨τ.max, by have := τ.card_pos; unfold max; omega, le_refl _⟩
/-- `MIN`. -/
def bot (τ : IntTy) : τ.Val := ⟨τ.min, le_refl _, by have := τ.card_pos; unfold max; omega⟩

theorem wrap_max_succ (τ : IntTy) : τ.wrap (τ.max + 1) = τ.bot := by
  rw [wrap_congr (y := τ.min) 1 (by rw [max_eq]; omega)]; exact wrap_of_mem τ.bot.2

theorem wrap_min_pred (τ : IntTy) : τ.wrap (τ.min - 1) = τ.top := by
  rw [wrap_congr (y := τ.max) (-1) (by rw [max_eq]; omega)]; exact wrap_of_mem τ.top.2

theorem one_lt (p : Platform) : 1 < p.usizeCount := by have := p.le_usizeCount; omega

theorem forward_one {p : Platform} {τ : IntTy} (a : τ.Val) (h : a.1 < τ.max) :
    (step p τ).forward a 1 = .ok ⟨a.1 + 1, by have := a.2; omega, by omega⟩ :=
  (lawful p τ).forward_some a 1 _ (one_lt p) rfl

theorem forward_top (p : Platform) (τ : IntTy) :
    (step p τ).forward τ.top 1 =
      if p.overflowChecks then .panic "attempt to compute with overflow" else .ok τ.bot := by
  rw [forward_eq p τ τ.top 1 (one_lt p), dif_neg (by simp only [top]; push_cast; omega)]
  split
  · rfl
  · exact congrArg _ τ.wrap_max_succ

theorem backward_bot (p : Platform) (τ : IntTy) :
    (step p τ).backward τ.bot 1 =
      if p.overflowChecks then .panic "attempt to compute with overflow" else .ok τ.top := by
  rw [backward_eq p τ τ.bot 1 (one_lt p), dif_neg (by simp only [bot]; push_cast; omega)]
  split
  · rfl
  · exact congrArg _ τ.wrap_min_pred

end IntTy

/-- C43 fails.  With overflow checks, going through `a..=MAX` panics at the latest when `MAX` is due. -/
theorem C43_checked_panics (p : Platform) (hp : p.overflowChecks = true) (τ : IntTy) (a : τ.Val)
    (k : Nat) (hk : τ.max - a.1 < k) :
    ∃ it m, (⟨.included a, .included τ.top⟩ : BoundedRange τ.Val).intoIter (IntTy.step p τ) = .ok it ∧
      runOps (BoundedRangeIter.call p (IntTy.step p τ)) it (List.replicate k .next) = .panic m := by
  have : ∀ (k : Nat) (c : τ.Val), τ.max - c.1 < k → ∃ m,
      runOps (BoundedRangeIter.call p (IntTy.step p τ)) ⟨c, τ.top⟩ (List.replicate k .next) =
        .panic m := by
    intro k
    induction k with
    | zero => intro c h; have := c.2; omega
    | succ k ih =>
      intro c h
      have hle : ¬ c > τ.top := not_lt.2 c.2.2
      simp only [List.replicate_succ, runOps, BoundedRangeIter.call, BoundedRangeIter.next, if_neg hle]
      by_cases hc : c.1 < τ.max
      · obtain ⟨m, hm⟩ := ih ⟨c.1 + 1, by have := c.2; omega, by omega⟩ (by dsimp only; push_cast at h; omega)
        refine ⟨m, ?_⟩
        simp only [IntTy.forward_one c hc, Res.bind_ok, Res.pure_eq, hm, Res.bind_panic]
      · have : c = τ.top := Subtype.ext (by have := c.2; show c.1 = τ.max; omega)
        subst this
        refine ⟨"attempt to compute with overflow", ?_⟩
        rw [IntTy.forward_top, if_pos hp]
        rfl
  obtain ⟨m, hm⟩ := this k a hk
  exact ⟨_, m, rfl, hm⟩

/-- Without overflow checks, going through `a..=MAX` never ends. -/
theorem C43_unchecked_never_ends (p : Platform) (hp : p.overflowChecks = false) (τ : IntTy)
    (a : τ.Val) :
    ∃ it, (⟨.included a, .included τ.top⟩ : BoundedRange τ.Val).intoIter (IntTy.step p τ) = .ok it ∧
      ∀ k, ∃ (xs : List τ.Val) (it' : _), xs.length = k ∧
        runOps (BoundedRangeIter.call p (IntTy.step p τ)) it (List.replicate k .next) =
          .ok (xs.map (fun t => .item (some t)), it') := by
  refine ⟨_, rfl, fun k => ?_⟩
  have : ∀ (k : Nat) (c : τ.Val), ∃ (xs : List τ.Val) (it' : _), xs.length = k ∧
      runOps (BoundedRangeIter.call p (IntTy.step p τ)) ⟨c, τ.top⟩ (List.replicate k .next) =
        .ok (xs.map (fun t => .item (some t)), it') := by
    intro k
    induction k with
    | zero => intro c; exact ⟨[], _, rfl, rfl⟩
    | succ k ih =>
      intro c
      have hle : ¬ c > τ.top := not_lt.2 c.2.2
      have hf : ∃ d, (IntTy.step p τ).forward c 1 = .ok d := by
        by_cases hc : c.1 < τ.max
        · exact ⟨_, IntTy.forward_one c hc⟩
        · have : c = τ.top := Subtype.ext (by have := c.2; show c.1 = τ.max; omega)
          subst this
          exact ⟨_, by rw [IntTy.forward_top, hp]; rfl⟩
      obtain ⟨d, hd⟩ := hf
      obtain ⟨xs, it', hl, hx⟩ := ih d
      refine ⟨c :: xs, it', by rw [List.length_cons, hl], ?_⟩
      simp only [List.replicate_succ, runOps, BoundedRangeIter.call, BoundedRangeIter.next, if_neg hle,
        hd, Res.bind_ok, Res.pure_eq, hx, List.map_cons]
  exact this k a

/-- The mirror image: with overflow checks, going back through `MIN..=b` panics at the latest when `MIN`
is due; without, it never ends. -/
theorem C43_backward_fails (p : Platform) (τ : IntTy) (b : τ.Val) :
    ∃ it, (⟨.included τ.bot, .included b⟩ : BoundedRange τ.Val).intoIter (IntTy.step p τ) = .ok it ∧
      (p.overflowChecks = true → ∀ k : Nat, b.1 - τ.min < k → ∃ m,
        runOps (BoundedRangeIter.call p (IntTy.step p τ)) it (List.replicate k .nextBack) = .panic m) ∧
      (p.overflowChecks = false → ∀ k, ∃ (xs : List τ.Val) (it' : _), xs.length = k ∧
        runOps (BoundedRangeIter.call p (IntTy.step p τ)) it (List.replicate k .nextBack) =
          .ok (xs.map (fun t => .item (some t)), it')) := by
  have back_one : ∀ c : τ.Val, ∀ h : τ.min < c.1, (IntTy.step p τ).backward c 1 =
      .ok ⟨c.1 - 1, by omega, by have := c.2; omega⟩ :=
    fun c h => (IntTy.lawful p τ).backward_some c 1 _ (IntTy.one_lt p) rfl
  refine ⟨_, rfl, fun hp k hk => ?_, fun hp k => ?_⟩
  · have : ∀ (k : Nat) (c : τ.Val), c.1 - τ.min < k → ∃ m,
        runOps (BoundedRangeIter.call p (IntTy.step p τ)) ⟨τ.bot, c⟩ (List.replicate k .nextBack) =
          .panic m := by
      intro k
      induction k with
      | zero => intro c h; have := c.2; omega
      | succ k ih =>
        intro c h
        have hle : ¬ τ.bot > c := not_lt.2 c.2.1
        simp only [List.replicate_succ, runOps, BoundedRangeIter.call, BoundedRangeIter.nextBack,
          if_neg hle]
        by_cases hc : τ.min < c.1
        · obtain ⟨m, hm⟩ := ih ⟨c.1 - 1, by omega, by have := c.2; omega⟩
            (by dsimp only; push_cast at h; omega)
          refine ⟨m, ?_⟩
          simp only [back_one c hc, Res.bind_ok, Res.pure_eq, hm, Res.bind_panic]
        · have : c = τ.bot := Subtype.ext (by have := c.2; show c.1 = τ.min; omega)
          subst this
          refine ⟨"attempt to compute with overflow", ?_⟩
          rw [IntTy.backward_bot, if_pos hp]
          rfl
    exact this k b hk
  · have : ∀ (k : Nat) (c : τ.Val), ∃ (xs : List τ.Val) (it' : _), xs.length = k ∧
        runOps (BoundedRangeIter.call p (IntTy.step p τ)) ⟨τ.bot, c⟩ (List.replicate k .nextBack) =
          .ok (xs.map (fun t => .item (some t)), it') := by
      intro k
      induction k with
      | zero => intro c; exact ⟨[], _, rfl, rfl⟩
      | succ k ih =>
        intro c
        have hle : ¬ τ.bot > c := not_lt.2 c.2.1
        have hf : ∃ d, (IntTy.step p τ).backward c 1 = .ok d := by
          by_cases hc : τ.min < c.1
          · exact ⟨_, back_one c hc⟩
          · have : c = τ.bot := Subtype.ext (by have := c.2; show c.1 = τ.min; omega)
            subst this
            exact ⟨_, by rw [IntTy.backward_bot, hp]; rfl⟩
        obtain ⟨d, hd⟩ := hf
        obtain ⟨xs, it', hl, hx⟩ := ih d
        refine ⟨c :: xs, it', by rw [List.length_cons, hl], ?_⟩
        simp only [List.replicate_succ, runOps, BoundedRangeIter.call, BoundedRangeIter.nextBack,
          if_neg hle, hd, Res.bind_ok, Res.pure_eq, hx, List.map_cons]
    exact this k b

/-- The empty range `MIN..MIN` (`0..0` for an unsigned type) cannot be iterated with overflow checks, and
yields `MIN` without. -/
theorem C43_empty_fails (p : Platform) (τ : IntTy) :
    (p.overflowChecks = true → ∃ m,
      (⟨.included τ.bot, .excluded τ.bot⟩ : BoundedRange τ.Val).intoIter (IntTy.step p τ) = .panic m) ∧
    (p.overflowChecks = false → ∃ it it',
      (⟨.included τ.bot, .excluded τ.bot⟩ : BoundedRange τ.Val).intoIter (IntTy.step p τ) = .ok it ∧
      it.next (IntTy.step p τ) = .ok (some τ.bot, it')) := by
  constructor
  · intro hp
    refine ⟨"attempt to compute with overflow", ?_⟩
    simp only [BoundedRange.intoIter, LowerBound.included, UpperBound.excluded, Res.bind_ok,
      IntTy.backward_bot, if_pos hp]
    rfl
  · intro hp
    have hle : ¬ τ.bot > τ.top := not_lt.2 τ.bot.2.2
    have hf : ∃ d, (IntTy.step p τ).forward τ.bot 1 = .ok d := by
      by_cases hc : τ.bot.1 < τ.max
      · exact ⟨_, IntTy.forward_one τ.bot hc⟩
      · have : τ.bot = τ.top := Subtype.ext (by have := τ.bot.2; show τ.bot.1 = τ.max; omega)
        rw [this]
        exact ⟨_, by rw [IntTy.forward_top, hp]; rfl⟩
    obtain ⟨d, hd⟩ := hf
    refine ⟨⟨τ.bot, τ.top⟩, ⟨d, τ.top⟩, ?_, ?_⟩
    · simp only [BoundedRange.intoIter, LowerBound.included, UpperBound.excluded, Res.bind_ok,
        IntTy.backward_bot, hp]
      rfl
    · simp only [BoundedRangeIter.next, if_neg hle, hd, Res.bind_ok]; rfl

/-- The wrong values: `250..=255u8` goes on with `0` without overflow checks. -/
theorem C43_unchecked_wrong_value :
    (do let it ← (⟨.included (byte 250), .included (byte 255)⟩ : BoundedRange u8.Val).intoIter
          (IntTy.step release64 u8)
        let (os, _) ← runOps (BoundedRangeIter.call release64 (IntTy.step release64 u8)) it
          (List.replicate 7 .next)
        return os[6]?) = .ok (some (.item (some (byte 0)))) := by decide

/-- What remains of C43 going forward: a non-empty range that does not contain `MAX` is gone through
completely, `MIN` included.  Missing: ranges containing `MAX`, and empty ranges next to `MIN`. -/
theorem C43_forward_partial (p : Platform) (τ : IntTy) (r : BoundedRange τ.Val) (h : r.isEmpty = false)
    (hmax : r.contains τ.top = false) :
    ∃ it l, r.intoIter (IntTy.step p τ) = .ok it ∧ Lists l r.contains ∧
      ∀ k, ∃ it', runOps (BoundedRangeIter.call p (IntTy.step p τ)) it
          (List.replicate (l.length + k) .next) =
        .ok (l.map (fun t => .item (some t)) ++ List.replicate k (.item none), it') := by
  have L := IntTy.lawful p τ
  have hr := r.representable_of_nonempty L h
  refine C33_range_iteration L r hr ?_
  have hc := r.contains_idx L τ.top
  rw [hmax] at hc
  have hn : ¬ (r.start.firstIdx IntTy.idx ≤ τ.max ∧ τ.max ≤ r.stop.lastIdx IntTy.idx) :=
    fun hx => by simpa using hc.2 hx
  obtain ⟨h1, h2⟩ := hr
  rw [IntTy.has_iff] at h1 h2
  rw [BoundedRange.RoomAbove, IntTy.has_iff]
  omega

/-- What remains of C43 going back: a non-empty range that does not contain `MIN` is gone through
completely, `MAX` included. -/
theorem C43_backward_partial (p : Platform) (τ : IntTy) (r : BoundedRange τ.Val) (h : r.isEmpty = false)
    (hmin : r.contains τ.bot = false) :
    ∃ it l, r.intoIter (IntTy.step p τ) = .ok it ∧ Lists l r.contains ∧
      ∀ k, ∃ it', runOps (BoundedRangeIter.call p (IntTy.step p τ)) it
          (List.replicate (l.length + k) .nextBack) =
        .ok (l.reverse.map (fun t => .item (some t)) ++ List.replicate k (.item none), it') := by
  have L := IntTy.lawful p τ
  have hr := r.representable_of_nonempty L h
  obtain ⟨it, l, e, hl, _, hrun⟩ := BoundedRange.iterates L hr
  refine ⟨it, l, e, hl, fun k => ?_⟩
  have hp := p.le_usizeCount
  have hno : ∀ op ∈ List.replicate (l.length + k) Op.nextBack, op = .nextBack :=
    fun op h => List.eq_of_mem_replicate h
  have hc := r.contains_idx L τ.bot
  rw [hmin] at hc
  have hn : ¬ (r.start.firstIdx IntTy.idx ≤ τ.min ∧ τ.min ≤ r.stop.lastIdx IntTy.idx) :=
    fun hx => by simpa using hc.2 hx
  have hroom : r.RoomBelow IntTy.idx 0 := by
    obtain ⟨h1, h2⟩ := hr
    rw [IntTy.has_iff] at h1 h2
    rw [BoundedRange.RoomBelow, IntTy.has_iff]
    omega
  obtain ⟨it', e', _⟩ := hrun (List.replicate (l.length + k) .nextBack)
    { args := fun op h => by rw [hno op h]; exact ⟨by simp [Op.skipFront]; omega, by simp [Op.skipBack]; omega⟩
      front := fun ⟨op, h, h'⟩ => by rw [hno op h] at h'; cases h'
      back := fun _ => by simpa [skipsBack, Op.skipBack] using hroom
      sizes := fun ⟨op, h, h'⟩ => by rw [hno op h] at h'; cases h' }
  refine ⟨it', ?_⟩
  rw [e', (listRun_nextBack _ l).2, List.take_of_length_le (by rw [List.length_reverse]; omega),
    Nat.add_sub_cancel_left]

/-- `0..=5u8` forward, `250..=255u8` back. -/
example : (⟨.included (byte 0), .included (byte 5)⟩ : BoundedRange u8.Val).isEmpty = false ∧
    (⟨.included (byte 0), .included (byte 5)⟩ : BoundedRange u8.Val).contains u8.top = false := by decide
example : (⟨.included (byte 250), .included (byte 255)⟩ : BoundedRange u8.Val).isEmpty = false ∧
    (⟨.included (byte 250), .included (byte 255)⟩ : BoundedRange u8.Val).contains u8.bot = false := by
  decide

end Rangetools
