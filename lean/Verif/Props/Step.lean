import Verif.Proofs.Char

/-!
# Properties of the `Step` implementations (C44 – C48)
-/

namespace Rangetools

section Samples
/-- A 64-bit build with overflow checks. -/
def debug64 : Platform := ⟨64, true, by decide⟩
/-- A 64-bit build without overflow checks. -/
def release64 : Platform := ⟨64, false, by decide⟩
/-- A 32-bit build without overflow checks. -/
def release32 : Platform := ⟨32, false, by decide⟩
/-- A 16-bit build with overflow checks. -/
def debug16 : Platform := ⟨16, true, by decide⟩
/-- `u8`. -/
def u8 : IntTy := ⟨false, 8⟩
/-- `i8`. -/
def i8 : IntTy := ⟨true, 8⟩
/-- `u128`. -/
def u128 : IntTy := ⟨false, 128⟩
end Samples

/-! ## C44 -/

/-- The limits of the modelled integer types are Rust's. -/
theorem C44_limits (bits : Nat) (h : 0 < bits) :
    (⟨false, bits⟩ : IntTy).min = 0 ∧ (⟨false, bits⟩ : IntTy).max = 2 ^ bits - 1 ∧
    (⟨true, bits⟩ : IntTy).min = -(2 ^ (bits - 1)) ∧
    (⟨true, bits⟩ : IntTy).max = 2 ^ (bits - 1) - 1 := by
  have e : (2 : Int) ^ bits = 2 * 2 ^ (bits - 1) := by
    rw [← pow_succ']; congr 1; omega
  refine ⟨rfl, ?_, rfl, ?_⟩
  · simp [IntTy.max, IntTy.min, IntTy.card]
  · simp only [IntTy.max, IntTy.min, IntTy.card, if_true, e]; omega

/-- `forward_checked(x, n)` is `Some(x + n)` when `x + n` is representable, and `None` otherwise. -/
theorem C44_forward_checked (p : Platform) (τ : IntTy) (x : τ.Val) (n : Nat)
    (hn : n < p.usizeCount) :
    (IntTy.step p τ).forwardChecked x n =
      .ok (if h : τ.min ≤ x.1 + n ∧ x.1 + n ≤ τ.max then some ⟨x.1 + n, h⟩ else none) :=
  IntTy.forwardChecked_eq p τ x n hn

/-- `backward_checked(x, n)` is `Some(x - n)` when `x - n` is representable, and `None` otherwise. -/
theorem C44_backward_checked (p : Platform) (τ : IntTy) (x : τ.Val) (n : Nat)
    (hn : n < p.usizeCount) :
    (IntTy.step p τ).backwardChecked x n =
      .ok (if h : τ.min ≤ x.1 - n ∧ x.1 - n ≤ τ.max then some ⟨x.1 - n, h⟩ else none) :=
  IntTy.backwardChecked_eq p τ x n hn

/-- `Step::forward_checked(-120i8, 200) == Some(80)`: 200 is no `i8`. -/
example : (IntTy.step debug64 i8).forwardChecked ⟨-120, by decide⟩ 200 = .ok (some ⟨80, by decide⟩) := by
  decide
/-- `Step::forward_checked(-120i8, 248) == None`. -/
example : (IntTy.step debug64 i8).forwardChecked ⟨-120, by decide⟩ 248 = .ok none := by decide
/-- `Step::backward_checked(300u128, 301) == None`. -/
example : (IntTy.step debug64 u128).backwardChecked ⟨300, by decide⟩ 301 = .ok none := by decide
example : 200 < debug64.usizeCount := by decide

/-! ## C45 -/

/-- `steps_between(a, b)` is `Some(b - a)` when `a ≤ b` and `b - a` fits `usize`, and `None` otherwise. -/
theorem C45_steps_between (p : Platform) (τ : IntTy) (a b : τ.Val) :
    (IntTy.step p τ).stepsBetween a b =
      .ok (if a.1 ≤ b.1 ∧ b.1 - a.1 < 2 ^ p.usizeBits then some (b.1 - a.1).toNat else none) := by
  rw [← p.usizeCount_cast]
  exact IntTy.stepsBetween_eq p τ a b

/-- `Step::steps_between(&-128i8, &127) == Some(255)`. -/
example : (IntTy.step debug64 i8).stepsBetween ⟨-128, by decide⟩ ⟨127, by decide⟩ = .ok (some 255) := by
  decide
/-- `Step::steps_between(&0u128, &(1 << 64)) == None`. -/
example : (IntTy.step debug64 u128).stepsBetween ⟨0, by decide⟩ ⟨2 ^ 64, by decide⟩ = .ok none := by
  decide

/-! ## C46 -/

/-- `forward(x, n)` is `x + n` when representable.  Otherwise it panics with overflow checks, and without
returns the value of the type congruent to `x + n` modulo `2 ^ bits`. -/
theorem C46_forward (p : Platform) (τ : IntTy) (x : τ.Val) (n : Nat) (hn : n < p.usizeCount) :
    (∀ y : τ.Val, y.1 = x.1 + n → (IntTy.step p τ).forward x n = .ok y) ∧
    (τ.max < x.1 + n → p.overflowChecks = true → ∃ m, (IntTy.step p τ).forward x n = .panic m) ∧
    (τ.max < x.1 + n → p.overflowChecks = false →
      ∃ y : τ.Val, (IntTy.step p τ).forward x n = .ok y ∧ (2 ^ τ.bits : Int) ∣ y.1 - (x.1 + n)) := by
  refine ⟨fun y hy => (IntTy.lawful p τ).forward_some x n y hn hy, ?_, ?_⟩
  · intro h hp
    rw [IntTy.forward_eq p τ x n hn, dif_neg (by omega), if_pos hp]
    exact ⟨_, rfl⟩
  · intro h hp
    refine ⟨τ.wrap (x.1 + n), ?_, ?_⟩
    · rw [IntTy.forward_eq p τ x n hn, dif_neg (by omega), hp]; rfl
    · obtain ⟨k, hk⟩ := IntTy.wrap_spec τ (x.1 + n)
      exact ⟨k, by rw [hk]; simp only [IntTy.card]; ring⟩

/-- `backward(x, n)` is `x - n` when representable; otherwise as `forward`. -/
theorem C46_backward (p : Platform) (τ : IntTy) (x : τ.Val) (n : Nat) (hn : n < p.usizeCount) :
    (∀ y : τ.Val, y.1 = x.1 - n → (IntTy.step p τ).backward x n = .ok y) ∧
    (x.1 - n < τ.min → p.overflowChecks = true → ∃ m, (IntTy.step p τ).backward x n = .panic m) ∧
    (x.1 - n < τ.min → p.overflowChecks = false →
      ∃ y : τ.Val, (IntTy.step p τ).backward x n = .ok y ∧ (2 ^ τ.bits : Int) ∣ y.1 - (x.1 - n)) := by
  refine ⟨fun y hy => (IntTy.lawful p τ).backward_some x n y hn hy, ?_, ?_⟩
  · intro h hp
    rw [IntTy.backward_eq p τ x n hn, dif_neg (by omega), if_pos hp]
    exact ⟨_, rfl⟩
  · intro h hp
    refine ⟨τ.wrap (x.1 - n), ?_, ?_⟩
    · rw [IntTy.backward_eq p τ x n hn, dif_neg (by omega), hp]; rfl
    · obtain ⟨k, hk⟩ := IntTy.wrap_spec τ (x.1 - n)
      exact ⟨k, by rw [hk]; simp only [IntTy.card]; ring⟩

/-- `char`: `forward` and `backward` return the scalar `n` positions on when there is one and panic
otherwise, in every build. -/
theorem C46_char (p : Platform) (c : Scalar) (n : Nat) (hn : n < p.usizeCount) :
    (∀ d : Scalar, d.idx = c.idx + n → (Scalar.step p).forward c n = .ok d) ∧
    ((∀ d : Scalar, d.idx ≠ c.idx + n) → ∃ m, (Scalar.step p).forward c n = .panic m) ∧
    (∀ d : Scalar, d.idx = c.idx - n → (Scalar.step p).backward c n = .ok d) ∧
    ((∀ d : Scalar, d.idx ≠ c.idx - n) → ∃ m, (Scalar.step p).backward c n = .panic m) :=
  ⟨fun d => (Scalar.lawful p).forward_some c n d hn, (Scalar.checked p).forward c n hn,
    fun d => (Scalar.lawful p).backward_some c n d hn, (Scalar.checked p).backward c n hn⟩

/-- `Step::forward(200u8, 100)` panics with overflow checks and is 44 without. -/
example : (IntTy.step debug64 u8).forward ⟨200, by decide⟩ 100 =
    .panic "attempt to compute with overflow" := by decide
example : (IntTy.step release64 u8).forward ⟨200, by decide⟩ 100 = .ok ⟨44, by decide⟩ := by decide
example : u8.max < 200 + (100 : Nat) ∧ release64.overflowChecks = false := by decide

/-! ## C47 -/

/-- `Scalar.idx` is the position in the sequence of Unicode scalar values: it is strictly increasing and
its values are exactly `0, 1, …, 0x10F7FF`. -/
theorem C47_position :
    (∀ c d : Scalar, c.1 < d.1 ↔ c.idx < d.idx) ∧
    (∀ k : Int, (∃ c : Scalar, c.idx = k) ↔ 0 ≤ k ∧ k < 0x110000 - 0x800) :=
  ⟨Scalar.lt_iff, Scalar.exists_idx⟩

/-- `forward_checked` moves `n` positions on, or returns `None` exactly when there is no such position.
It never panics, which includes that the code point handed to `from_u32_unchecked` is a scalar. -/
theorem C47_forward_checked (p : Platform) (c : Scalar) (n : Nat) (hn : n < p.usizeCount) :
    ∃ r, (Scalar.step p).forwardChecked c n = .ok r ∧
      (∀ d, r = some d ↔ d.idx = c.idx + n) := by
  by_cases h : ∃ d : Scalar, d.idx = c.idx + n
  · obtain ⟨d, hd⟩ := h
    refine ⟨some d, Scalar.forwardChecked_some p c d n hn hd, fun e => ?_⟩
    constructor
    · intro he; rw [← Option.some.inj he, hd]
    · intro he; rw [Scalar.idx_inj (hd.trans he.symm)]
  · have h' : ∀ d : Scalar, d.idx ≠ c.idx + n := fun d hd => h ⟨d, hd⟩
    exact ⟨none, Scalar.forwardChecked_none p c n hn h',
      fun d => ⟨fun e => (by cases e), fun e => absurd e (h' d)⟩⟩

/-- `backward_checked` moves `n` positions back, or returns `None` exactly when there is no such
position; it never panics. -/
theorem C47_backward_checked (p : Platform) (c : Scalar) (n : Nat) (hn : n < p.usizeCount) :
    ∃ r, (Scalar.step p).backwardChecked c n = .ok r ∧
      (∀ d, r = some d ↔ d.idx = c.idx - n) := by
  by_cases h : ∃ d : Scalar, d.idx = c.idx - n
  · obtain ⟨d, hd⟩ := h
    refine ⟨some d, Scalar.backwardChecked_some p c d n hn hd, fun e => ?_⟩
    constructor
    · intro he; rw [← Option.some.inj he, hd]
    · intro he; rw [Scalar.idx_inj (hd.trans he.symm)]
  · have h' : ∀ d : Scalar, d.idx ≠ c.idx - n := fun d hd => h ⟨d, hd⟩
    exact ⟨none, Scalar.backwardChecked_none p c n hn h',
      fun d => ⟨fun e => (by cases e), fun e => absurd e (h' d)⟩⟩

/-- `steps_between` counts positions, when the count fits `usize` (always, from 32 bits on). -/
theorem C47_steps_between (p : Platform) (c d : Scalar) :
    (Scalar.step p).stepsBetween c d =
      .ok (if c.1 ≤ d.1 ∧ d.idx - c.idx < 2 ^ p.usizeBits then some (d.idx - c.idx).toNat
        else none) ∧
    (32 ≤ p.usizeBits → c.1 ≤ d.1 →
      (Scalar.step p).stepsBetween c d = .ok (some (d.idx - c.idx).toNat)) := by
  have h := Scalar.stepsBetween_eq p c d
  refine ⟨by rw [← p.usizeCount_cast]; exact h, fun h32 hle => ?_⟩
  show Scalar.stepsBetween p c d = _
  rw [h, if_pos ⟨hle, Scalar.fits p h32 c d⟩]

/-- From U+D7FF one step leads to U+E000, and back; U+10FFFF has no successor. -/
example : (Scalar.step debug64).forwardChecked ⟨0xD7FF, by decide⟩ 1 =
    .ok (some ⟨0xE000, by decide⟩) := by decide
example : (Scalar.step debug16).backwardChecked ⟨0xE000, by decide⟩ 1 =
    .ok (some ⟨0xD7FF, by decide⟩) := by decide
example : (Scalar.step release64).forwardChecked ⟨0x10FFFF, by decide⟩ 1 = .ok none := by decide
/-- On a 16-bit platform the whole range has too many steps for `usize`. -/
example : (Scalar.step debug16).stepsBetween ⟨0, by decide⟩ ⟨0x10FFFF, by decide⟩ = .ok none := by
  decide

/-! ## C48 -/

/-- Every provided implementation is lawful; those with overflow checks, and `char`, panic when stepping
out of the type; values of types no wider than `usize` are fewer than `2 ^ usizeBits` steps apart. -/
theorem C48_provided (p : Platform) :
    (∀ τ, LawfulStep p (IntTy.step p τ) (IntTy.idx (τ := τ))) ∧ LawfulStep p (Scalar.step p) Scalar.idx ∧
    (∀ τ, p.overflowChecks = true → Step.Checked p (IntTy.step p τ) (IntTy.idx (τ := τ))) ∧
    Step.Checked p (Scalar.step p) Scalar.idx ∧
    (∀ τ : IntTy, τ.bits ≤ p.usizeBits → Step.Fits p (IntTy.idx (τ := τ))) ∧
    (32 ≤ p.usizeBits → Step.Fits p Scalar.idx) :=
  ⟨IntTy.lawful p, Scalar.lawful p, IntTy.checked p, Scalar.checked p, IntTy.fits p, Scalar.fits p⟩

/-- A numbering makes the laws hold. -/
theorem C48_laws {T : Type} [LinearOrder T] {p : Platform} {S : Step T} {idx : T → Int}
    (L : LawfulStep p S idx) : StepLaws p S := by
  have hu := p.le_usizeCount
  have inj : ∀ a b, idx a = idx b → a = b := by
    intro a b h
    rcases lt_trichotomy a b with h1 | h1 | h1
    · have := (L.lt_iff _ _).1 h1; omega
    · exact h1
    · have := (L.lt_iff _ _).1 h1; omega
  have le_iff : ∀ a b, a ≤ b ↔ idx a ≤ idx b := by
    intro a b; rw [← not_lt, L.lt_iff, not_lt]
  constructor
  · intro a; rw [L.forwardChecked_iff _ _ _ (by omega)]; simp
  · intro a b m n r hmn h
    rw [L.forwardChecked_iff _ _ _ (by omega)] at h
    have : S.forwardChecked b n = S.forwardChecked a (m + n) := by
      by_cases hc : ∃ c, idx c = idx b + n
      · obtain ⟨c, hc⟩ := hc
        rw [L.forwardChecked_some b n c (by omega) hc,
          L.forwardChecked_some a (m + n) c (by omega) (by push_cast; omega)]
      · rw [L.forwardChecked_none b n (by omega) (fun c h => hc ⟨c, h⟩),
          L.forwardChecked_none a (m + n) (by omega)
            (fun c h => hc ⟨c, by push_cast at h; omega⟩)]
    rw [this]
  · intro a b n hn
    rw [L.forwardChecked_iff _ _ _ hn, L.backwardChecked_iff _ _ _ hn]; omega
  · intro a b n hn h0 h
    rw [L.forwardChecked_iff _ _ _ hn] at h
    rw [L.lt_iff]; omega
  · intro a b n hn
    rw [L.forwardChecked_iff _ _ _ hn, L.stepsBetween]
    constructor
    · intro h
      rw [if_pos ⟨(le_iff _ _).2 (by omega), by omega⟩]
      congr 2; omega
    · intro h
      split at h
      · rename_i hc
        rw [le_iff] at hc
        have : (idx b - idx a).toNat = n := by injection h with h; injection h
        omega
      · cases h
  · intro a b h c hc
    rw [L.forwardChecked_iff _ _ _ (by omega)] at h
    rw [L.lt_iff] at hc
    rw [le_iff]; push_cast at h; omega
  · intro a b n hn h
    exact L.forward_some a n b hn ((L.forwardChecked_iff _ _ _ hn).1 h)
  · intro a b n hn h
    exact L.backward_some a n b hn ((L.backwardChecked_iff _ _ _ hn).1 h)

/-- The laws hold of every provided implementation. -/
theorem C48_step_laws (p : Platform) :
    (∀ τ, StepLaws p (IntTy.step p τ)) ∧ StepLaws p (Scalar.step p) :=
  ⟨fun τ => C48_laws (IntTy.lawful p τ), C48_laws (Scalar.lawful p)⟩

/-- The hypotheses of the laws are met: -100i8 plus 200 is 100, and 200 back again. -/
example : (IntTy.step debug64 i8).forwardChecked ⟨-100, by decide⟩ 200 = .ok (some ⟨100, by decide⟩) ∧
    (IntTy.step debug64 i8).backwardChecked ⟨100, by decide⟩ 200 = .ok (some ⟨-100, by decide⟩) := by
  decide

end Rangetools
