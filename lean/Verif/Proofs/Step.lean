import Verif.Spec.Step
import Mathlib.Tactic.Ring
import Mathlib.Tactic.Linarith

/-!
# The provided `Step` implementations compute what the specification says
-/

namespace Rangetools

namespace Res

@[simp] theorem bind_ok {α β : Type} (a : α) (f : α → Res β) : (Res.ok a >>= f) = f a := rfl
@[simp] theorem bind_panic {α β : Type} (m : String) (f : α → Res β) :
    (Res.panic m >>= f) = .panic m := rfl
@[simp] theorem pure_eq {α : Type} (a : α) : (pure a : Res α) = .ok a := rfl

end Res

theorem Platform.usizeCount_cast (p : Platform) : (p.usizeCount : Int) = 2 ^ p.usizeBits := by
  simp [Platform.usizeCount]

namespace IntTy

theorem wrap_of_mem {τ : IntTy} {x : Int} (h : τ.min ≤ x ∧ x ≤ τ.max) : τ.wrap x = ⟨x, h⟩ := by
  apply Subtype.ext
  simp only [wrap]
  have : τ.max = τ.min + τ.card - 1 := rfl
  rw [Int.emod_eq_of_lt (by omega) (by omega)]
  omega

theorem wrap_congr {τ : IntTy} {x y : Int} (k : Int) (h : x = y + k * τ.card) :
    τ.wrap x = τ.wrap y := by
  apply Subtype.ext
  simp only [wrap, h]
  have : y + k * τ.card - τ.min = (y - τ.min) + k * τ.card := by ring
  rw [this, Int.add_mul_emod_self_right]

theorem wrap_spec (τ : IntTy) (x : Int) : ∃ k : Int, (τ.wrap x).1 = x + k * τ.card := by
  refine ⟨-((x - τ.min) / τ.card), ?_⟩
  have := Int.emod_add_mul_ediv (x - τ.min) τ.card
  simp only [wrap]
  linarith [mul_comm τ.card ((x - τ.min) / τ.card)]

theorem wrappingAdd_wrap {τ : IntTy} (a : τ.Val) (n : Int) :
    wrappingAdd a (τ.wrap n) = τ.wrap (a.1 + n) := by
  obtain ⟨k, hk⟩ := wrap_spec τ n
  exact wrap_congr k (by rw [hk]; ring)

theorem wrappingSub_wrap {τ : IntTy} (a : τ.Val) (n : Int) :
    wrappingSub a (τ.wrap n) = τ.wrap (a.1 - n) := by
  obtain ⟨k, hk⟩ := wrap_spec τ n
  exact wrap_congr (-k) (by rw [hk]; ring)

theorem tryFrom_of_mem {τ : IntTy} {x : Int} (h : τ.min ≤ x ∧ x ≤ τ.max) :
    τ.tryFrom x = some ⟨x, h⟩ := by simp only [tryFrom, h, and_self, dif_pos]

theorem tryFrom_of_not_mem {τ : IntTy} {x : Int} (h : ¬ (τ.min ≤ x ∧ x ≤ τ.max)) :
    τ.tryFrom x = none := by simp only [tryFrom, dif_neg h]

theorem max_eq (τ : IntTy) : τ.max = τ.min + τ.card - 1 := rfl

theorem min_unsigned {τ : IntTy} (h : τ.signed = false) : τ.min = 0 := by simp [min, h]

theorem min_nonpos (τ : IntTy) : τ.min ≤ 0 := by
  unfold min
  have : (0 : Int) < 2 ^ (τ.bits - 1) := Int.pow_pos (by decide)
  split <;> omega

theorem pow_mono {a b : Nat} (h : a ≤ b) : (2 : Int) ^ a ≤ 2 ^ b := by
  exact_mod_cast Nat.pow_le_pow_right (n := 2) (by decide) h

/-- A wider-than-`usize` type represents every `usize`. -/
theorem usizeCount_le_max {p : Platform} {τ : IntTy} (h : ¬ τ.bits ≤ p.usizeBits) :
    (p.usizeCount : Int) - 1 ≤ τ.max := by
  rw [p.usizeCount_cast, max_eq]
  have h1 : (2 : Int) ^ p.usizeBits ≤ 2 ^ (τ.bits - 1) := pow_mono (by omega)
  have h2 : τ.card = 2 * 2 ^ (τ.bits - 1) := by
    unfold card
    rw [← pow_succ']; congr 1; omega
  have h4 : (0 : Int) < 2 ^ (τ.bits - 1) := Int.pow_pos (by decide)
  have h3 : -(2 ^ (τ.bits - 1) : Int) ≤ τ.min := by unfold min; split <;> omega
  omega

/-- A narrower type has at most `2 ^ usizeBits` values. -/
theorem card_le {p : Platform} {τ : IntTy} (h : τ.bits ≤ p.usizeBits) :
    τ.card ≤ p.usizeCount := by
  rw [p.usizeCount_cast]; exact pow_mono h

theorem usize_min (p : Platform) : (usize p).min = 0 := rfl
theorem usize_max (p : Platform) : (usize p).max = p.usizeCount - 1 := by
  rw [p.usizeCount_cast]; simp [max, min, usize, card]

theorem asUsize_of_lt {p : Platform} {x : Int} (h0 : 0 ≤ x) (h1 : x < p.usizeCount) :
    asUsize p x = x.toNat := by
  unfold asUsize
  rw [wrap_of_mem ⟨by rw [usize_min]; exact h0, by rw [usize_max]; omega⟩]

theorem tryUsize_eq (p : Platform) {x : Int} (h0 : 0 ≤ x) :
    tryUsize p x = if x < p.usizeCount then some x.toNat else none := by
  unfold tryUsize
  split
  · rw [tryFrom_of_mem ⟨by rw [usize_min]; exact h0, by rw [usize_max]; omega⟩]; rfl
  · rw [tryFrom_of_not_mem (by rw [usize_max]; omega)]; rfl

/-! ### `forward_checked`, `backward_checked` -/

theorem forwardChecked_eq (p : Platform) (τ : IntTy) (a : τ.Val) (n : Nat) (hn : n < p.usizeCount) :
    (step p τ).forwardChecked a n = .ok (τ.tryFrom (a.1 + n)) := by
  obtain ⟨a, ha0, ha1⟩ := a
  have hm := max_eq τ
  have hmin := min_nonpos τ
  unfold step
  split <;> split
  · -- signed, narrow
    rename_i hb hs
    simp only [iNarrowForwardChecked]
    have e0 : τ.toUnsigned.min = 0 := rfl
    have e1 : τ.toUnsigned.max = τ.card - 1 := by simp [max, min, toUnsigned, card]
    by_cases h : (n : Int) ≤ τ.card - 1
    · rw [tryFrom_of_mem ⟨by omega, by omega⟩]
      simp only [wrappingAdd_wrap]
      by_cases h2 : a + (n : Int) ≤ τ.max
      · rw [wrap_of_mem ⟨by omega, h2⟩, tryFrom_of_mem ⟨by omega, h2⟩]
        rw [if_pos]
        show a ≤ a + n
        omega
      · have h3 : τ.wrap (a + n) = ⟨a + n - τ.card, by omega, by omega⟩ := by
          rw [wrap_congr (y := a + n - τ.card) 1 (by ring), wrap_of_mem]
        rw [h3, tryFrom_of_not_mem (by omega), if_neg]
        show ¬ (a ≤ a + n - τ.card)
        omega
    · rw [tryFrom_of_not_mem (by omega), tryFrom_of_not_mem (by omega)]
  · -- unsigned, narrow
    rename_i hb hs
    have e0 := min_unsigned (τ := τ) (by simpa using hs)
    simp only [uNarrowForwardChecked]
    by_cases h : (n : Int) ≤ τ.max
    · rw [tryFrom_of_mem ⟨by omega, h⟩]; rfl
    · rw [tryFrom_of_not_mem (by omega), tryFrom_of_not_mem (by omega)]
  all_goals
    rename_i hb hs
    have := usizeCount_le_max hb
    simp only [wideForwardChecked, checkedAdd]
    rw [wrap_of_mem ⟨by omega, by omega⟩]

theorem backwardChecked_eq (p : Platform) (τ : IntTy) (a : τ.Val) (n : Nat)
    (hn : n < p.usizeCount) :
    (step p τ).backwardChecked a n = .ok (τ.tryFrom (a.1 - n)) := by
  obtain ⟨a, ha0, ha1⟩ := a
  have hm := max_eq τ
  have hmin := min_nonpos τ
  unfold step
  split <;> split
  · rename_i hb hs
    simp only [iNarrowBackwardChecked]
    have e0 : τ.toUnsigned.min = 0 := rfl
    have e1 : τ.toUnsigned.max = τ.card - 1 := by simp [max, min, toUnsigned, card]
    by_cases h : (n : Int) ≤ τ.card - 1
    · rw [tryFrom_of_mem ⟨by omega, by omega⟩]
      simp only [wrappingSub_wrap]
      by_cases h2 : τ.min ≤ a - (n : Int)
      · rw [wrap_of_mem ⟨h2, by omega⟩, tryFrom_of_mem ⟨h2, by omega⟩]
        rw [if_pos]
        show a - n ≤ a
        omega
      · have h3 : τ.wrap (a - n) = ⟨a - n + τ.card, by omega, by omega⟩ := by
          rw [wrap_congr (y := a - n + τ.card) (-1) (by ring), wrap_of_mem]
        rw [h3, tryFrom_of_not_mem (by omega), if_neg]
        show ¬ (a - n + τ.card ≤ a)
        omega
    · rw [tryFrom_of_not_mem (by omega), tryFrom_of_not_mem (by omega)]
  · rename_i hb hs
    have e0 := min_unsigned (τ := τ) (by simpa using hs)
    simp only [uNarrowBackwardChecked]
    by_cases h : (n : Int) ≤ τ.max
    · rw [tryFrom_of_mem ⟨by omega, h⟩]; rfl
    · rw [tryFrom_of_not_mem (by omega), tryFrom_of_not_mem (by omega)]
  all_goals
    rename_i hb hs
    have := usizeCount_le_max hb
    simp only [wideBackwardChecked, checkedSub]
    rw [wrap_of_mem ⟨by omega, by omega⟩]

/-! ### `steps_between` -/

theorem arith_of_mem {p : Platform} {τ : IntTy} {x : Int} (h : τ.min ≤ x ∧ x ≤ τ.max) :
    arith p τ x = .ok ⟨x, h⟩ := by
  simp only [arith, tryFrom_of_mem h]

theorem stepsBetween_eq (p : Platform) (τ : IntTy) (a b : τ.Val) :
    (step p τ).stepsBetween a b =
      .ok (if a ≤ b ∧ b.1 - a.1 < p.usizeCount then some (b.1 - a.1).toNat else none) := by
  obtain ⟨a, ha0, ha1⟩ := a
  obtain ⟨b, hb0, hb1⟩ := b
  have hm := max_eq τ
  have hle : ((⟨a, ha0, ha1⟩ : τ.Val) ≤ ⟨b, hb0, hb1⟩) ↔ a ≤ b := Iff.rfl
  simp only [hle]
  unfold step
  split <;> split
  · rename_i hb hs
    simp only [iNarrowStepsBetween, hle]
    by_cases h : a ≤ b
    · have hc := card_le hb
      have hw : ∀ x : Int, τ.min ≤ x → x ≤ τ.max → (isize p).min ≤ x ∧ x ≤ (isize p).max := by
        intro x h0 h1
        have i1 : (isize p).min = -(2 ^ (p.usizeBits - 1)) := rfl
        have i2 : (isize p).card = 2 * 2 ^ (p.usizeBits - 1) := by
          have := p.wide
          show (2 : Int) ^ p.usizeBits = _
          rw [← pow_succ']; congr 1; omega
        have i3 := max_eq (isize p)
        have t1 : τ.min = -(2 ^ (τ.bits - 1)) := by simp [min, hs]
        have t2 : τ.card ≤ 2 * 2 ^ (τ.bits - 1) := by
          show (2 : Int) ^ τ.bits ≤ _
          rw [← pow_succ']; exact pow_mono (by omega)
        have t3 : (2 : Int) ^ (τ.bits - 1) ≤ 2 ^ (p.usizeBits - 1) := pow_mono (by omega)
        omega
      rw [if_pos h, if_pos ⟨h, by omega⟩, wrap_of_mem (hw b hb0 hb1), wrap_of_mem (hw a ha0 ha1)]
      simp only [wrappingSub]
      congr 2
      obtain ⟨k, hk⟩ := wrap_spec (isize p) (b - a)
      have hcc : (isize p).card = (usize p).card := rfl
      rw [asUsize, wrap_congr (y := b - a) k (by rw [hk, hcc])]
      exact asUsize_of_lt (by omega) (by omega)
    · rw [if_neg h, if_neg (by omega)]
  · rename_i hb hs
    simp only [uNarrowStepsBetween, hle]
    have e0 := min_unsigned (τ := τ) (by simpa using hs)
    by_cases h : a ≤ b
    · have hc := card_le hb
      rw [if_pos h, if_pos ⟨h, by omega⟩, arith_of_mem ⟨by omega, by omega⟩]
      simp only [Res.bind_ok, Res.pure_eq]
      rw [asUsize_of_lt (by omega) (by omega)]
    · rw [if_neg h, if_neg (by omega)]; rfl
  · rename_i hb hs
    simp only [iWideStepsBetween, hle]
    have hu := usizeCount_le_max hb
    have hmin := min_nonpos τ
    by_cases h : a ≤ b
    · rw [if_pos h]
      simp only [checkedSub]
      by_cases h2 : b - a ≤ τ.max
      · rw [tryFrom_of_mem ⟨by omega, h2⟩]
        simp only [tryUsize_eq p (show (0:Int) ≤ b - a by omega), h, true_and]
      · rw [tryFrom_of_not_mem (by omega), if_neg (by omega)]
    · rw [if_neg h, if_neg (by omega)]
  · rename_i hb hs
    simp only [uWideStepsBetween, hle]
    have e0 := min_unsigned (τ := τ) (by simpa using hs)
    by_cases h : a ≤ b
    · rw [if_pos h, arith_of_mem ⟨by omega, by omega⟩]
      simp only [Res.bind_ok, Res.pure_eq, tryUsize_eq p (show (0:Int) ≤ b - a by omega), h, true_and]
    · rw [if_neg h, if_neg (by omega)]; rfl

/-! ### `forward`, `backward` -/

theorem forward_eq_stepForward (p : Platform) (τ : IntTy) :
    (step p τ).forward = stepForward p (step p τ).forwardChecked := by
  unfold step; split <;> split <;> rfl

theorem backward_eq_stepBackward (p : Platform) (τ : IntTy) :
    (step p τ).backward = stepBackward p (step p τ).backwardChecked := by
  unfold step; split <;> split <;> rfl

theorem forward_eq (p : Platform) (τ : IntTy) (a : τ.Val) (n : Nat) (hn : n < p.usizeCount) :
    (step p τ).forward a n =
      if h : a.1 + n ≤ τ.max then .ok ⟨a.1 + n, by have := a.2.1; omega, h⟩
      else if p.overflowChecks then .panic "attempt to compute with overflow"
      else .ok (τ.wrap (a.1 + n)) := by
  rw [forward_eq_stepForward]
  simp only [stepForward, forwardChecked_eq p τ a n hn, wrappingAdd_wrap, Res.bind_ok]
  have ha := a.2
  by_cases h : a.1 + n ≤ τ.max
  · rw [dif_pos h]
    rw [tryFrom_of_mem ⟨by omega, h⟩, wrap_of_mem ⟨by omega, h⟩]
    rfl
  · rw [dif_neg h]
    rw [tryFrom_of_not_mem (by omega)]
    simp only [Option.isNone_none, if_true, arith]
    rw [tryFrom_of_not_mem (by omega)]
    cases p.overflowChecks <;> rfl

theorem backward_eq (p : Platform) (τ : IntTy) (a : τ.Val) (n : Nat) (hn : n < p.usizeCount) :
    (step p τ).backward a n =
      if h : τ.min ≤ a.1 - n then .ok ⟨a.1 - n, h, by have := a.2.2; omega⟩
      else if p.overflowChecks then .panic "attempt to compute with overflow"
      else .ok (τ.wrap (a.1 - n)) := by
  rw [backward_eq_stepBackward]
  simp only [stepBackward, backwardChecked_eq p τ a n hn, wrappingSub_wrap, Res.bind_ok]
  have ha := a.2
  by_cases h : τ.min ≤ a.1 - n
  · rw [dif_pos h]
    rw [tryFrom_of_mem ⟨h, by omega⟩, wrap_of_mem ⟨h, by omega⟩]
    rfl
  · rw [dif_neg h]
    rw [tryFrom_of_not_mem (by omega)]
    simp only [Option.isNone_none, if_true, arith]
    rw [tryFrom_of_not_mem (by omega)]
    cases p.overflowChecks <;> rfl

/-! ### The laws -/

theorem lawful (p : Platform) (τ : IntTy) : LawfulStep p (step p τ) (idx (τ := τ)) where
  lt_iff := fun _ _ => Iff.rfl
  convex := fun a b k h1 h2 => ⟨⟨k, le_trans a.2.1 h1, le_trans h2 b.2.2⟩, rfl⟩
  stepsBetween := stepsBetween_eq p τ
  forwardChecked_some := by
    intro a n b hn h
    rw [forwardChecked_eq p τ a n hn]
    simp only [idx] at h
    rw [← h, tryFrom_of_mem b.2]
  forwardChecked_none := by
    intro a n hn h
    rw [forwardChecked_eq p τ a n hn, tryFrom_of_not_mem]
    exact fun hc => h ⟨a.1 + n, hc⟩ rfl
  backwardChecked_some := by
    intro a n b hn h
    rw [backwardChecked_eq p τ a n hn]
    simp only [idx] at h
    rw [← h, tryFrom_of_mem b.2]
  backwardChecked_none := by
    intro a n hn h
    rw [backwardChecked_eq p τ a n hn, tryFrom_of_not_mem]
    exact fun hc => h ⟨a.1 - n, hc⟩ rfl
  forward_some := by
    intro a n b hn h
    simp only [idx] at h
    have := b.2
    rw [forward_eq p τ a n hn, dif_pos (by omega)]
    congr 1; exact Subtype.ext h.symm
  backward_some := by
    intro a n b hn h
    simp only [idx] at h
    have := b.2
    rw [backward_eq p τ a n hn, dif_pos (by omega)]
    congr 1; exact Subtype.ext h.symm

theorem checked (p : Platform) (τ : IntTy) (hp : p.overflowChecks = true) :
    Step.Checked p (step p τ) (idx (τ := τ)) where
  forward := by
    intro a n hn h
    refine ⟨"attempt to compute with overflow", ?_⟩
    rw [forward_eq p τ a n hn, dif_neg, if_pos hp]
    intro hc
    exact h ⟨a.1 + n, by have := a.2; omega, hc⟩ rfl
  backward := by
    intro a n hn h
    refine ⟨"attempt to compute with overflow", ?_⟩
    rw [backward_eq p τ a n hn, dif_neg, if_pos hp]
    intro hc
    exact h ⟨a.1 - n, hc, by have := a.2; omega⟩ rfl

theorem fits (p : Platform) (τ : IntTy) (h : τ.bits ≤ p.usizeBits) :
    Step.Fits p (idx (τ := τ)) := by
  intro a b
  have := card_le h
  have := a.2
  have := b.2
  have := max_eq τ
  simp only [idx]
  omega

end IntTy

theorem LawfulStep.forwardChecked_iff {T : Type} [LinearOrder T] {p : Platform} {S : Step T}
    {idx : T → Int} (L : LawfulStep p S idx) (a b : T) (n : Nat) (hn : n < p.usizeCount) :
    S.forwardChecked a n = .ok (some b) ↔ idx b = idx a + n := by
  constructor
  · intro h
    by_cases hc : ∃ c, idx c = idx a + n
    · obtain ⟨c, hc⟩ := hc
      rw [L.forwardChecked_some a n c hn hc] at h
      cases h; exact hc
    · rw [L.forwardChecked_none a n hn (fun c h => hc ⟨c, h⟩)] at h
      cases h
  · exact L.forwardChecked_some a n b hn

theorem LawfulStep.backwardChecked_iff {T : Type} [LinearOrder T] {p : Platform} {S : Step T}
    {idx : T → Int} (L : LawfulStep p S idx) (a b : T) (n : Nat) (hn : n < p.usizeCount) :
    S.backwardChecked a n = .ok (some b) ↔ idx b = idx a - n := by
  constructor
  · intro h
    by_cases hc : ∃ c, idx c = idx a - n
    · obtain ⟨c, hc⟩ := hc
      rw [L.backwardChecked_some a n c hn hc] at h
      cases h; exact hc
    · rw [L.backwardChecked_none a n hn (fun c h => hc ⟨c, h⟩)] at h
      cases h
  · exact L.backwardChecked_some a n b hn

end Rangetools
