import Verif.Proofs.Step

/-!
# `char` is a lawful `Step` type
-/

namespace Rangetools
namespace Scalar

theorem u32_min : u32.min = 0 := rfl
theorem u32_max : u32.max = 4294967295 := rfl

theorem idx_inj {a b : Scalar} (h : a.idx = b.idx) : a = b := by
  obtain ⟨a, ha⟩ := a
  obtain ⟨b, hb⟩ := b
  have ha' := ha
  have hb' := hb
  simp only [IsScalar] at ha' hb'
  simp only [idx] at h
  congr 1
  split at h <;> split at h <;> omega

theorem lt_iff (a b : Scalar) : a < b ↔ a.idx < b.idx := by
  obtain ⟨a, ha⟩ := a
  obtain ⟨b, hb⟩ := b
  show a < b ↔ _
  have ha' := ha
  have hb' := hb
  simp only [IsScalar] at ha' hb'
  simp only [idx]
  split <;> split <;> omega

theorem le_iff (a b : Scalar) : a ≤ b ↔ a.idx ≤ b.idx := by
  rw [← not_lt, lt_iff, not_lt]

theorem exists_idx (k : Int) : (∃ c : Scalar, c.idx = k) ↔ 0 ≤ k ∧ k < 0x10F800 := by
  constructor
  · rintro ⟨⟨c, hc⟩, rfl⟩
    have hc' := hc
    simp only [IsScalar] at hc'
    simp only [idx]
    split <;> omega
  · intro h
    by_cases h2 : k < 0xD800
    · exact ⟨⟨k, by simp only [IsScalar]; omega⟩, by simp only [idx, h2, if_true]⟩
    · refine ⟨⟨k + 0x800, by simp only [IsScalar]; omega⟩, ?_⟩
      simp only [idx]
      split <;> omega

theorem fromU32_ok {n : Int} (h : u32.min ≤ n ∧ n ≤ u32.max) (hs : IsScalar n) :
    fromU32Unchecked ⟨n, h⟩ = .ok ⟨n, hs⟩ := by
  simp only [fromU32Unchecked, dif_pos hs]

theorem forwardChecked_some (p : Platform) (a b : Scalar) (n : Nat) (hn : n < p.usizeCount)
    (h : b.idx = a.idx + n) : forwardChecked p a n = .ok (some b) := by
  obtain ⟨a, ha⟩ := a
  obtain ⟨b, hb⟩ := b
  have hu := p.le_usizeCount
  have ha' := ha
  have hb' := hb
  simp only [IsScalar] at ha' hb'
  simp only [idx] at h
  simp only [forwardChecked, toU32, IntTy.forwardChecked_eq p u32 _ n hn, Res.bind_ok]
  have hr : u32.min ≤ a + (n : Int) ∧ a + (n : Int) ≤ u32.max := by
    rw [u32_min, u32_max]; split at h <;> split at h <;> omega
  rw [IntTy.tryFrom_of_mem hr]
  simp only
  by_cases hx : a < 0xD800 ∧ 0xD800 ≤ a + (n : Int)
  · simp only [hx.1, hx.2, and_self, ↓reduceIte]
    rw [IntTy.forwardChecked_eq p u32 _ 0x800 (by omega)]
    have hr2 : u32.min ≤ a + (n : Int) + (0x800 : Nat) ∧ a + (n : Int) + (0x800 : Nat) ≤ u32.max := by
      rw [u32_min, u32_max]; split at h <;> split at h <;> omega
    simp only [IntTy.tryFrom_of_mem hr2, Res.bind_ok]
    have e : b = a + (n : Int) + (0x800 : Nat) := by split at h <;> split at h <;> omega
    subst e
    rw [if_pos (by omega), fromU32_ok _ hb]
    rfl
  · simp only [hx, ↓reduceIte]
    have e : b = a + (n : Int) := by split at h <;> split at h <;> omega
    subst e
    rw [if_pos (by omega), fromU32_ok _ hb]
    rfl

theorem forwardChecked_none (p : Platform) (a : Scalar) (n : Nat) (hn : n < p.usizeCount)
    (h : ∀ b : Scalar, b.idx ≠ a.idx + n) : forwardChecked p a n = .ok none := by
  have hk : ¬ (0 ≤ a.idx + n ∧ a.idx + n < 0x10F800) := by
    rw [← exists_idx]; rintro ⟨b, hb⟩; exact h b hb
  clear h
  obtain ⟨a, ha⟩ := a
  have hu := p.le_usizeCount
  simp only [IsScalar] at ha
  simp only [idx] at hk
  simp only [forwardChecked, toU32, IntTy.forwardChecked_eq p u32 _ n hn, Res.bind_ok]
  by_cases hr : u32.min ≤ a + (n : Int) ∧ a + (n : Int) ≤ u32.max
  · rw [IntTy.tryFrom_of_mem hr]
    simp only
    by_cases hx : a < 0xD800 ∧ 0xD800 ≤ a + (n : Int)
    · simp only [hx.1, hx.2, and_self, ↓reduceIte]
      rw [IntTy.forwardChecked_eq p u32 _ 0x800 (by omega)]
      by_cases hr2 : u32.min ≤ a + (n : Int) + (0x800 : Nat) ∧
          a + (n : Int) + (0x800 : Nat) ≤ u32.max
      · simp only [IntTy.tryFrom_of_mem hr2, Res.bind_ok]
        rw [if_neg (by split at hk <;> omega)]
        rfl
      · simp only [IntTy.tryFrom_of_not_mem hr2, Res.bind_ok]
        rfl
    · simp only [hx, ↓reduceIte]
      rw [if_neg (by split at hk <;> omega)]
      rfl
  · rw [IntTy.tryFrom_of_not_mem hr]
    rfl

theorem backwardChecked_some (p : Platform) (a b : Scalar) (n : Nat) (hn : n < p.usizeCount)
    (h : b.idx = a.idx - n) : backwardChecked p a n = .ok (some b) := by
  obtain ⟨a, ha⟩ := a
  obtain ⟨b, hb⟩ := b
  have hu := p.le_usizeCount
  have ha' := ha
  have hb' := hb
  simp only [IsScalar] at ha' hb'
  simp only [idx] at h
  simp only [backwardChecked, toU32, IntTy.backwardChecked_eq p u32 _ n hn, Res.bind_ok]
  have hr : u32.min ≤ a - (n : Int) ∧ a - (n : Int) ≤ u32.max := by
    rw [u32_min, u32_max]; split at h <;> split at h <;> omega
  rw [IntTy.tryFrom_of_mem hr]
  simp only
  by_cases hx : a ≥ 0xE000 ∧ 0xE000 > a - (n : Int)
  · simp only [hx.1, hx.2, and_self, ↓reduceIte]
    rw [IntTy.backwardChecked_eq p u32 _ 0x800 (by omega)]
    have hr2 : u32.min ≤ a - (n : Int) - (0x800 : Nat) ∧ a - (n : Int) - (0x800 : Nat) ≤ u32.max := by
      rw [u32_min, u32_max]; split at h <;> split at h <;> omega
    simp only [IntTy.tryFrom_of_mem hr2, Res.bind_ok]
    have e : b = a - (n : Int) - (0x800 : Nat) := by split at h <;> split at h <;> omega
    subst e
    rw [fromU32_ok _ hb]
    rfl
  · simp only [hx, ↓reduceIte]
    have e : b = a - (n : Int) := by split at h <;> split at h <;> omega
    subst e
    rw [fromU32_ok _ hb]
    rfl

theorem backwardChecked_none (p : Platform) (a : Scalar) (n : Nat) (hn : n < p.usizeCount)
    (h : ∀ b : Scalar, b.idx ≠ a.idx - n) : backwardChecked p a n = .ok none := by
  have hk : ¬ (0 ≤ a.idx - n ∧ a.idx - n < 0x10F800) := by
    rw [← exists_idx]; rintro ⟨b, hb⟩; exact h b hb
  clear h
  obtain ⟨a, ha⟩ := a
  have hu := p.le_usizeCount
  simp only [IsScalar] at ha
  simp only [idx] at hk
  simp only [backwardChecked, toU32, IntTy.backwardChecked_eq p u32 _ n hn, Res.bind_ok]
  by_cases hr : u32.min ≤ a - (n : Int) ∧ a - (n : Int) ≤ u32.max
  · have hr' := hr
    rw [u32_min, u32_max] at hr'
    rw [IntTy.tryFrom_of_mem hr]
    simp only
    have hx : a ≥ 0xE000 ∧ 0xE000 > a - (n : Int) := by split at hk <;> omega
    simp only [hx.1, hx.2, and_self, ↓reduceIte]
    rw [IntTy.backwardChecked_eq p u32 _ 0x800 (by omega)]
    have hr2 : ¬ (u32.min ≤ a - (n : Int) - (0x800 : Nat) ∧
        a - (n : Int) - (0x800 : Nat) ≤ u32.max) := by
      rw [u32_min, u32_max]; split at hk <;> omega
    simp only [IntTy.tryFrom_of_not_mem hr2, Res.bind_ok]
    rfl
  · rw [IntTy.tryFrom_of_not_mem hr]
    rfl

theorem stepsBetween_eq (p : Platform) (a b : Scalar) :
    stepsBetween p a b =
      .ok (if a ≤ b ∧ b.idx - a.idx < p.usizeCount then some (b.idx - a.idx).toNat else none) := by
  obtain ⟨a, ha⟩ := a
  obtain ⟨b, hb⟩ := b
  have hle : ((⟨a, ha⟩ : Scalar) ≤ ⟨b, hb⟩) ↔ a ≤ b := Iff.rfl
  simp only [hle]
  simp only [IsScalar] at ha hb
  simp only [stepsBetween, toU32, Subtype.mk_le_mk]
  by_cases h : a ≤ b
  · rw [if_pos h, IntTy.arith_of_mem (by rw [u32_min, u32_max]; omega)]
    simp only [Res.bind_ok, h, true_and]
    by_cases hx : a < 0xD800 ∧ 0xE000 ≤ b
    · simp only [hx.1, hx.2, and_self, ↓reduceIte]
      rw [IntTy.arith_of_mem (by rw [u32_min, u32_max]; omega)]
      simp only [Res.bind_ok, Res.pure_eq]
      have e : idx ⟨b, hb⟩ - idx ⟨a, ha⟩ = b - a - 0x800 := by
        simp only [idx]; split <;> split <;> omega
      rw [e, IntTy.tryUsize_eq p (by omega)]
    · simp only [hx, ↓reduceIte]
      simp only [Res.pure_eq]
      have e : idx ⟨b, hb⟩ - idx ⟨a, ha⟩ = b - a := by
        simp only [idx]; split <;> split <;> omega
      rw [e, IntTy.tryUsize_eq p (by omega)]
  · rw [if_neg h, if_neg (by omega)]; rfl

theorem lawful (p : Platform) : LawfulStep p (step p) idx where
  lt_iff := lt_iff
  convex := by
    intro a b k h1 h2
    rw [exists_idx]
    have ha := (exists_idx a.idx).1 ⟨a, rfl⟩
    have hb := (exists_idx b.idx).1 ⟨b, rfl⟩
    omega
  stepsBetween := stepsBetween_eq p
  forwardChecked_some := fun a n b => forwardChecked_some p a b n
  forwardChecked_none := forwardChecked_none p
  backwardChecked_some := fun a n b => backwardChecked_some p a b n
  backwardChecked_none := backwardChecked_none p
  forward_some := by
    intro a n b hn h
    simp only [step, Step.defaultForward, forwardChecked_some p a b n hn h]; rfl
  backward_some := by
    intro a n b hn h
    simp only [step, Step.defaultBackward, backwardChecked_some p a b n hn h]; rfl

theorem checked (p : Platform) : Step.Checked p (step p) idx where
  forward := by
    intro a n hn h
    refine ⟨"Overflow in `Step::forward`", ?_⟩
    simp only [step, Step.defaultForward, forwardChecked_none p a n hn h]; rfl
  backward := by
    intro a n hn h
    refine ⟨"Overflow in `Step::backward`", ?_⟩
    simp only [step, Step.defaultBackward, backwardChecked_none p a n hn h]; rfl

theorem fits (p : Platform) (h : 32 ≤ p.usizeBits) : Step.Fits p idx := by
  intro a b
  have ha := (exists_idx a.idx).1 ⟨a, rfl⟩
  have hb := (exists_idx b.idx).1 ⟨b, rfl⟩
  have : 2 ^ 32 ≤ p.usizeCount := Nat.pow_le_pow_right (n := 2) (by decide) h
  omega

end Scalar
end Rangetools
