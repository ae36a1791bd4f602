import Verif.Model.Step

/-!
# What it means to be a lawful `Step` type

The trait documentation speaks of "the number of successor steps".  `idx` numbers the values of the
type so that the order is the order of the numbers and there are no gaps; the methods must then add,
subtract and compare numbers.  Where a step leaves the type, `forward` and `backward` may do anything
(the trait documentation allows panicking, wrapping and saturating); `Step.Checked` says they panic.
-/

namespace Rangetools
variable {T : Type} [LinearOrder T]

/-- `S` behaves as the trait documents, for the numbering `idx`. -/
structure LawfulStep (p : Platform) (S : Step T) (idx : T → Int) : Prop where
  lt_iff : ∀ a b, a < b ↔ idx a < idx b
  convex : ∀ a b k, idx a ≤ k → k ≤ idx b → ∃ c, idx c = k
  stepsBetween : ∀ a b, S.stepsBetween a b =
    .ok (if a ≤ b ∧ idx b - idx a < p.usizeCount then some (idx b - idx a).toNat else none)
  forwardChecked_some : ∀ a (n : Nat) b, n < p.usizeCount → idx b = idx a + n →
    S.forwardChecked a n = .ok (some b)
  forwardChecked_none : ∀ a (n : Nat), n < p.usizeCount → (∀ b, idx b ≠ idx a + n) →
    S.forwardChecked a n = .ok none
  backwardChecked_some : ∀ a (n : Nat) b, n < p.usizeCount → idx b = idx a - n →
    S.backwardChecked a n = .ok (some b)
  backwardChecked_none : ∀ a (n : Nat), n < p.usizeCount → (∀ b, idx b ≠ idx a - n) →
    S.backwardChecked a n = .ok none
  forward_some : ∀ a (n : Nat) b, n < p.usizeCount → idx b = idx a + n → S.forward a n = .ok b
  backward_some : ∀ a (n : Nat) b, n < p.usizeCount → idx b = idx a - n → S.backward a n = .ok b

/-- Stepping out of the type panics. -/
structure Step.Checked (p : Platform) (S : Step T) (idx : T → Int) : Prop where
  forward : ∀ a (n : Nat), n < p.usizeCount → (∀ b, idx b ≠ idx a + n) →
    ∃ m, S.forward a n = .panic m
  backward : ∀ a (n : Nat), n < p.usizeCount → (∀ b, idx b ≠ idx a - n) →
    ∃ m, S.backward a n = .panic m

/-- Any two values are fewer than `2 ^ usizeBits` steps apart. -/
def Step.Fits (p : Platform) (idx : T → Int) : Prop := ∀ a b : T, idx b - idx a < p.usizeCount

/-- Numbering of the values of an integer type: the value itself. -/
def IntTy.idx {τ : IntTy} (x : τ.Val) : Int := x.1

/-- Position of a `char` in the sequence of Unicode scalar values. -/
def Scalar.idx (c : Scalar) : Int := if c.1 < 0xD800 then c.1 else c.1 - 0x800

/-- The algebraic laws, in terms of the methods only: steps add up, backward undoes forward and
conversely, forward moves up (strictly for `n > 0`), and `steps_between` counts the steps. -/
structure StepLaws {T : Type} [LinearOrder T] (p : Platform) (S : Step T) : Prop where
  forward_zero : ∀ a, S.forwardChecked a 0 = .ok (some a)
  forward_add : ∀ a b m n r, m + n < p.usizeCount → S.forwardChecked a m = .ok (some b) →
    (S.forwardChecked b n = .ok r ↔ S.forwardChecked a (m + n) = .ok r)
  backward_forward : ∀ a b n, n < p.usizeCount →
    (S.forwardChecked a n = .ok (some b) ↔ S.backwardChecked b n = .ok (some a))
  lt_forward : ∀ a b n, n < p.usizeCount → 0 < n → S.forwardChecked a n = .ok (some b) → a < b
  steps_forward : ∀ a b n, n < p.usizeCount →
    (S.forwardChecked a n = .ok (some b) ↔ S.stepsBetween a b = .ok (some n))
  adjacent : ∀ a b, S.forwardChecked a 1 = .ok (some b) → ∀ c, a < c → b ≤ c
  forward_agrees : ∀ a b n, n < p.usizeCount → S.forwardChecked a n = .ok (some b) →
    S.forward a n = .ok b
  backward_agrees : ∀ a b n, n < p.usizeCount → S.backwardChecked a n = .ok (some b) →
    S.backward a n = .ok b

end Rangetools
