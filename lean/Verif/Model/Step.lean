import Verif.Model.Res
import Mathlib.Order.Defs.LinearOrder
import Mathlib.Order.Lattice
import Mathlib.Data.Int.Order.Basic

/-!
# Model of `src/step.rs`

The trait `Step` is a record of functions (`Step T`).  Integer types are intervals of `Int` with
Rust's checked, wrapping and overflow-checked arithmetic; `char` is the set of Unicode scalar values.
-/

namespace Rangetools

/-- What the compiled program depends on: pointer width (16, 32 or 64 in /repo/src/step.rs:238-250; any
width of at least 16 here) and whether `+`, `-` check for overflow. -/
structure Platform where
  usizeBits : Nat
  overflowChecks : Bool
  wide : 16 ≤ usizeBits := by decide
  deriving DecidableEq, Repr

/-- One more than `usize::MAX`. -/
def Platform.usizeCount (p : Platform) : Nat := 2 ^ p.usizeBits

theorem Platform.le_usizeCount (p : Platform) : 65536 ≤ p.usizeCount :=
  Nat.pow_le_pow_right (n := 2) (by decide) p.wide

/-- `a + b` on `usize`: panics on overflow with overflow checks, wraps without. -/
def Platform.addUsize (p : Platform) (a b : Nat) : Res Nat :=
  if a + b < p.usizeCount then .ok (a + b)
  else if p.overflowChecks then .panic "attempt to add with overflow"
  else .ok ((a + b) % p.usizeCount)

/-- `a - b` on `usize`: panics on underflow with overflow checks, wraps without. -/
def Platform.subUsize (p : Platform) (a b : Nat) : Res Nat :=
  if b ≤ a then .ok (a - b)
  else if p.overflowChecks then .panic "attempt to subtract with overflow"
  else .ok ((a + (p.usizeCount - b % p.usizeCount)) % p.usizeCount)

/-- `pub trait Step`, /repo/src/step.rs:10-50, as a record of its methods.  `usize` arguments and
results are natural numbers.  Any method of a user implementation may panic. -/
structure Step (T : Type) where
  /-- `steps_between`, /repo/src/step.rs:11-15. -/
  stepsBetween : T → T → Res (Option Nat)
  /-- `forward_checked`, /repo/src/step.rs:17-21. -/
  forwardChecked : T → Nat → Res (Option T)
  /-- `backward_checked`, /repo/src/step.rs:34-38. -/
  backwardChecked : T → Nat → Res (Option T)
  /-- `forward`, /repo/src/step.rs:23-32. -/
  forward : T → Nat → Res T
  /-- `backward`, /repo/src/step.rs:40-49. -/
  backward : T → Nat → Res T

/-- The provided `Step::forward`, /repo/src/step.rs:30-32. -/
def Step.defaultForward {T : Type} (forwardChecked : T → Nat → Res (Option T)) (start : T)
    (count : Nat) : Res T := do
  unwrap "Overflow in `Step::forward`" (← forwardChecked start count)

/-- The provided `Step::backward`, /repo/src/step.rs:47-49. -/
def Step.defaultBackward {T : Type} (backwardChecked : T → Nat → Res (Option T)) (start : T)
    (count : Nat) : Res T := do
  unwrap "Overflow in `Step::backward`" (← backwardChecked start count)

/-! ### Integer types -/

/-- An integer type of Rust: signedness and width. -/
structure IntTy where
  signed : Bool
  bits : Nat
  deriving DecidableEq, Repr

namespace IntTy

/-- Number of values. -/
def card (τ : IntTy) : Int := 2 ^ τ.bits

/-- `Self::MIN`. -/
def min (τ : IntTy) : Int := if τ.signed then -(2 ^ (τ.bits - 1)) else 0

/-- `Self::MAX`. -/
def max (τ : IntTy) : Int := τ.min + τ.card - 1

/-- The values of the type. -/
abbrev Val (τ : IntTy) : Type := {x : Int // τ.min ≤ x ∧ x ≤ τ.max}

theorem card_pos (τ : IntTy) : 0 < τ.card := Int.pow_pos (by decide)

/-- Reduction into the type: the value of `x as Self`, and of wrapping arithmetic. -/
def wrap (τ : IntTy) (x : Int) : τ.Val :=
  ⟨τ.min + (x - τ.min) % τ.card, by
    have h1 := Int.emod_nonneg (x - τ.min) (ne_of_gt τ.card_pos)
    have h2 := Int.emod_lt_of_pos (x - τ.min) τ.card_pos
    unfold max
    omega⟩

/-- `Self::try_from(x).ok()`, also the checked operations' test for representability. -/
def tryFrom (τ : IntTy) (x : Int) : Option τ.Val :=
  if h : τ.min ≤ x ∧ x ≤ τ.max then some ⟨x, h⟩ else none

/-- std `checked_add`. -/
def checkedAdd {τ : IntTy} (a b : τ.Val) : Option τ.Val := τ.tryFrom (a.1 + b.1)
/-- std `checked_sub`. -/
def checkedSub {τ : IntTy} (a b : τ.Val) : Option τ.Val := τ.tryFrom (a.1 - b.1)
/-- std `wrapping_add`. -/
def wrappingAdd {τ : IntTy} (a b : τ.Val) : τ.Val := τ.wrap (a.1 + b.1)
/-- std `wrapping_sub`. -/
def wrappingSub {τ : IntTy} (a b : τ.Val) : τ.Val := τ.wrap (a.1 - b.1)

/-- An arithmetic operator (`+`, `-`) with exact result `x`: panics on overflow with overflow checks,
wraps without. -/
def arith (p : Platform) (τ : IntTy) (x : Int) : Res τ.Val :=
  match τ.tryFrom x with
  | some v => .ok v
  | none => if p.overflowChecks then .panic "attempt to compute with overflow" else .ok (τ.wrap x)

/-- `usize`. -/
def usize (p : Platform) : IntTy := ⟨false, p.usizeBits⟩
/-- `isize`. -/
def isize (p : Platform) : IntTy := ⟨true, p.usizeBits⟩

/-- `x as usize`, as a natural number. -/
def asUsize (p : Platform) (x : Int) : Nat := ((usize p).wrap x).1.toNat

/-- `usize::try_from(x).ok()`. -/
def tryUsize (p : Platform) (x : Int) : Option Nat :=
  ((usize p).tryFrom x).map fun v => v.1.toNat

/-! #### `step_identical_methods!`, /repo/src/step.rs:52-78 -/

/-- `forward`, /repo/src/step.rs:54-64. -/
def stepForward (p : Platform) {τ : IntTy} (forwardChecked : τ.Val → Nat → Res (Option τ.Val))
    (start : τ.Val) (n : Nat) : Res τ.Val := do
  if (← forwardChecked start n).isNone then
    let _ ← arith p τ (τ.max + 1)
  return wrappingAdd start (τ.wrap n)

/-- `backward`, /repo/src/step.rs:66-76. -/
def stepBackward (p : Platform) {τ : IntTy} (backwardChecked : τ.Val → Nat → Res (Option τ.Val))
    (start : τ.Val) (n : Nat) : Res τ.Val := do
  if (← backwardChecked start n).isNone then
    let _ ← arith p τ (τ.min - 1)
  return wrappingSub start (τ.wrap n)

/-! #### Unsigned, no wider than `usize`, /repo/src/step.rs:88-117 -/

/-- `steps_between`, /repo/src/step.rs:92-100. -/
def uNarrowStepsBetween (p : Platform) {τ : IntTy} (start stop : τ.Val) : Res (Option Nat) := do
  if start ≤ stop then
    return some (asUsize p (← arith p τ (stop.1 - start.1)).1)
  else
    return none

/-- `forward_checked`, /repo/src/step.rs:102-108. -/
def uNarrowForwardChecked {τ : IntTy} (start : τ.Val) (n : Nat) : Res (Option τ.Val) :=
  match τ.tryFrom n with
  | some n => .ok (checkedAdd start n)
  | none => .ok none

/-- `backward_checked`, /repo/src/step.rs:110-116. -/
def uNarrowBackwardChecked {τ : IntTy} (start : τ.Val) (n : Nat) : Res (Option τ.Val) :=
  match τ.tryFrom n with
  | some n => .ok (checkedSub start n)
  | none => .ok none

/-! #### Signed, no wider than `usize`, /repo/src/step.rs:119-178 -/

/-- `steps_between`, /repo/src/step.rs:123-135. -/
def iNarrowStepsBetween (p : Platform) {τ : IntTy} (start stop : τ.Val) : Res (Option Nat) :=
  if start ≤ stop then
    .ok (some (asUsize p
      (wrappingSub ((isize p).wrap stop.1) ((isize p).wrap start.1)).1))
  else
    .ok none

/-- The unsigned type of the same width (`$u_narrower` beside `$i_narrower`). -/
def toUnsigned (τ : IntTy) : IntTy := ⟨false, τ.bits⟩

/-- `forward_checked`, /repo/src/step.rs:137-156. -/
def iNarrowForwardChecked {τ : IntTy} (start : τ.Val) (n : Nat) : Res (Option τ.Val) :=
  match τ.toUnsigned.tryFrom n with
  | some n =>
      let wrapped := wrappingAdd start (τ.wrap n.1)
      if wrapped ≥ start then .ok (some wrapped) else .ok none
  | none => .ok none

/-- `backward_checked`, /repo/src/step.rs:158-177. -/
def iNarrowBackwardChecked {τ : IntTy} (start : τ.Val) (n : Nat) : Res (Option τ.Val) :=
  match τ.toUnsigned.tryFrom n with
  | some n =>
      let wrapped := wrappingSub start (τ.wrap n.1)
      if wrapped ≤ start then .ok (some wrapped) else .ok none
  | none => .ok none

/-! #### Wider than `usize`, /repo/src/step.rs:181-233 -/

/-- Unsigned `steps_between`, /repo/src/step.rs:186-193. -/
def uWideStepsBetween (p : Platform) {τ : IntTy} (start stop : τ.Val) : Res (Option Nat) := do
  if start ≤ stop then
    return tryUsize p (← arith p τ (stop.1 - start.1)).1
  else
    return none

/-- Signed `steps_between`, /repo/src/step.rs:210-222. -/
def iWideStepsBetween (p : Platform) {τ : IntTy} (start stop : τ.Val) : Res (Option Nat) :=
  if start ≤ stop then
    match checkedSub stop start with
    | some result => .ok (tryUsize p result.1)
    | none => .ok none
  else
    .ok none

/-- `forward_checked`, /repo/src/step.rs:195-198 and 224-227. -/
def wideForwardChecked {τ : IntTy} (start : τ.Val) (n : Nat) : Res (Option τ.Val) :=
  .ok (checkedAdd start (τ.wrap n))

/-- `backward_checked`, /repo/src/step.rs:200-203 and 229-232. -/
def wideBackwardChecked {τ : IntTy} (start : τ.Val) (n : Nat) : Res (Option τ.Val) :=
  .ok (checkedSub start (τ.wrap n))

/-- The implementation selected by `step_integer_impls!` for a type and pointer width,
/repo/src/step.rs:238-254: every type at most as wide as `usize` is in the "narrower" list, every
other one in the "wider" list. -/
def step (p : Platform) (τ : IntTy) : Step τ.Val :=
  if τ.bits ≤ p.usizeBits then
    if τ.signed then
      { stepsBetween := iNarrowStepsBetween p
        forwardChecked := iNarrowForwardChecked
        backwardChecked := iNarrowBackwardChecked
        forward := stepForward p iNarrowForwardChecked
        backward := stepBackward p iNarrowBackwardChecked }
    else
      { stepsBetween := uNarrowStepsBetween p
        forwardChecked := uNarrowForwardChecked
        backwardChecked := uNarrowBackwardChecked
        forward := stepForward p uNarrowForwardChecked
        backward := stepBackward p uNarrowBackwardChecked }
  else
    if τ.signed then
      { stepsBetween := iWideStepsBetween p
        forwardChecked := wideForwardChecked
        backwardChecked := wideBackwardChecked
        forward := stepForward p wideForwardChecked
        backward := stepBackward p wideBackwardChecked }
    else
      { stepsBetween := uWideStepsBetween p
        forwardChecked := wideForwardChecked
        backwardChecked := wideBackwardChecked
        forward := stepForward p wideForwardChecked
        backward := stepBackward p wideBackwardChecked }

end IntTy

/-! ### `char` -/

/-- `u32`. -/
def u32 : IntTy := ⟨false, 32⟩

/-- A code point that is a Unicode scalar value: below 0x110000 and not a surrogate. -/
def IsScalar (n : Int) : Prop := 0 ≤ n ∧ n < 0x110000 ∧ ¬ (0xD800 ≤ n ∧ n < 0xE000)

instance (n : Int) : Decidable (IsScalar n) := by unfold IsScalar; infer_instance

/-- `char`, by code point. -/
abbrev Scalar : Type := {n : Int // IsScalar n}

namespace Scalar

/-- `c as u32`. -/
def toU32 (c : Scalar) : u32.Val :=
  ⟨c.1, by
    obtain ⟨n, h0, h1, _⟩ := c
    have e1 : u32.min = 0 := rfl
    have e2 : u32.max = 4294967295 := rfl
    simp only [e1, e2]
    omega⟩

/-- `char::from_u32_unchecked`; undefined behaviour is modelled as a panic with its own message, so a
proof that it is never reached is a proof that the `unsafe` block is sound. -/
def fromU32Unchecked (n : u32.Val) : Res Scalar :=
  if h : IsScalar n.1 then .ok ⟨n.1, h⟩ else .panic "undefined behaviour: invalid char"

/-- `steps_between`, /repo/src/step.rs:258-272. -/
def stepsBetween (p : Platform) (start stop : Scalar) : Res (Option Nat) := do
  let start := start.toU32
  let stop := stop.toU32
  if start ≤ stop then
    let count ← IntTy.arith p u32 (stop.1 - start.1)
    if start.1 < 0xD800 ∧ 0xE000 ≤ stop.1 then
      return IntTy.tryUsize p (← IntTy.arith p u32 (count.1 - 0x800)).1
    else
      return IntTy.tryUsize p count.1
  else
    return none

/-- `forward_checked`, /repo/src/step.rs:274-288. -/
def forwardChecked (p : Platform) (start : Scalar) (count : Nat) : Res (Option Scalar) := do
  let start := start.toU32
  match ← (IntTy.step p u32).forwardChecked start count with
  | none => return none
  | some res =>
      let res ← if start.1 < 0xD800 ∧ 0xD800 ≤ res.1 then
          (IntTy.step p u32).forwardChecked res 0x800
        else .ok (some res)
      match res with
      | none => return none
      | some res =>
          if res.1 ≤ 0x10FFFF then return some (← fromU32Unchecked res)
          else return none

/-- `backward_checked`, /repo/src/step.rs:290-300. -/
def backwardChecked (p : Platform) (start : Scalar) (count : Nat) : Res (Option Scalar) := do
  let start := start.toU32
  match ← (IntTy.step p u32).backwardChecked start count with
  | none => return none
  | some res =>
      let res ← if start.1 ≥ 0xE000 ∧ 0xE000 > res.1 then
          (IntTy.step p u32).backwardChecked res 0x800
        else .ok (some res)
      match res with
      | none => return none
      | some res => return some (← fromU32Unchecked res)

/-- `impl Step for char`, /repo/src/step.rs:256-301, with the provided `forward` and `backward`. -/
def step (p : Platform) : Step Scalar where
  stepsBetween := stepsBetween p
  forwardChecked := forwardChecked p
  backwardChecked := backwardChecked p
  forward := Step.defaultForward (forwardChecked p)
  backward := Step.defaultBackward (backwardChecked p)

end Scalar
end Rangetools
