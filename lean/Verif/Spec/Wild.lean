import Verif.Model.Any

/-!
# Element types whose `Ord` breaks the rules

Rust does not check that an implementation of `Ord` is transitive.
-/

namespace Rangetools

/-- Comparison operators that agree with `cmp`, and a `cmp` that answers consistently when its arguments are
swapped.  Neither transitivity nor that equal elements are interchangeable is asked.  (`cmp a b` and
`cmp b a` have to agree because the model writes `a >= b` as `b <= a`.) -/
class SwapElem (T : Type) [LE T] [LT T] [DecidableLE T] [DecidableLT T] [Ord T] [BEq T] : Prop where
  swap (a b : T) : compare b a = (compare a b).swap
  le_iff (a b : T) : a ≤ b ↔ compare a b ≠ .gt
  lt_iff (a b : T) : a < b ↔ compare a b = .lt
  beq_iff (a b : T) : (a == b) = true ↔ compare a b = .eq

/-- Whatever happens in `x`, it is not a panic with a message outside `P`. -/
def Res.PanicsOnly {α : Type} (P : String → Prop) (x : Res α) : Prop := ∀ m, x = .panic m → P m

/-- Rock, paper and scissors: each beats the one before. -/
inductive Rps
  | rock | paper | scissors
  deriving DecidableEq, Repr

/-- Greater is what wins. -/
def Rps.cmp : Rps → Rps → Ordering
  | .rock, .paper | .paper, .scissors | .scissors, .rock => .lt
  | .paper, .rock | .scissors, .paper | .rock, .scissors => .gt
  | _, _ => .eq

instance : Ord Rps := ⟨Rps.cmp⟩
instance : LE Rps := ⟨fun a b => compare a b ≠ .gt⟩
instance : LT Rps := ⟨fun a b => compare a b = .lt⟩
instance : BEq Rps := ⟨fun a b => compare a b == .eq⟩
instance : DecidableLE Rps := fun a b => inferInstanceAs (Decidable (compare a b ≠ .gt))
instance : DecidableLT Rps := fun a b => inferInstanceAs (Decidable (compare a b = .lt))

instance : SwapElem Rps where
  swap a b := by cases a <;> cases b <;> rfl
  le_iff _ _ := Iff.rfl
  lt_iff _ _ := Iff.rfl
  beq_iff a b := by cases a <;> cases b <;> decide

/-- A number measured to within one unit. -/
structure Approx where
  val : Int
  deriving DecidableEq, Repr

/-- Numbers at distance at most one compare equal. -/
def Approx.cmp (a b : Approx) : Ordering :=
  if a.val + 1 < b.val then .lt else if b.val + 1 < a.val then .gt else .eq

instance : Ord Approx := ⟨Approx.cmp⟩
instance : LE Approx := ⟨fun a b => compare a b ≠ .gt⟩
instance : LT Approx := ⟨fun a b => compare a b = .lt⟩
instance : BEq Approx := ⟨fun a b => compare a b == .eq⟩
instance : DecidableLE Approx := fun a b => inferInstanceAs (Decidable (compare a b ≠ .gt))
instance : DecidableLT Approx := fun a b => inferInstanceAs (Decidable (compare a b = .lt))

instance : SwapElem Approx where
  swap a b := by
    show Approx.cmp b a = (Approx.cmp a b).swap
    unfold Approx.cmp
    split <;> split <;> first | rfl | omega
  le_iff _ _ := Iff.rfl
  lt_iff _ _ := Iff.rfl
  beq_iff a b := by
    show (compare a b == .eq) = true ↔ _
    cases compare a b <;> decide

end Rangetools
