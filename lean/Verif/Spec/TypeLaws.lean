import Verif.Spec.Algebra

/-!
# For which operand types a law can fail

The laws C10, C11, C13, C14 and C58 fail for some operands because `intersection` of two `LowerBoundedSet`s
forgets members (C02).  These tables say for which types of the operands that can happen.  They look only at
the types.
-/

namespace Rangetools

variable {T : Type}

/-- Some intersection has the wrong members, or depends on the order of its operands. -/
def InterFails : Inner T → Inner T → Bool
  | .lbs _, .lbs _ => true
  | _, _ => false

/-- Some `a.intersection(b.complement())` is not the difference of `a` and `b`. -/
def DiffFails : Inner T → Inner T → Bool
  | .lbs _, .ubs _ => true
  | _, _ => false

/-- Some `(a ∩ b) ∩ c` is not `a ∩ (b ∩ c)`. -/
def AssocFails : Inner T → Inner T → Inner T → Bool
  | .lbs _, .lbs _, .lbs _ => true
  | .lbs _, .lbs _, .br _ | .lbs _, .lbs _, .bs _ | .lbs _, .lbs _, .ubr _ | .lbs _, .lbs _, .ubs _
  | .lbs _, .lbs _, .us _ => true
  | .br _, .lbs _, .lbs _ | .bs _, .lbs _, .lbs _ | .ubr _, .lbs _, .lbs _ | .ubs _, .lbs _, .lbs _
  | .us _, .lbs _, .lbs _ => true
  | .lbs _, .us _, .lbs _ => true
  | .lbs _, .us _, .lbr _ | .lbs _, .lbr _, .us _ | .lbr _, .us _, .lbs _ | .us _, .lbr _, .lbs _ => true
  | _, _, _ => false

/-- Some `a ∩ (b ∪ c)` is not `(a ∩ b) ∪ (a ∩ c)`, for sets. -/
def InterUnionFails : Inner T → Inner T → Inner T → Bool
  | .lbs _, .lbs _, _ => true
  | .lbs _, _, .lbs _ => true
  | _, _, _ => false

/-- Some `a ∪ (b ∩ c)` is not `(a ∪ b) ∩ (a ∪ c)`, for sets. -/
def UnionInterFails : Inner T → Inner T → Inner T → Bool
  | _, .lbs _, .lbs _ => true
  | .lbs _, .bs _, .bs _ | .lbs _, .bs _, .lbs _ | .lbs _, .lbs _, .bs _ => true
  | _, _, _ => false

variable [LinearOrder T]

/-- The members of `a ∩ b` are those of both. -/
def MeetsRight (a b : Any T) : Prop :=
  ∃ c, a.inter b = .ok c ∧ ∀ t, c.contains t = (a.contains t && b.contains t)

/-- `a ∩ bᶜ` has the members of `a` that are not in `b`. -/
def DiffRight (a b : Any T) : Prop :=
  ∃ c d, b.complement = .ok c ∧ a.inter (.inner c) = .ok d ∧ ∀ t, d.contains t = (a.contains t && !b.contains t)

/-- Both bracketings of `a ∩ b ∩ c` give the same value. -/
def Associates (a b c : Any T) : Prop :=
  ∃ x y z, a.inter b = .ok x ∧ b.inter c = .ok y ∧ (Any.inner x).inter c = .ok z ∧ a.inter (.inner y) = .ok z

/-- `a ∩ (b ∪ c)` and `(a ∩ b) ∪ (a ∩ c)` are the same value. -/
def InterUnion (a b c : Any T) : Prop :=
  ∃ bc ab ac r, b.union c = .ok bc ∧ a.inter b = .ok ab ∧ a.inter c = .ok ac ∧ a.inter bc = .ok r ∧
    (Any.inner ab).union (.inner ac) = .ok (.inner r)

/-- `a ∪ (b ∩ c)` and `(a ∪ b) ∩ (a ∪ c)` are the same value. -/
def UnionInter (a b c : Any T) : Prop :=
  ∃ bc ab ac r, b.inter c = .ok bc ∧ a.union b = .ok ab ∧ a.union c = .ok ac ∧
    a.union (.inner bc) = .ok (.inner r) ∧ ab.inter ac = .ok r

end Rangetools
