import Verif.Spec.Algebra

/-!
# Which operand's damage can reach the result

A set that was deserialized can break the private invariant (C62).  These tables say, for the types of the
two operands, whether the result can then break it too.  They look only at the types.
-/

namespace Rangetools

variable {T : Type}

/-- A broken left operand of `union` can give a broken result: it is the operand that the other one is added
to, or the other one is the `EmptyRange`. -/
def UnionKeepsLeft : Inner T → Inner T → Bool
  | .bs _, .br _ | .bs _, .bs _ | .bs _, .er => true
  | .lbs _, .br _ | .lbs _, .bs _ | .lbs _, .lbr _ | .lbs _, .lbs _ | .lbs _, .er => true
  | .ubs _, .br _ | .ubs _, .bs _ | .ubs _, .ubr _ | .ubs _, .ubs _ | .ubs _, .er => true
  | .us _, .ur => false
  | .us _, _ => true
  | _, _ => false

/-- A broken right operand of `union` can give a broken result. -/
def UnionKeepsRight : Inner T → Inner T → Bool
  | .er, .bs _ | .er, .lbs _ | .er, .ubs _ | .er, .us _ => true
  | .br _, .lbs _ | .br _, .ubs _ | .bs _, .lbs _ | .bs _, .ubs _ => true
  | .us _, .us _ | .ur, .us _ => false
  | _, .us _ => true
  | _, _ => false

/-- A broken left operand of `intersection` can give a broken result: it is only clipped, or returned as it
is. -/
def InterKeepsLeft : Inner T → Inner T → Bool
  | .bs _, .br _ | .bs _, .lbr _ | .bs _, .ubr _ | .bs _, .us _ | .bs _, .ur => true
  | .lbs _, .lbr _ | .lbs _, .us _ | .lbs _, .ur => true
  | .ubs _, .us _ | .ubs _, .ur => true
  | .us _, .us _ | .us _, .ur => true
  | _, _ => false

/-- A broken right operand of `intersection` can give a broken result. -/
def InterKeepsRight (a b : Inner T) : Bool := InterKeepsLeft b a

end Rangetools
