import Verif.Spec.Step

/-!
# A client's `Step` that goes through codes

Code that users of the crate write, not part of it: `Step` for a type of their own whose values are numbered by those of another
type, an enum numbered by `u8` for instance.
-/

namespace Rangetools
variable {T U : Type}

/-- `steps_between` asks about the codes; `forward_checked` and `backward_checked` step from the code and decode the result,
`T::forward_checked(self.code(), n).and_then(U::decode)`; `forward` and `backward` are the provided ones. -/
def Step.via (S : Step T) (code : U → T) (decode : T → Option U) : Step U where
  stepsBetween a b := S.stepsBetween (code a) (code b)
  forwardChecked a n := do return (← S.forwardChecked (code a) n).bind decode
  backwardChecked a n := do return (← S.backwardChecked (code a) n).bind decode
  forward := Step.defaultForward fun a n => do return (← S.forwardChecked (code a) n).bind decode
  backward := Step.defaultBackward fun a n => do return (← S.backwardChecked (code a) n).bind decode

/-- The codes are decoded to the values they are codes of, and nothing else is decoded. -/
def IsCode (code : U → T) (decode : T → Option U) : Prop := ∀ t u, decode t = some u ↔ code u = t

end Rangetools
