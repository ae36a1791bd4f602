import Verif.Spec.TypeLaws

/-!
# The elements of exactly one of two ranges or sets

The crate has no symmetric difference.  These are the three usual ways to write one.
-/

namespace Rangetools

variable {T : Type} [LinearOrder T]

/-- `a.union(b).intersection(a.intersection(b).complement())` -/
def symDiff1 (a b : Any T) : Res (Inner T) := do
  let u ← a.union b
  let i ← a.inter b
  let c ← (Any.inner i).complement
  u.inter (.inner c)

/-- `a.intersection(b.complement()).union(b.intersection(a.complement()))` -/
def symDiff2 (a b : Any T) : Res (Any T) := do
  let cb ← b.complement
  let d ← a.inter (.inner cb)
  let ca ← a.complement
  let e ← b.inter (.inner ca)
  (Any.inner d).union (.inner e)

/-- `a.union(b).intersection(a.complement().union(b.complement()))` -/
def symDiff3 (a b : Any T) : Res (Inner T) := do
  let u ← a.union b
  let ca ← a.complement
  let cb ← b.complement
  let v ← (Any.inner ca).union (.inner cb)
  u.inter v

/-- `has` holds for exactly the elements of one of `a` and `b` only. -/
def OneOfTwo (a b : Any T) (has : T → Bool) : Prop := ∀ t, has t = (a.contains t ^^ b.contains t)

end Rangetools
