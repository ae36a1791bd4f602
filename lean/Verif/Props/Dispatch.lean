import Verif.Proofs.Dispatch
import Verif.Props.Algebra

/-!
# C79: the impls that are chosen

`Ty.unionImpl` and its companions (Spec/Ty.lean) are the instances that instance search finds among the
transcribed impls, at the result types listed there.
-/

set_option linter.unreachableTactic false
set_option linter.unusedTactic false

namespace Rangetools
open Samples

theorem map_union {α T : Type} (r : Res α) (f : α → SetVal T) (g : α → Any T)
    (h : ∀ v, g v = .inner (f v).toInner) :
    g <$> r = ((r >>= fun v => pure (f v)) >>= fun v => pure (.inner v.toInner)) := by
  cases r with
  | panic m => rfl
  | ok v => exact congrArg Res.ok (h v)

theorem map_inter {α T : Type} (r : Res α) (f : α → Inner T) (g : α → Any T) (h : ∀ v, g v = .inner (f v)) :
    g <$> r = Any.inner <$> (r >>= fun v => pure (f v)) := by
  cases r with
  | panic m => rfl
  | ok v => exact congrArg Res.ok (h v)

section
variable {T : Type} [LE T] [LT T] [DecidableLE T] [DecidableLT T]

/-- C79. `is_empty`, `to_inner` and `to_set` of the impl for each type are the modelled functions. -/
theorem C79_tools (a : Ty) (x : a.Val T) :
    a.tools.isEmpty x = (a.embed x).isEmpty ∧
    a.inner.embed (a.tools.toInner x) = .inner (a.embed x).toInner ∧
    a.set.embed (a.tools.toSet x) = .inner (a.embed x).toSet.toInner := by
  cases a <;> exact ⟨rfl, rfl, rfl⟩

variable [Ord T] [BEq T]

/-- C79. For every pair of types there is an impl of `RangeUnion`, its result has the type
`a.union b`, and it computes the modelled union. -/
theorem C79_union (a b : Ty) (x : a.Val T) (y : b.Val T) :
    (a.union b).embed <$> (a.unionImpl b).union x y = (a.embed x).union (b.embed y) := by
  cases a with
  | range =>
    cases b <;> first
      | rfl
      | exact (congrArg (Ty.embed _ <$> ·) (union_BS_BS (Tools.toSet x) y)).trans (map_union _ .bs _ fun _ => rfl)
      | exact (congrArg (Ty.embed _ <$> ·) (union_BS_LBS (Tools.toSet x) y)).trans (map_union _ .lbs _ fun _ => rfl)
      | exact (congrArg (Ty.embed _ <$> ·) (union_BS_UBS (Tools.toSet x) y)).trans (map_union _ .ubs _ fun _ => rfl)
      | exact (congrArg (Ty.embed _ <$> ·) (union_BS_US (Tools.toSet x) y)).trans (map_union _ .us _ fun _ => rfl)
  | rangeInclusive =>
    cases b <;> first
      | rfl
      | exact (congrArg (Ty.embed _ <$> ·) (union_BS_BS (Tools.toSet x) y)).trans (map_union _ .bs _ fun _ => rfl)
      | exact (congrArg (Ty.embed _ <$> ·) (union_BS_LBS (Tools.toSet x) y)).trans (map_union _ .lbs _ fun _ => rfl)
      | exact (congrArg (Ty.embed _ <$> ·) (union_BS_UBS (Tools.toSet x) y)).trans (map_union _ .ubs _ fun _ => rfl)
      | exact (congrArg (Ty.embed _ <$> ·) (union_BS_US (Tools.toSet x) y)).trans (map_union _ .us _ fun _ => rfl)
  | rangeFrom =>
    cases b <;> first
      | rfl
      | exact (congrArg (Ty.embed _ <$> ·) (union_LBS_BS (Tools.toSet x) y)).trans (map_union _ .lbs _ fun _ => rfl)
      | exact (congrArg (Ty.embed _ <$> ·) (union_LBS_LBS (Tools.toSet x) y)).trans (map_union _ .lbs _ fun _ => rfl)
      | exact (congrArg (Ty.embed _ <$> ·) (union_LBS_UBS (Tools.toSet x) y)).trans (map_union _ .us _ fun _ => rfl)
      | exact (congrArg (Ty.embed _ <$> ·) (union_LBS_US (Tools.toSet x) y)).trans (map_union _ .us _ fun _ => rfl)
  | rangeTo =>
    cases b <;> first
      | rfl
      | exact (congrArg (Ty.embed _ <$> ·) (union_UBS_BS (Tools.toSet x) y)).trans (map_union _ .ubs _ fun _ => rfl)
      | exact (congrArg (Ty.embed _ <$> ·) (union_UBS_LBS (Tools.toSet x) y)).trans (map_union _ .us _ fun _ => rfl)
      | exact (congrArg (Ty.embed _ <$> ·) (union_UBS_UBS (Tools.toSet x) y)).trans (map_union _ .ubs _ fun _ => rfl)
      | exact (congrArg (Ty.embed _ <$> ·) (union_UBS_US (Tools.toSet x) y)).trans (map_union _ .us _ fun _ => rfl)
  | rangeToInclusive =>
    cases b <;> first
      | rfl
      | exact (congrArg (Ty.embed _ <$> ·) (union_UBS_BS (Tools.toSet x) y)).trans (map_union _ .ubs _ fun _ => rfl)
      | exact (congrArg (Ty.embed _ <$> ·) (union_UBS_LBS (Tools.toSet x) y)).trans (map_union _ .us _ fun _ => rfl)
      | exact (congrArg (Ty.embed _ <$> ·) (union_UBS_UBS (Tools.toSet x) y)).trans (map_union _ .ubs _ fun _ => rfl)
      | exact (congrArg (Ty.embed _ <$> ·) (union_UBS_US (Tools.toSet x) y)).trans (map_union _ .us _ fun _ => rfl)
  | rangeFull => cases b <;> rfl
  | br =>
    cases b <;> first
      | rfl
      | exact (congrArg (Ty.embed _ <$> ·) (union_BS_BS (Tools.toSet x) y)).trans (map_union _ .bs _ fun _ => rfl)
      | exact (congrArg (Ty.embed _ <$> ·) (union_BS_LBS (Tools.toSet x) y)).trans (map_union _ .lbs _ fun _ => rfl)
      | exact (congrArg (Ty.embed _ <$> ·) (union_BS_UBS (Tools.toSet x) y)).trans (map_union _ .ubs _ fun _ => rfl)
      | exact (congrArg (Ty.embed _ <$> ·) (union_BS_US (Tools.toSet x) y)).trans (map_union _ .us _ fun _ => rfl)
  | bs =>
    cases b <;> first
      | rfl
      | exact (congrArg (Ty.embed _ <$> ·) (union_BS_BS (Tools.toSet x) y)).trans (map_union _ .bs _ fun _ => rfl)
      | exact (congrArg (Ty.embed _ <$> ·) (union_BS_LBS (Tools.toSet x) y)).trans (map_union _ .lbs _ fun _ => rfl)
      | exact (congrArg (Ty.embed _ <$> ·) (union_BS_UBS (Tools.toSet x) y)).trans (map_union _ .ubs _ fun _ => rfl)
      | exact (congrArg (Ty.embed _ <$> ·) (union_BS_US (Tools.toSet x) y)).trans (map_union _ .us _ fun _ => rfl)
  | lbr =>
    cases b <;> first
      | rfl
      | exact (congrArg (Ty.embed _ <$> ·) (union_LBS_BS (Tools.toSet x) y)).trans (map_union _ .lbs _ fun _ => rfl)
      | exact (congrArg (Ty.embed _ <$> ·) (union_LBS_LBS (Tools.toSet x) y)).trans (map_union _ .lbs _ fun _ => rfl)
      | exact (congrArg (Ty.embed _ <$> ·) (union_LBS_UBS (Tools.toSet x) y)).trans (map_union _ .us _ fun _ => rfl)
      | exact (congrArg (Ty.embed _ <$> ·) (union_LBS_US (Tools.toSet x) y)).trans (map_union _ .us _ fun _ => rfl)
  | lbs =>
    cases b <;> first
      | rfl
      | exact (congrArg (Ty.embed _ <$> ·) (union_LBS_BS (Tools.toSet x) y)).trans (map_union _ .lbs _ fun _ => rfl)
      | exact (congrArg (Ty.embed _ <$> ·) (union_LBS_LBS (Tools.toSet x) y)).trans (map_union _ .lbs _ fun _ => rfl)
      | exact (congrArg (Ty.embed _ <$> ·) (union_LBS_UBS (Tools.toSet x) y)).trans (map_union _ .us _ fun _ => rfl)
      | exact (congrArg (Ty.embed _ <$> ·) (union_LBS_US (Tools.toSet x) y)).trans (map_union _ .us _ fun _ => rfl)
  | ubr =>
    cases b <;> first
      | rfl
      | exact (congrArg (Ty.embed _ <$> ·) (union_UBS_BS (Tools.toSet x) y)).trans (map_union _ .ubs _ fun _ => rfl)
      | exact (congrArg (Ty.embed _ <$> ·) (union_UBS_LBS (Tools.toSet x) y)).trans (map_union _ .us _ fun _ => rfl)
      | exact (congrArg (Ty.embed _ <$> ·) (union_UBS_UBS (Tools.toSet x) y)).trans (map_union _ .ubs _ fun _ => rfl)
      | exact (congrArg (Ty.embed _ <$> ·) (union_UBS_US (Tools.toSet x) y)).trans (map_union _ .us _ fun _ => rfl)
  | ubs =>
    cases b <;> first
      | rfl
      | exact (congrArg (Ty.embed _ <$> ·) (union_UBS_BS (Tools.toSet x) y)).trans (map_union _ .ubs _ fun _ => rfl)
      | exact (congrArg (Ty.embed _ <$> ·) (union_UBS_LBS (Tools.toSet x) y)).trans (map_union _ .us _ fun _ => rfl)
      | exact (congrArg (Ty.embed _ <$> ·) (union_UBS_UBS (Tools.toSet x) y)).trans (map_union _ .ubs _ fun _ => rfl)
      | exact (congrArg (Ty.embed _ <$> ·) (union_UBS_US (Tools.toSet x) y)).trans (map_union _ .us _ fun _ => rfl)
  | ur => cases b <;> rfl
  | us =>
    cases b <;> first
      | rfl
      | exact (congrArg (Ty.embed _ <$> ·) (union_US_BS (Tools.toSet x) y)).trans (map_union _ .us _ fun _ => rfl)
      | exact (congrArg (Ty.embed _ <$> ·) (union_US_LBS (Tools.toSet x) y)).trans (map_union _ .us _ fun _ => rfl)
      | exact (congrArg (Ty.embed _ <$> ·) (union_US_UBS (Tools.toSet x) y)).trans (map_union _ .us _ fun _ => rfl)
      | exact (congrArg (Ty.embed _ <$> ·) (union_US_US (Tools.toSet x) y)).trans (map_union _ .us _ fun _ => rfl)
  | er => cases b <;> rfl

/-- C79. For every pair of types there is an impl of `RangeIntersection`, its result has the type
`a.inter b`, and it computes the modelled intersection. -/
theorem C79_inter (a b : Ty) (x : a.Val T) (y : b.Val T) :
    (a.inter b).embed <$> (a.interImpl b).intersection x y = Any.inner <$> (a.embed x).inter (b.embed y) := by
  cases a with
  | range =>
    cases b <;> first
      | rfl
      | exact (congrArg (Ty.embed _ <$> ·) (intersection_BR_BR (Tools.toInner x) y)).trans (map_inter _ .br _ fun _ => rfl)
      | exact congrArg (Ty.embed _ <$> ·) (intersection_BR_BR (Tools.toInner x) y)
      | exact (congrArg (Ty.embed _ <$> ·) (intersection_BS_BR (Tools.toInner y) x)).trans (map_inter _ .bs _ fun _ => rfl)
      | exact congrArg (Ty.embed _ <$> ·) (intersection_BS_BR (Tools.toInner y) x)
      | exact (congrArg (Ty.embed _ <$> ·) (intersection_BR_LBR (Tools.toInner x) y)).trans (map_inter _ .br _ fun _ => rfl)
      | exact congrArg (Ty.embed _ <$> ·) (intersection_BR_LBR (Tools.toInner x) y)
      | exact (congrArg (Ty.embed _ <$> ·) (intersection_LBS_BR (Tools.toInner y) x)).trans (map_inter _ .bs _ fun _ => rfl)
      | exact congrArg (Ty.embed _ <$> ·) (intersection_LBS_BR (Tools.toInner y) x)
      | exact (congrArg (Ty.embed _ <$> ·) (intersection_BR_UBR (Tools.toInner x) y)).trans (map_inter _ .br _ fun _ => rfl)
      | exact congrArg (Ty.embed _ <$> ·) (intersection_BR_UBR (Tools.toInner x) y)
      | exact (congrArg (Ty.embed _ <$> ·) (intersection_UBS_BR (Tools.toInner y) x)).trans (map_inter _ .bs _ fun _ => rfl)
      | exact congrArg (Ty.embed _ <$> ·) (intersection_UBS_BR (Tools.toInner y) x)
      | exact (congrArg (Ty.embed _ <$> ·) (intersection_US_BR (Tools.toInner y) x)).trans (map_inter _ .bs _ fun _ => rfl)
      | exact congrArg (Ty.embed _ <$> ·) (intersection_US_BR (Tools.toInner y) x)
  | rangeInclusive =>
    cases b <;> first
      | rfl
      | exact (congrArg (Ty.embed _ <$> ·) (intersection_BR_BR (Tools.toInner x) y)).trans (map_inter _ .br _ fun _ => rfl)
      | exact congrArg (Ty.embed _ <$> ·) (intersection_BR_BR (Tools.toInner x) y)
      | exact (congrArg (Ty.embed _ <$> ·) (intersection_BS_BR (Tools.toInner y) x)).trans (map_inter _ .bs _ fun _ => rfl)
      | exact congrArg (Ty.embed _ <$> ·) (intersection_BS_BR (Tools.toInner y) x)
      | exact (congrArg (Ty.embed _ <$> ·) (intersection_BR_LBR (Tools.toInner x) y)).trans (map_inter _ .br _ fun _ => rfl)
      | exact congrArg (Ty.embed _ <$> ·) (intersection_BR_LBR (Tools.toInner x) y)
      | exact (congrArg (Ty.embed _ <$> ·) (intersection_LBS_BR (Tools.toInner y) x)).trans (map_inter _ .bs _ fun _ => rfl)
      | exact congrArg (Ty.embed _ <$> ·) (intersection_LBS_BR (Tools.toInner y) x)
      | exact (congrArg (Ty.embed _ <$> ·) (intersection_BR_UBR (Tools.toInner x) y)).trans (map_inter _ .br _ fun _ => rfl)
      | exact congrArg (Ty.embed _ <$> ·) (intersection_BR_UBR (Tools.toInner x) y)
      | exact (congrArg (Ty.embed _ <$> ·) (intersection_UBS_BR (Tools.toInner y) x)).trans (map_inter _ .bs _ fun _ => rfl)
      | exact congrArg (Ty.embed _ <$> ·) (intersection_UBS_BR (Tools.toInner y) x)
      | exact (congrArg (Ty.embed _ <$> ·) (intersection_US_BR (Tools.toInner y) x)).trans (map_inter _ .bs _ fun _ => rfl)
      | exact congrArg (Ty.embed _ <$> ·) (intersection_US_BR (Tools.toInner y) x)
  | rangeFrom =>
    cases b <;> first
      | rfl
      | exact (congrArg (Ty.embed _ <$> ·) (intersection_LBR_BR (Tools.toInner x) y)).trans (map_inter _ .br _ fun _ => rfl)
      | exact congrArg (Ty.embed _ <$> ·) (intersection_LBR_BR (Tools.toInner x) y)
      | exact (congrArg (Ty.embed _ <$> ·) (intersection_LBR_BS (Tools.toInner x) y)).trans (map_inter _ .bs _ fun _ => rfl)
      | exact congrArg (Ty.embed _ <$> ·) (intersection_LBR_BS (Tools.toInner x) y)
      | exact (congrArg (Ty.embed _ <$> ·) (intersection_LBR_LBR (Tools.toInner x) y)).trans (map_inter _ .lbr _ fun _ => rfl)
      | exact congrArg (Ty.embed _ <$> ·) (intersection_LBR_LBR (Tools.toInner x) y)
      | exact (congrArg (Ty.embed _ <$> ·) (intersection_LBR_LBS (Tools.toInner x) y)).trans (map_inter _ .lbs _ fun _ => rfl)
      | exact congrArg (Ty.embed _ <$> ·) (intersection_LBR_LBS (Tools.toInner x) y)
      | exact (congrArg (Ty.embed _ <$> ·) (intersection_LBR_UBR (Tools.toInner x) y)).trans (map_inter _ .br _ fun _ => rfl)
      | exact congrArg (Ty.embed _ <$> ·) (intersection_LBR_UBR (Tools.toInner x) y)
      | exact (congrArg (Ty.embed _ <$> ·) (intersection_LBR_UBS (Tools.toInner x) y)).trans (map_inter _ .bs _ fun _ => rfl)
      | exact congrArg (Ty.embed _ <$> ·) (intersection_LBR_UBS (Tools.toInner x) y)
      | exact (congrArg (Ty.embed _ <$> ·) (intersection_LBR_US (Tools.toInner x) y)).trans (map_inter _ .lbs _ fun _ => rfl)
      | exact congrArg (Ty.embed _ <$> ·) (intersection_LBR_US (Tools.toInner x) y)
  | rangeTo =>
    cases b <;> first
      | rfl
      | exact (congrArg (Ty.embed _ <$> ·) (intersection_UBR_BR (Tools.toInner x) y)).trans (map_inter _ .br _ fun _ => rfl)
      | exact congrArg (Ty.embed _ <$> ·) (intersection_UBR_BR (Tools.toInner x) y)
      | exact (congrArg (Ty.embed _ <$> ·) (intersection_BS_UBR (Tools.toInner y) x)).trans (map_inter _ .bs _ fun _ => rfl)
      | exact congrArg (Ty.embed _ <$> ·) (intersection_BS_UBR (Tools.toInner y) x)
      | exact (congrArg (Ty.embed _ <$> ·) (intersection_UBR_LBR (Tools.toInner x) y)).trans (map_inter _ .br _ fun _ => rfl)
      | exact congrArg (Ty.embed _ <$> ·) (intersection_UBR_LBR (Tools.toInner x) y)
      | exact (congrArg (Ty.embed _ <$> ·) (intersection_LBS_UBR (Tools.toInner y) x)).trans (map_inter _ .bs _ fun _ => rfl)
      | exact congrArg (Ty.embed _ <$> ·) (intersection_LBS_UBR (Tools.toInner y) x)
      | exact (congrArg (Ty.embed _ <$> ·) (intersection_UBR_UBR (Tools.toInner x) y)).trans (map_inter _ .ubr _ fun _ => rfl)
      | exact congrArg (Ty.embed _ <$> ·) (intersection_UBR_UBR (Tools.toInner x) y)
      | exact (congrArg (Ty.embed _ <$> ·) (intersection_UBS_UBR (Tools.toInner y) x)).trans (map_inter _ .ubs _ fun _ => rfl)
      | exact congrArg (Ty.embed _ <$> ·) (intersection_UBS_UBR (Tools.toInner y) x)
      | exact (congrArg (Ty.embed _ <$> ·) (intersection_US_UBR (Tools.toInner y) x)).trans (map_inter _ .ubs _ fun _ => rfl)
      | exact congrArg (Ty.embed _ <$> ·) (intersection_US_UBR (Tools.toInner y) x)
  | rangeToInclusive =>
    cases b <;> first
      | rfl
      | exact (congrArg (Ty.embed _ <$> ·) (intersection_UBR_BR (Tools.toInner x) y)).trans (map_inter _ .br _ fun _ => rfl)
      | exact congrArg (Ty.embed _ <$> ·) (intersection_UBR_BR (Tools.toInner x) y)
      | exact (congrArg (Ty.embed _ <$> ·) (intersection_BS_UBR (Tools.toInner y) x)).trans (map_inter _ .bs _ fun _ => rfl)
      | exact congrArg (Ty.embed _ <$> ·) (intersection_BS_UBR (Tools.toInner y) x)
      | exact (congrArg (Ty.embed _ <$> ·) (intersection_UBR_LBR (Tools.toInner x) y)).trans (map_inter _ .br _ fun _ => rfl)
      | exact congrArg (Ty.embed _ <$> ·) (intersection_UBR_LBR (Tools.toInner x) y)
      | exact (congrArg (Ty.embed _ <$> ·) (intersection_LBS_UBR (Tools.toInner y) x)).trans (map_inter _ .bs _ fun _ => rfl)
      | exact congrArg (Ty.embed _ <$> ·) (intersection_LBS_UBR (Tools.toInner y) x)
      | exact (congrArg (Ty.embed _ <$> ·) (intersection_UBR_UBR (Tools.toInner x) y)).trans (map_inter _ .ubr _ fun _ => rfl)
      | exact congrArg (Ty.embed _ <$> ·) (intersection_UBR_UBR (Tools.toInner x) y)
      | exact (congrArg (Ty.embed _ <$> ·) (intersection_UBS_UBR (Tools.toInner y) x)).trans (map_inter _ .ubs _ fun _ => rfl)
      | exact congrArg (Ty.embed _ <$> ·) (intersection_UBS_UBR (Tools.toInner y) x)
      | exact (congrArg (Ty.embed _ <$> ·) (intersection_US_UBR (Tools.toInner y) x)).trans (map_inter _ .ubs _ fun _ => rfl)
      | exact congrArg (Ty.embed _ <$> ·) (intersection_US_UBR (Tools.toInner y) x)
  | rangeFull => cases b <;> rfl
  | br =>
    cases b <;> first
      | rfl
      | exact (congrArg (Ty.embed _ <$> ·) (intersection_BR_BR (Tools.toInner x) y)).trans (map_inter _ .br _ fun _ => rfl)
      | exact congrArg (Ty.embed _ <$> ·) (intersection_BR_BR (Tools.toInner x) y)
      | exact (congrArg (Ty.embed _ <$> ·) (intersection_BR_BS (Tools.toInner x) y)).trans (map_inter _ .bs _ fun _ => rfl)
      | exact congrArg (Ty.embed _ <$> ·) (intersection_BR_BS (Tools.toInner x) y)
      | exact (congrArg (Ty.embed _ <$> ·) (intersection_BR_LBR (Tools.toInner x) y)).trans (map_inter _ .br _ fun _ => rfl)
      | exact congrArg (Ty.embed _ <$> ·) (intersection_BR_LBR (Tools.toInner x) y)
      | exact (congrArg (Ty.embed _ <$> ·) (intersection_BR_LBS (Tools.toInner x) y)).trans (map_inter _ .bs _ fun _ => rfl)
      | exact congrArg (Ty.embed _ <$> ·) (intersection_BR_LBS (Tools.toInner x) y)
      | exact (congrArg (Ty.embed _ <$> ·) (intersection_BR_UBR (Tools.toInner x) y)).trans (map_inter _ .br _ fun _ => rfl)
      | exact congrArg (Ty.embed _ <$> ·) (intersection_BR_UBR (Tools.toInner x) y)
      | exact (congrArg (Ty.embed _ <$> ·) (intersection_BR_UBS (Tools.toInner x) y)).trans (map_inter _ .bs _ fun _ => rfl)
      | exact congrArg (Ty.embed _ <$> ·) (intersection_BR_UBS (Tools.toInner x) y)
      | exact (congrArg (Ty.embed _ <$> ·) (intersection_BR_US (Tools.toInner x) y)).trans (map_inter _ .bs _ fun _ => rfl)
      | exact congrArg (Ty.embed _ <$> ·) (intersection_BR_US (Tools.toInner x) y)
  | bs =>
    cases b <;> first
      | rfl
      | exact (congrArg (Ty.embed _ <$> ·) (intersection_BS_BR (Tools.toInner x) y)).trans (map_inter _ .bs _ fun _ => rfl)
      | exact congrArg (Ty.embed _ <$> ·) (intersection_BS_BR (Tools.toInner x) y)
      | exact (congrArg (Ty.embed _ <$> ·) (intersection_BS_BS (Tools.toInner x) y)).trans (map_inter _ .bs _ fun _ => rfl)
      | exact congrArg (Ty.embed _ <$> ·) (intersection_BS_BS (Tools.toInner x) y)
      | exact (congrArg (Ty.embed _ <$> ·) (intersection_BS_LBR (Tools.toInner x) y)).trans (map_inter _ .bs _ fun _ => rfl)
      | exact congrArg (Ty.embed _ <$> ·) (intersection_BS_LBR (Tools.toInner x) y)
      | exact (congrArg (Ty.embed _ <$> ·) (intersection_BS_LBS (Tools.toInner x) y)).trans (map_inter _ .bs _ fun _ => rfl)
      | exact congrArg (Ty.embed _ <$> ·) (intersection_BS_LBS (Tools.toInner x) y)
      | exact (congrArg (Ty.embed _ <$> ·) (intersection_BS_UBR (Tools.toInner x) y)).trans (map_inter _ .bs _ fun _ => rfl)
      | exact congrArg (Ty.embed _ <$> ·) (intersection_BS_UBR (Tools.toInner x) y)
      | exact (congrArg (Ty.embed _ <$> ·) (intersection_BS_UBS (Tools.toInner x) y)).trans (map_inter _ .bs _ fun _ => rfl)
      | exact congrArg (Ty.embed _ <$> ·) (intersection_BS_UBS (Tools.toInner x) y)
      | exact (congrArg (Ty.embed _ <$> ·) (intersection_BS_US (Tools.toInner x) y)).trans (map_inter _ .bs _ fun _ => rfl)
      | exact congrArg (Ty.embed _ <$> ·) (intersection_BS_US (Tools.toInner x) y)
  | lbr =>
    cases b <;> first
      | rfl
      | exact (congrArg (Ty.embed _ <$> ·) (intersection_LBR_BR (Tools.toInner x) y)).trans (map_inter _ .br _ fun _ => rfl)
      | exact congrArg (Ty.embed _ <$> ·) (intersection_LBR_BR (Tools.toInner x) y)
      | exact (congrArg (Ty.embed _ <$> ·) (intersection_LBR_BS (Tools.toInner x) y)).trans (map_inter _ .bs _ fun _ => rfl)
      | exact congrArg (Ty.embed _ <$> ·) (intersection_LBR_BS (Tools.toInner x) y)
      | exact (congrArg (Ty.embed _ <$> ·) (intersection_LBR_LBR (Tools.toInner x) y)).trans (map_inter _ .lbr _ fun _ => rfl)
      | exact congrArg (Ty.embed _ <$> ·) (intersection_LBR_LBR (Tools.toInner x) y)
      | exact (congrArg (Ty.embed _ <$> ·) (intersection_LBR_LBS (Tools.toInner x) y)).trans (map_inter _ .lbs _ fun _ => rfl)
      | exact congrArg (Ty.embed _ <$> ·) (intersection_LBR_LBS (Tools.toInner x) y)
      | exact (congrArg (Ty.embed _ <$> ·) (intersection_LBR_UBR (Tools.toInner x) y)).trans (map_inter _ .br _ fun _ => rfl)
      | exact congrArg (Ty.embed _ <$> ·) (intersection_LBR_UBR (Tools.toInner x) y)
      | exact (congrArg (Ty.embed _ <$> ·) (intersection_LBR_UBS (Tools.toInner x) y)).trans (map_inter _ .bs _ fun _ => rfl)
      | exact congrArg (Ty.embed _ <$> ·) (intersection_LBR_UBS (Tools.toInner x) y)
      | exact (congrArg (Ty.embed _ <$> ·) (intersection_LBR_US (Tools.toInner x) y)).trans (map_inter _ .lbs _ fun _ => rfl)
      | exact congrArg (Ty.embed _ <$> ·) (intersection_LBR_US (Tools.toInner x) y)
  | lbs =>
    cases b <;> first
      | rfl
      | exact (congrArg (Ty.embed _ <$> ·) (intersection_LBS_BR (Tools.toInner x) y)).trans (map_inter _ .bs _ fun _ => rfl)
      | exact congrArg (Ty.embed _ <$> ·) (intersection_LBS_BR (Tools.toInner x) y)
      | exact (congrArg (Ty.embed _ <$> ·) (intersection_LBS_BS (Tools.toInner x) y)).trans (map_inter _ .bs _ fun _ => rfl)
      | exact congrArg (Ty.embed _ <$> ·) (intersection_LBS_BS (Tools.toInner x) y)
      | exact (congrArg (Ty.embed _ <$> ·) (intersection_LBS_LBR (Tools.toInner x) y)).trans (map_inter _ .lbs _ fun _ => rfl)
      | exact congrArg (Ty.embed _ <$> ·) (intersection_LBS_LBR (Tools.toInner x) y)
      | exact (congrArg (Ty.embed _ <$> ·) (intersection_LBS_LBS (Tools.toInner x) y)).trans (map_inter _ .lbs _ fun _ => rfl)
      | exact congrArg (Ty.embed _ <$> ·) (intersection_LBS_LBS (Tools.toInner x) y)
      | exact (congrArg (Ty.embed _ <$> ·) (intersection_LBS_UBR (Tools.toInner x) y)).trans (map_inter _ .bs _ fun _ => rfl)
      | exact congrArg (Ty.embed _ <$> ·) (intersection_LBS_UBR (Tools.toInner x) y)
      | exact (congrArg (Ty.embed _ <$> ·) (intersection_LBS_UBS (Tools.toInner x) y)).trans (map_inter _ .bs _ fun _ => rfl)
      | exact congrArg (Ty.embed _ <$> ·) (intersection_LBS_UBS (Tools.toInner x) y)
      | exact (congrArg (Ty.embed _ <$> ·) (intersection_LBS_US (Tools.toInner x) y)).trans (map_inter _ .lbs _ fun _ => rfl)
      | exact congrArg (Ty.embed _ <$> ·) (intersection_LBS_US (Tools.toInner x) y)
  | ubr =>
    cases b <;> first
      | rfl
      | exact (congrArg (Ty.embed _ <$> ·) (intersection_UBR_BR (Tools.toInner x) y)).trans (map_inter _ .br _ fun _ => rfl)
      | exact congrArg (Ty.embed _ <$> ·) (intersection_UBR_BR (Tools.toInner x) y)
      | exact (congrArg (Ty.embed _ <$> ·) (intersection_UBR_BS (Tools.toInner x) y)).trans (map_inter _ .bs _ fun _ => rfl)
      | exact congrArg (Ty.embed _ <$> ·) (intersection_UBR_BS (Tools.toInner x) y)
      | exact (congrArg (Ty.embed _ <$> ·) (intersection_UBR_LBR (Tools.toInner x) y)).trans (map_inter _ .br _ fun _ => rfl)
      | exact congrArg (Ty.embed _ <$> ·) (intersection_UBR_LBR (Tools.toInner x) y)
      | exact (congrArg (Ty.embed _ <$> ·) (intersection_UBR_LBS (Tools.toInner x) y)).trans (map_inter _ .bs _ fun _ => rfl)
      | exact congrArg (Ty.embed _ <$> ·) (intersection_UBR_LBS (Tools.toInner x) y)
      | exact (congrArg (Ty.embed _ <$> ·) (intersection_UBR_UBR (Tools.toInner x) y)).trans (map_inter _ .ubr _ fun _ => rfl)
      | exact congrArg (Ty.embed _ <$> ·) (intersection_UBR_UBR (Tools.toInner x) y)
      | exact (congrArg (Ty.embed _ <$> ·) (intersection_UBR_UBS (Tools.toInner x) y)).trans (map_inter _ .ubs _ fun _ => rfl)
      | exact congrArg (Ty.embed _ <$> ·) (intersection_UBR_UBS (Tools.toInner x) y)
      | exact (congrArg (Ty.embed _ <$> ·) (intersection_UBR_US (Tools.toInner x) y)).trans (map_inter _ .ubs _ fun _ => rfl)
      | exact congrArg (Ty.embed _ <$> ·) (intersection_UBR_US (Tools.toInner x) y)
  | ubs =>
    cases b <;> first
      | rfl
      | exact (congrArg (Ty.embed _ <$> ·) (intersection_UBS_BR (Tools.toInner x) y)).trans (map_inter _ .bs _ fun _ => rfl)
      | exact congrArg (Ty.embed _ <$> ·) (intersection_UBS_BR (Tools.toInner x) y)
      | exact (congrArg (Ty.embed _ <$> ·) (intersection_UBS_BS (Tools.toInner x) y)).trans (map_inter _ .bs _ fun _ => rfl)
      | exact congrArg (Ty.embed _ <$> ·) (intersection_UBS_BS (Tools.toInner x) y)
      | exact (congrArg (Ty.embed _ <$> ·) (intersection_UBS_LBR (Tools.toInner x) y)).trans (map_inter _ .bs _ fun _ => rfl)
      | exact congrArg (Ty.embed _ <$> ·) (intersection_UBS_LBR (Tools.toInner x) y)
      | exact (congrArg (Ty.embed _ <$> ·) (intersection_UBS_LBS (Tools.toInner x) y)).trans (map_inter _ .bs _ fun _ => rfl)
      | exact congrArg (Ty.embed _ <$> ·) (intersection_UBS_LBS (Tools.toInner x) y)
      | exact (congrArg (Ty.embed _ <$> ·) (intersection_UBS_UBR (Tools.toInner x) y)).trans (map_inter _ .ubs _ fun _ => rfl)
      | exact congrArg (Ty.embed _ <$> ·) (intersection_UBS_UBR (Tools.toInner x) y)
      | exact (congrArg (Ty.embed _ <$> ·) (intersection_UBS_UBS (Tools.toInner x) y)).trans (map_inter _ .ubs _ fun _ => rfl)
      | exact congrArg (Ty.embed _ <$> ·) (intersection_UBS_UBS (Tools.toInner x) y)
      | exact (congrArg (Ty.embed _ <$> ·) (intersection_UBS_US (Tools.toInner x) y)).trans (map_inter _ .ubs _ fun _ => rfl)
      | exact congrArg (Ty.embed _ <$> ·) (intersection_UBS_US (Tools.toInner x) y)
  | ur => cases b <;> rfl
  | us =>
    cases b <;> first
      | rfl
      | exact (congrArg (Ty.embed _ <$> ·) (intersection_US_BR (Tools.toInner x) y)).trans (map_inter _ .bs _ fun _ => rfl)
      | exact congrArg (Ty.embed _ <$> ·) (intersection_US_BR (Tools.toInner x) y)
      | exact (congrArg (Ty.embed _ <$> ·) (intersection_US_BS (Tools.toInner x) y)).trans (map_inter _ .bs _ fun _ => rfl)
      | exact congrArg (Ty.embed _ <$> ·) (intersection_US_BS (Tools.toInner x) y)
      | exact (congrArg (Ty.embed _ <$> ·) (intersection_US_LBR (Tools.toInner x) y)).trans (map_inter _ .lbs _ fun _ => rfl)
      | exact congrArg (Ty.embed _ <$> ·) (intersection_US_LBR (Tools.toInner x) y)
      | exact (congrArg (Ty.embed _ <$> ·) (intersection_US_LBS (Tools.toInner x) y)).trans (map_inter _ .lbs _ fun _ => rfl)
      | exact congrArg (Ty.embed _ <$> ·) (intersection_US_LBS (Tools.toInner x) y)
      | exact (congrArg (Ty.embed _ <$> ·) (intersection_US_UBR (Tools.toInner x) y)).trans (map_inter _ .ubs _ fun _ => rfl)
      | exact congrArg (Ty.embed _ <$> ·) (intersection_US_UBR (Tools.toInner x) y)
      | exact (congrArg (Ty.embed _ <$> ·) (intersection_US_UBS (Tools.toInner x) y)).trans (map_inter _ .ubs _ fun _ => rfl)
      | exact congrArg (Ty.embed _ <$> ·) (intersection_US_UBS (Tools.toInner x) y)
      | exact (congrArg (Ty.embed _ <$> ·) (intersection_US_US (Tools.toInner x) y)).trans (map_inter _ .us _ fun _ => rfl)
      | exact congrArg (Ty.embed _ <$> ·) (intersection_US_US (Tools.toInner x) y)
  | er => cases b <;> rfl

/-- C79. For every type there is an impl of `RangeComplement`, its result has the type `a.complement`, and it
computes the modelled complement. -/
theorem C79_complement (a : Ty) (x : a.Val T) :
    a.complement.embed <$> a.complementImpl.complement x = Any.inner <$> (a.embed x).complement := by
  cases a <;> first
    | rfl
    | exact (congrArg (Ty.embed _ <$> ·) (complement_BR (Tools.toInner x))).trans (map_inter _ .us _ fun _ => rfl)
    | exact (congrArg (Ty.embed _ <$> ·) (complement_BS (Tools.toInner x))).trans (map_inter _ .us _ fun _ => rfl)
    | exact (congrArg (Ty.embed _ <$> ·) (complement_LBS (Tools.toInner x))).trans (map_inter _ .ubs _ fun _ => rfl)
    | exact (congrArg (Ty.embed _ <$> ·) (complement_UBS (Tools.toInner x))).trans (map_inter _ .lbs _ fun _ => rfl)
    | exact (congrArg (Ty.embed _ <$> ·) (complement_US (Tools.toInner x))).trans (map_inter _ .bs _ fun _ => rfl)

/-- C79. The provided method `disjoint` at the chosen impls. -/
theorem C79_disjoint (a b : Ty) (x : a.Val T) (y : b.Val T) :
    @Tools.disjoint _ _ _ _ _ _ _ b.tools (a.inter b).tools (a.interImpl b) x y = (a.embed x).disjoint (b.embed y) := by
  have h := C79_inter a b x y
  unfold Tools.disjoint Tools.intersection Any.disjoint
  cases h1 : (a.interImpl b).intersection x y with
  | panic m =>
    rw [h1] at h
    cases h2 : (a.embed x).inter (b.embed y) with
    | panic m' => rw [h2] at h; injection h with h; subst h; rfl
    | ok z => rw [h2] at h; cases h
  | ok w =>
    rw [h1] at h
    cases h2 : (a.embed x).inter (b.embed y) with
    | panic m' => rw [h2] at h; cases h
    | ok z =>
      rw [h2] at h
      injection h with h
      change Res.ok _ = Res.ok _
      rw [(C79_tools _ w).1, h]
      rfl

/-- C79. The provided method `intersects` at the chosen impls. -/
theorem C79_intersects (a b : Ty) (x : a.Val T) (y : b.Val T) :
    @Tools.intersects _ _ _ _ _ _ _ b.tools (a.inter b).tools (a.interImpl b) x y =
      (a.embed x).intersects (b.embed y) := by
  unfold Tools.intersects Any.intersects
  rw [C79_disjoint]

omit [Ord T] [BEq T] in
/-- C79. `contains` of each type is the modelled function. -/
theorem C79_contains (a : Ty) (x : a.Val T) (t : T) : a.contains x t = (a.embed x).contains t := by
  cases a <;> rfl

end

section
variable {T : Type} [LinearOrder T]

/-- C79. The union that is chosen has the members of both, whatever the types. -/
theorem C79_union_members (a b : Ty) (x : a.Val T) (y : b.Val T) (hx : (a.embed x).Fresh) (hy : (b.embed y).Fresh) :
    ∃ z : (a.union b).Val T, (a.unionImpl b).union x y = .ok z ∧
      ∀ t, (a.union b).contains z t = (a.contains x t || b.contains y t) := by
  obtain ⟨c, hc, hm⟩ := C01_union_contains _ _ hx hy
  have h := C79_union a b x y
  rw [hc] at h
  cases h1 : (a.unionImpl b).union x y with
  | panic m => rw [h1] at h; cases h
  | ok z =>
    rw [h1] at h
    injection h with h
    refine ⟨z, rfl, fun t => ?_⟩
    rw [C79_contains, C79_contains, C79_contains, h, hm]

/-- C79. The intersection that is chosen has the common members, except that two `LowerBoundedSet`s may lose
some (C02). -/
theorem C79_inter_members (a b : Ty) (hab : ¬(a = .lbs ∧ b = .lbs)) (x : a.Val T) (y : b.Val T)
    (hx : (a.embed x).Fresh) (hy : (b.embed y).Fresh) :
    ∃ z : (a.inter b).Val T, (a.interImpl b).intersection x y = .ok z ∧
      ∀ t, (a.inter b).contains z t = (a.contains x t && b.contains y t) := by
  obtain ⟨c, hc, hm⟩ := C02_inter_contains_partial _ _ hx hy (by
    cases a <;> cases b <;> first | trivial | exact absurd ⟨rfl, rfl⟩ hab)
  have h := C79_inter a b x y
  rw [hc] at h
  cases h1 : (a.interImpl b).intersection x y with
  | panic m => rw [h1] at h; cases h
  | ok z =>
    rw [h1] at h
    injection h with h
    refine ⟨z, rfl, fun t => ?_⟩
    rw [C79_contains, C79_contains, C79_contains, h, ← hm]
    rfl

/-- C79. The complement that is chosen has the other members. -/
theorem C79_complement_members (a : Ty) (x : a.Val T) (hx : (a.embed x).Fresh) :
    ∃ z : a.complement.Val T, a.complementImpl.complement x = .ok z ∧
      ∀ t, a.complement.contains z t = !a.contains x t := by
  obtain ⟨c, hc, hm⟩ := C03_complement_contains _ hx
  have h := C79_complement a x
  rw [hc] at h
  cases h1 : a.complementImpl.complement x with
  | panic m => rw [h1] at h; cases h
  | ok z =>
    rw [h1] at h
    injection h with h
    refine ⟨z, rfl, fun t => ?_⟩
    rw [C79_contains, C79_contains, h, ← hm]
    rfl

end

/-! ### Cases that meet the hypotheses -/

/-- `(0..3).union(5..)` is a `LowerBoundedSet`; instance search finds the impl. -/
example : Tools.union (⟨0, 3⟩ : Range Int) (⟨5⟩ : RangeFrom Int) =
    .ok (⟨⟨[co 0 3]⟩, ci 5⟩ : LowerBoundedSet Int) := by decide +kernel

/-- `(..=4).intersection(2..)` is a `BoundedRange`. -/
example : Tools.intersection (⟨4⟩ : RangeToInclusive Int) (⟨2⟩ : RangeFrom Int) =
    .ok (⟨.included 2, .included 4⟩ : BoundedRange Int) := by decide +kernel

example : Ty.union .range .rangeFrom = .lbs ∧ Ty.inter .rangeToInclusive .rangeFrom = .br ∧
    Ty.complement .rangeInclusive = .us ∧ Ty.union .rangeTo .rangeFrom = .us ∧ Ty.union .range .er = .range ∧
    ¬(Ty.range = .lbs ∧ Ty.bs = .lbs) := by decide

example : (Ty.embed .range (⟨0, 3⟩ : Range Int)).Fresh ∧ (Ty.embed .rangeInclusive (⟨0, 3, false⟩ : RangeInclusive Int)).Fresh :=
  ⟨trivial, rfl⟩

/-- C60. What the constructors of the ranges make contains what its bounds say, also if they are in the wrong order. -/
theorem C60_new {T : Type} [LinearOrder T] (a b t : T) :
    ((BoundedRange.new (.included a) (.included b)).contains t = true ↔ a ≤ t ∧ t ≤ b) ∧
    ((BoundedRange.new (.included a) (.excluded b)).contains t = true ↔ a ≤ t ∧ t < b) ∧
    ((BoundedRange.new (.excluded a) (.included b)).contains t = true ↔ a < t ∧ t ≤ b) ∧
    ((BoundedRange.new (.excluded a) (.excluded b)).contains t = true ↔ a < t ∧ t < b) ∧
    ((LowerBoundedRange.new (.included a)).contains t = true ↔ a ≤ t) ∧
    ((LowerBoundedRange.new (.excluded a)).contains t = true ↔ a < t) ∧
    ((UpperBoundedRange.new (.included b)).contains t = true ↔ t ≤ b) ∧
    ((UpperBoundedRange.new (.excluded b)).contains t = true ↔ t < b) := by
  simp [BoundedRange.new, LowerBoundedRange.new, UpperBoundedRange.new, BoundedRange.contains, LowerBoundedRange.contains,
    UpperBoundedRange.contains, LowerBound.included, LowerBound.excluded, UpperBound.included, UpperBound.excluded]

example : (BoundedRange.new (.excluded 3) (.included (7 : Int))).contains 7 = true ∧
    (BoundedRange.new (.excluded 3) (.included (7 : Int))).contains 3 = false := by decide

end Rangetools
