import Verif.Spec.Ty

/-!
# The impls compute the modelled functions
-/

namespace Rangetools
variable {T : Type} [LE T] [LT T] [DecidableLE T] [DecidableLT T] [Ord T] [BEq T]
variable {R I S : Type}

instance : LawfulMonad Res := LawfulMonad.mk' _
  (id_map := fun x => by cases x <;> rfl)
  (pure_bind := fun _ _ => rfl)
  (bind_assoc := fun x _ _ => by cases x <;> rfl)

theorem Res.ok_eq {α : Type} (a : α) : Res.ok a = pure a := rfl

theorem mapM_ok {α β : Type} (f : α → β) (l : List α) :
    l.mapM (fun a => (pure (f a) : Res β)) = pure (l.map f) := List.mapM_pure

set_option linter.unusedSimpArgs false
set_option linter.unreachableTactic false
set_option linter.unusedTactic false
set_option linter.unusedSectionVars false

theorem union_BS_BS [Tools R I (BoundedSet T)] (x : BoundedSet T) (y : R) :
    Tools.union x y = x.unionBS (Tools.toSet y) := by
  unfold Tools.union
  simp only [RangeUnion.union, pure_bind, bind_pure, mapM_ok]
  first | done | rfl | (split <;> rfl)

theorem union_BS_LBS [Tools R I (LowerBoundedSet T)] (x : BoundedSet T) (y : R) :
    Tools.union x y = x.unionLBS (Tools.toSet y) := by
  unfold Tools.union
  simp only [RangeUnion.union, pure_bind, bind_pure, mapM_ok]
  first | done | rfl | (split <;> rfl)

theorem union_BS_UBS [Tools R I (UpperBoundedSet T)] (x : BoundedSet T) (y : R) :
    Tools.union x y = x.unionUBS (Tools.toSet y) := by
  unfold Tools.union
  simp only [RangeUnion.union, pure_bind, bind_pure, mapM_ok]
  first | done | rfl | (split <;> rfl)

theorem union_BS_US [Tools R I (UnboundedSet T)] (x : BoundedSet T) (y : R) :
    Tools.union x y = x.unionUS (Tools.toSet y) := by
  unfold Tools.union
  simp only [RangeUnion.union, pure_bind, bind_pure, mapM_ok]
  first | done | rfl | (split <;> rfl)

theorem union_LBS_BS [Tools R I (BoundedSet T)] (x : LowerBoundedSet T) (y : R) :
    Tools.union x y = x.unionBS (Tools.toSet y) := by
  unfold Tools.union
  simp only [RangeUnion.union, union_BS_LBS, pure_bind, bind_pure, mapM_ok]
  first | done | rfl | (split <;> rfl)

theorem union_LBS_LBS [Tools R I (LowerBoundedSet T)] (x : LowerBoundedSet T) (y : R) :
    Tools.union x y = x.unionLBS (Tools.toSet y) := by
  unfold Tools.union
  simp only [RangeUnion.union, union_LBS_BS, pure_bind, bind_pure, mapM_ok]
  first | done | rfl | (split <;> rfl)

theorem union_US_BS [Tools R I (BoundedSet T)] (x : UnboundedSet T) (y : R) :
    Tools.union x y = x.unionBS (Tools.toSet y) := by
  unfold Tools.union
  simp only [RangeUnion.union, union_BS_US, pure_bind, bind_pure, mapM_ok]
  first | done | rfl | (split <;> rfl)

theorem union_LBS_UBS [Tools R I (UpperBoundedSet T)] (x : LowerBoundedSet T) (y : R) :
    Tools.union x y = x.unionUBS (Tools.toSet y) := by
  unfold Tools.union
  simp only [RangeUnion.union, union_US_BS, pure_bind, bind_pure, mapM_ok]
  first | done | rfl | (split <;> rfl)

theorem union_LBS_US [Tools R I (UnboundedSet T)] (x : LowerBoundedSet T) (y : R) :
    Tools.union x y = x.unionUS (Tools.toSet y) := by
  unfold Tools.union
  simp only [RangeUnion.union, union_US_BS, pure_bind, bind_pure, mapM_ok]
  first | done | rfl | (split <;> rfl)

theorem union_UBS_BS [Tools R I (BoundedSet T)] (x : UpperBoundedSet T) (y : R) :
    Tools.union x y = x.unionBS (Tools.toSet y) := by
  unfold Tools.union
  simp only [RangeUnion.union, union_BS_UBS, pure_bind, bind_pure, mapM_ok]
  first | done | rfl | (split <;> rfl)

theorem union_UBS_LBS [Tools R I (LowerBoundedSet T)] (x : UpperBoundedSet T) (y : R) :
    Tools.union x y = x.unionLBS (Tools.toSet y) := by
  unfold Tools.union
  simp only [RangeUnion.union, union_LBS_UBS, pure_bind, bind_pure, mapM_ok]
  first | done | rfl | (split <;> rfl)

theorem union_UBS_UBS [Tools R I (UpperBoundedSet T)] (x : UpperBoundedSet T) (y : R) :
    Tools.union x y = x.unionUBS (Tools.toSet y) := by
  unfold Tools.union
  simp only [RangeUnion.union, union_UBS_BS, pure_bind, bind_pure, mapM_ok]
  first | done | rfl | (split <;> rfl)

theorem union_UBS_US [Tools R I (UnboundedSet T)] (x : UpperBoundedSet T) (y : R) :
    Tools.union x y = x.unionUS (Tools.toSet y) := by
  unfold Tools.union
  simp only [RangeUnion.union, union_US_BS, pure_bind, bind_pure, mapM_ok]
  first | done | rfl | (split <;> rfl)

theorem union_US_LBS [Tools R I (LowerBoundedSet T)] (x : UnboundedSet T) (y : R) :
    Tools.union x y = x.unionLBS (Tools.toSet y) := by
  unfold Tools.union
  simp only [RangeUnion.union, union_LBS_US, pure_bind, bind_pure, mapM_ok]
  first | done | rfl | (split <;> rfl)

theorem union_US_UBS [Tools R I (UpperBoundedSet T)] (x : UnboundedSet T) (y : R) :
    Tools.union x y = x.unionUBS (Tools.toSet y) := by
  unfold Tools.union
  simp only [RangeUnion.union, union_UBS_US, pure_bind, bind_pure, mapM_ok]
  first | done | rfl | (split <;> rfl)

theorem union_US_US [Tools R I (UnboundedSet T)] (x : UnboundedSet T) (y : R) :
    Tools.union x y = x.unionUS (Tools.toSet y) := by
  unfold Tools.union
  simp only [RangeUnion.union, pure_bind, bind_pure, mapM_ok]
  first | done | rfl | (split <;> rfl)

theorem intersection_BR_BR [Tools R (BoundedRange T) S] (x : BoundedRange T) (y : R) :
    Tools.intersection x y = pure (x.interBR (Tools.toInner y)) := by
  unfold Tools.intersection
  simp only [RangeIntersection.intersection, pure_bind, bind_pure, mapM_ok]
  first | done | rfl | (split <;> rfl)

theorem intersection_BS_BR [Tools R (BoundedRange T) S] (x : BoundedSet T) (y : R) :
    Tools.intersection x y = pure (x.interBR (Tools.toInner y)) := by
  unfold Tools.intersection
  simp only [RangeIntersection.intersection, intersection_BR_BR, pure_bind, bind_pure, mapM_ok]
  first | done | rfl | (split <;> rfl)

theorem intersection_BR_BS [Tools R (BoundedSet T) S] (x : BoundedRange T) (y : R) :
    Tools.intersection x y = pure (x.interBS (Tools.toInner y)) := by
  unfold Tools.intersection
  simp only [RangeIntersection.intersection, intersection_BS_BR, pure_bind, bind_pure, mapM_ok]
  first | done | rfl | (split <;> rfl)

theorem intersection_BR_LBR [Tools R (LowerBoundedRange T) S] (x : BoundedRange T) (y : R) :
    Tools.intersection x y = pure (x.interLBR (Tools.toInner y)) := by
  unfold Tools.intersection
  simp only [RangeIntersection.intersection, pure_bind, bind_pure, mapM_ok]
  first | done | rfl | (split <;> rfl)

theorem intersection_LBR_BR [Tools R (BoundedRange T) S] (x : LowerBoundedRange T) (y : R) :
    Tools.intersection x y = pure (x.interBR (Tools.toInner y)) := by
  unfold Tools.intersection
  simp only [RangeIntersection.intersection, intersection_BR_LBR, pure_bind, bind_pure, mapM_ok]
  first | done | rfl | (split <;> rfl)

theorem intersection_LBS_BR [Tools R (BoundedRange T) S] (x : LowerBoundedSet T) (y : R) :
    Tools.intersection x y = x.interBR (Tools.toInner y) := by
  unfold Tools.intersection
  simp only [RangeIntersection.intersection, intersection_LBR_BR, intersection_BS_BR, pure_bind, bind_pure, mapM_ok]
  first | done | rfl | (split <;> rfl)

theorem intersection_BR_LBS [Tools R (LowerBoundedSet T) S] (x : BoundedRange T) (y : R) :
    Tools.intersection x y = x.interLBS (Tools.toInner y) := by
  unfold Tools.intersection
  simp only [RangeIntersection.intersection, intersection_LBS_BR, pure_bind, bind_pure, mapM_ok]
  first | done | rfl | (split <;> rfl)

theorem intersection_BR_UBR [Tools R (UpperBoundedRange T) S] (x : BoundedRange T) (y : R) :
    Tools.intersection x y = pure (x.interUBR (Tools.toInner y)) := by
  unfold Tools.intersection
  simp only [RangeIntersection.intersection, pure_bind, bind_pure, mapM_ok]
  first | done | rfl | (split <;> rfl)

theorem intersection_UBR_BR [Tools R (BoundedRange T) S] (x : UpperBoundedRange T) (y : R) :
    Tools.intersection x y = pure (x.interBR (Tools.toInner y)) := by
  unfold Tools.intersection
  simp only [RangeIntersection.intersection, intersection_BR_UBR, pure_bind, bind_pure, mapM_ok]
  first | done | rfl | (split <;> rfl)

theorem intersection_UBS_BR [Tools R (BoundedRange T) S] (x : UpperBoundedSet T) (y : R) :
    Tools.intersection x y = x.interBR (Tools.toInner y) := by
  unfold Tools.intersection
  simp only [RangeIntersection.intersection, intersection_UBR_BR, intersection_BS_BR, pure_bind, bind_pure, mapM_ok]
  first | done | rfl | (split <;> rfl)

theorem intersection_BR_UBS [Tools R (UpperBoundedSet T) S] (x : BoundedRange T) (y : R) :
    Tools.intersection x y = x.interUBS (Tools.toInner y) := by
  unfold Tools.intersection
  simp only [RangeIntersection.intersection, intersection_UBS_BR, pure_bind, bind_pure, mapM_ok]
  first | done | rfl | (split <;> rfl)

theorem intersection_BS_UBR [Tools R (UpperBoundedRange T) S] (x : BoundedSet T) (y : R) :
    Tools.intersection x y = pure (x.interUBR (Tools.toInner y)) := by
  unfold Tools.intersection
  simp only [RangeIntersection.intersection, intersection_BR_UBR, pure_bind, bind_pure, mapM_ok]
  first | done | rfl | (split <;> rfl)

theorem intersection_BS_LBR [Tools R (LowerBoundedRange T) S] (x : BoundedSet T) (y : R) :
    Tools.intersection x y = pure (x.interLBR (Tools.toInner y)) := by
  unfold Tools.intersection
  simp only [RangeIntersection.intersection, intersection_BR_LBR, pure_bind, bind_pure, mapM_ok]
  first | done | rfl | (split <;> rfl)

theorem intersection_BS_BS [Tools R (BoundedSet T) S] (x : BoundedSet T) (y : R) :
    Tools.intersection x y = x.interBS (Tools.toInner y) := by
  unfold Tools.intersection
  simp only [RangeIntersection.intersection, intersection_BR_BS, pure_bind, bind_pure, mapM_ok]
  first | done | rfl | (split <;> rfl)

theorem intersection_BS_US [Tools R (UnboundedSet T) S] (x : BoundedSet T) (y : R) :
    Tools.intersection x y = x.interUS (Tools.toInner y) := by
  unfold Tools.intersection
  simp only [RangeIntersection.intersection, intersection_BS_UBR, intersection_BS_LBR, intersection_BS_BS, pure_bind, bind_pure, mapM_ok]
  first | done | rfl | (split <;> rfl)

theorem intersection_US_BR [Tools R (BoundedRange T) S] (x : UnboundedSet T) (y : R) :
    Tools.intersection x y = x.interBR (Tools.toInner y) := by
  unfold Tools.intersection
  simp only [RangeIntersection.intersection, intersection_BS_US, pure_bind, bind_pure, mapM_ok]
  first | done | rfl | (split <;> rfl)

theorem intersection_BR_US [Tools R (UnboundedSet T) S] (x : BoundedRange T) (y : R) :
    Tools.intersection x y = x.interUS (Tools.toInner y) := by
  unfold Tools.intersection
  simp only [RangeIntersection.intersection, intersection_US_BR, pure_bind, bind_pure, mapM_ok]
  first | done | rfl | (split <;> rfl)

theorem intersection_BS_LBS [Tools R (LowerBoundedSet T) S] (x : BoundedSet T) (y : R) :
    Tools.intersection x y = x.interLBS (Tools.toInner y) := by
  unfold Tools.intersection
  simp only [RangeIntersection.intersection, intersection_BS_LBR, intersection_BR_LBS, pure_bind, bind_pure, mapM_ok]
  first | done | rfl | (split <;> rfl)

theorem intersection_BS_UBS [Tools R (UpperBoundedSet T) S] (x : BoundedSet T) (y : R) :
    Tools.intersection x y = x.interUBS (Tools.toInner y) := by
  unfold Tools.intersection
  simp only [RangeIntersection.intersection, intersection_BS_UBR, intersection_BR_UBS, pure_bind, bind_pure, mapM_ok]
  first | done | rfl | (split <;> rfl)

theorem intersection_LBR_BS [Tools R (BoundedSet T) S] (x : LowerBoundedRange T) (y : R) :
    Tools.intersection x y = pure (x.interBS (Tools.toInner y)) := by
  unfold Tools.intersection
  simp only [RangeIntersection.intersection, intersection_BS_LBR, pure_bind, bind_pure, mapM_ok]
  first | done | rfl | (split <;> rfl)

theorem intersection_LBR_LBR [Tools R (LowerBoundedRange T) S] (x : LowerBoundedRange T) (y : R) :
    Tools.intersection x y = pure (x.interLBR (Tools.toInner y)) := by
  unfold Tools.intersection
  simp only [RangeIntersection.intersection, pure_bind, bind_pure, mapM_ok]
  first | done | rfl | (split <;> rfl)

theorem intersection_LBS_LBR [Tools R (LowerBoundedRange T) S] (x : LowerBoundedSet T) (y : R) :
    Tools.intersection x y = pure (x.interLBR (Tools.toInner y)) := by
  unfold Tools.intersection
  simp only [RangeIntersection.intersection, intersection_LBR_LBR, intersection_BS_LBR, pure_bind, bind_pure, mapM_ok]
  first | done | rfl | (split <;> rfl)

theorem intersection_LBR_LBS [Tools R (LowerBoundedSet T) S] (x : LowerBoundedRange T) (y : R) :
    Tools.intersection x y = pure (x.interLBS (Tools.toInner y)) := by
  unfold Tools.intersection
  simp only [RangeIntersection.intersection, intersection_LBS_LBR, pure_bind, bind_pure, mapM_ok]
  first | done | rfl | (split <;> rfl)

theorem intersection_LBR_UBR [Tools R (UpperBoundedRange T) S] (x : LowerBoundedRange T) (y : R) :
    Tools.intersection x y = pure (x.interUBR (Tools.toInner y)) := by
  unfold Tools.intersection
  simp only [RangeIntersection.intersection, pure_bind, bind_pure, mapM_ok]
  first | done | rfl | (split <;> rfl)

theorem intersection_UBR_LBR [Tools R (LowerBoundedRange T) S] (x : UpperBoundedRange T) (y : R) :
    Tools.intersection x y = pure (x.interLBR (Tools.toInner y)) := by
  unfold Tools.intersection
  simp only [RangeIntersection.intersection, intersection_LBR_UBR, pure_bind, bind_pure, mapM_ok]
  first | done | rfl | (split <;> rfl)

theorem intersection_UBS_LBR [Tools R (LowerBoundedRange T) S] (x : UpperBoundedSet T) (y : R) :
    Tools.intersection x y = x.interLBR (Tools.toInner y) := by
  unfold Tools.intersection
  simp only [RangeIntersection.intersection, intersection_UBR_LBR, intersection_BS_LBR, pure_bind, bind_pure, mapM_ok]
  first | done | rfl | (split <;> rfl)

theorem intersection_LBR_UBS [Tools R (UpperBoundedSet T) S] (x : LowerBoundedRange T) (y : R) :
    Tools.intersection x y = x.interUBS (Tools.toInner y) := by
  unfold Tools.intersection
  simp only [RangeIntersection.intersection, intersection_UBS_LBR, pure_bind, bind_pure, mapM_ok]
  first | done | rfl | (split <;> rfl)

theorem intersection_LBS_UBR [Tools R (UpperBoundedRange T) S] (x : LowerBoundedSet T) (y : R) :
    Tools.intersection x y = x.interUBR (Tools.toInner y) := by
  unfold Tools.intersection
  simp only [RangeIntersection.intersection, intersection_LBR_UBR, intersection_BS_UBR, pure_bind, bind_pure, mapM_ok]
  first | done | rfl | (split <;> rfl)

theorem intersection_LBS_BS [Tools R (BoundedSet T) S] (x : LowerBoundedSet T) (y : R) :
    Tools.intersection x y = x.interBS (Tools.toInner y) := by
  unfold Tools.intersection
  simp only [RangeIntersection.intersection, intersection_BS_LBS, pure_bind, bind_pure, mapM_ok]
  first | done | rfl | (split <;> rfl)

theorem intersection_LBS_US [Tools R (UnboundedSet T) S] (x : LowerBoundedSet T) (y : R) :
    Tools.intersection x y = x.interUS (Tools.toInner y) := by
  unfold Tools.intersection
  simp only [RangeIntersection.intersection, intersection_LBS_UBR, intersection_LBS_LBR, intersection_LBS_BS, pure_bind, bind_pure, mapM_ok]
  first | done | rfl | (split <;> rfl)

theorem intersection_US_LBR [Tools R (LowerBoundedRange T) S] (x : UnboundedSet T) (y : R) :
    Tools.intersection x y = x.interLBR (Tools.toInner y) := by
  unfold Tools.intersection
  simp only [RangeIntersection.intersection, intersection_LBS_US, pure_bind, bind_pure, mapM_ok]
  first | done | rfl | (split <;> rfl)

theorem intersection_LBR_US [Tools R (UnboundedSet T) S] (x : LowerBoundedRange T) (y : R) :
    Tools.intersection x y = x.interUS (Tools.toInner y) := by
  unfold Tools.intersection
  simp only [RangeIntersection.intersection, intersection_US_LBR, pure_bind, bind_pure, mapM_ok]
  first | done | rfl | (split <;> rfl)

theorem intersection_LBS_LBS [Tools R (LowerBoundedSet T) S] (x : LowerBoundedSet T) (y : R) :
    Tools.intersection x y = x.interLBS (Tools.toInner y) := by
  unfold Tools.intersection
  simp only [RangeIntersection.intersection, intersection_LBS_LBR, intersection_BS_LBS, pure_bind, bind_pure, mapM_ok]
  first | done | rfl | (split <;> rfl)

theorem intersection_LBS_UBS [Tools R (UpperBoundedSet T) S] (x : LowerBoundedSet T) (y : R) :
    Tools.intersection x y = x.interUBS (Tools.toInner y) := by
  unfold Tools.intersection
  simp only [RangeIntersection.intersection, intersection_LBS_UBR, intersection_LBS_BS, pure_bind, bind_pure, mapM_ok]
  first | done | rfl | (split <;> rfl)

theorem intersection_UBR_UBR [Tools R (UpperBoundedRange T) S] (x : UpperBoundedRange T) (y : R) :
    Tools.intersection x y = pure (x.interUBR (Tools.toInner y)) := by
  unfold Tools.intersection
  simp only [RangeIntersection.intersection, pure_bind, bind_pure, mapM_ok]
  first | done | rfl | (split <;> rfl)

theorem intersection_UBS_UBR [Tools R (UpperBoundedRange T) S] (x : UpperBoundedSet T) (y : R) :
    Tools.intersection x y = x.interUBR (Tools.toInner y) := by
  unfold Tools.intersection
  simp only [RangeIntersection.intersection, intersection_UBR_UBR, intersection_BS_UBR, pure_bind, bind_pure, mapM_ok]
  first | done | rfl | (split <;> rfl)

theorem intersection_UBS_BS [Tools R (BoundedSet T) S] (x : UpperBoundedSet T) (y : R) :
    Tools.intersection x y = x.interBS (Tools.toInner y) := by
  unfold Tools.intersection
  simp only [RangeIntersection.intersection, intersection_BS_UBS, pure_bind, bind_pure, mapM_ok]
  first | done | rfl | (split <;> rfl)

theorem intersection_UBS_US [Tools R (UnboundedSet T) S] (x : UpperBoundedSet T) (y : R) :
    Tools.intersection x y = x.interUS (Tools.toInner y) := by
  unfold Tools.intersection
  simp only [RangeIntersection.intersection, intersection_UBS_UBR, intersection_UBS_LBR, intersection_UBS_BS, pure_bind, bind_pure, mapM_ok]
  first | done | rfl | (split <;> rfl)

theorem intersection_US_UBR [Tools R (UpperBoundedRange T) S] (x : UnboundedSet T) (y : R) :
    Tools.intersection x y = x.interUBR (Tools.toInner y) := by
  unfold Tools.intersection
  simp only [RangeIntersection.intersection, intersection_UBS_US, pure_bind, bind_pure, mapM_ok]
  first | done | rfl | (split <;> rfl)

theorem intersection_US_BS [Tools R (BoundedSet T) S] (x : UnboundedSet T) (y : R) :
    Tools.intersection x y = x.interBS (Tools.toInner y) := by
  unfold Tools.intersection
  simp only [RangeIntersection.intersection, intersection_BS_US, pure_bind, bind_pure, mapM_ok]
  first | done | rfl | (split <;> rfl)

theorem intersection_US_LBS [Tools R (LowerBoundedSet T) S] (x : UnboundedSet T) (y : R) :
    Tools.intersection x y = x.interLBS (Tools.toInner y) := by
  unfold Tools.intersection
  simp only [RangeIntersection.intersection, intersection_LBS_US, pure_bind, bind_pure, mapM_ok]
  first | done | rfl | (split <;> rfl)

theorem intersection_US_UBS [Tools R (UpperBoundedSet T) S] (x : UnboundedSet T) (y : R) :
    Tools.intersection x y = x.interUBS (Tools.toInner y) := by
  unfold Tools.intersection
  simp only [RangeIntersection.intersection, intersection_UBS_US, pure_bind, bind_pure, mapM_ok]
  first | done | rfl | (split <;> rfl)

theorem intersection_US_US [Tools R (UnboundedSet T) S] (x : UnboundedSet T) (y : R) :
    Tools.intersection x y = x.interUS (Tools.toInner y) := by
  unfold Tools.intersection
  simp only [RangeIntersection.intersection, intersection_US_UBR, intersection_US_LBR, intersection_US_BS, union_UBS_LBS, union_LBS_BS, pure_bind, bind_pure, mapM_ok]
  first | done | rfl | (split <;> rfl)

theorem intersection_UBR_BS [Tools R (BoundedSet T) S] (x : UpperBoundedRange T) (y : R) :
    Tools.intersection x y = pure (x.interBS (Tools.toInner y)) := by
  unfold Tools.intersection
  simp only [RangeIntersection.intersection, intersection_BS_UBR, pure_bind, bind_pure, mapM_ok]
  first | done | rfl | (split <;> rfl)

theorem intersection_UBR_LBS [Tools R (LowerBoundedSet T) S] (x : UpperBoundedRange T) (y : R) :
    Tools.intersection x y = x.interLBS (Tools.toInner y) := by
  unfold Tools.intersection
  simp only [RangeIntersection.intersection, intersection_LBS_UBR, pure_bind, bind_pure, mapM_ok]
  first | done | rfl | (split <;> rfl)

theorem intersection_UBR_UBS [Tools R (UpperBoundedSet T) S] (x : UpperBoundedRange T) (y : R) :
    Tools.intersection x y = x.interUBS (Tools.toInner y) := by
  unfold Tools.intersection
  simp only [RangeIntersection.intersection, intersection_UBS_UBR, pure_bind, bind_pure, mapM_ok]
  first | done | rfl | (split <;> rfl)

theorem intersection_UBR_US [Tools R (UnboundedSet T) S] (x : UpperBoundedRange T) (y : R) :
    Tools.intersection x y = x.interUS (Tools.toInner y) := by
  unfold Tools.intersection
  simp only [RangeIntersection.intersection, intersection_US_UBR, pure_bind, bind_pure, mapM_ok]
  first | done | rfl | (split <;> rfl)

theorem intersection_UBS_LBS [Tools R (LowerBoundedSet T) S] (x : UpperBoundedSet T) (y : R) :
    Tools.intersection x y = x.interLBS (Tools.toInner y) := by
  unfold Tools.intersection
  simp only [RangeIntersection.intersection, intersection_LBS_UBS, pure_bind, bind_pure, mapM_ok]
  first | done | rfl | (split <;> rfl)

theorem intersection_UBS_UBS [Tools R (UpperBoundedSet T) S] (x : UpperBoundedSet T) (y : R) :
    Tools.intersection x y = x.interUBS (Tools.toInner y) := by
  unfold Tools.intersection
  simp only [RangeIntersection.intersection, intersection_UBS_UBR, intersection_UBS_BS, pure_bind, bind_pure, mapM_ok]
  first | done | rfl | (split <;> rfl)

theorem complement_BR (x : BoundedRange T) : (Tools.complement x : Res (UnboundedSet T)) = x.complement := by
  unfold Tools.complement
  simp only [RangeComplement.complement]
  exact union_UBS_LBS (R := LowerBoundedRange T) (UpperBoundedSet.ofUBR _) _

theorem complement_BS (x : BoundedSet T) : (Tools.complement x : Res (UnboundedSet T)) = x.complement := by
  unfold Tools.complement
  simp only [RangeComplement.complement, complement_BR, intersection_US_US]
  rfl

theorem complement_LBS (x : LowerBoundedSet T) :
    (Tools.complement x : Res (UpperBoundedSet T)) = x.complement := by
  unfold Tools.complement
  simp only [RangeComplement.complement, complement_BR, intersection_UBS_US]
  rfl

theorem complement_UBS (x : UpperBoundedSet T) :
    (Tools.complement x : Res (LowerBoundedSet T)) = x.complement := by
  unfold Tools.complement
  simp only [RangeComplement.complement, complement_BR, intersection_LBS_US]
  rfl

theorem complement_US (x : UnboundedSet T) : (Tools.complement x : Res (BoundedSet T)) = x.complement := by
  unfold Tools.complement
  simp only [RangeComplement.complement, complement_BR, intersection_BS_US]
  cases x <;> rfl

end Rangetools
