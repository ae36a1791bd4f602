import Verif.Spec.Wild
import Verif.Spec.Algebra
import Verif.Proofs.Natural

/-!
# C75: broken orders

All functions of the model are total whatever the comparisons answer, so no operation runs forever.  What
remains is which panics can happen.
-/

namespace Rangetools
variable {T : Type} [LE T] [LT T] [DecidableLE T] [DecidableLT T] [Ord T] [BEq T] {P : String → Prop}

namespace Res.PanicsOnly
variable {α β : Type}

omit [LE T] [LT T] [DecidableLE T] [DecidableLT T] [Ord T] [BEq T] in
theorem ok (a : α) : (Res.ok a).PanicsOnly P := fun _ h => by cases h

theorem pure (a : α) : (Pure.pure a : Res α).PanicsOnly P := ok a

theorem bind {x : Res α} {f : α → Res β} (hx : x.PanicsOnly P) (hf : ∀ a, (f a).PanicsOnly P) :
    (x >>= f).PanicsOnly P := by
  intro m h
  cases x with
  | ok a => exact hf a m h
  | panic m' => exact hx m (by cases h; rfl)

theorem foldlM {f : β → α → Res β} (hf : ∀ b a, (f b a).PanicsOnly P) (l : List α) (b : β) :
    (l.foldlM f b).PanicsOnly P := by
  induction l generalizing b with
  | nil => exact ok b
  | cons a l ih => rw [List.foldlM_cons]; exact bind (hf b a) ih

end Res.PanicsOnly
open Res.PanicsOnly

/-- All panics of `combine` when it is called the way `add_range` calls it. -/
def CombineOnly (T : Type) [LE T] [LT T] [DecidableLE T] [DecidableLT T] [Ord T] [BEq T] (P : String → Prop) : Prop :=
  ∀ r p : BoundedRange T, p.intersectsBR r = true → (r.combine p).PanicsOnly P

section
variable (H : CombineOnly T P)
include H

theorem BoundedSet.addRange_panics (s : BoundedSet T) (r : BoundedRange T) : (s.addRange r).PanicsOnly P := by
  induction hn : s.ranges.length using Nat.strong_induction_on generalizing s r with
  | _ n ih =>
    rw [BoundedSet.addRange]
    split
    · split
      · rename_i index hidx
        obtain ⟨hlt, hint, _⟩ := List.findIdx?_eq_some_iff_getElem.mp hidx
        have hget : vdIndex s.ranges index = .ok s.ranges[index] := by
          simp [vdIndex, unwrap, List.getElem?_eq_getElem hlt]
        rw [hget, Res.ok_bind]
        refine bind (H _ _ hint) fun r' => ih _ ?_ _ _ rfl
        rw [List.length_eraseIdx_of_lt hlt]; omega
      · simp only [vdInsert_eq]
        exact bind (ok _) fun _ => ok _
    · exact ok _

omit H in
theorem LowerBoundedSet.defragment_panics (s : LowerBoundedSet T) : s.defragment.PanicsOnly P := by
  induction hn : s.ranges.ranges.length using Nat.strong_induction_on generalizing s with
  | _ n ih =>
    rw [LowerBoundedSet.defragment_eq]
    split
    · exact ok _
    · rename_i hne
      split
      · rename_i h
        rw [List.getLast?_eq_none_iff] at h
        simp [BoundedSet.isEmpty, h] at hne
      · rename_i r h
        split
        · exact ok _
        · have : s.ranges.ranges ≠ [] := by intro h0; simp [h0] at h
          have := List.length_pos_iff.mpr this
          exact ih _ (by simp only [List.length_dropLast]; omega) _ rfl

omit H in
theorem UpperBoundedSet.defragment_panics (s : UpperBoundedSet T) : s.defragment.PanicsOnly P := by
  induction hn : s.ranges.ranges.length using Nat.strong_induction_on generalizing s with
  | _ n ih =>
    rw [UpperBoundedSet.defragment_eq]
    split
    · exact ok _
    · rename_i hne
      split
      · rename_i h
        simp [BoundedSet.isEmpty, h] at hne
      · rename_i r rest h
        split
        · exact ok _
        · exact ih rest.length (by rw [h] at hn; simp at hn; omega) _ rfl

omit H in
theorem PiecewiseUnboundedSet.defragment_panics (s : PiecewiseUnboundedSet T) : s.defragment.PanicsOnly P := by
  induction hn : s.ranges.ranges.length using Nat.strong_induction_on generalizing s with
  | _ n ih =>
    rw [PiecewiseUnboundedSet.defragment_eq]
    split
    · rename_i index hidx
      obtain ⟨hlt, -⟩ := List.findIdx?_eq_some_iff_getElem.mp hidx
      rw [List.getElem?_eq_getElem hlt]
      refine bind (ok _) fun r => ih _ ?_ _ rfl
      dsimp only
      rw [List.length_eraseIdx_of_lt hlt]; omega
    · split
      · rename_i index hidx
        obtain ⟨hlt, -⟩ := List.findIdx?_eq_some_iff_getElem.mp hidx
        rw [List.getElem?_eq_getElem hlt]
        refine bind (ok _) fun r => ih _ ?_ _ rfl
        dsimp only
        rw [List.length_eraseIdx_of_lt hlt]; omega
      · exact ok _

/-! ### Adding -/

theorem BoundedSet.addSet_panics (s o : BoundedSet T) : (s.addSet o).PanicsOnly P :=
  foldlM (fun s r => s.addRange_panics H r) _ _

theorem LowerBoundedSet.addRange_panics (s : LowerBoundedSet T) (r : BoundedRange T) : (s.addRange r).PanicsOnly P :=
  bind (s.ranges.addRange_panics H r) fun _ => LowerBoundedSet.defragment_panics _

theorem LowerBoundedSet.addSet_panics (s : LowerBoundedSet T) (o : BoundedSet T) : (s.addSet o).PanicsOnly P :=
  foldlM (fun s r => s.addRange_panics H r) _ _

theorem UpperBoundedSet.addRange_panics (s : UpperBoundedSet T) (r : BoundedRange T) : (s.addRange r).PanicsOnly P :=
  bind (s.ranges.addRange_panics H r) fun _ => UpperBoundedSet.defragment_panics _

theorem UpperBoundedSet.addSet_panics (s : UpperBoundedSet T) (o : BoundedSet T) : (s.addSet o).PanicsOnly P :=
  foldlM (fun s r => s.addRange_panics H r) _ _

omit H [LE T] [LT T] [DecidableLE T] [DecidableLT T] [Ord T] [BEq T] in
theorem UnboundedSet.mapPiecewise_panics (s : UnboundedSet T) {f : PiecewiseUnboundedSet T → Res (PiecewiseUnboundedSet T)}
    (hf : ∀ p, (f p).PanicsOnly P) : (s.mapPiecewise f).PanicsOnly P := by
  cases s with
  | full => exact ok _
  | piecewise p => exact bind (hf p) fun _ => ok _

omit H in
theorem UnboundedSet.defragment_panics (s : UnboundedSet T) : s.defragment.PanicsOnly P := by
  refine bind (s.mapPiecewise_panics fun p => p.defragment_panics) fun a => ?_
  cases a with
  | full => exact ok _
  | piecewise p => dsimp only; split <;> exact ok _

theorem UnboundedSet.addRange_panics (s : UnboundedSet T) (r : BoundedRange T) : (s.addRange r).PanicsOnly P :=
  bind (s.mapPiecewise_panics fun p => bind (p.ranges.addRange_panics H r) fun _ => ok _) fun a => a.defragment_panics

theorem UnboundedSet.addSet_panics (s : UnboundedSet T) (o : BoundedSet T) : (s.addSet o).PanicsOnly P :=
  foldlM (fun s r => s.addRange_panics H r) _ _

omit H in
theorem UnboundedSet.addLowerBoundedRange_panics (s : UnboundedSet T) (r : LowerBoundedRange T) :
    (s.addLowerBoundedRange r).PanicsOnly P :=
  bind (s.mapPiecewise_panics fun _ => ok _) fun a => a.defragment_panics

omit H in
theorem UnboundedSet.addUpperBoundedRange_panics (s : UnboundedSet T) (r : UpperBoundedRange T) :
    (s.addUpperBoundedRange r).PanicsOnly P :=
  bind (s.mapPiecewise_panics fun _ => ok _) fun a => a.defragment_panics

theorem UnboundedSet.addUnboundedSet_panics (s o : UnboundedSet T) : (s.addUnboundedSet o).PanicsOnly P := by
  cases o with
  | full => exact ok _
  | piecewise p =>
    exact bind (s.addLowerBoundedRange_panics _) fun a => bind (a.addUpperBoundedRange_panics _) fun b =>
      bind (b.addSet_panics H _) fun c => c.defragment_panics

/-! ### Union -/

theorem LowerBoundedSet.unionUBS_panics (a : LowerBoundedSet T) (b : UpperBoundedSet T) : (a.unionUBS b).PanicsOnly P :=
  bind (UnboundedSet.addSet_panics H _ _) fun c => c.addSet_panics H _

theorem SetVal.union_panics (a b : SetVal T) : (a.union b).PanicsOnly P := by
  cases a <;> cases b <;> first
    | exact ok _
    | refine bind ?_ fun _ => ok _
  · exact BoundedSet.addSet_panics H _ _
  · exact LowerBoundedSet.addSet_panics H _ _
  · exact UpperBoundedSet.addSet_panics H _ _
  · exact UnboundedSet.addSet_panics H _ _
  · exact LowerBoundedSet.addSet_panics H _ _
  · exact bind (LowerBoundedSet.defragment_panics _) fun c => c.addSet_panics H _
  · exact LowerBoundedSet.unionUBS_panics H _ _
  · exact bind (UnboundedSet.addLowerBoundedRange_panics _ _) fun c => c.addSet_panics H _
  · exact UpperBoundedSet.addSet_panics H _ _
  · exact LowerBoundedSet.unionUBS_panics H _ _
  · exact bind (UpperBoundedSet.defragment_panics _) fun c => c.addSet_panics H _
  · exact bind (UnboundedSet.addUpperBoundedRange_panics _ _) fun c => c.addSet_panics H _
  · exact UnboundedSet.addSet_panics H _ _
  · exact bind (UnboundedSet.addLowerBoundedRange_panics _ _) fun c => c.addSet_panics H _
  · exact bind (UnboundedSet.addUpperBoundedRange_panics _ _) fun c => c.addSet_panics H _
  · exact UnboundedSet.addUnboundedSet_panics H _ _

theorem Any.union_panics (a b : Any T) : (a.union b).PanicsOnly P := by
  unfold Any.union
  split
  · exact ok _
  · exact ok _
  · split
    · exact ok _
    · exact ok _
    · exact bind (SetVal.union_panics H _ _) fun _ => ok _

/-! ### Intersection -/

theorem BoundedSet.interBS_panics (a b : BoundedSet T) : (a.interBS b).PanicsOnly P :=
  foldlM (fun s _ => s.addSet_panics H _) _ _

theorem LowerBoundedSet.interBR_panics (a : LowerBoundedSet T) (b : BoundedRange T) : (a.interBR b).PanicsOnly P :=
  BoundedSet.addSet_panics H _ _

theorem BoundedSet.interLBS_panics (a : BoundedSet T) (b : LowerBoundedSet T) : (a.interLBS b).PanicsOnly P :=
  foldlM (fun s r => bind (b.interBR_panics H r) fun c => s.addSet_panics H c) _ _

theorem LowerBoundedSet.interLBS_panics (a b : LowerBoundedSet T) : (a.interLBS b).PanicsOnly P :=
  bind (a.ranges.interLBS_panics H b) fun c => LowerBoundedSet.addSet_panics H _ c

theorem LowerBoundedSet.interUBR_panics (a : LowerBoundedSet T) (b : UpperBoundedRange T) : (a.interUBR b).PanicsOnly P :=
  bind (BoundedSet.addSet_panics H _ _) fun _ => ok _

theorem LowerBoundedSet.interUBS_panics (a : LowerBoundedSet T) (b : UpperBoundedSet T) : (a.interUBS b).PanicsOnly P :=
  bind (a.interUBR_panics H _) fun _ => bind (BoundedSet.interLBS_panics H _ _) fun _ =>
    bind (BoundedSet.addSet_panics H _ _) fun _ => ok _

theorem UpperBoundedSet.interBR_panics (a : UpperBoundedSet T) (b : BoundedRange T) : (a.interBR b).PanicsOnly P :=
  BoundedSet.addSet_panics H _ _

theorem BoundedSet.interUBS_panics (a : BoundedSet T) (b : UpperBoundedSet T) : (a.interUBS b).PanicsOnly P :=
  foldlM (fun s r => bind (b.interBR_panics H r) fun c => s.addSet_panics H c) _ _

theorem UpperBoundedSet.interLBR_panics (a : UpperBoundedSet T) (b : LowerBoundedRange T) : (a.interLBR b).PanicsOnly P :=
  BoundedSet.addSet_panics H _ _

theorem UpperBoundedSet.interUBR_panics (a : UpperBoundedSet T) (b : UpperBoundedRange T) : (a.interUBR b).PanicsOnly P :=
  UpperBoundedSet.addSet_panics H _ _

theorem UpperBoundedSet.interUBS_panics (a b : UpperBoundedSet T) : (a.interUBS b).PanicsOnly P :=
  bind (a.interUBR_panics H _) fun _ => bind (BoundedSet.interUBS_panics H _ _) fun _ => UpperBoundedSet.addSet_panics H _ _

theorem BoundedSet.interUS_panics (a : BoundedSet T) (b : UnboundedSet T) : (a.interUS b).PanicsOnly P := by
  cases b with
  | full => exact ok _
  | piecewise p =>
    exact bind (BoundedSet.addSet_panics H _ _) fun _ => bind (BoundedSet.interBS_panics H _ _) fun _ =>
      BoundedSet.addSet_panics H _ _

theorem LowerBoundedSet.interUS_panics (a : LowerBoundedSet T) (b : UnboundedSet T) : (a.interUS b).PanicsOnly P := by
  cases b with
  | full => exact ok _
  | piecewise p =>
    exact bind (a.interUBR_panics H _) fun _ => bind (LowerBoundedSet.addSet_panics H _ _) fun _ =>
      bind (BoundedSet.interLBS_panics H _ _) fun _ => LowerBoundedSet.addSet_panics H _ _

theorem UpperBoundedSet.interUS_panics (a : UpperBoundedSet T) (b : UnboundedSet T) : (a.interUS b).PanicsOnly P := by
  cases b with
  | full => exact ok _
  | piecewise p =>
    exact bind (a.interUBR_panics H _) fun _ => bind (a.interLBR_panics H _) fun _ =>
      bind (UpperBoundedSet.addSet_panics H _ _) fun _ => bind (BoundedSet.interUBS_panics H _ _) fun _ =>
      UpperBoundedSet.addSet_panics H _ _

theorem UnboundedSet.interUS_panics (a b : UnboundedSet T) : (a.interUS b).PanicsOnly P := by
  cases a with
  | full => exact ok _
  | piecewise a =>
    cases b with
    | full => exact ok _
    | piecewise b =>
      exact bind (UpperBoundedSet.interUS_panics H _ _) fun _ => bind (LowerBoundedSet.interUS_panics H _ _) fun _ =>
        bind (BoundedSet.interUS_panics H _ _) fun _ => bind (LowerBoundedSet.addSet_panics H _ _) fun _ =>
        LowerBoundedSet.unionUBS_panics H _ _

theorem Inner.inter_panics (a b : Inner T) : (a.inter b).PanicsOnly P := by
  cases a <;> cases b <;> first
    | exact ok _
    | refine bind ?_ fun _ => ok _
  all_goals first
    | exact BoundedSet.interBS_panics H _ _
    | exact BoundedSet.interLBS_panics H _ _
    | exact BoundedSet.interUBS_panics H _ _
    | exact BoundedSet.interUS_panics H _ _
    | exact LowerBoundedSet.interBR_panics H _ _
    | exact LowerBoundedSet.interLBS_panics H _ _
    | exact LowerBoundedSet.interUBR_panics H _ _
    | exact LowerBoundedSet.interUBS_panics H _ _
    | exact LowerBoundedSet.interUS_panics H _ _
    | exact UpperBoundedSet.interBR_panics H _ _
    | exact UpperBoundedSet.interLBR_panics H _ _
    | exact UpperBoundedSet.interUBR_panics H _ _
    | exact UpperBoundedSet.interUBS_panics H _ _
    | exact UpperBoundedSet.interUS_panics H _ _
    | exact UnboundedSet.interUS_panics H _ _

theorem Any.inter_panics (a b : Any T) : (a.inter b).PanicsOnly P := by
  have std : ∀ a b : Inner T, (a.interFromStd b).PanicsOnly P := by
    intro a b
    cases b <;> first | exact ok _ | exact Inner.inter_panics H _ _
  unfold Any.inter
  split
  · exact std _ _
  · exact std _ _
  · exact std _ _
  · exact std _ _
  · split
    · exact ok _
    · exact Inner.inter_panics H _ _
  · split
    · exact ok _
    · exact Inner.inter_panics H _ _
  · exact Inner.inter_panics H _ _

/-! ### Complement -/

theorem BoundedRange.complement_panics (r : BoundedRange T) : r.complement.PanicsOnly P :=
  LowerBoundedSet.unionUBS_panics H _ _

theorem Inner.complement_panics (a : Inner T) : a.complement.PanicsOnly P := by
  cases a with
  | br r => exact bind (r.complement_panics H) fun _ => ok _
  | bs s =>
    exact bind (foldlM (fun _ r => bind (r.complement_panics H) fun _ => UnboundedSet.interUS_panics H _ _) _ _) fun _ => ok _
  | lbr _ => exact ok _
  | lbs s =>
    exact bind (foldlM (fun _ r => bind (r.complement_panics H) fun _ => UpperBoundedSet.interUS_panics H _ _) _ _) fun _ => ok _
  | ubr _ => exact ok _
  | ubs s =>
    exact bind (foldlM (fun _ r => bind (r.complement_panics H) fun _ => LowerBoundedSet.interUS_panics H _ _) _ _) fun _ => ok _
  | ur => exact ok _
  | us s =>
    refine bind ?_ fun _ => ok _
    cases s with
    | full => exact ok _
    | piecewise p =>
      exact foldlM (fun _ r => bind (r.complement_panics H) fun _ => BoundedSet.interUS_panics H _ _) _ _
  | er => exact ok _

theorem Any.complement_panics (a : Any T) : a.complement.PanicsOnly P := by
  unfold Any.complement
  split
  · exact ok _
  · exact Inner.complement_panics H _

theorem Expr.eval_panics (e : Expr T) : e.eval.PanicsOnly P := by
  induction e with
  | leaf a => exact ok _
  | toInner e ih => exact bind ih fun _ => ok _
  | toSet e ih => exact bind ih fun _ => ok _
  | union e f ihe ihf => exact bind ihe fun _ => bind ihf fun _ => Any.union_panics H _ _
  | inter e f ihe ihf => exact bind ihe fun _ => bind ihf fun _ => bind (Any.inter_panics H _ _) fun _ => ok _
  | complement e ih => exact bind ih fun _ => bind (Any.complement_panics H _) fun _ => ok _

end

/-! ### C75 -/

theorem combineOnly_assert : CombineOnly T (· = "assertion failed: self.intersects(*other)") := by
  intro r p _ m h
  unfold BoundedRange.combine assert at h
  split at h
  · cases h
  · split at h
    · cases h
    · split at h
      · cases h
      · cases h; rfl

/-- C75. Whatever the comparisons answer, evaluating an expression ends, and the only panic is the assertion in
`BoundedRange::combine`: no `unwrap` and no index ever fails. -/
theorem C75_only_assertion (e : Expr T) (m : String) (h : e.eval = .panic m) :
    m = "assertion failed: self.intersects(*other)" :=
  Expr.eval_panics combineOnly_assert e m h

section
variable [SwapElem T]

theorem LowerBound.max_comm_of_swap (hid : ∀ a b : T, compare a b = .eq → a = b) (a b : LowerBound T) : a.max b = b.max a := by
  have hs : ∀ a b : T, compare b a = (compare a b).swap := SwapElem.swap
  have he : ∀ a b : T, (a == b) = true ↔ compare a b = .eq := SwapElem.beq_iff
  rcases a with ⟨a | a⟩ <;> rcases b with ⟨b | b⟩ <;> cases h : compare a b <;> have h' := hs a b <;>
    rw [h] at h' <;>
    simp [LowerBound.max, LowerBound.cmp, LowerBound.partialCmp, LowerBound.partialCmpWith, elemPartialCmp, elemEq, he, h, h'] <;>
    exact hid _ _ (by first | exact h | exact h')

theorem UpperBound.min_comm_of_swap (hid : ∀ a b : T, compare a b = .eq → a = b) (a b : UpperBound T) : a.min b = b.min a := by
  have hs : ∀ a b : T, compare b a = (compare a b).swap := SwapElem.swap
  have he : ∀ a b : T, (a == b) = true ↔ compare a b = .eq := SwapElem.beq_iff
  rcases a with ⟨a | a⟩ <;> rcases b with ⟨b | b⟩ <;> cases h : compare a b <;> have h' := hs a b <;>
    rw [h] at h' <;>
    simp [UpperBound.min, UpperBound.cmp, UpperBound.partialCmp, UpperBound.partialCmpWith, elemPartialCmp, elemEq, he, h, h'] <;>
    exact hid _ _ h

theorem combineOnly_false (hid : ∀ a b : T, compare a b = .eq → a = b) : CombineOnly T (fun _ => False) := by
  intro r p h m hm
  have e : r.intersectsBR p = true := by
    rw [← h, BoundedRange.intersectsBR, BoundedRange.intersectsBR, BoundedRange.interBR, BoundedRange.interBR,
      LowerBound.max_comm_of_swap hid, UpperBound.min_comm_of_swap hid]
  unfold BoundedRange.combine assert at hm
  rw [e] at hm
  split at hm
  · cases hm
  · split at hm
    · cases hm
    · cases hm

/-- C75. Without transitivity nothing panics either, provided elements that compare equal are identical. -/
theorem C75_no_panic (hid : ∀ a b : T, compare a b = .eq → a = b) (e : Expr T) : ∃ c, e.eval = .ok c := by
  have := Expr.eval_panics (combineOnly_false hid) e
  cases h : e.eval with
  | ok c => exact ⟨c, rfl⟩
  | panic m => exact (this m h).elim

end

/-- Rock, paper, scissors meets the hypotheses although its order is not transitive; here is a nest of sets over it. -/
example : (∀ a b : Rps, compare a b = .eq → a = b) ∧ (Rps.rock < .paper ∧ Rps.paper < .scissors ∧ Rps.scissors < .rock) ∧
    (Expr.complement (.union (.leaf (.range ⟨Rps.rock, .paper⟩)) (.inter (.leaf (.rangeInclusive ⟨Rps.paper, .scissors, false⟩)) (.leaf (.rangeFrom ⟨.rock⟩))))).eval.isOk := by
  refine ⟨?_, ?_, ?_⟩
  · intro a b h; cases a <;> cases b <;> first | rfl | cases h
  · decide
  · decide +kernel

/-- C75. Elements that compare equal without being interchangeable are enough for a panic, even if `cmp` is
reflexive and consistent under swapping: with numbers rounded to one unit, `(1..3).union(0..2)` panics. -/
theorem C75_counterexample :
    (Any.union (.range ⟨(⟨1⟩ : Approx), ⟨3⟩⟩) (.range ⟨⟨0⟩, ⟨2⟩⟩)) = .panic "assertion failed: self.intersects(*other)" := by
  decide +kernel

end Rangetools
