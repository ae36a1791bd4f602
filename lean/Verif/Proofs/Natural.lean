import Verif.Spec.Map
import Verif.Proofs.Sem
import Mathlib.Order.Monotone.Basic

/-!
# The operations commute with renamings of the elements that keep comparisons
-/

namespace Rangetools
variable {T U : Type}

/-! ### `Res.map` -/

namespace Res
variable {α β γ δ : Type}

@[simp] theorem map_ok (g : α → β) (a : α) : Res.map g (.ok a) = .ok (g a) := rfl
@[simp] theorem map_panic (g : α → β) (m : String) : Res.map g (.panic m) = .panic m := rfl

theorem map_bind (g : β → γ) (x : Res α) (k : α → Res β) :
    Res.map g (x >>= k) = x >>= fun a => Res.map g (k a) := by cases x <;> rfl

theorem bind_map (g : α → β) (x : Res α) (k : β → Res γ) :
    Res.map g x >>= k = x >>= fun a => k (g a) := by cases x <;> rfl

theorem map_map (g : α → β) (k : β → γ) (x : Res α) : Res.map k (Res.map g x) = Res.map (fun a => k (g a)) x := by
  cases x <;> rfl

theorem foldlM_map {step : α → β → Res α} {step' : γ → δ → Res γ} {g : α → γ} {k : β → δ}
    (h : ∀ a b, step' (g a) (k b) = Res.map g (step a b)) (l : List β) (a : α) :
    (l.map k).foldlM step' (g a) = Res.map g (l.foldlM step a) := by
  induction l generalizing a with
  | nil => rfl
  | cons b l ih =>
    rw [List.map_cons, List.foldlM_cons, List.foldlM_cons, h, bind_map, map_bind]
    congr 1
    funext a
    exact ih a

end Res

section Unfold
variable [LE T] [LT T] [DecidableLE T] [DecidableLT T] [Ord T] [BEq T]

theorem BoundedSet.addRange_eq (s : BoundedSet T) (r : BoundedRange T) : s.addRange r =
    if r.isEmpty then .ok s else
      match s.ranges.findIdx? (fun range => range.intersectsBR r) with
      | some index => do
          let newRange ← r.combine (← vdIndex s.ranges index)
          BoundedSet.addRange ⟨s.ranges.eraseIdx index⟩ newRange
      | none => do
          return ⟨← vdInsert s.ranges ((s.ranges.findIdx? (fun range => range.start.gt r.start)).getD
            s.ranges.length) r⟩ := by
  rw [BoundedSet.addRange]
  cases r.isEmpty
  · simp only [Bool.not_false, if_true, Bool.false_eq_true, if_false]
    split <;> rename_i h <;> rw [h]
  · rfl

theorem LowerBoundedSet.defragment_eq (s : LowerBoundedSet T) : s.defragment =
    if s.ranges.isEmpty then .ok s else
      match s.ranges.ranges.getLast? with
      | none => .panic "called `Option::unwrap()` on a `None` value"
      | some range =>
        if (range.interLBR s.lowerBoundedRange).isEmpty then .ok s
        else LowerBoundedSet.defragment
            { ranges := ⟨s.ranges.ranges.dropLast⟩
              lowerBoundedRange := ⟨s.lowerBoundedRange.start.min range.start⟩ } := by
  rw [LowerBoundedSet.defragment]
  cases s.ranges.isEmpty
  · simp only [Bool.not_false, if_true, Bool.false_eq_true, if_false]
    split <;> rename_i h <;> rw [h]
  · rfl

theorem UpperBoundedSet.defragment_eq (s : UpperBoundedSet T) : s.defragment =
    if s.ranges.isEmpty then .ok s else
      match s.ranges.ranges with
      | [] => .panic "called `Option::unwrap()` on a `None` value"
      | range :: rest =>
        if (range.interUBR s.upperBoundedRange).isEmpty then .ok s
        else UpperBoundedSet.defragment
            { ranges := ⟨rest⟩
              upperBoundedRange := ⟨s.upperBoundedRange.stop.max range.stop⟩ } := by
  rw [UpperBoundedSet.defragment]
  cases s.ranges.isEmpty
  · simp only [Bool.not_false, if_true, Bool.false_eq_true, if_false]
    split <;> rename_i h <;> rw [h]
  · rfl

theorem PiecewiseUnboundedSet.defragment_eq (s : PiecewiseUnboundedSet T) : s.defragment =
    match s.ranges.ranges.findIdx? (fun r => s.upperBoundedRange.intersectsBR r) with
    | some index => do
        let range ← unwrap "called `Option::unwrap()` on a `None` value" s.ranges.ranges[index]?
        PiecewiseUnboundedSet.defragment
          { s with
            ranges := ⟨s.ranges.ranges.eraseIdx index⟩
            upperBoundedRange := ⟨s.upperBoundedRange.stop.max range.stop⟩ }
    | none =>
        match s.ranges.ranges.findIdx? (fun r => s.lowerBoundedRange.intersectsBR r) with
        | some index => do
            let range ← unwrap "called `Option::unwrap()` on a `None` value" s.ranges.ranges[index]?
            PiecewiseUnboundedSet.defragment
              { s with
                ranges := ⟨s.ranges.ranges.eraseIdx index⟩
                lowerBoundedRange := ⟨s.lowerBoundedRange.start.min range.start⟩ }
        | none => .ok s := by
  rw [PiecewiseUnboundedSet.defragment]
  split <;> rename_i h <;> rw [h]
  dsimp only
  split <;> rename_i h' <;> rw [h']

end Unfold

variable [LE T] [LT T] [DecidableLE T] [DecidableLT T] [Ord T] [BEq T]
  [LE U] [LT U] [DecidableLE U] [DecidableLT U] [Ord U] [BEq U] {f : T → U}

/-! ### Bounds and ranges -/

theorem LowerBound.partialCmp_map (hf : Compares f) (a b : LowerBound T) :
    (a.map f).partialCmp (b.map f) = a.partialCmp b := by
  rcases a with ⟨a | a⟩ <;> rcases b with ⟨b | b⟩ <;>
    simp only [LowerBound.map, Bound.map, LowerBound.partialCmp, LowerBound.partialCmpWith, elemPartialCmp, elemEq] <;>
    by_cases h : (a == b) = true <;> simp only [hf.cmp, hf.eq, h, if_true, if_false, Bool.false_eq_true]

theorem UpperBound.partialCmp_map (hf : Compares f) (a b : UpperBound T) :
    (a.map f).partialCmp (b.map f) = a.partialCmp b := by
  rcases a with ⟨a | a⟩ <;> rcases b with ⟨b | b⟩ <;>
    simp only [UpperBound.map, Bound.map, UpperBound.partialCmp, UpperBound.partialCmpWith, elemPartialCmp, elemEq] <;>
    by_cases h : (a == b) = true <;> simp only [hf.cmp, hf.eq, h, if_true, if_false, Bool.false_eq_true]

theorem LowerBound.cmp_map (hf : Compares f) (a b : LowerBound T) : (a.map f).cmp (b.map f) = a.cmp b := by
  simp only [LowerBound.cmp, LowerBound.partialCmp_map hf]

theorem UpperBound.cmp_map (hf : Compares f) (a b : UpperBound T) : (a.map f).cmp (b.map f) = a.cmp b := by
  simp only [UpperBound.cmp, UpperBound.partialCmp_map hf]

theorem LowerBound.max_map (hf : Compares f) (a b : LowerBound T) :
    (a.map f).max (b.map f) = (a.max b).map f := by
  simp only [LowerBound.max, LowerBound.cmp_map hf]; cases a.cmp b <;> rfl

theorem LowerBound.min_map (hf : Compares f) (a b : LowerBound T) :
    (a.map f).min (b.map f) = (a.min b).map f := by
  simp only [LowerBound.min, LowerBound.cmp_map hf]; cases a.cmp b <;> rfl

theorem UpperBound.max_map (hf : Compares f) (a b : UpperBound T) :
    (a.map f).max (b.map f) = (a.max b).map f := by
  simp only [UpperBound.max, UpperBound.cmp_map hf]; cases a.cmp b <;> rfl

theorem UpperBound.min_map (hf : Compares f) (a b : UpperBound T) :
    (a.map f).min (b.map f) = (a.min b).map f := by
  simp only [UpperBound.min, UpperBound.cmp_map hf]; cases a.cmp b <;> rfl

theorem LowerBound.gt_map (hf : Compares f) (a b : LowerBound T) : (a.map f).gt (b.map f) = a.gt b := by
  simp only [LowerBound.gt, LowerBound.partialCmp_map hf]

theorem BoundedRange.isEmpty_map (hf : Compares f) (r : BoundedRange T) : (r.map f).isEmpty = r.isEmpty := by
  rcases r with ⟨⟨a | a⟩, ⟨b | b⟩⟩ <;>
    simp [BoundedRange.isEmpty, BoundedRange.map, LowerBound.map, UpperBound.map, Bound.map, hf.lt,
      hf.le]

theorem BoundedRange.contains_map (hf : Compares f) (r : BoundedRange T) (t : T) :
    (r.map f).contains (f t) = r.contains t := by
  rcases r with ⟨⟨a | a⟩, ⟨b | b⟩⟩ <;>
    simp [BoundedRange.contains, BoundedRange.map, LowerBound.map, UpperBound.map, Bound.map, hf.lt,
      hf.le]

theorem LowerBoundedRange.contains_map (hf : Compares f) (r : LowerBoundedRange T) (t : T) :
    (r.map f).contains (f t) = r.contains t := by
  rcases r with ⟨⟨a | a⟩⟩ <;>
    simp [LowerBoundedRange.contains, LowerBoundedRange.map, LowerBound.map, Bound.map, hf.lt,
      hf.le]

theorem UpperBoundedRange.contains_map (hf : Compares f) (r : UpperBoundedRange T) (t : T) :
    (r.map f).contains (f t) = r.contains t := by
  rcases r with ⟨⟨a | a⟩⟩ <;>
    simp [UpperBoundedRange.contains, UpperBoundedRange.map, UpperBound.map, Bound.map, hf.lt,
      hf.le]

section
variable (hf : Compares f)
include hf

theorem BoundedRange.interBR_map (a b : BoundedRange T) :
    (a.map f).interBR (b.map f) = (a.interBR b).map f := by
  simp only [BoundedRange.interBR, BoundedRange.map, LowerBound.max_map hf, UpperBound.min_map hf]

theorem BoundedRange.interLBR_map (a : BoundedRange T) (b : LowerBoundedRange T) :
    (a.map f).interLBR (b.map f) = (a.interLBR b).map f := by
  simp only [BoundedRange.interLBR, BoundedRange.map, LowerBoundedRange.map, LowerBound.max_map hf]

theorem BoundedRange.interUBR_map (a : BoundedRange T) (b : UpperBoundedRange T) :
    (a.map f).interUBR (b.map f) = (a.interUBR b).map f := by
  simp only [BoundedRange.interUBR, BoundedRange.map, UpperBoundedRange.map, UpperBound.min_map hf]

theorem LowerBoundedRange.interLBR_map (a b : LowerBoundedRange T) :
    (a.map f).interLBR (b.map f) = (a.interLBR b).map f := by
  simp only [LowerBoundedRange.interLBR, LowerBoundedRange.map, LowerBound.max_map hf]

omit hf [LE T] [LT T] [DecidableLE T] [DecidableLT T] [Ord T] [BEq T]
  [LE U] [LT U] [DecidableLE U] [DecidableLT U] [Ord U] [BEq U] in
theorem LowerBoundedRange.interUBR_map (a : LowerBoundedRange T) (b : UpperBoundedRange T) :
    (a.map f).interUBR (b.map f) = (a.interUBR b).map f := rfl

theorem UpperBoundedRange.interUBR_map (a b : UpperBoundedRange T) :
    (a.map f).interUBR (b.map f) = (a.interUBR b).map f := by
  simp only [UpperBoundedRange.interUBR, UpperBoundedRange.map, UpperBound.min_map hf]

theorem BoundedRange.intersectsBR_map (a b : BoundedRange T) :
    (a.map f).intersectsBR (b.map f) = a.intersectsBR b := by
  simp only [BoundedRange.intersectsBR, BoundedRange.interBR_map hf, BoundedRange.isEmpty_map hf]

theorem UpperBoundedRange.intersectsBR_map (a : UpperBoundedRange T) (b : BoundedRange T) :
    (a.map f).intersectsBR (b.map f) = a.intersectsBR b := by
  simp only [UpperBoundedRange.intersectsBR, UpperBoundedRange.interBR, BoundedRange.interUBR_map hf,
    BoundedRange.isEmpty_map hf]

theorem LowerBoundedRange.intersectsBR_map (a : LowerBoundedRange T) (b : BoundedRange T) :
    (a.map f).intersectsBR (b.map f) = a.intersectsBR b := by
  simp only [LowerBoundedRange.intersectsBR, LowerBoundedRange.interBR, BoundedRange.interLBR_map hf,
    BoundedRange.isEmpty_map hf]

theorem UpperBoundedRange.intersectsLBR_map (a : UpperBoundedRange T) (b : LowerBoundedRange T) :
    (a.map f).intersectsLBR (b.map f) = a.intersectsLBR b := by
  simp only [UpperBoundedRange.intersectsLBR, UpperBoundedRange.interLBR, LowerBoundedRange.interUBR_map,
    BoundedRange.isEmpty_map hf]

theorem BoundedRange.combine_map (a b : BoundedRange T) :
    (a.map f).combine (b.map f) = Res.map (BoundedRange.map f) (a.combine b) := by
  simp only [BoundedRange.combine, BoundedRange.isEmpty_map hf, BoundedRange.intersectsBR_map hf]
  split
  · rfl
  · split
    · rfl
    · cases a.intersectsBR b
      · rfl
      · simp only [assert, if_true, Res.ok_bind, BoundedRange.map, LowerBound.min_map hf, UpperBound.max_map hf]
        rfl

/-! ### Sets -/

omit hf [LE T] [LT T] [DecidableLE T] [DecidableLT T] [Ord T] [BEq T]
  [LE U] [LT U] [DecidableLE U] [DecidableLT U] [Ord U] [BEq U] in
theorem vdIndex_map {α β : Type} (g : α → β) (l : List α) (i : Nat) :
    vdIndex (l.map g) i = Res.map g (vdIndex l i) := by
  simp only [vdIndex, List.getElem?_map]
  cases l[i]? <;> rfl

omit hf [LE T] [LT T] [DecidableLE T] [DecidableLT T] [Ord T] [BEq T]
  [LE U] [LT U] [DecidableLE U] [DecidableLT U] [Ord U] [BEq U] in
theorem unwrap_map {α β : Type} (g : α → β) (m : String) (o : Option α) :
    unwrap m (o.map g) = Res.map g (unwrap m o) := by cases o <;> rfl

omit hf [LE T] [LT T] [DecidableLE T] [DecidableLT T] [Ord T] [BEq T]
  [LE U] [LT U] [DecidableLE U] [DecidableLT U] [Ord U] [BEq U] in
theorem vdInsert_map {α β : Type} (g : α → β) (l : List α) (i : Nat) (a : α) :
    vdInsert (l.map g) i (g a) = Res.map (List.map g) (vdInsert l i a) := by
  simp only [vdInsert, List.length_map]
  split
  · simp
  · rfl

theorem BoundedSet.ofBR_map (r : BoundedRange T) : BoundedSet.ofBR (r.map f) = (BoundedSet.ofBR r).map f := by
  simp only [BoundedSet.ofBR, BoundedRange.isEmpty_map hf]; split <;> rfl

theorem BoundedSet.isEmpty_map (s : BoundedSet T) : (s.map f).isEmpty = s.isEmpty := by
  simp only [BoundedSet.isEmpty, BoundedSet.map, List.all_map, Function.comp_def, BoundedRange.isEmpty_map hf]

theorem BoundedSet.contains_map (s : BoundedSet T) (t : T) : (s.map f).contains (f t) = s.contains t := by
  simp only [BoundedSet.contains, BoundedSet.map, List.any_map, Function.comp_def, BoundedRange.contains_map hf]

theorem BoundedSet.retainNonEmpty_map (s : BoundedSet T) :
    (s.map f).retainNonEmpty = s.retainNonEmpty.map f := by
  simp only [BoundedSet.retainNonEmpty, BoundedSet.map, List.filter_map, Function.comp_def,
    BoundedRange.isEmpty_map hf]

omit hf [LE T] [LT T] [DecidableLE T] [DecidableLT T] [Ord T] [BEq T]
  [LE U] [LT U] [DecidableLE U] [DecidableLT U] [Ord U] [BEq U] in
theorem eraseIdx_map {α β : Type} (g : α → β) (l : List α) (i : Nat) :
    (l.map g).eraseIdx i = (l.eraseIdx i).map g := by
  induction l generalizing i with
  | nil => rfl
  | cons a l ih => cases i <;> simp [ih]

theorem BoundedSet.addRange_map (s : BoundedSet T) (r : BoundedRange T) :
    (s.map f).addRange (r.map f) = Res.map (BoundedSet.map f) (s.addRange r) := by
  induction hn : s.ranges.length using Nat.strong_induction_on generalizing s r with
  | _ n ih =>
    rw [BoundedSet.addRange_eq, BoundedSet.addRange_eq, BoundedRange.isEmpty_map hf]
    cases r.isEmpty
    · simp only [Bool.false_eq_true, if_false, BoundedSet.map, List.findIdx?_map, Function.comp_def,
        BoundedRange.intersectsBR_map hf, List.length_map]
      cases h : s.ranges.findIdx? (fun range => range.intersectsBR r) with
      | none =>
        have : ∀ x : BoundedRange T, (x.map f).start.gt (r.map f).start = x.start.gt r.start := fun x =>
          LowerBound.gt_map hf _ _
        simp only [this, vdInsert_map, Res.bind_map]
        cases vdInsert s.ranges _ r <;> rfl
      | some i =>
        have hi := (List.findIdx?_eq_some_iff_findIdx_eq.mp h).1
        simp only [vdIndex_map, Res.bind_map, Res.map_bind, BoundedRange.combine_map hf, eraseIdx_map]
        congr 1; funext x
        congr 1; funext y
        exact ih _ (by rw [← hn]; simp only [List.length_eraseIdx_of_lt hi]; omega) ⟨s.ranges.eraseIdx i⟩ y rfl
    · rfl

theorem BoundedSet.addSet_map (s o : BoundedSet T) :
    (s.map f).addSet (o.map f) = Res.map (BoundedSet.map f) (s.addSet o) :=
  Res.foldlM_map (fun a b => a.addRange_map hf b) o.ranges s

theorem LowerBoundedSet.defragment_map (s : LowerBoundedSet T) :
    (s.map f).defragment = Res.map (LowerBoundedSet.map f) s.defragment := by
  induction hn : s.ranges.ranges.length using Nat.strong_induction_on generalizing s with
  | _ n ih =>
    rw [LowerBoundedSet.defragment_eq, LowerBoundedSet.defragment_eq]
    simp only [LowerBoundedSet.map, BoundedSet.isEmpty_map hf]
    cases s.ranges.isEmpty
    · simp only [Bool.false_eq_true, if_false, BoundedSet.map, List.getLast?_map]
      cases h : s.ranges.ranges.getLast? with
      | none => rfl
      | some r =>
        simp only [Option.map_some, BoundedRange.interLBR_map hf, BoundedRange.isEmpty_map hf]
        split
        · rfl
        · have := ih _ (by
            rw [← hn]
            have : s.ranges.ranges ≠ [] := by rintro h0; simp [h0] at h
            have := List.length_pos_iff.2 this
            simp only [List.length_dropLast]; omega)
            ⟨⟨s.ranges.ranges.dropLast⟩, ⟨s.lowerBoundedRange.start.min r.start⟩⟩ rfl
          simp only [LowerBoundedSet.map, BoundedSet.map, LowerBoundedRange.map, ← LowerBound.min_map hf,
            List.map_dropLast] at this
          exact this
    · rfl

theorem LowerBoundedSet.addRange_map (s : LowerBoundedSet T) (r : BoundedRange T) :
    (s.map f).addRange (r.map f) = Res.map (LowerBoundedSet.map f) (s.addRange r) := by
  simp only [LowerBoundedSet.addRange, LowerBoundedSet.map, BoundedSet.addRange_map hf, Res.bind_map, Res.map_bind]
  congr 1; funext x
  exact LowerBoundedSet.defragment_map hf ⟨x, s.lowerBoundedRange⟩

theorem LowerBoundedSet.addLowerBoundedRange_map (s : LowerBoundedSet T) (r : LowerBoundedRange T) :
    (s.map f).addLowerBoundedRange (r.map f) = Res.map (LowerBoundedSet.map f) (s.addLowerBoundedRange r) := by
  rw [LowerBoundedSet.addLowerBoundedRange, LowerBoundedSet.addLowerBoundedRange, ← LowerBoundedSet.defragment_map hf]
  simp only [LowerBoundedSet.map, LowerBoundedRange.map, LowerBound.min_map hf]

theorem LowerBoundedSet.addSet_map (s : LowerBoundedSet T) (o : BoundedSet T) :
    (s.map f).addSet (o.map f) = Res.map (LowerBoundedSet.map f) (s.addSet o) :=
  Res.foldlM_map (fun a b => a.addRange_map hf b) o.ranges s

theorem UpperBoundedSet.defragment_map (s : UpperBoundedSet T) :
    (s.map f).defragment = Res.map (UpperBoundedSet.map f) s.defragment := by
  induction hn : s.ranges.ranges.length using Nat.strong_induction_on generalizing s with
  | _ n ih =>
    rw [UpperBoundedSet.defragment_eq, UpperBoundedSet.defragment_eq]
    simp only [UpperBoundedSet.map, BoundedSet.isEmpty_map hf]
    cases s.ranges.isEmpty
    · simp only [Bool.false_eq_true, if_false, BoundedSet.map]
      cases h : s.ranges.ranges with
      | nil => rfl
      | cons r l =>
        simp only [List.map_cons, BoundedRange.interUBR_map hf, BoundedRange.isEmpty_map hf]
        split
        · simp [UpperBoundedSet.map, BoundedSet.map, h]
        · have := ih _ (by rw [← hn, h]; simp) ⟨⟨s.upperBoundedRange.stop.max r.stop⟩, ⟨l⟩⟩ rfl
          simp only [UpperBoundedSet.map, BoundedSet.map, UpperBoundedRange.map, ← UpperBound.max_map hf] at this
          exact this
    · rfl

theorem UpperBoundedSet.addRange_map (s : UpperBoundedSet T) (r : BoundedRange T) :
    (s.map f).addRange (r.map f) = Res.map (UpperBoundedSet.map f) (s.addRange r) := by
  simp only [UpperBoundedSet.addRange, UpperBoundedSet.map, BoundedSet.addRange_map hf, Res.bind_map, Res.map_bind]
  congr 1; funext x
  exact UpperBoundedSet.defragment_map hf ⟨s.upperBoundedRange, x⟩

theorem UpperBoundedSet.addUpperBoundedRange_map (s : UpperBoundedSet T) (r : UpperBoundedRange T) :
    (s.map f).addUpperBoundedRange (r.map f) = Res.map (UpperBoundedSet.map f) (s.addUpperBoundedRange r) := by
  rw [UpperBoundedSet.addUpperBoundedRange, UpperBoundedSet.addUpperBoundedRange, ← UpperBoundedSet.defragment_map hf]
  simp only [UpperBoundedSet.map, UpperBoundedRange.map, UpperBound.max_map hf]

theorem UpperBoundedSet.addSet_map (s : UpperBoundedSet T) (o : BoundedSet T) :
    (s.map f).addSet (o.map f) = Res.map (UpperBoundedSet.map f) (s.addSet o) :=
  Res.foldlM_map (fun a b => a.addRange_map hf b) o.ranges s

theorem PiecewiseUnboundedSet.defragment_map (s : PiecewiseUnboundedSet T) :
    (s.map f).defragment = Res.map (PiecewiseUnboundedSet.map f) s.defragment := by
  induction hn : s.ranges.ranges.length using Nat.strong_induction_on generalizing s with
  | _ n ih =>
    rw [PiecewiseUnboundedSet.defragment_eq, PiecewiseUnboundedSet.defragment_eq]
    simp only [PiecewiseUnboundedSet.map, BoundedSet.map, List.findIdx?_map, Function.comp_def,
      UpperBoundedRange.intersectsBR_map hf, LowerBoundedRange.intersectsBR_map hf, List.getElem?_map,
      unwrap_map, Res.bind_map, eraseIdx_map]
    cases h : s.ranges.ranges.findIdx? (fun r => s.upperBoundedRange.intersectsBR r) with
    | some i =>
      have hi := (List.findIdx?_eq_some_iff_findIdx_eq.mp h).1
      simp only [Res.map_bind]
      congr 1; funext x
      have := ih _ (by rw [← hn]; simp only [List.length_eraseIdx_of_lt hi]; omega)
        ⟨⟨s.upperBoundedRange.stop.max x.stop⟩, ⟨s.ranges.ranges.eraseIdx i⟩, s.lowerBoundedRange⟩ rfl
      simp only [PiecewiseUnboundedSet.map, BoundedSet.map, UpperBoundedRange.map, ← UpperBound.max_map hf] at this
      exact this
    | none =>
      cases h' : s.ranges.ranges.findIdx? (fun r => s.lowerBoundedRange.intersectsBR r) with
      | some i =>
        have hi := (List.findIdx?_eq_some_iff_findIdx_eq.mp h').1
        simp only [Res.map_bind]
        congr 1; funext x
        have := ih _ (by rw [← hn]; simp only [List.length_eraseIdx_of_lt hi]; omega)
          ⟨s.upperBoundedRange, ⟨s.ranges.ranges.eraseIdx i⟩, ⟨s.lowerBoundedRange.start.min x.start⟩⟩ rfl
        simp only [PiecewiseUnboundedSet.map, BoundedSet.map, LowerBoundedRange.map, ← LowerBound.min_map hf] at this
        exact this
      | none => rfl

theorem UnboundedSet.new_map (u : UpperBoundedRange T) (l : LowerBoundedRange T) :
    UnboundedSet.new (u.map f) (l.map f) = (UnboundedSet.new u l).map f := by
  simp only [UnboundedSet.new, UpperBoundedRange.interLBR, LowerBoundedRange.interUBR_map,
    BoundedRange.isEmpty_map hf]
  by_cases h : (l.interUBR u).isEmpty = true <;> simp only [h, if_true, if_false, Bool.false_eq_true] <;> rfl

omit hf [LE T] [LT T] [DecidableLE T] [DecidableLT T] [Ord T] [BEq T]
  [LE U] [LT U] [DecidableLE U] [DecidableLT U] [Ord U] [BEq U] in
theorem UnboundedSet.mapPiecewise_map (s : UnboundedSet T)
    {g : PiecewiseUnboundedSet T → Res (PiecewiseUnboundedSet T)}
    {g' : PiecewiseUnboundedSet U → Res (PiecewiseUnboundedSet U)}
    (h : ∀ p, g' (p.map f) = Res.map (PiecewiseUnboundedSet.map f) (g p)) :
    (s.map f).mapPiecewise g' = Res.map (UnboundedSet.map f) (s.mapPiecewise g) := by
  cases s with
  | full => rfl
  | piecewise p =>
    simp only [UnboundedSet.map, UnboundedSet.mapPiecewise, h, Res.bind_map, Res.map_bind]
    rfl

theorem UnboundedSet.defragment_map (s : UnboundedSet T) :
    (s.map f).defragment = Res.map (UnboundedSet.map f) s.defragment := by
  simp only [UnboundedSet.defragment]
  rw [UnboundedSet.mapPiecewise_map s (fun p => p.defragment_map hf), Res.bind_map, Res.map_bind]
  congr 1; funext x
  cases x with
  | full => rfl
  | piecewise p =>
    simp only [UnboundedSet.map, PiecewiseUnboundedSet.map, UpperBoundedRange.intersectsLBR_map hf]
    split <;> rfl

theorem UnboundedSet.addRange_map (s : UnboundedSet T) (r : BoundedRange T) :
    (s.map f).addRange (r.map f) = Res.map (UnboundedSet.map f) (s.addRange r) := by
  simp only [UnboundedSet.addRange]
  rw [UnboundedSet.mapPiecewise_map s (g := fun p => do return { p with ranges := ← p.ranges.addRange r }),
    Res.bind_map, Res.map_bind]
  · congr 1; funext x; exact x.defragment_map hf
  · intro p
    simp only [PiecewiseUnboundedSet.map, BoundedSet.addRange_map hf, Res.bind_map, Res.map_bind]
    rfl

theorem UnboundedSet.addLowerBoundedRange_map (s : UnboundedSet T) (r : LowerBoundedRange T) :
    (s.map f).addLowerBoundedRange (r.map f) = Res.map (UnboundedSet.map f) (s.addLowerBoundedRange r) := by
  simp only [UnboundedSet.addLowerBoundedRange]
  rw [UnboundedSet.mapPiecewise_map s (g := fun p =>
    .ok { p with lowerBoundedRange := ⟨p.lowerBoundedRange.start.min r.start⟩ }), Res.bind_map, Res.map_bind]
  · congr 1; funext x; exact x.defragment_map hf
  · intro p
    simp only [PiecewiseUnboundedSet.map, LowerBoundedRange.map, LowerBound.min_map hf, Res.map_ok]

theorem UnboundedSet.addUpperBoundedRange_map (s : UnboundedSet T) (r : UpperBoundedRange T) :
    (s.map f).addUpperBoundedRange (r.map f) = Res.map (UnboundedSet.map f) (s.addUpperBoundedRange r) := by
  simp only [UnboundedSet.addUpperBoundedRange]
  rw [UnboundedSet.mapPiecewise_map s (g := fun p =>
    .ok { p with upperBoundedRange := ⟨p.upperBoundedRange.stop.max r.stop⟩ }), Res.bind_map, Res.map_bind]
  · congr 1; funext x; exact x.defragment_map hf
  · intro p
    simp only [PiecewiseUnboundedSet.map, UpperBoundedRange.map, UpperBound.max_map hf, Res.map_ok]

theorem UnboundedSet.addSet_map (s : UnboundedSet T) (o : BoundedSet T) :
    (s.map f).addSet (o.map f) = Res.map (UnboundedSet.map f) (s.addSet o) :=
  Res.foldlM_map (fun a b => a.addRange_map hf b) o.ranges s

omit hf [LE T] [LT T] [DecidableLE T] [DecidableLT T] [Ord T] [BEq T]
  [LE U] [LT U] [DecidableLE U] [DecidableLT U] [Ord U] [BEq U] in
theorem UnboundedSet.map_piecewise (p : PiecewiseUnboundedSet T) :
    (UnboundedSet.piecewise p).map f = .piecewise (p.map f) := rfl

omit hf [LE T] [LT T] [DecidableLE T] [DecidableLT T] [Ord T] [BEq T]
  [LE U] [LT U] [DecidableLE U] [DecidableLT U] [Ord U] [BEq U] in
theorem UnboundedSet.map_full : (UnboundedSet.full : UnboundedSet T).map f = .full := rfl

theorem UnboundedSet.addUnboundedSet_map (s o : UnboundedSet T) :
    (s.map f).addUnboundedSet (o.map f) = Res.map (UnboundedSet.map f) (s.addUnboundedSet o) := by
  cases o with
  | full => rfl
  | piecewise p =>
    simp only [UnboundedSet.addUnboundedSet, UnboundedSet.map_piecewise, PiecewiseUnboundedSet.map,
      UnboundedSet.addLowerBoundedRange_map hf, Res.bind_map, Res.map_bind,
      UnboundedSet.addUpperBoundedRange_map hf, UnboundedSet.addSet_map hf, UnboundedSet.defragment_map hf]

/-! ### Union -/

theorem BoundedSet.unionBS_map (a b : BoundedSet T) :
    (a.map f).unionBS (b.map f) = Res.map (BoundedSet.map f) (a.unionBS b) := BoundedSet.addSet_map hf a b

theorem BoundedSet.unionLBS_map (a : BoundedSet T) (b : LowerBoundedSet T) :
    (a.map f).unionLBS (b.map f) = Res.map (LowerBoundedSet.map f) (a.unionLBS b) :=
  LowerBoundedSet.addSet_map hf b a

theorem BoundedSet.unionUBS_map (a : BoundedSet T) (b : UpperBoundedSet T) :
    (a.map f).unionUBS (b.map f) = Res.map (UpperBoundedSet.map f) (a.unionUBS b) :=
  UpperBoundedSet.addSet_map hf b a

theorem BoundedSet.unionUS_map (a : BoundedSet T) (b : UnboundedSet T) :
    (a.map f).unionUS (b.map f) = Res.map (UnboundedSet.map f) (a.unionUS b) :=
  UnboundedSet.addSet_map hf b a

theorem LowerBoundedSet.unionBS_map (a : LowerBoundedSet T) (b : BoundedSet T) :
    (a.map f).unionBS (b.map f) = Res.map (LowerBoundedSet.map f) (a.unionBS b) :=
  LowerBoundedSet.addSet_map hf a b

theorem LowerBoundedSet.unionLBS_map (a b : LowerBoundedSet T) :
    (a.map f).unionLBS (b.map f) = Res.map (LowerBoundedSet.map f) (a.unionLBS b) := by
  have e1 : (b.map f).ranges = b.ranges.map f := rfl
  have e2 : (b.map f).lowerBoundedRange = b.lowerBoundedRange.map f := rfl
  simp only [LowerBoundedSet.unionLBS, e1, e2, LowerBoundedSet.addLowerBoundedRange_map hf, LowerBoundedSet.unionBS_map hf,
    Res.bind_map, Res.map_bind]

theorem UnboundedSet.unionBS_map (a : UnboundedSet T) (b : BoundedSet T) :
    (a.map f).unionBS (b.map f) = Res.map (UnboundedSet.map f) (a.unionBS b) :=
  UnboundedSet.addSet_map hf a b

theorem LowerBoundedSet.unionUBS_map (a : LowerBoundedSet T) (b : UpperBoundedSet T) :
    (a.map f).unionUBS (b.map f) = Res.map (UnboundedSet.map f) (a.unionUBS b) := by
  simp only [LowerBoundedSet.unionUBS, LowerBoundedSet.map, UpperBoundedSet.map, UnboundedSet.new_map hf,
    UnboundedSet.unionBS_map hf, Res.bind_map, Res.map_bind]

theorem LowerBoundedSet.unionUS_map (a : LowerBoundedSet T) (b : UnboundedSet T) :
    (a.map f).unionUS (b.map f) = Res.map (UnboundedSet.map f) (a.unionUS b) := by
  simp only [LowerBoundedSet.unionUS, LowerBoundedSet.map, UnboundedSet.addLowerBoundedRange_map hf,
    UnboundedSet.unionBS_map hf, Res.bind_map, Res.map_bind]

theorem UpperBoundedSet.unionBS_map (a : UpperBoundedSet T) (b : BoundedSet T) :
    (a.map f).unionBS (b.map f) = Res.map (UpperBoundedSet.map f) (a.unionBS b) :=
  UpperBoundedSet.addSet_map hf a b

theorem UpperBoundedSet.unionLBS_map (a : UpperBoundedSet T) (b : LowerBoundedSet T) :
    (a.map f).unionLBS (b.map f) = Res.map (UnboundedSet.map f) (a.unionLBS b) :=
  LowerBoundedSet.unionUBS_map hf b a

theorem UpperBoundedSet.unionUBS_map (a b : UpperBoundedSet T) :
    (a.map f).unionUBS (b.map f) = Res.map (UpperBoundedSet.map f) (a.unionUBS b) := by
  have e1 : (b.map f).ranges = b.ranges.map f := rfl
  have e2 : (b.map f).upperBoundedRange = b.upperBoundedRange.map f := rfl
  simp only [UpperBoundedSet.unionUBS, e1, e2, UpperBoundedSet.addUpperBoundedRange_map hf, UpperBoundedSet.unionBS_map hf,
    Res.bind_map, Res.map_bind]

theorem UpperBoundedSet.unionUS_map (a : UpperBoundedSet T) (b : UnboundedSet T) :
    (a.map f).unionUS (b.map f) = Res.map (UnboundedSet.map f) (a.unionUS b) := by
  simp only [UpperBoundedSet.unionUS, UpperBoundedSet.map, UnboundedSet.addUpperBoundedRange_map hf,
    UnboundedSet.unionBS_map hf, Res.bind_map, Res.map_bind]

theorem UnboundedSet.unionLBS_map (a : UnboundedSet T) (b : LowerBoundedSet T) :
    (a.map f).unionLBS (b.map f) = Res.map (UnboundedSet.map f) (a.unionLBS b) :=
  LowerBoundedSet.unionUS_map hf b a

theorem UnboundedSet.unionUBS_map (a : UnboundedSet T) (b : UpperBoundedSet T) :
    (a.map f).unionUBS (b.map f) = Res.map (UnboundedSet.map f) (a.unionUBS b) :=
  UpperBoundedSet.unionUS_map hf b a

theorem UnboundedSet.unionUS_map (a b : UnboundedSet T) :
    (a.map f).unionUS (b.map f) = Res.map (UnboundedSet.map f) (a.unionUS b) :=
  UnboundedSet.addUnboundedSet_map hf a b

theorem SetVal.union_map (a b : SetVal T) :
    (a.map f).union (b.map f) = Res.map (SetVal.map f) (a.union b) := by
  cases a <;> cases b <;>
    simp only [SetVal.map, SetVal.union, Res.map_ok, Res.map_bind, Res.bind_map,
      BoundedSet.unionBS_map hf, BoundedSet.unionLBS_map hf, BoundedSet.unionUBS_map hf, BoundedSet.unionUS_map hf,
      LowerBoundedSet.unionBS_map hf, LowerBoundedSet.unionLBS_map hf, LowerBoundedSet.unionUBS_map hf,
      LowerBoundedSet.unionUS_map hf, UpperBoundedSet.unionBS_map hf, UpperBoundedSet.unionLBS_map hf,
      UpperBoundedSet.unionUBS_map hf, UpperBoundedSet.unionUS_map hf, UnboundedSet.unionBS_map hf,
      UnboundedSet.unionLBS_map hf, UnboundedSet.unionUBS_map hf, UnboundedSet.unionUS_map hf] <;> rfl

/-! ### Intersection -/

theorem BoundedSet.interBR_map (a : BoundedSet T) (b : BoundedRange T) :
    (a.map f).interBR (b.map f) = (a.interBR b).map f := by
  rw [BoundedSet.interBR, BoundedSet.interBR, ← BoundedSet.retainNonEmpty_map hf]
  simp only [BoundedSet.map, List.map_map, Function.comp_def, BoundedRange.interBR_map hf]

theorem BoundedSet.interLBR_map (a : BoundedSet T) (b : LowerBoundedRange T) :
    (a.map f).interLBR (b.map f) = (a.interLBR b).map f := by
  rw [BoundedSet.interLBR, BoundedSet.interLBR, ← BoundedSet.retainNonEmpty_map hf]
  simp only [BoundedSet.map, List.map_map, Function.comp_def, BoundedRange.interLBR_map hf]

theorem BoundedSet.interUBR_map (a : BoundedSet T) (b : UpperBoundedRange T) :
    (a.map f).interUBR (b.map f) = (a.interUBR b).map f := by
  rw [BoundedSet.interUBR, BoundedSet.interUBR, ← BoundedSet.retainNonEmpty_map hf]
  simp only [BoundedSet.map, List.map_map, Function.comp_def, BoundedRange.interUBR_map hf]

theorem BoundedSet.interBS_map (a b : BoundedSet T) :
    (a.map f).interBS (b.map f) = Res.map (BoundedSet.map f) (a.interBS b) :=
  Res.foldlM_map (g := BoundedSet.map f) (fun s r => by
    simp only [BoundedRange.interBS, BoundedSet.interBR_map hf, BoundedSet.addSet_map hf]) a.ranges .empty

theorem LowerBoundedSet.interBR_map (a : LowerBoundedSet T) (b : BoundedRange T) :
    (a.map f).interBR (b.map f) = Res.map (BoundedSet.map f) (a.interBR b) := by
  simp only [LowerBoundedSet.interBR, LowerBoundedSet.map, LowerBoundedRange.interBR,
    BoundedRange.interLBR_map hf, BoundedSet.ofBR_map hf, BoundedSet.interBR_map hf, BoundedSet.addSet_map hf]

theorem BoundedSet.interLBS_map (a : BoundedSet T) (b : LowerBoundedSet T) :
    (a.map f).interLBS (b.map f) = Res.map (BoundedSet.map f) (a.interLBS b) := by
  simp only [BoundedSet.interLBS]
  rw [← Res.foldlM_map (g := BoundedSet.map f) (k := BoundedRange.map f)
    (step' := fun set range => do set.addSet (← range.interLBS (b.map f))), ← BoundedSet.interLBR_map hf]
  · rfl
  · intro s r
    simp only [BoundedRange.interLBS, LowerBoundedSet.interBR_map hf, Res.bind_map, Res.map_bind,
      BoundedSet.addSet_map hf]

theorem LowerBoundedSet.interLBR_map (a : LowerBoundedSet T) (b : LowerBoundedRange T) :
    (a.map f).interLBR (b.map f) = (a.interLBR b).map f := by
  simp only [LowerBoundedSet.interLBR, LowerBoundedSet.map, LowerBoundedRange.interLBR_map hf,
    BoundedSet.interLBR_map hf]

theorem LowerBoundedSet.interLBS_map (a b : LowerBoundedSet T) :
    (a.map f).interLBS (b.map f) = Res.map (LowerBoundedSet.map f) (a.interLBS b) := by
  have h1 := BoundedSet.interLBS_map hf a.ranges b
  have h2 := LowerBoundedSet.interLBR_map hf a b.lowerBoundedRange
  have e1 : (a.map f).ranges = a.ranges.map f := rfl
  have e2 : (b.map f).lowerBoundedRange = b.lowerBoundedRange.map f := rfl
  simp only [LowerBoundedSet.interLBS, e1, e2, h1, h2, Res.bind_map, Res.map_bind, LowerBoundedSet.addSet_map hf]

theorem LowerBoundedSet.interUBR_map (a : LowerBoundedSet T) (b : UpperBoundedRange T) :
    (a.map f).interUBR (b.map f) = Res.map (BoundedSet.map f) (a.interUBR b) := by
  simp only [LowerBoundedSet.interUBR, LowerBoundedSet.map, LowerBoundedRange.interUBR_map,
    BoundedSet.ofBR_map hf, BoundedSet.interUBR_map hf, BoundedSet.addSet_map hf, Res.bind_map, Res.map_bind,
    BoundedSet.retainNonEmpty_map hf]
  rfl

theorem LowerBoundedSet.interBS_map (a : LowerBoundedSet T) (b : BoundedSet T) :
    (a.map f).interBS (b.map f) = Res.map (BoundedSet.map f) (a.interBS b) := BoundedSet.interLBS_map hf b a

theorem LowerBoundedSet.interUBS_map (a : LowerBoundedSet T) (b : UpperBoundedSet T) :
    (a.map f).interUBS (b.map f) = Res.map (BoundedSet.map f) (a.interUBS b) := by
  have e1 : (b.map f).ranges = b.ranges.map f := rfl
  have e2 : (b.map f).upperBoundedRange = b.upperBoundedRange.map f := rfl
  simp only [LowerBoundedSet.interUBS, e1, e2, LowerBoundedSet.interUBR_map hf, LowerBoundedSet.interBS_map hf,
    BoundedSet.addSet_map hf, Res.bind_map, Res.map_bind, BoundedSet.retainNonEmpty_map hf]
  rfl

theorem UpperBoundedSet.interBR_map (a : UpperBoundedSet T) (b : BoundedRange T) :
    (a.map f).interBR (b.map f) = Res.map (BoundedSet.map f) (a.interBR b) := by
  simp only [UpperBoundedSet.interBR, UpperBoundedSet.map, UpperBoundedRange.interBR,
    BoundedRange.interUBR_map hf, BoundedSet.ofBR_map hf, BoundedSet.interBR_map hf,
    BoundedSet.retainNonEmpty_map hf, BoundedSet.addSet_map hf]

theorem BoundedSet.interUBS_map (a : BoundedSet T) (b : UpperBoundedSet T) :
    (a.map f).interUBS (b.map f) = Res.map (BoundedSet.map f) (a.interUBS b) := by
  simp only [BoundedSet.interUBS]
  rw [← Res.foldlM_map (g := BoundedSet.map f) (k := BoundedRange.map f)
    (step' := fun set range => do set.addSet (← range.interUBS (b.map f))), ← BoundedSet.interUBR_map hf]
  · rfl
  · intro s r
    simp only [BoundedRange.interUBS, UpperBoundedSet.interBR_map hf, Res.bind_map, Res.map_bind,
      BoundedSet.addSet_map hf]

theorem UpperBoundedSet.interBS_map (a : UpperBoundedSet T) (b : BoundedSet T) :
    (a.map f).interBS (b.map f) = Res.map (BoundedSet.map f) (a.interBS b) := BoundedSet.interUBS_map hf b a

theorem UpperBoundedSet.interLBR_map (a : UpperBoundedSet T) (b : LowerBoundedRange T) :
    (a.map f).interLBR (b.map f) = Res.map (BoundedSet.map f) (a.interLBR b) := by
  simp only [UpperBoundedSet.interLBR, UpperBoundedSet.map, UpperBoundedRange.interLBR,
    LowerBoundedRange.interUBR_map, BoundedSet.ofBR_map hf, BoundedSet.interLBR_map hf,
    BoundedSet.retainNonEmpty_map hf, BoundedSet.addSet_map hf]

theorem UpperBoundedSet.interUBR_map (a : UpperBoundedSet T) (b : UpperBoundedRange T) :
    (a.map f).interUBR (b.map f) = Res.map (UpperBoundedSet.map f) (a.interUBR b) := by
  rw [UpperBoundedSet.interUBR, UpperBoundedSet.interUBR, ← UpperBoundedSet.addSet_map hf,
    ← BoundedSet.interUBR_map hf]
  simp only [UpperBoundedSet.map, UpperBoundedRange.interUBR_map hf]
  rfl

theorem UpperBoundedSet.interUBS_map (a b : UpperBoundedSet T) :
    (a.map f).interUBS (b.map f) = Res.map (UpperBoundedSet.map f) (a.interUBS b) := by
  have e1 : (b.map f).ranges = b.ranges.map f := rfl
  have e2 : (b.map f).upperBoundedRange = b.upperBoundedRange.map f := rfl
  simp only [UpperBoundedSet.interUBS, e1, e2, UpperBoundedSet.interUBR_map hf, UpperBoundedSet.interBS_map hf,
    UpperBoundedSet.addSet_map hf, Res.bind_map, Res.map_bind]

theorem BoundedSet.interUS_map (a : BoundedSet T) (b : UnboundedSet T) :
    (a.map f).interUS (b.map f) = Res.map (BoundedSet.map f) (a.interUS b) := by
  cases b with
  | full => rfl
  | piecewise p =>
    simp only [BoundedSet.interUS, UnboundedSet.map_piecewise, PiecewiseUnboundedSet.map,
      BoundedSet.interUBR_map hf, BoundedSet.interLBR_map hf, BoundedSet.interBS_map hf, BoundedSet.addSet_map hf,
      Res.bind_map, Res.map_bind]

theorem LowerBoundedSet.interUS_map (a : LowerBoundedSet T) (b : UnboundedSet T) :
    (a.map f).interUS (b.map f) = Res.map (LowerBoundedSet.map f) (a.interUS b) := by
  cases b with
  | full => rfl
  | piecewise p =>
    simp only [LowerBoundedSet.interUS, UnboundedSet.map_piecewise, PiecewiseUnboundedSet.map,
      LowerBoundedSet.interUBR_map hf, LowerBoundedSet.interLBR_map hf, LowerBoundedSet.interBS_map hf,
      LowerBoundedSet.addSet_map hf, Res.bind_map, Res.map_bind]

theorem UpperBoundedSet.interUS_map (a : UpperBoundedSet T) (b : UnboundedSet T) :
    (a.map f).interUS (b.map f) = Res.map (UpperBoundedSet.map f) (a.interUS b) := by
  cases b with
  | full => rfl
  | piecewise p =>
    simp only [UpperBoundedSet.interUS, UnboundedSet.map_piecewise, PiecewiseUnboundedSet.map,
      UpperBoundedSet.interUBR_map hf, UpperBoundedSet.interLBR_map hf, UpperBoundedSet.interBS_map hf,
      UpperBoundedSet.addSet_map hf, Res.bind_map, Res.map_bind]

theorem UnboundedSet.interBR_map (a : UnboundedSet T) (b : BoundedRange T) :
    (a.map f).interBR (b.map f) = Res.map (BoundedSet.map f) (a.interBR b) := by
  simp only [UnboundedSet.interBR, BoundedSet.ofBR_map hf, BoundedSet.interUS_map hf]

theorem UnboundedSet.interLBR_map (a : UnboundedSet T) (b : LowerBoundedRange T) :
    (a.map f).interLBR (b.map f) = Res.map (LowerBoundedSet.map f) (a.interLBR b) :=
  LowerBoundedSet.interUS_map hf (.ofLBR b) a

theorem UnboundedSet.interUBR_map (a : UnboundedSet T) (b : UpperBoundedRange T) :
    (a.map f).interUBR (b.map f) = Res.map (UpperBoundedSet.map f) (a.interUBR b) :=
  UpperBoundedSet.interUS_map hf (.ofUBR b) a

theorem UnboundedSet.interBS_map (a : UnboundedSet T) (b : BoundedSet T) :
    (a.map f).interBS (b.map f) = Res.map (BoundedSet.map f) (a.interBS b) := BoundedSet.interUS_map hf b a

theorem UnboundedSet.interUS_map (a b : UnboundedSet T) :
    (a.map f).interUS (b.map f) = Res.map (UnboundedSet.map f) (a.interUS b) := by
  cases a with
  | full => rfl
  | piecewise p =>
    cases b with
    | full => rfl
    | piecewise q =>
      have h1 := UnboundedSet.interUBR_map hf (.piecewise p) q.upperBoundedRange
      have h2 := UnboundedSet.interLBR_map hf (.piecewise p) q.lowerBoundedRange
      have h3 := UnboundedSet.interBS_map hf (.piecewise p) q.ranges
      simp only [UnboundedSet.map_piecewise] at h1 h2 h3
      simp only [UnboundedSet.interUS, UnboundedSet.map_piecewise, PiecewiseUnboundedSet.map] at *
      simp only [h1, h2, h3, Res.bind_map, Res.map_bind, UpperBoundedSet.unionLBS_map hf,
        LowerBoundedSet.unionBS_map hf]

theorem Inner.inter_map (a b : Inner T) : (a.map f).inter (b.map f) = Res.map (Inner.map f) (a.inter b) := by
  cases a <;> cases b <;>
    simp only [Inner.map, Inner.inter, Res.map_ok, Res.map_bind, Res.bind_map,
      BoundedRange.interBR_map hf, BoundedRange.interLBR_map hf, BoundedRange.interUBR_map hf,
      LowerBoundedRange.interBR, LowerBoundedRange.interLBR_map hf, LowerBoundedRange.interUBR_map,
      UpperBoundedRange.interBR, UpperBoundedRange.interLBR, UpperBoundedRange.interUBR_map hf,
      BoundedRange.interBS, BoundedRange.interLBS, BoundedRange.interUBS, BoundedRange.interUS,
      LowerBoundedRange.interBS, LowerBoundedRange.interLBS, LowerBoundedRange.interUBS, LowerBoundedRange.interUS,
      UpperBoundedRange.interBS, UpperBoundedRange.interLBS, UpperBoundedRange.interUBS, UpperBoundedRange.interUS,
      BoundedSet.interBR_map hf, BoundedSet.interLBR_map hf, BoundedSet.interUBR_map hf, BoundedSet.interBS_map hf,
      BoundedSet.interLBS_map hf, BoundedSet.interUBS_map hf, BoundedSet.interUS_map hf,
      LowerBoundedSet.interBR_map hf, LowerBoundedSet.interLBR_map hf, LowerBoundedSet.interUBR_map hf,
      LowerBoundedSet.interBS_map hf, LowerBoundedSet.interLBS_map hf, LowerBoundedSet.interUBS_map hf,
      LowerBoundedSet.interUS_map hf, UpperBoundedSet.interLBS,
      UpperBoundedSet.interBR_map hf, UpperBoundedSet.interLBR_map hf, UpperBoundedSet.interUBR_map hf,
      UpperBoundedSet.interBS_map hf, UpperBoundedSet.interUBS_map hf, UpperBoundedSet.interUS_map hf,
      UnboundedSet.interBR_map hf, UnboundedSet.interLBR_map hf, UnboundedSet.interUBR_map hf,
      UnboundedSet.interBS_map hf, UnboundedSet.interLBS, UnboundedSet.interUBS, UnboundedSet.interUS_map hf] <;>
    rfl

/-! ### Complement -/

omit hf [LE T] [LT T] [DecidableLE T] [DecidableLT T] [Ord T] [BEq T]
  [LE U] [LT U] [DecidableLE U] [DecidableLT U] [Ord U] [BEq U] in
theorem Bound.flipped_map (b : Bound T) : (b.map f).flipped = b.flipped.map f := by cases b <;> rfl

omit hf [LE T] [LT T] [DecidableLE T] [DecidableLT T] [Ord T] [BEq T]
  [LE U] [LT U] [DecidableLE U] [DecidableLT U] [Ord U] [BEq U] in
theorem LowerBoundedRange.complement_map (r : LowerBoundedRange T) :
    (r.map f).complement = r.complement.map f := by
  rcases r with ⟨⟨_ | _⟩⟩ <;> rfl

omit hf [LE T] [LT T] [DecidableLE T] [DecidableLT T] [Ord T] [BEq T]
  [LE U] [LT U] [DecidableLE U] [DecidableLT U] [Ord U] [BEq U] in
theorem UpperBoundedRange.complement_map (r : UpperBoundedRange T) :
    (r.map f).complement = r.complement.map f := by
  rcases r with ⟨⟨_ | _⟩⟩ <;> rfl

theorem BoundedRange.complement_map (r : BoundedRange T) :
    (r.map f).complement = Res.map (UnboundedSet.map f) r.complement := by
  rw [BoundedRange.complement, BoundedRange.complement, ← UpperBoundedSet.unionLBS_map hf]
  rcases r with ⟨⟨_ | _⟩, ⟨_ | _⟩⟩ <;> rfl

theorem BoundedSet.complement_map (s : BoundedSet T) :
    (s.map f).complement = Res.map (UnboundedSet.map f) s.complement :=
  Res.foldlM_map (g := UnboundedSet.map f) (k := BoundedRange.map f) (fun s r => by
    simp only [BoundedRange.complement_map hf, Res.bind_map, Res.map_bind, UnboundedSet.interUS_map hf]) s.ranges .full

theorem LowerBoundedSet.complement_map (s : LowerBoundedSet T) :
    (s.map f).complement = Res.map (UpperBoundedSet.map f) s.complement := by
  rw [LowerBoundedSet.complement, LowerBoundedSet.complement, ← Res.foldlM_map (g := UpperBoundedSet.map f)
    (k := BoundedRange.map f) (step' := fun acc range => do acc.interUS (← range.complement)) (fun s r => by
      simp only [BoundedRange.complement_map hf, Res.bind_map, Res.map_bind, UpperBoundedSet.interUS_map hf])]
  simp only [LowerBoundedSet.map, LowerBoundedRange.complement_map]
  rfl

theorem UpperBoundedSet.complement_map (s : UpperBoundedSet T) :
    (s.map f).complement = Res.map (LowerBoundedSet.map f) s.complement := by
  rw [UpperBoundedSet.complement, UpperBoundedSet.complement, ← Res.foldlM_map (g := LowerBoundedSet.map f)
    (k := BoundedRange.map f) (step' := fun acc range => do acc.interUS (← range.complement)) (fun s r => by
      simp only [BoundedRange.complement_map hf, Res.bind_map, Res.map_bind, LowerBoundedSet.interUS_map hf])]
  simp only [UpperBoundedSet.map, UpperBoundedRange.complement_map]
  rfl

theorem UnboundedSet.complement_map (s : UnboundedSet T) :
    (s.map f).complement = Res.map (BoundedSet.map f) s.complement := by
  cases s with
  | full => rfl
  | piecewise p =>
    simp only [UnboundedSet.complement, UnboundedSet.map_piecewise]
    rw [← Res.foldlM_map (g := BoundedSet.map f)
      (k := BoundedRange.map f) (step' := fun acc range => do acc.interUS (← range.complement)) (fun s r => by
        simp only [BoundedRange.complement_map hf, Res.bind_map, Res.map_bind, BoundedSet.interUS_map hf])]
    simp only [PiecewiseUnboundedSet.map, UpperBoundedRange.complement_map, LowerBoundedRange.complement_map,
      UpperBoundedRange.interLBR, LowerBoundedRange.interUBR_map, BoundedSet.ofBR_map hf]
    rfl

theorem Inner.complement_map (a : Inner T) : (a.map f).complement = Res.map (Inner.map f) a.complement := by
  cases a <;>
    simp only [Inner.map, Inner.complement, Res.map_ok, Res.map_bind, Res.bind_map, BoundedRange.complement_map hf,
      BoundedSet.complement_map hf, LowerBoundedRange.complement_map, LowerBoundedSet.complement_map hf,
      UpperBoundedRange.complement_map, UpperBoundedSet.complement_map hf, UnboundedSet.complement_map hf] <;>
    rfl

/-! ### The fifteen types -/

omit hf [LE T] [LT T] [DecidableLE T] [DecidableLT T] [Ord T] [BEq T]
  [LE U] [LT U] [DecidableLE U] [DecidableLT U] [Ord U] [BEq U] in
theorem Any.toInner_map (a : Any T) : (a.map f).toInner = a.toInner.map f := by
  cases a <;> rfl

theorem Inner.toSet_map (a : Inner T) : (a.map f).toSet = a.toSet.map f := by
  cases a <;> simp only [Inner.map, Inner.toSet, BoundedSet.ofBR_map hf] <;> rfl

theorem Any.toSet_map (a : Any T) : (a.map f).toSet = a.toSet.map f := by
  cases a with
  | rangeFull => rfl
  | inner i => exact i.toSet_map hf
  | range r => exact Inner.toSet_map hf (Any.range r).toInner
  | rangeInclusive r => exact Inner.toSet_map hf (Any.rangeInclusive r).toInner
  | rangeFrom r => exact Inner.toSet_map hf (Any.rangeFrom r).toInner
  | rangeTo r => exact Inner.toSet_map hf (Any.rangeTo r).toInner
  | rangeToInclusive r => exact Inner.toSet_map hf (Any.rangeToInclusive r).toInner

omit hf [LE T] [LT T] [DecidableLE T] [DecidableLT T] [Ord T] [BEq T]
  [LE U] [LT U] [DecidableLE U] [DecidableLT U] [Ord U] [BEq U] in
theorem SetVal.toInner_map (a : SetVal T) : (a.map f).toInner = a.toInner.map f := by cases a <;> rfl

theorem Inner.interFromStd_map (a b : Inner T) :
    (a.map f).interFromStd (b.map f) = Res.map (Inner.map f) (a.interFromStd b) := by
  cases b <;> simp only [Inner.interFromStd] <;>
    first
    | exact Inner.inter_map hf _ _
    | rfl

theorem Any.inter_map (a b : Any T) : (a.map f).inter (b.map f) = Res.map (Inner.map f) (a.inter b) := by
  have h1 := Inner.interFromStd_map hf a.toInner b.toInner
  have h2 := Inner.inter_map hf a.toInner b.toInner
  rw [← Any.toInner_map, ← Any.toInner_map] at h1 h2
  have h3 : (match (b.map f).toInner with
      | .er => Res.ok .er
      | o => (a.map f).toInner.inter o) = Res.map (Inner.map f) (match b.toInner with
      | .er => Res.ok .er
      | o => a.toInner.inter o) := by
    rw [Any.toInner_map (a := b)] at h2 ⊢
    cases hb : b.toInner <;> first | rfl | (rw [hb] at h2; exact h2)
  cases a <;> first | exact h1 | exact h2 | exact h3

theorem Any.union_map (a b : Any T) : (a.map f).union (b.map f) = Res.map (Any.map f) (a.union b) := by
  have h1 := SetVal.union_map hf a.toSet b.toSet
  rw [← Any.toSet_map hf] at h1
  have h : (match (b.map f).toSet with
      | .ur => Res.ok (.inner .ur)
      | .er => .ok (a.map f)
      | o => do return .inner (← (a.map f).toSet.union o).toInner) = Res.map (Any.map f) (match b.toSet with
      | .ur => Res.ok (.inner .ur)
      | .er => .ok a
      | o => do return .inner (← a.toSet.union o).toInner) := by
    rw [Any.toSet_map hf b]
    cases hb : b.toSet <;>
      first
      | rfl
      | (rw [hb] at h1
         simp only [SetVal.map] at h1 ⊢
         simp only [h1, Res.bind_map, Res.map_bind, SetVal.toInner_map]
         rfl)
  rcases a with _ | _ | _ | _ | _ | _ | i
  all_goals try exact h
  cases i <;> first | exact h | rfl

theorem Any.complement_map (a : Any T) : (a.map f).complement = Res.map (Inner.map f) a.complement := by
  cases a with
  | rangeFull => rfl
  | inner i => exact i.complement_map hf
  | range r => exact Inner.complement_map hf (Any.range r).toInner
  | rangeInclusive r => exact Inner.complement_map hf (Any.rangeInclusive r).toInner
  | rangeFrom r => exact Inner.complement_map hf (Any.rangeFrom r).toInner
  | rangeTo r => exact Inner.complement_map hf (Any.rangeTo r).toInner
  | rangeToInclusive r => exact Inner.complement_map hf (Any.rangeToInclusive r).toInner

theorem Any.isEmpty_map (a : Any T) : (a.map f).isEmpty = a.isEmpty := by
  rcases a with r | r | _ | _ | _ | _ | i
  · simp only [Any.map, Any.isEmpty, Range.isEmpty, ge_iff_le, hf.le]
  · simp only [Any.map, Any.isEmpty, RangeInclusive.isEmpty, gt_iff_lt, hf.lt]
  all_goals try rfl
  cases i <;> first
    | rfl
    | exact BoundedRange.isEmpty_map hf _
    | exact BoundedSet.isEmpty_map hf _

theorem Inner.contains_map (a : Inner T) (t : T) : (a.map f).contains (f t) = a.contains t := by
  have hb : ∀ r : BoundedRange T, (r.map f).contains (f t) = r.contains t := by
    rintro ⟨⟨_ | _⟩, ⟨_ | _⟩⟩ <;>
      simp [BoundedRange.contains, BoundedRange.map, Bound.map, LowerBound.map, UpperBound.map, hf.le, hf.lt]
  have hl : ∀ r : LowerBoundedRange T, (r.map f).contains (f t) = r.contains t := by
    rintro ⟨⟨_ | _⟩⟩ <;> simp [LowerBoundedRange.contains, LowerBoundedRange.map, Bound.map, LowerBound.map, hf.le, hf.lt]
  have hu : ∀ r : UpperBoundedRange T, (r.map f).contains (f t) = r.contains t := by
    rintro ⟨⟨_ | _⟩⟩ <;> simp [UpperBoundedRange.contains, UpperBoundedRange.map, Bound.map, UpperBound.map, hf.le, hf.lt]
  have hs : ∀ s : BoundedSet T, (s.map f).contains (f t) = s.contains t := by
    intro s
    simp only [BoundedSet.contains, BoundedSet.map, List.any_map, Function.comp_def, hb]
  rcases a with _ | _ | _ | _ | _ | _ | _ | s | _
  all_goals try first | rfl | exact hb _ | exact hl _ | exact hu _ | exact hs _
  · simp only [Inner.map, Inner.contains, LowerBoundedSet.contains, LowerBoundedSet.map, hl, hs]
  · simp only [Inner.map, Inner.contains, UpperBoundedSet.contains, UpperBoundedSet.map, hu, hs]
  · cases s with
    | full => rfl
    | piecewise p =>
      simp only [Inner.map, Inner.contains, UnboundedSet.contains, UnboundedSet.map_piecewise,
        PiecewiseUnboundedSet.contains, PiecewiseUnboundedSet.map, hl, hu, hs]

theorem Any.contains_map (a : Any T) (t : T) : (a.map f).contains (f t) = a.contains t := by
  rcases a with r | r | r | r | r | _ | i
  all_goals try first | rfl | exact i.contains_map hf t
  all_goals
    simp only [Any.map, Any.contains, Range.contains, RangeInclusive.contains, RangeFrom.contains, RangeTo.contains,
      RangeToInclusive.contains, hf.le, hf.lt]

end
end Rangetools
