import Verif.Spec.Big
import Verif.Proofs.Schedule
import Verif.Proofs.Checked

/-!
# Pieces that report length 0 are invisible in a set's iterator
-/

namespace Rangetools
variable {T : Type} [LinearOrder T] {p : Platform} {S : Step T} {idx : T → Int}

/-- The same panic, or related results. -/
inductive Res.Rel {α β : Type} (R : α → β → Prop) : Res α → Res β → Prop
  | ok {a : α} {b : β} : R a b → Res.Rel R (.ok a) (.ok b)
  | panic {m : String} : Res.Rel R (.panic m) (.panic m)

theorem Res.Rel.bind {α β α' β' : Type} {R : α → β → Prop} {Q : α' → β' → Prop} {x : Res α} {y : Res β}
    {f : α → Res α'} {g : β → Res β'} (h : Res.Rel R x y) (h' : ∀ a b, R a b → Res.Rel Q (f a) (g b)) :
    Res.Rel Q (x >>= f) (y >>= g) := by
  cases h with
  | ok h => exact h' _ _ h
  | panic => exact .panic

theorem Res.Rel.refl {α : Type} {R : α → α → Prop} (h : ∀ a, R a a) (x : Res α) : Res.Rel R x x := by
  cases x with
  | ok a => exact .ok (h a)
  | panic m => exact .panic

theorem Res.Rel.mono {α β : Type} {R Q : α → β → Prop} {x : Res α} {y : Res β} (h : Res.Rel R x y)
    (h' : ∀ a b, R a b → Q a b) : Res.Rel Q x y := by
  cases h with
  | ok h => exact .ok (h' _ _ h)
  | panic => exact .panic

/-- The piece does not report length 0. -/
def Shows (p : Platform) (S : Step T) (i : BoundedRangeIter T) : Bool := i.len p S != .ok 0

/-- The same pieces, but for some that report length 0. -/
def Alike (p : Platform) (S : Step T) (a b : List (BoundedRangeIter T)) : Prop :=
  a.filter (Shows p S) = b.filter (Shows p S)

/-- The same first piece, and alike behind it; or nothing. -/
inductive AlikeAt (p : Platform) (S : Step T) : List (BoundedRangeIter T) → List (BoundedRangeIter T) → Prop
  | nil : AlikeAt p S [] []
  | cons {i : BoundedRangeIter T} {a b : List (BoundedRangeIter T)} : Alike p S a b → AlikeAt p S (i :: a) (i :: b)

omit [LinearOrder T] in
theorem Alike.refl (a : List (BoundedRangeIter T)) : Alike p S a a := rfl

omit [LinearOrder T] in
theorem Alike.reverse {a b : List (BoundedRangeIter T)} (h : Alike p S a b) : Alike p S a.reverse b.reverse := by
  unfold Alike at *; rw [List.filter_reverse, List.filter_reverse, h]

omit [LinearOrder T] in
theorem Alike.cons {a b : List (BoundedRangeIter T)} (i : BoundedRangeIter T) (h : Alike p S a b) :
    Alike p S (i :: a) (i :: b) := by
  unfold Alike at *; rw [List.filter_cons, List.filter_cons, h]

omit [LinearOrder T] in
/-- Drops the pieces at the front that report length 0. -/
theorem popEmpty_dropWhile (its : List (BoundedRangeIter T)) :
    BoundedSetIter.popEmpty p S its = match its.dropWhile (fun i => !Shows p S i) with
      | [] => .ok []
      | i :: is => match i.len p S with
        | .ok _ => .ok (i :: is)
        | .panic m => .panic m := by
  induction its with
  | nil => rfl
  | cons i is ih =>
    rw [BoundedSetIter.popEmpty, List.dropWhile_cons]
    cases h : i.len p S with
    | panic m => simp [Shows, h]
    | ok n =>
      cases n with
      | zero => simpa [Shows, h] using ih
      | succ n => simp [Shows, h]

omit [LinearOrder T] in
theorem skip_dropWhile (n : Nat) (its : List (BoundedRangeIter T)) :
    BoundedSetIter.skip p S its n = BoundedSetIter.skip p S (its.dropWhile (fun i => !Shows p S i)) n := by
  induction its with
  | nil => rfl
  | cons i is ih =>
    rw [List.dropWhile_cons]
    by_cases h : i.len p S = .ok 0
    · rw [if_pos (by simp [Shows, h]), ← ih, BoundedSetIter.skip]
      simp [h, Platform.subUsize]
    · rw [if_neg (by simp [Shows, h])]

omit [LinearOrder T] in
/-- In front of the first visible piece there is nothing to see. -/
theorem Alike.dropWhile {a b : List (BoundedRangeIter T)} (h : Alike p S a b) :
    AlikeAt p S (a.dropWhile (fun i => !Shows p S i)) (b.dropWhile (fun i => !Shows p S i)) := by
  have key : ∀ l : List (BoundedRangeIter T), (l.dropWhile (fun i => !Shows p S i)).filter (Shows p S) =
      l.filter (Shows p S) := by
    intro l
    induction l with
    | nil => rfl
    | cons i is ih =>
      rw [List.dropWhile_cons]
      by_cases h : Shows p S i = true
      · simp [h]
      · simp [h, ih]
  have hd : ∀ (l : List (BoundedRangeIter T)) i is, l.dropWhile (fun i => !Shows p S i) = i :: is →
      Shows p S i = true := by
    intro l i is e
    have := List.head?_dropWhile_not (fun i => !Shows p S i) l
    rw [e] at this
    simpa using this
  have h' := h
  unfold Alike at h'
  rw [← key a, ← key b] at h'
  cases ea : a.dropWhile (fun i => !Shows p S i) with
  | nil =>
    cases eb : b.dropWhile (fun i => !Shows p S i) with
    | nil => exact .nil
    | cons j js => rw [ea, eb] at h'; simp [hd _ _ _ eb] at h'
  | cons i is =>
    cases eb : b.dropWhile (fun i => !Shows p S i) with
    | nil => rw [ea, eb] at h'; simp [hd _ _ _ ea] at h'
    | cons j js =>
      rw [ea, eb] at h'
      simp only [List.filter_cons, hd _ _ _ ea, hd _ _ _ eb, if_true, List.cons.injEq] at h'
      obtain ⟨rfl, h'⟩ := h'
      exact .cons h'

namespace BoundedSetIter

omit [LinearOrder T] in
theorem popEmpty_alike {a b : List (BoundedRangeIter T)} (h : Alike p S a b) :
    Res.Rel (AlikeAt p S) (popEmpty p S a) (popEmpty p S b) := by
  rw [popEmpty_dropWhile, popEmpty_dropWhile]
  have h' := h.dropWhile
  generalize a.dropWhile (fun i => !Shows p S i) = x at h'
  generalize b.dropWhile (fun i => !Shows p S i) = y at h'
  cases h' with
  | nil => exact .ok .nil
  | @cons i a b h =>
    dsimp only
    cases i.len p S with
    | ok n => exact .ok (.cons h)
    | panic m => exact .panic

omit [LinearOrder T] in
theorem skip_alike (k : Nat) : ∀ {a b : List (BoundedRangeIter T)} (n : Nat), a.length ≤ k → Alike p S a b →
    Res.Rel (fun x y => AlikeAt p S x.1 y.1 ∧ x.2 = y.2) (skip p S a n) (skip p S b n) := by
  induction k with
  | zero =>
    intro a b n hk h
    rw [skip_dropWhile, skip_dropWhile (its := b)]
    obtain rfl : a = [] := List.length_eq_zero_iff.1 (by omega)
    have h' := h.dropWhile
    rw [List.dropWhile_nil] at h' ⊢
    generalize b.dropWhile (fun i => !Shows p S i) = y at h'
    cases h'
    exact .ok ⟨.nil, rfl⟩
  | succ k ih =>
    intro a b n hk h
    rw [skip_dropWhile, skip_dropWhile (its := b)]
    have h' := h.dropWhile
    have hlen := (List.dropWhile_suffix (l := a) (fun i => !Shows p S i)).length_le
    generalize a.dropWhile (fun i => !Shows p S i) = x at h' hlen
    generalize b.dropWhile (fun i => !Shows p S i) = y at h'
    cases h' with
    | nil => exact .ok ⟨.nil, rfl⟩
    | @cons i a b h =>
      rw [skip, skip]
      refine Res.Rel.bind (R := Eq) (Res.Rel.refl (fun _ => rfl) _) ?_
      rintro l _ rfl
      by_cases hl : l ≤ n
      · rw [if_pos hl, if_pos hl]
        refine Res.Rel.bind (R := Eq) (Res.Rel.refl (fun _ => rfl) _) ?_
        rintro m _ rfl
        exact ih m (by simp at hlen; omega) h
      · rw [if_neg hl, if_neg hl]
        exact .ok ⟨.cons h, rfl⟩

omit [LinearOrder T] in
theorem sumLens_filter (its : List (BoundedRangeIter T)) : ∀ acc, acc < p.usizeCount →
    sumLens p S acc its = sumLens p S acc (its.filter (Shows p S)) := by
  induction its with
  | nil => intro _ _; rfl
  | cons i is ih =>
    intro acc hacc
    rw [List.filter_cons]
    by_cases h : i.len p S = .ok 0
    · rw [if_neg (by simp [Shows, h]), sumLens, ← ih acc hacc]
      simp [h, Platform.addUsize, hacc]
    · rw [if_pos (by simp [Shows, h]), sumLens, sumLens]
      cases i.len p S with
      | panic m => rfl
      | ok n =>
        simp only [Res.bind_ok]
        cases e : p.addUsize acc n with
        | panic m => rfl
        | ok k =>
          simp only [Res.bind_ok]
          refine ih k ?_
          have hu := p.le_usizeCount
          unfold Platform.addUsize at e
          split at e
          · cases e; assumption
          · split at e
            · cases e
            · cases e; exact Nat.mod_lt _ (by omega)

/-- The same answer, and then alike. -/
def AlikeOut {β : Type} (p : Platform) (S : Step T) (x y : β × BoundedSetIter T) : Prop :=
  x.1 = y.1 ∧ Alike p S x.2.rangeIters y.2.rangeIters

theorem next_alike {a b : BoundedSetIter T} (h : Alike p S a.rangeIters b.rangeIters) :
    Res.Rel (AlikeOut p S) (a.next p S) (b.next p S) := by
  refine (popEmpty_alike h).bind ?_
  intro x y h
  cases h with
  | nil => exact .ok ⟨rfl, rfl⟩
  | @cons i a b h =>
    refine Res.Rel.bind (R := Eq) (Res.Rel.refl (fun _ => rfl) _) ?_
    rintro ⟨t, i'⟩ _ rfl
    exact .ok ⟨rfl, h.cons i'⟩

theorem nextBack_alike {a b : BoundedSetIter T} (h : Alike p S a.rangeIters b.rangeIters) :
    Res.Rel (AlikeOut p S) (a.nextBack p S) (b.nextBack p S) := by
  refine (popEmpty_alike h.reverse).bind ?_
  intro x y h
  cases h with
  | nil => exact .ok ⟨rfl, rfl⟩
  | @cons i a b h =>
    refine Res.Rel.bind (R := Eq) (Res.Rel.refl (fun _ => rfl) _) ?_
    rintro ⟨t, i'⟩ _ rfl
    exact .ok ⟨rfl, (h.cons i').reverse⟩

theorem nth_alike {a b : BoundedSetIter T} (h : Alike p S a.rangeIters b.rangeIters) (n : Nat) :
    Res.Rel (AlikeOut p S) (a.nth p S n) (b.nth p S n) := by
  refine (skip_alike _ n (le_refl _) h).bind ?_
  rintro ⟨x, k⟩ ⟨y, _⟩ ⟨h, rfl⟩
  cases h with
  | nil => exact .ok ⟨rfl, rfl⟩
  | @cons i a b h =>
    refine Res.Rel.bind (R := Eq) (Res.Rel.refl (fun _ => rfl) _) ?_
    rintro ⟨t, i'⟩ _ rfl
    exact .ok ⟨rfl, h.cons i'⟩

theorem nthBack_alike {a b : BoundedSetIter T} (h : Alike p S a.rangeIters b.rangeIters) (n : Nat) :
    Res.Rel (AlikeOut p S) (a.nthBack p S n) (b.nthBack p S n) := by
  refine (skip_alike _ n (le_refl _) h.reverse).bind ?_
  rintro ⟨x, k⟩ ⟨y, _⟩ ⟨h, rfl⟩
  cases h with
  | nil => exact .ok ⟨rfl, rfl⟩
  | @cons i a b h =>
    refine Res.Rel.bind (R := Eq) (Res.Rel.refl (fun _ => rfl) _) ?_
    rintro ⟨t, i'⟩ _ rfl
    exact .ok ⟨rfl, (h.cons i').reverse⟩

omit [LinearOrder T] in
theorem sizeHint_alike {a b : BoundedSetIter T} (h : Alike p S a.rangeIters b.rangeIters) :
    a.sizeHint p S = b.sizeHint p S := by
  have hu := p.le_usizeCount
  unfold sizeHint
  rw [sumLens_filter _ 0 (by omega), sumLens_filter (its := b.rangeIters) 0 (by omega), h]

omit [LinearOrder T] in
theorem len_alike {a b : BoundedSetIter T} (h : Alike p S a.rangeIters b.rangeIters) :
    a.len p S = b.len p S := by
  unfold len; rw [sizeHint_alike h]

/-- Every call gives the same answer on iterators that differ only by pieces that report length 0. -/
theorem call_alike {a b : BoundedSetIter T} (h : Alike p S a.rangeIters b.rangeIters) (op : Op) :
    Res.Rel (AlikeOut p S) (a.call p S op) (b.call p S op) := by
  cases op with
  | next => exact (next_alike h).bind fun x y hx => .ok ⟨congrArg Out.item hx.1, hx.2⟩
  | nextBack => exact (nextBack_alike h).bind fun x y hx => .ok ⟨congrArg Out.item hx.1, hx.2⟩
  | nth n => exact (nth_alike h n).bind fun x y hx => .ok ⟨congrArg Out.item hx.1, hx.2⟩
  | nthBack n => exact (nthBack_alike h n).bind fun x y hx => .ok ⟨congrArg Out.item hx.1, hx.2⟩
  | sizeHint =>
    rw [call, call, sizeHint_alike h]
    refine Res.Rel.bind (R := Eq) (Res.Rel.refl (fun _ => rfl) _) ?_
    rintro x _ rfl; exact .ok ⟨rfl, h⟩
  | len =>
    rw [call, call, len_alike h]
    refine Res.Rel.bind (R := Eq) (Res.Rel.refl (fun _ => rfl) _) ?_
    rintro x _ rfl; exact .ok ⟨rfl, h⟩
  | count =>
    rw [call, call, count, count, len_alike h]
    refine Res.Rel.bind (R := Eq) (Res.Rel.refl (fun _ => rfl) _) ?_
    rintro x _ rfl; exact .ok ⟨rfl, h⟩
  | min =>
    refine Res.Rel.bind (R := Eq) ((next_alike h).bind fun x y hx => .ok hx.1) ?_
    rintro x _ rfl; exact .ok ⟨rfl, h⟩
  | max =>
    refine Res.Rel.bind (R := Eq) ((nextBack_alike h).bind fun x y hx => .ok hx.1) ?_
    rintro x _ rfl; exact .ok ⟨rfl, h⟩

theorem runOps_alike (ops : List Op) : ∀ {a b : BoundedSetIter T}, Alike p S a.rangeIters b.rangeIters →
    Res.Rel (AlikeOut p S) (runOps (call p S) a ops) (runOps (call p S) b ops) := by
  induction ops with
  | nil => intro a b h; exact .ok ⟨rfl, h⟩
  | cons op ops ih =>
    intro a b h
    refine (call_alike h op).bind fun x y hx => ?_
    refine (ih hx.2).bind fun x' y' hx' => .ok ⟨?_, hx'.2⟩
    simp only [hx.1, hx'.1]

end BoundedSetIter

/-! ### Half-lines behind them -/

namespace LowerBoundedSetIter

/-- The same answer, and then alike with the same half-line. -/
def AlikeOut {β : Type} (p : Platform) (S : Step T) (x y : β × LowerBoundedSetIter T) : Prop :=
  x.1 = y.1 ∧ Alike p S x.2.setIter.rangeIters y.2.setIter.rangeIters ∧ x.2.rangeIter = y.2.rangeIter

theorem next_alike {a b : LowerBoundedSetIter T} (h : Alike p S a.setIter.rangeIters b.setIter.rangeIters)
    (hr : a.rangeIter = b.rangeIter) : Res.Rel (AlikeOut p S) (a.next p S) (b.next p S) := by
  refine (BoundedSetIter.next_alike h).bind ?_
  rintro ⟨t, x⟩ ⟨_, y⟩ ⟨rfl, hx⟩
  cases t with
  | some t => exact .ok ⟨rfl, hx, hr⟩
  | none =>
    simp only [hr]
    refine Res.Rel.bind (R := Eq) (Res.Rel.refl (fun _ => rfl) _) ?_
    rintro ⟨u, i'⟩ _ rfl
    exact .ok ⟨rfl, hx, rfl⟩

theorem nth_alike {a b : LowerBoundedSetIter T} (h : Alike p S a.setIter.rangeIters b.setIter.rangeIters)
    (hr : a.rangeIter = b.rangeIter) (n : Nat) : Res.Rel (AlikeOut p S) (a.nth p S n) (b.nth p S n) := by
  unfold nth
  rw [BoundedSetIter.len_alike h]
  refine Res.Rel.bind (R := Eq) (Res.Rel.refl (fun _ => rfl) _) ?_
  rintro k _ rfl
  refine (BoundedSetIter.nth_alike h n).bind ?_
  rintro ⟨t, x⟩ ⟨_, y⟩ ⟨rfl, hx⟩
  cases t with
  | some t => exact .ok ⟨rfl, hx, hr⟩
  | none =>
    simp only [hr]
    refine Res.Rel.bind (R := Eq) (Res.Rel.refl (fun _ => rfl) _) ?_
    rintro m _ rfl
    refine Res.Rel.bind (R := Eq) (Res.Rel.refl (fun _ => rfl) _) ?_
    rintro ⟨u, i'⟩ _ rfl
    exact .ok ⟨rfl, hx, rfl⟩

theorem call_alike {a b : LowerBoundedSetIter T} (h : Alike p S a.setIter.rangeIters b.setIter.rangeIters)
    (hr : a.rangeIter = b.rangeIter) (op : FrontOp) : Res.Rel (AlikeOut p S) (a.call p S op) (b.call p S op) := by
  cases op with
  | next => exact (next_alike h hr).bind fun x y hx => .ok ⟨congrArg Out.item hx.1, hx.2⟩
  | nth n => exact (nth_alike h hr n).bind fun x y hx => .ok ⟨congrArg Out.item hx.1, hx.2⟩
  | min =>
    refine Res.Rel.bind (R := Eq) ((next_alike h hr).bind fun x y hx => .ok hx.1) ?_
    rintro x _ rfl; exact .ok ⟨rfl, h, hr⟩

theorem runFront_alike (ops : List FrontOp) : ∀ {a b : LowerBoundedSetIter T},
    Alike p S a.setIter.rangeIters b.setIter.rangeIters → a.rangeIter = b.rangeIter →
    Res.Rel (AlikeOut p S) (runFront (call p S) a ops) (runFront (call p S) b ops) := by
  induction ops with
  | nil => intro a b h hr; exact .ok ⟨rfl, h, hr⟩
  | cons op ops ih =>
    intro a b h hr
    refine (call_alike h hr op).bind fun x y hx => ?_
    refine (ih hx.2.1 hx.2.2).bind fun x' y' hx' => .ok ⟨?_, hx'.2⟩
    simp only [hx.1, hx'.1]

end LowerBoundedSetIter

/-! ### Which pieces report length 0 -/

/-- The length that a piece reports, whatever its size. -/
theorem BoundedRangeIter.len_eq (L : LawfulStep p S idx) (it : BoundedRangeIter T) {n : Nat}
    (hn : n = (idx it.last - idx it.current + 1).toNat) :
    it.len p S = if n = p.usizeCount ∧ p.overflowChecks = true then .panic "attempt to add with overflow"
      else .ok (if n < p.usizeCount then n else 0) := by
  have hu := p.le_usizeCount
  simp only [BoundedRangeIter.len, BoundedRangeIter.sizeHint, L.stepsBetween, Res.bind_ok]
  by_cases hle : idx it.current ≤ idx it.last
  · by_cases hd : idx it.last - idx it.current < p.usizeCount
    · rw [if_pos ⟨(L.le_iff _ _).2 hle, hd⟩]
      have e : (idx it.last - idx it.current).toNat + 1 = n := by omega
      simp only [Platform.addUsize, e]
      by_cases h1 : n < p.usizeCount
      · rw [if_pos h1, if_neg (by omega), if_pos h1]; simp [assert]
      · have h2 : n = p.usizeCount := by omega
        rw [if_neg h1]
        by_cases hc : p.overflowChecks = true
        · rw [if_pos hc, if_pos ⟨h2, hc⟩]; rfl
        · rw [if_neg hc, if_neg (by simp [hc]), if_neg h1, h2]
          simp [assert]
    · rw [if_neg (by omega), if_neg (by omega), if_neg (by omega)]; simp [assert]
  · rw [if_neg (by rw [L.le_iff]; omega), if_neg (by omega)]
    have : n = 0 := by omega
    rw [if_pos (by omega), this]; simp [assert]

theorem AtEnds.visible (L : LawfulStep p S idx) {r : BoundedRange T} {it : BoundedRangeIter T}
    (h : AtEnds idx r it) (hx : p.overflowChecks = true → r.size idx ≠ p.usizeCount)
    (hv : Shows p S it = true) : r.size idx < p.usizeCount := by
  have hn : r.size idx = (idx it.last - idx it.current + 1).toNat := by rw [BoundedRange.size, h.1, h.2]
  rw [Shows, it.len_eq L hn, if_neg (fun e => hx e.2 e.1)] at hv
  by_contra hs
  simp [hs] at hv

theorem AtEnds.unique (L : LawfulStep p S idx) {r : BoundedRange T} {it it' : BoundedRangeIter T}
    (h : AtEnds idx r it) (h' : AtEnds idx r it') : it = it' := by
  obtain ⟨c, l⟩ := it
  obtain ⟨c', l'⟩ := it'
  have h1 : c = c' := L.inj (h.1.trans h'.1.symm)
  have h2 : l = l' := L.inj (h.2.trans h'.2.symm)
  rw [h1, h2]

/-- Leaving out the pieces that do not fit leaves out nothing visible. -/
theorem atEnds_fitting (L : LawfulStep p S idx) {rs : List (BoundedRange T)} {its : List (BoundedRangeIter T)}
    (h : List.Forall₂ (AtEnds idx) rs its) : ∀ {its' : List (BoundedRangeIter T)},
    List.Forall₂ (AtEnds idx) (rs.filter fun r => decide (r.size idx < p.usizeCount)) its' →
    (∀ r ∈ rs, p.overflowChecks = true → r.size idx ≠ p.usizeCount) → Alike p S its its' := by
  induction h with
  | nil => intro its' h' _; cases h'; rfl
  | @cons r i rs is hr hrs ih =>
    intro its' h' hx
    have hx' := fun r hr => hx r (List.mem_cons_of_mem _ hr)
    rw [List.filter_cons] at h'
    by_cases hs : r.size idx < p.usizeCount
    · rw [if_pos (by simpa using hs)] at h'
      cases h' with
      | cons h1 h2 =>
        rw [hr.unique L h1]
        exact (ih h2 hx').cons _
    · rw [if_neg (by simpa using hs)] at h'
      have := ih h' hx'
      unfold Alike at *
      rw [List.filter_cons, if_neg, this]
      exact fun hv => hs (hr.visible L (hx r List.mem_cons_self) hv)

/-! ### Wrapping around a type with at least `usize::MAX + 1` values -/

/-- The piece still has to yield `l`, or reports length 0 and yields nothing. -/
def Good (p : Platform) (S : Step T) (idx : T → Int) (i : BoundedRangeIter T) (l : List T) : Prop :=
  (Rep idx i l ∧ l.length < p.usizeCount) ∨ (l = [] ∧ i.len p S = .ok 0)

theorem Good.len (L : LawfulStep p S idx) {i : BoundedRangeIter T} {l : List T} (h : Good p S idx i l) :
    i.len p S = .ok l.length ∧ l.length < p.usizeCount := by
  rcases h with ⟨h, hl⟩ | ⟨rfl, h⟩
  · exact ⟨i.len_spec L h hl, hl⟩
  · exact ⟨h, by have := p.le_usizeCount; simp only [List.length_nil]; omega⟩

omit [LinearOrder T] in
theorem Good.rep {i : BoundedRangeIter T} {l : List T} (h : Good p S idx i l) (hl : l ≠ []) :
    Rep idx i l := by
  rcases h with h | h
  · exact h.1
  · exact absurd h.1 hl

variable {lo hi : Int}

/-- The whole type reports length 0. -/
theorem BoundedRangeIter.len_whole (L : LawfulStep p S idx) (hp : p.overflowChecks = false)
    (hbig : (p.usizeCount : Int) ≤ hi - lo + 1) {it : BoundedRangeIter T} (h1 : idx it.current = lo)
    (h2 : idx it.last = hi) : it.len p S = .ok 0 := by
  rw [it.len_eq L rfl, if_neg (by simp [hp]), if_neg (by omega)]

theorem Good.nth (L : LawfulStep p S idx) (W : S.Wraps idx lo hi) (hp : p.overflowChecks = false)
    (hbig : (p.usizeCount : Int) ≤ hi - lo + 1) {i : BoundedRangeIter T} {l : List T} (h : Good p S idx i l) {n : Nat}
    (hn : n < l.length) : ∃ i', i.nth S n = .ok (l[n]?, i') ∧ Good p S idx i' (l.drop (n + 1)) := by
  have hr := h.rep (by rintro rfl; simp at hn)
  have hlt := (h.len L).2
  have hlen := hr.length
  by_cases hlast : idx i.current + n = hi
  · obtain ⟨t, ht⟩ : Has idx (idx i.current + n) :=
      L.has_between (L.has_idx i.current) (L.has_idx i.last) (by omega) (by omega)
    obtain ⟨t', e, ht'⟩ := W.forward t (by omega)
    have hb := W.bounds i.last
    refine ⟨⟨t', i.last⟩, ?_, .inr ⟨List.drop_eq_nil_of_le (by omega), ?_⟩⟩
    · rw [BoundedRangeIter.nth, L.forward_some _ _ t (by omega) ht, Res.bind_ok, BoundedRangeIter.next,
        if_neg (by rw [gt_iff_lt, L.lt_iff]; simp only; omega)]
      simp only [e, Res.bind_ok, Res.pure_eq, hr.getElem? L ht (by omega)]
    · exact BoundedRangeIter.len_whole L hp hbig ht' (by simp only; omega)
  · have hb := W.bounds i.current
    have hb' := W.bounds i.last
    have hh := W.greatest
    obtain ⟨i', e, hr', -⟩ := i.nth_spec L hr (n := n) (by omega)
      (L.has_between (L.has_idx i.current) (L.has_idx i.last) (by omega) (by omega))
      (fun hle => L.has_between (L.has_idx i.current) hh (by omega) (by omega))
    exact ⟨i', e, .inl ⟨hr', by rw [List.length_drop]; omega⟩⟩

theorem Good.nthBack (L : LawfulStep p S idx) (W : S.Wraps idx lo hi) (hp : p.overflowChecks = false)
    (hbig : (p.usizeCount : Int) ≤ hi - lo + 1) {i : BoundedRangeIter T} {l : List T} (h : Good p S idx i l) {n : Nat}
    (hn : n < l.length) :
    ∃ i', i.nthBack S n = .ok (l.reverse[n]?, i') ∧ Good p S idx i' ((l.reverse.drop (n + 1)).reverse) := by
  have hr := h.rep (by rintro rfl; simp at hn)
  have hlt := (h.len L).2
  have hlen := hr.length
  by_cases hfirst : idx i.last - n = lo
  · obtain ⟨t, ht⟩ : Has idx (idx i.last - n) :=
      L.has_between (L.has_idx i.current) (L.has_idx i.last) (by omega) (by omega)
    obtain ⟨t', e, ht'⟩ := W.backward t (by omega)
    have hb := W.bounds i.current
    refine ⟨⟨i.current, t'⟩, ?_, .inr ⟨?_, ?_⟩⟩
    · rw [BoundedRangeIter.nthBack, L.backward_some _ _ t (by omega) ht, Res.bind_ok, BoundedRangeIter.nextBack,
        if_neg (by rw [gt_iff_lt, L.lt_iff]; simp only; omega)]
      simp only [e, Res.bind_ok, Res.pure_eq]
      rw [List.getElem?_reverse (by omega), hr.getElem? L (t := t) (by omega) (by omega)]
    · rw [List.drop_eq_nil_of_le (by rw [List.length_reverse]; omega)]; rfl
    · exact BoundedRangeIter.len_whole L hp hbig (by simp only; omega) ht'
  · have hb := W.bounds i.current
    have hb' := W.bounds i.last
    obtain ⟨i', e, hr', -⟩ := i.nthBack_spec L hr (n := n) (by omega)
      (L.has_between (L.has_idx i.current) (L.has_idx i.last) (by omega) (by omega))
      (fun hle => L.has_between W.least (L.has_idx i.last) (by omega) (by omega))
    exact ⟨i', e, .inl ⟨hr', by rw [List.length_reverse, List.length_drop, List.length_reverse]; omega⟩⟩

theorem BoundedRangeIter.nth_zero (L : LawfulStep p S idx) (it : BoundedRangeIter T) : it.nth S 0 = it.next S := by
  have hu := p.le_usizeCount
  rw [BoundedRangeIter.nth, L.forward_some _ 0 it.current (by omega) (by omega)]; rfl

theorem BoundedRangeIter.nthBack_zero (L : LawfulStep p S idx) (it : BoundedRangeIter T) :
    it.nthBack S 0 = it.nextBack S := by
  have hu := p.le_usizeCount
  rw [BoundedRangeIter.nthBack, L.backward_some _ 0 it.last (by omega) (by omega)]; rfl

namespace BoundedSetIter

omit [LinearOrder T] in
theorem skip_zero (its : List (BoundedRangeIter T)) :
    skip p S its 0 = popEmpty p S its >>= fun is => .ok (is, 0) := by
  induction its with
  | nil => rfl
  | cons i is ih =>
    rw [skip, popEmpty]
    cases i.len p S with
    | panic m => rfl
    | ok n =>
      cases n with
      | zero => simpa [Platform.subUsize] using ih
      | succ n => simp

theorem nth_zero (L : LawfulStep p S idx) (it : BoundedSetIter T) : it.nth p S 0 = it.next p S := by
  rw [nth, next, skip_zero]
  cases popEmpty p S it.rangeIters with
  | panic m => rfl
  | ok is =>
    cases is with
    | nil => rfl
    | cons i is => simp only [Res.bind_ok, i.nth_zero L]

theorem nthBack_zero (L : LawfulStep p S idx) (it : BoundedSetIter T) : it.nthBack p S 0 = it.nextBack p S := by
  rw [nthBack, nextBack, skip_zero]
  cases popEmpty p S it.rangeIters.reverse with
  | panic m => rfl
  | ok is =>
    cases is with
    | nil => rfl
    | cons i is => simp only [Res.bind_ok, i.nthBack_zero L]

theorem skip_good (L : LawfulStep p S idx) : ∀ {its : List (BoundedRangeIter T)} {ls : List (List T)},
    List.Forall₂ (Good p S idx) its ls → ∀ n : Nat, ∃ its' ls₀ ls' n', ls = ls₀ ++ ls' ∧
      skip p S its n = .ok (its', n') ∧ List.Forall₂ (Good p S idx) its' ls' ∧
      n = ls₀.flatten.length + n' ∧ (∀ x xs, ls' = x :: xs → n' < x.length) := by
  intro its ls h
  induction h with
  | nil => intro n; exact ⟨[], [], [], n, rfl, rfl, .nil, by simp, by simp⟩
  | @cons it l its ls hr hrs ih =>
    intro n
    simp only [skip, (hr.len L).1, Res.bind_ok]
    by_cases hl : l.length ≤ n
    · obtain ⟨its', ls₀, ls', n', e2, e3, e4, e5, e6⟩ := ih (n - l.length)
      refine ⟨its', l :: ls₀, ls', n', by rw [e2]; rfl, ?_, e4, ?_, e6⟩
      · rw [if_pos hl]
        simp only [Platform.subUsize, if_pos hl, Res.bind_ok]
        exact e3
      · simp only [List.flatten_cons, List.length_append]; omega
    · refine ⟨it :: its, [], l :: ls, n, rfl, ?_, .cons hr hrs, by simp, ?_⟩
      · rw [if_neg hl]; rfl
      · intro x xs e; cases e; omega

theorem sumLens_good (L : LawfulStep p S idx) : ∀ {its : List (BoundedRangeIter T)} {ls : List (List T)},
    List.Forall₂ (Good p S idx) its ls → ∀ acc : Nat, acc + ls.flatten.length < p.usizeCount →
    sumLens p S acc its = .ok (acc + ls.flatten.length) := by
  intro its ls h
  induction h with
  | nil => intro acc _; rfl
  | @cons it l its ls hr hrs ih =>
    intro acc hacc
    simp only [List.flatten_cons, List.length_append] at hacc ⊢
    simp only [sumLens, (hr.len L).1, Res.bind_ok, Platform.addUsize]
    rw [if_pos (by omega)]
    simp only [Res.bind_ok]
    rw [ih (acc + l.length) (by omega)]
    congr 1; omega

/-- The pieces still have to yield `l`, but for some that report length 0. -/
def SetGood (p : Platform) (S : Step T) (idx : T → Int) (it : BoundedSetIter T) (l : List T) : Prop :=
  ∃ ls : List (List T), List.Forall₂ (Good p S idx) it.rangeIters ls ∧ l = ls.flatten

theorem nth_good (L : LawfulStep p S idx) (W : S.Wraps idx lo hi) (hp : p.overflowChecks = false)
    (hbig : (p.usizeCount : Int) ≤ hi - lo + 1) {it : BoundedSetIter T} {l : List T} (h : SetGood p S idx it l) (n : Nat) :
    ∃ it', it.nth p S n = .ok (l[n]?, it') ∧ SetGood p S idx it' (l.drop (n + 1)) := by
  obtain ⟨ls, hls, rfl⟩ := h
  obtain ⟨its', ls₀, ls', n', e2, e3, e4, e5, e6⟩ := skip_good L hls n
  simp only [nth, e3, Res.bind_ok]
  rw [e2, List.flatten_append, List.getElem?_append_right (by omega), List.drop_append,
    List.drop_eq_nil_of_le (as := ls₀.flatten) (by omega), List.nil_append]
  have en : n - ls₀.flatten.length = n' := by omega
  have en1 : n + 1 - ls₀.flatten.length = n' + 1 := by omega
  rw [en, en1]
  cases e4 with
  | nil => exact ⟨⟨[]⟩, rfl, [], .nil, by simp⟩
  | @cons i x is xs hr hrs =>
    have hx : n' < x.length := e6 x xs rfl
    obtain ⟨i', e, hr'⟩ := hr.nth L W hp hbig hx
    simp only [e, Res.bind_ok]
    refine ⟨⟨i' :: is⟩, ?_, x.drop (n' + 1) :: xs, .cons hr' hrs, ?_⟩
    · rw [List.flatten_cons, List.getElem?_append_left hx]; rfl
    · rw [List.flatten_cons, List.drop_append_of_le_length (by omega)]; rfl

theorem nthBack_good (L : LawfulStep p S idx) (W : S.Wraps idx lo hi) (hp : p.overflowChecks = false)
    (hbig : (p.usizeCount : Int) ≤ hi - lo + 1) {it : BoundedSetIter T} {l : List T} (h : SetGood p S idx it l) (n : Nat) :
    ∃ it', it.nthBack p S n = .ok (l.reverse[n]?, it') ∧ SetGood p S idx it' ((l.reverse.drop (n + 1)).reverse) := by
  obtain ⟨ls, hls, rfl⟩ := h
  obtain ⟨its', ls₀, ls', n', e2, e3, e4, e5, e6⟩ := skip_good L (List.rel_reverse hls) n
  simp only [nthBack, e3, Res.bind_ok]
  have e2' : ls = ls'.reverse ++ ls₀.reverse := by
    rw [← List.reverse_reverse ls, e2, List.reverse_append]
  have hB : ls₀.reverse.flatten.reverse.length = ls₀.flatten.length := by
    simp [List.length_flatten]
  rw [e2', List.flatten_append, List.reverse_append, List.getElem?_append_right (by omega),
    List.drop_append, List.drop_eq_nil_of_le (as := ls₀.reverse.flatten.reverse) (by omega),
    List.nil_append, hB]
  have en : n - ls₀.flatten.length = n' := by omega
  have en1 : n + 1 - ls₀.flatten.length = n' + 1 := by omega
  rw [en, en1]
  cases e4 with
  | nil => exact ⟨⟨[]⟩, rfl, [], .nil, by simp⟩
  | @cons i x is xs hr hrs =>
    have hx : n' < x.length := e6 x xs rfl
    obtain ⟨i', e, hr'⟩ := hr.nthBack L W hp hbig hx
    simp only [e, Res.bind_ok]
    have ef : (x :: xs).reverse.flatten = xs.reverse.flatten ++ x := by simp
    refine ⟨⟨(i' :: is).reverse⟩, ?_, ((x.reverse.drop (n' + 1)).reverse :: xs).reverse, ?_, ?_⟩
    · rw [ef, List.reverse_append, List.getElem?_append_left (by simpa using hx)]; rfl
    · exact List.rel_reverse (.cons hr' hrs)
    · rw [ef, List.reverse_append, List.drop_append_of_le_length (by simp; omega)]; simp

theorem call_good (L : LawfulStep p S idx) (W : S.Wraps idx lo hi) (hp : p.overflowChecks = false)
    (hbig : (p.usizeCount : Int) ≤ hi - lo + 1) {it : BoundedSetIter T} {l : List T} (h : SetGood p S idx it l) (op : Op)
    (hz : op.isSize = true → l.length < p.usizeCount) :
    ∃ it', it.call p S op = .ok ((listCall l op).1, it') ∧ SetGood p S idx it' (listCall l op).2 := by
  have hhint : l.length < p.usizeCount → it.sizeHint p S = .ok (l.length, some l.length) := by
    intro hl
    obtain ⟨ls, hls, rfl⟩ := h
    simp only [sizeHint, sumLens_good L hls 0 (by omega), Res.bind_ok, Nat.zero_add]; rfl
  have hlen : l.length < p.usizeCount → it.len p S = .ok l.length := by
    intro hl
    simp only [len, hhint hl, Res.bind_ok, assert, BEq.rfl, if_true]; rfl
  have hnext : ∃ it', it.next p S = .ok (l.head?, it') ∧ SetGood p S idx it' l.tail := by
    have := nth_good L W hp hbig h 0
    rw [nth_zero L] at this
    simpa [← List.head?_eq_getElem?] using this
  have hback : ∃ it', it.nextBack p S = .ok (l.getLast?, it') ∧ SetGood p S idx it' l.dropLast := by
    have := nthBack_good L W hp hbig h 0
    rw [nthBack_zero L] at this
    simpa [← List.head?_eq_getElem?, List.head?_reverse, reverse_drop_reverse, ← List.dropLast_eq_take] using this
  cases op with
  | next => obtain ⟨it', e, h'⟩ := hnext; exact ⟨it', by simp [call, e, listCall], h'⟩
  | nextBack => obtain ⟨it', e, h'⟩ := hback; exact ⟨it', by simp [call, e, listCall], h'⟩
  | nth n => obtain ⟨it', e, h'⟩ := nth_good L W hp hbig h n; exact ⟨it', by simp [call, e, listCall], h'⟩
  | nthBack n =>
    obtain ⟨it', e, h'⟩ := nthBack_good L W hp hbig h n
    exact ⟨it', by simp only [call, e, Res.bind_ok, listCall, Res.pure_eq], h'⟩
  | sizeHint => exact ⟨it, by simp [call, hhint (hz rfl), listCall], h⟩
  | len => exact ⟨it, by simp [call, hlen (hz rfl), listCall], h⟩
  | count => exact ⟨it, by simp [call, count, hlen (hz rfl), listCall], h⟩
  | min => obtain ⟨it', e, h'⟩ := hnext; exact ⟨it, by simp [call, BoundedSetIter.min, e, listCall], h⟩
  | max => obtain ⟨it', e, h'⟩ := hback; exact ⟨it, by simp [call, BoundedSetIter.max, e, listCall], h⟩

theorem run_good (L : LawfulStep p S idx) (W : S.Wraps idx lo hi) (hp : p.overflowChecks = false)
    (hbig : (p.usizeCount : Int) ≤ hi - lo + 1) (ops : List Op) : ∀ {it : BoundedSetIter T} {l : List T},
    SetGood p S idx it l → ((∃ op ∈ ops, op.isSize = true) → l.length < p.usizeCount) →
    ∃ it', runOps (call p S) it ops = .ok ((listRun l ops).1, it') ∧ SetGood p S idx it' (listRun l ops).2 := by
  induction ops with
  | nil => intro it l h _; exact ⟨it, rfl, h⟩
  | cons op ops ih =>
    intro it l h hz
    obtain ⟨it', e, h'⟩ := call_good L W hp hbig h op (fun hx => hz ⟨op, List.mem_cons_self, hx⟩)
    obtain ⟨it'', e', h''⟩ := ih h' (fun ⟨o, ho, hx⟩ => lt_of_le_of_lt (listCall_length l op)
      (hz ⟨o, List.mem_cons_of_mem _ ho, hx⟩))
    exact ⟨it'', by simp only [runOps, e, e', Res.bind_ok, listRun]; rfl, h''⟩

end BoundedSetIter

end Rangetools
