import Verif.Proofs.AnyIter
import Verif.Props.Counting
import Verif.Props.Lattice
import Verif.Spec.Ty
import Verif.Spec.Samples

/-!
# C113: iteration is offered exactly where it is possible, and delivers the least solutions
-/

namespace Rangetools
variable {T : Type}

/-- C113. A type has `into_iter` exactly when it is bounded below. -/
theorem C113_offered (S : Step T) (a : Any T) : (a.intoIter S).isSome ↔ a.toInner.BoundedBelow := by
  rcases a with r | r | r | r | r | _ | i
  case inner => rcases i with r | s | r | s | r | s | _ | s | _ <;> simp [Any.intoIter, Any.toInner, Inner.BoundedBelow]
  all_goals simp [Any.intoIter, Any.toInner, Inner.BoundedBelow]

example (S : Step Int) : (Any.inner (.lbr ⟨.excluded 3⟩)).toInner.BoundedBelow ∧
    ¬ ((Any.rangeTo ⟨3⟩ : Any Int).intoIter S).isSome := ⟨trivial, by simp [Any.intoIter]⟩

/-- C113. And it is bounded below exactly when iterating is possible: over the integers, every value of the type has an
increasing sequence of all its elements. -/
theorem C113_possible (S : Step Int) (a : Ty) :
    (∀ v : a.Val Int, ((a.embed v).intoIter S).isSome) ↔ ∀ v : a.Val Int, ∃ f, Iteration f ((a.embed v).contains) := by
  have low : ∀ (v : a.Val Int) (b : Int), (∀ t, (a.embed v).contains t = true → b ≤ t) →
      ∃ f, Iteration f ((a.embed v).contains) := fun v b => exists_iteration _ b
  have lowSet : ∀ s : BoundedSet Int, ∃ b, ∀ t, s.contains t = true → b ≤ t := by
    rintro ⟨rs⟩
    induction rs with
    | nil => exact ⟨0, by simp [BoundedSet.contains]⟩
    | cons r rs ih =>
      obtain ⟨b, hb⟩ := ih
      have hr : ∃ s, ∀ t, r.contains t = true → s ≤ t := by
        rcases r with ⟨⟨s | s⟩, e⟩ <;> exact ⟨s, by simp +contextual [BoundedRange.contains, le_of_lt]⟩
      obtain ⟨s, hs⟩ := hr
      refine ⟨min b s, fun t ht => ?_⟩
      simp only [BoundedSet.contains, List.any_cons, Bool.or_eq_true] at hb ht
      exact ht.elim (fun h => (min_le_right _ _).trans (hs t h)) fun h => (min_le_left _ _).trans (hb t h)
  cases a
  case range => exact ⟨fun _ v => low v v.start (by simp +contextual [Ty.embed, Any.contains, Range.contains]), fun _ _ => rfl⟩
  case rangeInclusive =>
    exact ⟨fun _ v => low v v.start (by simp +contextual [Ty.embed, Any.contains, RangeInclusive.contains]), fun _ _ => rfl⟩
  case rangeFrom =>
    exact ⟨fun _ v => low v v.start (by simp +contextual [Ty.embed, Any.contains, RangeFrom.contains]), fun _ _ => rfl⟩
  case rangeTo =>
    refine ⟨fun h => (by cases h ⟨0⟩), fun h => (no_iteration (b := -1) ?_ ?_ (h ⟨0⟩)).elim⟩
    · decide
    · intro t; simp only [Ty.embed, Any.contains, RangeTo.contains, decide_eq_true_eq]; omega
  case rangeToInclusive =>
    refine ⟨fun h => (by cases h ⟨0⟩), fun h => (no_iteration (b := 0) ?_ ?_ (h ⟨0⟩)).elim⟩
    · decide
    · intro t; simp only [Ty.embed, Any.contains, RangeToInclusive.contains, decide_eq_true_eq]; omega
  case rangeFull => exact ⟨fun h => (by cases h .mk), fun h => (no_iteration (b := 0) rfl (fun _ _ => rfl) (h .mk)).elim⟩
  case br =>
    refine ⟨fun _ v => ?_, fun _ _ => rfl⟩
    rcases v with ⟨⟨s | s⟩, e⟩ <;> refine low _ s fun t => ?_ <;>
      simp +contextual [Ty.embed, Any.contains, Inner.contains, BoundedRange.contains, le_of_lt]
  case lbr =>
    refine ⟨fun _ v => ?_, fun _ _ => rfl⟩
    rcases v with ⟨⟨s | s⟩⟩ <;> refine low _ s fun t => ?_ <;>
      simp +contextual [Ty.embed, Any.contains, Inner.contains, LowerBoundedRange.contains, le_of_lt]
  case bs => exact ⟨fun _ v => have ⟨b, hb⟩ := lowSet v; low v b hb, fun _ _ => rfl⟩
  case lbs =>
    refine ⟨fun _ v => ?_, fun _ _ => rfl⟩
    obtain ⟨b, hb⟩ := lowSet v.ranges
    have hr : ∃ s, ∀ t, v.lowerBoundedRange.contains t = true → s ≤ t := by
      rcases v with ⟨rs, ⟨⟨s | s⟩⟩⟩ <;> exact ⟨s, by simp +contextual [LowerBoundedRange.contains, le_of_lt]⟩
    obtain ⟨s, hs⟩ := hr
    refine low v (min b s) fun t ht => ?_
    simp only [Ty.embed, Any.contains, Inner.contains, LowerBoundedSet.contains, Bool.or_eq_true] at ht
    have h1 := hb t
    have h2 := hs t
    have h3 := min_le_left b s
    have h4 := min_le_right b s
    rcases ht with ht | ht
    · exact h4.trans (h2 ht)
    · exact h3.trans (h1 ht)
  case ubr =>
    refine ⟨fun h => (by cases h ⟨.excluded 0⟩), fun h => (no_iteration (b := -1) ?_ ?_ (h ⟨.excluded 0⟩)).elim⟩
    · decide
    · intro t
      simp only [Ty.embed, Any.contains, Inner.contains, UpperBoundedRange.contains, UpperBound.excluded, decide_eq_true_eq]
      omega
  case ubs =>
    refine ⟨fun h => (by cases h ⟨⟨.excluded 0⟩, ⟨[]⟩⟩),
      fun h => (no_iteration (b := -1) ?_ ?_ (h ⟨⟨.excluded 0⟩, ⟨[]⟩⟩)).elim⟩
    · decide
    · intro t
      simp only [Ty.embed, Any.contains, Inner.contains, UpperBoundedSet.contains, BoundedSet.contains, List.any_nil,
        UpperBoundedRange.contains, UpperBound.excluded, decide_eq_true_eq, Bool.or_false]
      omega
  case ur => exact ⟨fun h => (by cases h .mk), fun h => (no_iteration (b := 0) rfl (fun _ _ => rfl) (h .mk)).elim⟩
  case us => exact ⟨fun h => (by cases h .full), fun h => (no_iteration (b := 0) rfl (fun _ _ => rfl) (h .full)).elim⟩
  case er => exact ⟨fun _ v => low v 0 (by simp [Ty.embed, Any.contains, Inner.contains]), fun _ _ => rfl⟩

/-- The positive integers below 4 can be listed. -/
example : ∃ f, Iteration f ((Any.range ⟨1, 4⟩ : Any Int).contains) :=
  exists_iteration _ 1 (by simp +contextual [Any.contains, Range.contains])

variable [LinearOrder T] {p : Platform} {S : Step T} {idx : T → Int}

/-- C113. A union can be iterated over exactly when both operands can. -/
theorem C113_union (S : Step T) (a b : Any T) : ∃ c, a.union b = .ok c ∧
    ((c.intoIter S).isSome ↔ (a.intoIter S).isSome ∧ (b.intoIter S).isSome) := by
  obtain ⟨c, hc, h, -⟩ := C56_union_type a b
  exact ⟨c, hc, by simpa only [C113_offered] using h⟩

/-- C113. An intersection can be iterated over exactly when one of the operands can. -/
theorem C113_inter (S : Step T) (a b : Any T) : ∃ c, a.inter b = .ok c ∧
    (((Any.inner c).intoIter S).isSome ↔ (a.intoIter S).isSome ∨ (b.intoIter S).isSome) := by
  obtain ⟨c, hc, h, -⟩ := C56_inter_type a b
  exact ⟨c, hc, by simpa only [C113_offered, Any.toInner] using h⟩

/-- C113. A complement can be iterated over exactly when the operand cannot. -/
theorem C113_complement (S : Step T) (a : Any T) : ∃ c, a.complement = .ok c ∧
    (((Any.inner c).intoIter S).isSome ↔ ¬ (a.intoIter S).isSome) := by
  obtain ⟨c, hc, h, -⟩ := C56_complement_type a
  exact ⟨c, hc, by simpa only [C113_offered, Any.toInner] using h⟩

/-- `(1..3) ∪ (10..)` can be iterated over; the complement of `1..3` cannot: the examples of lib.rs:31-50. -/
example (S : Step Int) : (∃ c, (Any.range ⟨1, 3⟩ : Any Int).union (.rangeFrom ⟨10⟩) = .ok c ∧ (c.intoIter S).isSome) ∧
    ∃ c, (Any.range ⟨1, 3⟩ : Any Int).complement = .ok c ∧ ((Any.inner c).intoIter S) = none := by
  refine ⟨?_, ?_⟩
  · obtain ⟨c, hc, h⟩ := C113_union S (Any.range ⟨1, 3⟩ : Any Int) (.rangeFrom ⟨10⟩)
    exact ⟨c, hc, h.2 ⟨rfl, rfl⟩⟩
  · obtain ⟨c, hc, h⟩ := C113_complement S (Any.range ⟨1, 3⟩ : Any Int)
    exact ⟨c, hc, by simpa [Any.intoIter] using h⟩

/-- C113. Run an expression whose type is bounded below, and iterate over the value: any list of the least solutions of the
formula, none of them the greatest value of the type, is what the first calls of `next` deliver, and if there are no further
solutions, `None` follows for ever.  The neighbours of excluded bounds must exist, and if the value is a
`BoundedSet`, something must not be a solution. -/
theorem C113_expr (L : LawfulStep p S idx) (F : Step.Fits p idx) (e : Expr T)
    (hf : e.AllLeaves Any.Fresh) (hr : e.AllLeaves Reachable) (hn : e.LosslessInter) (c : Any T) (he : e.eval = .ok c)
    (hb : c.toInner.BoundedBelow) (hs : c.CanStart) (hmiss : ∀ s, c = .inner (.bs s) → ∃ t, e.denotes t = false)
    (l : List T) (hl : Initial l (fun t => e.denotes t)) (hroom : ∀ x ∈ l, ∃ u, x < u) :
    ∃ it it', c.intoIter S = some (.ok it) ∧ it.nexts p S l.length = .ok (l.map some, it') ∧
      ((∀ t, e.denotes t = true → t ∈ l) → ∀ k, ∃ it'', it'.nexts p S k = .ok (List.replicate k none, it'')) := by
  obtain ⟨c', hc, hct⟩ := C05_expr_contains_partial e hf hn
  obtain rfl : c = c' := by rw [he] at hc; injection hc
  have hnorm : c.toInner.Normal := C06_reachable_normal (e.eval_reachable hr he)
  have hfresh : c.Fresh := e.eval_fresh hf he
  obtain ⟨it, h1, h2, h3⟩ := c.intoIter_fine L F hnorm hfresh hb hs (fun s h => by
    obtain ⟨t, ht⟩ := hmiss s h
    exact ⟨t, by subst h; exact (hct t).trans ht⟩)
  obtain ⟨it', h4, h5, h6⟩ := AnyIter.nexts_initial L l h2 hl.1 (fun t ht => by rw [h3, hct]; exact hl.2.1 t ht)
    (fun t ht => hl.2.2 t ((hct t).symm.trans ((h3 t).1 ht))) hroom
  exact ⟨it, it', h1, h4, fun hall k => AnyIter.nexts_nothing L k h5 fun x hx => by
    obtain ⟨h8, h9⟩ := (h6 x).1 hx
    exact h9 (hall x (by rw [← hct]; exact (h3 x).1 h8))⟩

/-- `(1..3) ∪ (10..)` as bytes: four of its elements. -/
example :
    let e : Expr u8.Val := .union (.leaf (.range ⟨byte 1, byte 3⟩)) (.leaf (.rangeFrom ⟨byte 10⟩))
    e.AllLeaves Any.Fresh ∧ e.AllLeaves Reachable ∧ e.LosslessInter ∧
      (∃ c, e.eval = .ok c ∧ c.toInner.BoundedBelow ∧ c.CanStart ∧ ∀ s, c ≠ .inner (.bs s)) ∧
      Initial [byte 1, byte 2, byte 10, byte 11] (fun t => e.denotes t) ∧
      (∀ x ∈ [byte 1, byte 2, byte 10, byte 11], ∃ u, x < u) := by
  refine ⟨⟨trivial, trivial⟩, ⟨.range _, .rangeFrom _⟩, ⟨trivial, trivial⟩, ?_, ?_, ?_⟩
  · exact ⟨.inner (.lbs ⟨⟨[⟨.included (byte 1), .excluded (byte 3)⟩]⟩, ⟨.included (byte 10)⟩⟩), by decide +kernel, trivial,
      fun a h => by (cases h), fun s h => by cases h⟩
  · refine ⟨by decide +kernel, by decide +kernel, fun t h hn x hx => ?_⟩
    simp only [Expr.denotes, Any.contains, Range.contains, RangeFrom.contains, Bool.or_eq_true, Bool.and_eq_true,
      decide_eq_true_eq] at h
    have h' : (1 ≤ t.1 ∧ t.1 < 3) ∨ 10 ≤ t.1 := h
    simp only [List.mem_cons, List.not_mem_nil, or_false, not_or, Subtype.ext_iff] at hn hx
    have hn' : ¬ t.1 = 1 ∧ ¬ t.1 = 2 ∧ ¬ t.1 = 10 ∧ ¬ t.1 = 11 := hn
    have hx' : x.1 = 1 ∨ x.1 = 2 ∨ x.1 = 10 ∨ x.1 = 11 := hx
    show x.1 < t.1
    omega
  · exact fun x hx => ⟨byte 12, by revert x; decide +kernel⟩

/-- C113. That the neighbours exist is needed: `(1..3) ∪ (Excluded(255)..)` has the elements 1 and 2, but `into_iter` panics
with overflow checks; without, 0 is delivered after them. -/
theorem C113_neighbours_needed :
    let s : Any u8.Val := .inner (.lbs ⟨⟨[⟨.included (byte 1), .excluded (byte 3)⟩]⟩, ⟨.excluded (byte 255)⟩⟩)
    Reachable s ∧ s.contains (byte 1) = true ∧ s.contains (byte 0) = false ∧
      (∃ m, s.intoIter (IntTy.step debug64 u8) = some (.panic m)) ∧
      ∃ it, s.intoIter (IntTy.step release64 u8) = some (.ok it) ∧
        ∃ it', it.nexts release64 (IntTy.step release64 u8) 3 = .ok ([some (byte 1), some (byte 2), some (byte 0)], it') := by
  refine ⟨?_, by decide, by decide, ⟨_, rfl⟩, _, rfl, _, rfl⟩
  exact .union (.range ⟨byte 1, byte 3⟩) (.lowerBoundedRange ⟨.excluded (byte 255)⟩) (by decide +kernel)

end Rangetools
