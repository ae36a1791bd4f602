import Verif.Proofs.Laws
import Verif.Spec.Samples
import Mathlib.Algebra.Order.Field.Rat
import Mathlib.Algebra.Order.Field.Basic

/-!
# C01 – C16: the set algebra
-/

namespace Rangetools
open Iv Samples

variable {T : Type} [LinearOrder T]

/-! ### C01 Union membership -/

theorem Any.contains_inner (i : Inner T) (t : T) : (Any.inner i).contains t = i.contains t := rfl

/-- C01. `a.union(b)` returns, and contains exactly the elements of `a` and of `b`.  All fifteen
types, all values including set values that break the private invariant. -/
theorem C01_union_contains (a b : Any T) (ha : a.Fresh) (hb : b.Fresh) :
    ∃ c, a.union b = .ok c ∧ ∀ t, c.contains t = (a.contains t || b.contains t) := by
  obtain ⟨c, hc, hs, _, hf⟩ := Any.union_comp a b
  refine ⟨c, hc, fun t => ?_⟩
  have hfc : c.Fresh := by
    rcases hf with rfl | rfl | ⟨i, rfl⟩
    · exact ha
    · exact hb
    · trivial
  rw [Bool.eq_iff_iff, Bool.or_eq_true, c.contains_probe hfc, a.contains_probe ha,
    b.contains_probe hb, hs, Set.mem_union]

-- overlapping std ranges, and a set value with overlapping, unsorted pieces
example : (Any.rangeInclusive ⟨0, 4, false⟩ : Any Int).Fresh ∧
    (Any.inner (.bs ⟨[co 5 9, co 0 7, co 3 3]⟩) : Any Int).Fresh := ⟨rfl, trivial⟩
example : ∃ c, (Any.rangeInclusive ⟨0, 4, false⟩ : Any Int).union
    (.inner (.bs ⟨[co 5 9, co 0 7, co 3 3]⟩)) = .ok c ∧ c.contains 8 = true ∧ c.contains 4 = true ∧
      c.contains 9 = false := ⟨.inner (.bs ⟨[co 0 9]⟩), by decide +kernel⟩

/-! ### C02 Intersection membership -/

/-- C02, except for two `LowerBoundedSet`s of which a bounded piece of the second reaches into the
half-line of the first.  By `C02_inter_lbs_correct_iff` and `C02_lossless_exact` nothing more holds. -/
theorem C02_inter_contains_partial (a b : Any T) (ha : a.Fresh) (hb : b.Fresh)
    (h : Lossless a b) :
    ∃ c, a.inter b = .ok c ∧ ∀ t, c.contains t = (a.contains t && b.contains t) := by
  obtain ⟨c, hc, hs, _, _⟩ := Any.inter_comp a b
  refine ⟨c, hc, fun t => ?_⟩
  rw [Bool.eq_iff_iff, Bool.and_eq_true, c.contains_probe, a.contains_probe ha,
    b.contains_probe hb, hs, interSem_of_lossless h, Set.mem_inter_iff]

-- two `LowerBoundedSet`s in the harmless order, a mixed pair, and the lossy pair
example : Lossless (.inner lbs') (.inner lbs) ∧ Lossless (.inner lbs) (.inner us) ∧
    ¬ Lossless (.inner lbs) (.inner lbs') := by decide

/-- C02 for two `LowerBoundedSet`s: exactly what the code computes.  The product of `a`'s half-line
with `b`'s bounded pieces is missing (/repo/src/implementations/intersection/lower_bounded_set.rs:47-61). -/
theorem C02_inter_lbs_exact (a b : LowerBoundedSet T) :
    ∃ c, (Any.inner (.lbs a)).inter (.inner (.lbs b)) = .ok c ∧
      ∀ t, c.contains t = (a.contains t && b.lowerBoundedRange.contains t ||
        a.ranges.contains t && b.contains t) := by
  obtain ⟨c, hc, hs, _, _⟩ := Any.inter_comp (.inner (.lbs a)) (.inner (.lbs b))
  refine ⟨c, hc, fun t => ?_⟩
  have ea := Inner.contains_probe (.lbs a) t
  have eb := Inner.contains_probe (.lbs b) t
  simp only [Inner.contains, Inner.ivs] at ea eb
  rw [Bool.eq_iff_iff, Bool.or_eq_true, Bool.and_eq_true, Bool.and_eq_true, c.contains_probe, hs,
    ea, eb, LowerBoundedRange.contains_probe, BoundedSet.contains_probe]
  rfl

/-- C02 is false as stated: `(-5..-3).union(0..)` intersected with `(1..3).union(10..)` loses `1`. -/
theorem C02_counterexample :
    ∃ (a b : Any Int) (c : Inner Int) (t : Int), Reachable a ∧ Reachable b ∧ a.inter b = .ok c ∧
      a.contains t = true ∧ b.contains t = true ∧ c.contains t = false :=
  ⟨.inner lbs, .inner lbs', .lbs ⟨⟨[]⟩, ci 10⟩, 1, lbs_reachable, lbs'_reachable,
    by decide +kernel, by decide, by decide, by decide⟩

/-- Two `LowerBoundedSet`s, any values: the intersection is right exactly when every element that is
both in `a`'s half-line and in one of `b`'s bounded pieces is also in one of `a`'s pieces or in `b`'s
half-line. -/
theorem C02_inter_lbs_correct_iff (a b : LowerBoundedSet T) (c : Inner T)
    (hc : (Any.inner (.lbs a)).inter (.inner (.lbs b)) = .ok c) :
    (∀ t, c.contains t = (a.contains t && b.contains t)) ↔
      ∀ t, a.lowerBoundedRange.contains t = true → b.ranges.contains t = true →
        a.ranges.contains t = true ∨ b.lowerBoundedRange.contains t = true := by
  obtain ⟨c', hc', hs⟩ := C02_inter_lbs_exact a b
  obtain rfl : c = c' := by rw [hc] at hc'; injection hc'
  refine forall_congr' fun t => ?_
  rw [hs]
  simp only [LowerBoundedSet.contains]
  cases a.lowerBoundedRange.contains t <;> cases b.lowerBoundedRange.contains t <;>
    cases a.ranges.contains t <;> cases b.ranges.contains t <;> decide

example : (Any.inner (.lbs ⟨⟨[co (-5) (-3)]⟩, ci 0⟩)).inter (.inner (.lbs ⟨⟨[co 1 3]⟩, ci 10⟩)) =
    .ok (.lbs ⟨⟨[]⟩, ci 10⟩) := by decide +kernel

/-- Over a densely ordered element type without end points, and for normal operands, `Lossless` is
exactly the condition under which the intersection is right. -/
theorem C02_lossless_exact [DenselyOrdered T] [NoMinOrder T] [NoMaxOrder T] [Nonempty T]
    (a b : Inner T) (na : a.Normal) (nb : b.Normal) (c : Inner T) (hc : (Any.inner a).inter (.inner b) = .ok c) :
    (∀ t, c.contains t = (a.contains t && b.contains t)) ↔ Lossless (.inner a) (.inner b) := by
  constructor
  · intro h
    by_contra hn
    cases a with
    | lbs a =>
      cases b with
      | lbs b =>
        have hcor := (C02_inter_lbs_correct_iff a b c hc).mp h
        obtain ⟨x, y, hxy, hq⟩ := lost_of_not_lossless na nb hn
        obtain ⟨t, ht⟩ := exists_elem_between hxy
        obtain ⟨h1, h2, h3, h4⟩ := hq (cut t false, .after) (mem_after.mpr ht)
        rw [← LowerBoundedRange.contains_probe] at h1 h4
        rw [← BoundedSet.contains_probe] at h2 h3
        exact (hcor t h1 h2).elim h3 h4
      | _ => exact hn trivial
    | _ => exact hn trivial
  · intro h
    obtain ⟨c', hc', hs⟩ := C02_inter_contains_partial (.inner a) (.inner b) trivial trivial h
    obtain rfl : c = c' := by rw [hc] at hc'; injection hc'
    exact hs

example : DenselyOrdered ℚ ∧ NoMinOrder ℚ ∧ NoMaxOrder ℚ ∧ Nonempty ℚ :=
  ⟨inferInstance, inferInstance, inferInstance, inferInstance⟩
example : lbs.Normal ∧ lbs'.Normal := by decide

/-- Intersection never invents elements, whatever the operands. -/
theorem C02_inter_subset (a b : Any T) (ha : a.Fresh) (hb : b.Fresh) :
    ∃ c, a.inter b = .ok c ∧ ∀ t, c.contains t = true → a.contains t = true ∧
      b.contains t = true := by
  obtain ⟨c, hc, hs, _, _⟩ := Any.inter_comp a b
  refine ⟨c, hc, fun t ht => ?_⟩
  rw [c.contains_probe, hs] at ht
  rw [a.contains_probe ha, b.contains_probe hb]
  exact interSem_subset _ _ ht

example : (Any.inner lbs).Fresh ∧ (Any.inner lbs').Fresh := ⟨trivial, trivial⟩

/-! ### C03 Complement membership -/

/-- C03. `a.complement()` returns, and contains exactly the elements not in `a`. -/
theorem C03_complement_contains (a : Any T) (ha : a.Fresh) :
    ∃ c, a.complement = .ok c ∧ ∀ t, c.contains t = !a.contains t := by
  obtain ⟨c, hc, hs, _, _⟩ := Any.complement_comp a
  refine ⟨c, hc, fun t => ?_⟩
  rw [Bool.eq_iff_iff, c.contains_probe, hs, mem_csem_after, Bool.not_eq_true',
    ← Bool.not_eq_true, a.contains_probe ha]

-- a reversed range
example : (Any.range ⟨5, 3⟩ : Any Int).Fresh := trivial

/-! ### C04 No panics -/

/-- C04. Every operation returns normally on every value (no freshness or normality assumed).
Termination of the loops and recursions is part of the model functions being total. -/
theorem C04_no_panic (a b : Any T) :
    (∃ c, a.union b = .ok c) ∧ (∃ c, a.inter b = .ok c) ∧ (∃ c, a.complement = .ok c) ∧
      (∃ c, a.disjoint b = .ok c) ∧ (∃ c, a.intersects b = .ok c) := by
  obtain ⟨u, hu, _⟩ := Any.union_comp a b
  obtain ⟨i, hi, _⟩ := Any.inter_comp a b
  obtain ⟨c, hc, _⟩ := Any.complement_comp a
  refine ⟨⟨u, hu⟩, ⟨i, hi⟩, ⟨c, hc⟩, ⟨i.isEmpty, ?_⟩, ⟨!i.isEmpty, ?_⟩⟩
  · simp [Any.disjoint, hi]
  · simp [Any.intersects, Any.disjoint, hi]

-- the panicking branches are real: `combine` asserts that the ranges intersect
example : ∀ r, (co 0 1).combine (co 5 6) ≠ .ok r := by
  intro r h; cases h

/-! ### C05 Expressions -/

/-- C05, panic freedom: every expression evaluates. -/
theorem C05_expr_no_panic (e : Expr T) : ∃ c, e.eval = .ok c := by
  induction e with
  | leaf a => exact ⟨a, rfl⟩
  | toInner e ih => obtain ⟨c, hc⟩ := ih; exact ⟨_, by simp [Expr.eval, hc]; rfl⟩
  | toSet e ih => obtain ⟨c, hc⟩ := ih; exact ⟨_, by simp [Expr.eval, hc]; rfl⟩
  | union e f ihe ihf =>
    obtain ⟨a, ha⟩ := ihe
    obtain ⟨b, hb⟩ := ihf
    obtain ⟨c, hc⟩ := (C04_no_panic a b).1
    exact ⟨c, by simp [Expr.eval, ha, hb, hc]⟩
  | inter e f ihe ihf =>
    obtain ⟨a, ha⟩ := ihe
    obtain ⟨b, hb⟩ := ihf
    obtain ⟨c, hc⟩ := (C04_no_panic a b).2.1
    exact ⟨.inner c, by simp [Expr.eval, ha, hb, hc]⟩
  | complement e ih =>
    obtain ⟨a, ha⟩ := ih
    obtain ⟨c, hc⟩ := (C04_no_panic a a).2.2.1
    exact ⟨.inner c, by simp [Expr.eval, ha, hc]⟩

/-- Auxiliary to C05: results of expressions are fresh. -/
theorem Expr.eval_fresh (e : Expr T) (h : e.AllLeaves Any.Fresh) {c : Any T} (hc : e.eval = .ok c) :
    c.Fresh := by
  induction e generalizing c with
  | leaf a =>
    obtain rfl : a = c := by simpa [Expr.eval] using hc
    exact h
  | union e f ihe ihf =>
    obtain ⟨a, ha⟩ := C05_expr_no_panic e
    obtain ⟨b, hb⟩ := C05_expr_no_panic f
    obtain ⟨c', hc', _, _, hf⟩ := Any.union_comp a b
    simp only [Expr.eval, ha, hb, Res.ok_bind, hc', Res.ok.injEq] at hc
    subst hc
    rcases hf with rfl | rfl | ⟨i, rfl⟩
    · exact ihe h.1 ha
    · exact ihf h.2 hb
    · trivial
  | toInner e ih =>
    obtain ⟨a, ha⟩ := C05_expr_no_panic e
    simp only [Expr.eval, ha, Res.ok_bind, Res.pure_eq, Res.ok.injEq] at hc
    subst hc; trivial
  | toSet e ih =>
    obtain ⟨a, ha⟩ := C05_expr_no_panic e
    simp only [Expr.eval, ha, Res.ok_bind, Res.pure_eq, Res.ok.injEq] at hc
    subst hc; trivial
  | inter e f ihe ihf =>
    obtain ⟨a, ha⟩ := C05_expr_no_panic e
    obtain ⟨b, hb⟩ := C05_expr_no_panic f
    obtain ⟨x, hx⟩ := (C04_no_panic a b).2.1
    simp only [Expr.eval, ha, hb, hx, Res.ok_bind, Res.pure_eq, Res.ok.injEq] at hc
    subst hc; trivial
  | complement e ih =>
    obtain ⟨a, ha⟩ := C05_expr_no_panic e
    obtain ⟨x, hx⟩ := (C04_no_panic a a).2.2.1
    simp only [Expr.eval, ha, hx, Res.ok_bind, Res.pure_eq, Res.ok.injEq] at hc
    subst hc; trivial

/-- C05 for every expression none of whose intersections is of a lossy pair (see `Lossless`). -/
theorem C05_expr_contains_partial (e : Expr T) (h : e.AllLeaves Any.Fresh) (hn : e.LosslessInter) :
    ∃ c, e.eval = .ok c ∧ ∀ t, c.contains t = e.denotes t := by
  induction e with
  | leaf a => exact ⟨a, rfl, fun _ => rfl⟩
  | toInner e ih =>
    obtain ⟨c, hc, ht⟩ := ih h hn
    refine ⟨.inner c.toInner, by simp [Expr.eval, hc], fun t => ?_⟩
    rw [Expr.denotes, ← ht]
    exact c.contains_toInner (e.eval_fresh h hc) t
  | toSet e ih =>
    obtain ⟨c, hc, ht⟩ := ih h hn
    refine ⟨.inner c.toSet.toInner, by simp [Expr.eval, hc], fun t => ?_⟩
    rw [Expr.denotes, ← ht, Bool.eq_iff_iff, c.contains_probe (e.eval_fresh h hc)]
    rw [Any.contains, Inner.contains_probe, Any.toSet_eq, Inner.toSet_sem]
  | union e f ihe ihf =>
    obtain ⟨a, ha, hat⟩ := ihe h.1 hn.1
    obtain ⟨b, hb, hbt⟩ := ihf h.2 hn.2
    obtain ⟨c, hc, hct⟩ := C01_union_contains a b (e.eval_fresh h.1 ha) (f.eval_fresh h.2 hb)
    refine ⟨c, by simp [Expr.eval, ha, hb, hc], fun t => ?_⟩
    rw [hct, hat, hbt, Expr.denotes]
  | inter e f ihe ihf =>
    obtain ⟨a, ha, hat⟩ := ihe h.1 hn.1
    obtain ⟨b, hb, hbt⟩ := ihf h.2 hn.2.1
    obtain ⟨c, hc, hct⟩ := C02_inter_contains_partial a b (e.eval_fresh h.1 ha)
      (f.eval_fresh h.2 hb) (hn.2.2 a b ha hb)
    refine ⟨.inner c, by simp [Expr.eval, ha, hb, hc], fun t => ?_⟩
    rw [Any.contains, hct, hat, hbt, Expr.denotes]
  | complement e ih =>
    obtain ⟨a, ha, hat⟩ := ih h hn
    obtain ⟨c, hc, hct⟩ := C03_complement_contains a (e.eval_fresh h ha)
    refine ⟨.inner c, by simp [Expr.eval, ha, hc], fun t => ?_⟩
    rw [Any.contains, hct, hat, Expr.denotes]

/-- `((0..4) ∪ (7..)).complement() ∩ ((2..) ∪ (-3..=-1))` -/
def sampleExpr : Expr Int :=
  .inter (.complement (.union (.leaf (.range ⟨0, 4⟩)) (.leaf (.rangeFrom ⟨7⟩))))
    (.union (.leaf (.rangeFrom ⟨2⟩)) (.leaf (.rangeInclusive ⟨-3, -1, false⟩)))

example : sampleExpr.AllLeaves Any.Fresh ∧ sampleExpr.LosslessInter := by
  refine ⟨⟨⟨trivial, trivial⟩, trivial, rfl⟩, ⟨trivial, trivial⟩, ⟨trivial, trivial⟩, ?_⟩
  intro a b ha hb
  have : (Expr.complement (.union (.leaf (.range ⟨0, 4⟩)) (.leaf (.rangeFrom ⟨7⟩))) :
      Expr Int).eval = .ok (.inner (.ubs ⟨io 0, ⟨[co 4 7]⟩⟩)) := by decide +kernel
  rw [this] at ha
  injection ha with ha
  subst ha
  trivial

-- an intersection of two `LowerBoundedSet`s in the harmless order
example : (Expr.inter (.leaf (.inner lbs')) (.leaf (.inner lbs))).LosslessInter := by
  refine ⟨trivial, trivial, fun a b ha hb => ?_⟩
  obtain rfl : .inner lbs' = a := by injection ha
  obtain rfl : .inner lbs = b := by injection hb
  decide

/-- C05 for positive expressions (no complement), `LowerBoundedSet`s allowed: the result never
contains more than the formula says. -/
theorem C05_expr_positive_subset (e : Expr T) (h : e.AllLeaves Any.Fresh) (hp : e.Positive) :
    ∃ c, e.eval = .ok c ∧ ∀ t, c.contains t = true → e.denotes t = true := by
  induction e with
  | leaf a => exact ⟨a, rfl, fun _ => id⟩
  | toInner e ih =>
    obtain ⟨c, hc, ht⟩ := ih h hp
    refine ⟨.inner c.toInner, by simp [Expr.eval, hc], fun t hh => ht t ?_⟩
    rw [← c.contains_toInner (e.eval_fresh h hc) t]
    exact hh
  | toSet e ih =>
    obtain ⟨c, hc, ht⟩ := ih h hp
    refine ⟨.inner c.toSet.toInner, by simp [Expr.eval, hc], fun t hh => ht t ?_⟩
    rw [c.contains_probe (e.eval_fresh h hc)]
    rwa [Any.contains, Inner.contains_probe, Any.toSet_eq, Inner.toSet_sem] at hh
  | union e f ihe ihf =>
    obtain ⟨a, ha, hat⟩ := ihe h.1 hp.1
    obtain ⟨b, hb, hbt⟩ := ihf h.2 hp.2
    obtain ⟨c, hc, hct⟩ := C01_union_contains a b (e.eval_fresh h.1 ha) (f.eval_fresh h.2 hb)
    refine ⟨c, by simp [Expr.eval, ha, hb, hc], fun t hh => ?_⟩
    rw [hct, Bool.or_eq_true] at hh
    rw [Expr.denotes, Bool.or_eq_true]
    exact hh.imp (hat t) (hbt t)
  | inter e f ihe ihf =>
    obtain ⟨a, ha, hat⟩ := ihe h.1 hp.1
    obtain ⟨b, hb, hbt⟩ := ihf h.2 hp.2
    obtain ⟨c, hc, hct⟩ := C02_inter_subset a b (e.eval_fresh h.1 ha) (f.eval_fresh h.2 hb)
    refine ⟨.inner c, by simp [Expr.eval, ha, hb, hc], fun t hh => ?_⟩
    rw [Expr.denotes, Bool.and_eq_true]
    exact (hct t hh).imp (hat t) (hbt t)
  | complement e ih => exact absurd hp (by simp [Expr.Positive])

/-- `((-5..-3) ∪ (0..)) ∩ ((1..3) ∪ (10..))`, the expression of `C05_counterexample`. -/
def badExpr : Expr Int :=
  .inter (.union (.leaf (.range ⟨-5, -3⟩)) (.leaf (.rangeFrom ⟨0⟩)))
    (.union (.leaf (.range ⟨1, 3⟩)) (.leaf (.rangeFrom ⟨10⟩)))

example : badExpr.AllLeaves Any.Fresh ∧ badExpr.Positive :=
  ⟨⟨⟨trivial, trivial⟩, trivial, trivial⟩, ⟨trivial, trivial⟩, trivial, trivial⟩

/-- C05 is false as stated, because of C02. -/
theorem C05_counterexample :
    ∃ c, badExpr.eval = .ok c ∧ c.contains 1 = false ∧ badExpr.denotes 1 = true :=
  ⟨.inner (.lbs ⟨⟨[]⟩, ci 10⟩), by decide +kernel, by decide, by decide⟩

/-! ### C06 The private invariant -/

/-- C06. Every value obtainable through the public API satisfies the private invariant. -/
theorem C06_reachable_normal {a : Any T} (h : Reachable a) : a.toInner.Normal :=
  (Inner.normal_iff _).mpr h.wf

example : Reachable (.inner lbs) := lbs_reachable
-- the invariant can fail for values that are not reachable
example : ¬ (Inner.bs ⟨[co 5 9, co 0 7]⟩ : Inner Int).Normal := by decide

/-- C06, step form: the operations preserve the invariant from any normal operands, and complements
are always normal. -/
theorem C06_ops_preserve (a b : Any T) (ha : a.toInner.Normal) (hb : b.toInner.Normal) :
    (∃ c, a.union b = .ok c ∧ c.toInner.Normal) ∧ (∃ c, a.inter b = .ok c ∧ c.Normal) ∧
      (∃ c, a.complement = .ok c ∧ c.Normal) ∧ a.toSet.toInner.Normal := by
  rw [Inner.normal_iff] at ha hb
  obtain ⟨u, hu, _, wu, _⟩ := Any.union_comp a b
  obtain ⟨i, hi, _, wi, _⟩ := Any.inter_comp a b
  obtain ⟨c, hc, _, wc, _⟩ := Any.complement_comp a
  refine ⟨⟨u, hu, (Inner.normal_iff _).mpr (wu ha hb)⟩, ⟨i, hi, (Inner.normal_iff _).mpr (wi ⟨ha, hb⟩)⟩,
    ⟨c, hc, (Inner.normal_iff _).mpr (wc trivial)⟩, ?_⟩
  rw [Inner.normal_iff, Any.toSet_eq]
  exact Inner.toSet_WF ha

example : (Any.inner lbs).toInner.Normal ∧ (Any.inner ubs).toInner.Normal := by decide

/-! ### C07, C08, C09 Union laws -/

omit [LinearOrder T] in
theorem Any.toInner_inner (i : Inner T) : (Any.inner i).toInner = i := rfl

/-- Auxiliary: what a union of two non-`EmptyRange`s is. -/
theorem Any.union_spec {a b : Any T} (ha : a.toInner.Normal) (hb : b.toInner.Normal)
    (hea : a.isER = false) (heb : b.isER = false) :
    ∃ c : SetVal T, a.union b = .ok (.inner c.toInner) ∧
      sem c.toInner.ivs = sem a.toInner.ivs ∪ sem b.toInner.ivs ∧ c.toInner.WF ∧
      c.toInner.kind = unionKind (setKind a.toInner.kind) (setKind b.toInner.kind) := by
  rw [Inner.normal_iff] at ha hb
  rcases Any.union_cases a b with ⟨h, _⟩ | ⟨h, _⟩ | ⟨_, _, c, hu, hc⟩
  · rw [h] at hea; exact absurd hea (by simp)
  · rw [h] at heb; exact absurd heb (by simp)
  · obtain ⟨c', hc', hs, hw, hk⟩ := SetVal.union_comp a.toSet b.toSet
    obtain rfl : c = c' := by rw [hc] at hc'; injection hc'
    refine ⟨c, hu, ?_, ?_, ?_⟩
    · rw [hs, Any.toSet_eq, Any.toSet_eq, Inner.toSet_sem, Inner.toSet_sem]
    · refine hw ?_ ?_
      · rw [Any.toSet_eq]; exact Inner.toSet_WF ha
      · rw [Any.toSet_eq]; exact Inner.toSet_WF hb
    · rw [hk, Any.toSet_eq, Any.toSet_eq, Inner.toSet_kind, Inner.toSet_kind]

/-- Auxiliary: equality of values of set kind (or `UnboundedRange`, `EmptyRange`). -/
theorem Inner.eq_of_sem' {a b : Inner T} (hk : a.kind = b.kind) (hr : setKind a.kind = a.kind)
    (ha : a.WF) (hb : b.WF) (h : sem a.ivs = sem b.ivs) : a = b := by
  rcases Kind.trichotomy a.kind with h1 | h1 | h1
  · have : a.kind = .ur := by revert h1 hr; cases a.kind <;> simp [setKind, Kind.isRange]
    have : b.kind = .ur := hk ▸ this
    cases a <;> cases b <;> simp_all [Inner.kind]
  · exact Inner.eq_of_sem hk h1 ha hb h
  · rw [Inner.eq_er h1, Inner.eq_er (hk.symm.trans h1)]

theorem unionKind_comm (j k : Kind) : unionKind (setKind j) (setKind k) =
    unionKind (setKind k) (setKind j) := by cases j <;> cases k <;> rfl

theorem setKind_unionKind (j k : Kind) : setKind (unionKind (setKind j) (setKind k)) =
    unionKind (setKind j) (setKind k) := by cases j <;> cases k <;> rfl

theorem unionKind_assoc (i j k : Kind) :
    unionKind (unionKind (setKind i) (setKind j)) (setKind k) =
      unionKind (setKind i) (unionKind (setKind j) (setKind k)) := by
  cases i <;> cases j <;> cases k <;> rfl

theorem unionKind_ne_er {j k : Kind} (hj : j ≠ .er) (hk : k ≠ .er) :
    unionKind (setKind j) (setKind k) ≠ .er := by
  revert hj hk; cases j <;> cases k <;> simp [setKind, unionKind]

omit [LinearOrder T] in
theorem Any.isER_false {a : Any T} : a.isER = false ↔ a.toInner.kind ≠ .er := by
  cases a with
  | inner i => cases i <;> simp [Any.isER, Any.toInner, Inner.kind]
  | _ => simp [Any.isER, Any.toInner, Inner.kind]

/-- C07. Union is commutative: same type, structurally equal result. -/
theorem C07_union_comm (a b : Any T) (ha : a.toInner.Normal) (hb : b.toInner.Normal) :
    a.union b = b.union a := by
  rcases hea : a.isER with _ | _
  · rcases heb : b.isER with _ | _
    · obtain ⟨x, hx, sx, wx, kx⟩ := Any.union_spec ha hb hea heb
      obtain ⟨y, hy, sy, wy, ky⟩ := Any.union_spec hb ha heb hea
      rw [hx, hy]
      congr 2
      refine Inner.eq_of_sem' ?_ ?_ wx wy ?_
      · rw [kx, ky, unionKind_comm]
      · rw [kx, setKind_unionKind]
      · rw [sx, sy, Set.union_comm]
    · obtain rfl := Any.eq_of_isER heb
      rcases Any.union_cases a (.inner .er) with ⟨h, _⟩ | ⟨_, h⟩ | ⟨_, h, _⟩
      · rw [h] at hea; exact absurd hea (by simp)
      · rw [h]; rfl
      · exact absurd h (by simp [Any.isER])
  · obtain rfl := Any.eq_of_isER hea
    rcases Any.union_cases b (.inner .er) with ⟨h, _⟩ | ⟨_, h⟩ | ⟨_, h, _⟩
    · obtain rfl := Any.eq_of_isER h; rfl
    · rw [h]; rfl
    · exact absurd h (by simp [Any.isER])

example : (Any.inner lbs).toInner.Normal ∧ (Any.rangeTo ⟨3⟩ : Any Int).toInner.Normal := by decide
-- normality is needed: unnormalised pieces keep the order in which they were found
example : ∃ a b : Any Int, a.union b ≠ b.union a :=
  ⟨.inner (.bs ⟨[co 5 6, co 0 1]⟩), .inner (.bs ⟨[co 8 9]⟩), by decide +kernel⟩

omit [LinearOrder T] in
/-- Auxiliary: kinds of two non-`EmptyRange`s. -/
theorem Any.union_not_er {c : SetVal T} {j k : Kind} (hj : j ≠ .er) (hk : k ≠ .er)
    (h : c.toInner.kind = unionKind (setKind j) (setKind k)) : (Any.inner c.toInner).isER = false :=
  Any.isER_false.mpr (by rw [Any.toInner, h]; exact unionKind_ne_er hj hk)

/-- C08. Union is associative: same type, structurally equal result. -/
theorem C08_union_assoc (a b c : Any T) (ha : a.toInner.Normal) (hb : b.toInner.Normal)
    (hc : c.toInner.Normal) :
    ∃ x y, a.union b = .ok x ∧ b.union c = .ok y ∧ x.union c = a.union y ∧
      ∃ z, x.union c = .ok z := by
  obtain ⟨x, hx, _⟩ := Any.union_comp a b
  obtain ⟨y, hy, _⟩ := Any.union_comp b c
  refine ⟨x, y, hx, hy, ?_, (C04_no_panic x c).1⟩
  have er_right : ∀ a : Any T, a.union (.inner .er) = .ok a := by
    intro a
    rcases Any.union_cases a (.inner .er) with ⟨h, hu⟩ | ⟨_, h⟩ | ⟨_, h, _⟩
    · obtain rfl := Any.eq_of_isER h; exact hu
    · exact h
    · exact absurd h (by simp [Any.isER])
  rcases hea : a.isER with _ | _
  · rcases heb : b.isER with _ | _
    · rcases hec : c.isER with _ | _
      · obtain ⟨x', hx', sx, wx, kx⟩ := Any.union_spec ha hb hea heb
        obtain ⟨y', hy', sy, wy, ky⟩ := Any.union_spec hb hc heb hec
        obtain rfl : x = .inner x'.toInner := by rw [hx] at hx'; injection hx'
        obtain rfl : y = .inner y'.toInner := by rw [hy] at hy'; injection hy'
        have nx := Any.union_not_er (Any.isER_false.mp hea) (Any.isER_false.mp heb) kx
        have ny := Any.union_not_er (Any.isER_false.mp heb) (Any.isER_false.mp hec) ky
        obtain ⟨u, hu, su, wu, ku⟩ := Any.union_spec
          (a := .inner x'.toInner) ((Inner.normal_iff _).mpr wx) hc nx hec
        obtain ⟨v, hv, sv, wv, kv⟩ := Any.union_spec
          (b := .inner y'.toInner) ha ((Inner.normal_iff _).mpr wy) hea ny
        rw [hu, hv]
        congr 2
        simp only [Any.toInner_inner] at ku kv su sv
        refine Inner.eq_of_sem' ?_ ?_ wu wv ?_
        · rw [ku, kv, kx, ky, setKind_unionKind, setKind_unionKind, unionKind_assoc]
        · rw [ku, setKind_unionKind]
        · rw [su, sv, sx, sy]
          simp only [Set.union_assoc]
      · obtain rfl := Any.eq_of_isER hec
        rw [er_right] at hy ⊢
        injection hy with hy
        rw [← hy, hx]
    · obtain rfl := Any.eq_of_isER heb
      rw [er_right] at hx
      injection hx with hx
      obtain rfl : c = y := by simpa [Any.union] using hy
      rw [hx]
  · obtain rfl := Any.eq_of_isER hea
    obtain rfl : b = x := by simpa [Any.union] using hx
    rw [hy]; rfl

example : (Any.inner lbs).toInner.Normal ∧ (Any.inner ubs).toInner.Normal ∧
    (Any.range ⟨5, 8⟩ : Any Int).toInner.Normal := by decide

omit [LinearOrder T] in
theorem Inner.isSet_iff {i : Inner T} : i.IsSet ↔ i.kind.isSet = true := by
  cases i <;> simp [Inner.IsSet, Inner.kind, Kind.isSet]

/-- C09, idempotence and the empty `BoundedSet` as a unit, for the four set types. -/
theorem C09_union_self (s : Inner T) (hs : s.IsSet) (hn : s.Normal) :
    (Any.inner s).union (.inner s) = .ok (.inner s) ∧
      (Any.inner s).union (.inner (.bs BoundedSet.empty)) = .ok (.inner s) ∧
      (Any.inner (.bs BoundedSet.empty)).union (.inner s) = .ok (.inner s) := by
  have hk := Inner.isSet_iff.mp hs
  have hw := (Inner.normal_iff s).mp hn
  have he : (Any.inner s).isER = false := by cases s <;> simp_all [Inner.IsSet, Any.isER]
  have hb : (Any.inner (.bs BoundedSet.empty) : Any T).isER = false := rfl
  have nb : (Any.inner (.bs BoundedSet.empty) : Any T).toInner.Normal :=
    (Inner.normal_iff _).mpr canon_nil
  obtain ⟨x, hx, sx, wx, kx⟩ := Any.union_spec (a := .inner s) (b := .inner s) hn hn he he
  obtain ⟨y, hy, sy, wy, ky⟩ := Any.union_spec (a := .inner s) hn nb he hb
  obtain ⟨z, hz, sz, wz, kz⟩ := Any.union_spec (b := .inner s) nb hn hb he
  have se : sem (Any.inner (.bs BoundedSet.empty) : Any T).toInner.ivs = ∅ := by
    show sem [] = ∅
    simp
  rw [hx, hy, hz]
  refine ⟨?_, ?_, ?_⟩ <;> congr 2
  · refine (Inner.eq_of_sem ?_ hk hw wx ?_).symm
    · rw [kx]; revert hk; simp only [Any.toInner_inner]; cases s.kind <;> simp [Kind.isSet] <;> rfl
    · rw [sx]; simp [Any.toInner]
  · refine (Inner.eq_of_sem ?_ hk hw wy ?_).symm
    · rw [ky]; revert hk; simp only [Any.toInner_inner]; cases s.kind <;> simp [Kind.isSet] <;> rfl
    · rw [sy, se]; simp [Any.toInner]
  · refine (Inner.eq_of_sem ?_ hk hw wz ?_).symm
    · rw [kz]; revert hk; simp only [Any.toInner_inner]; cases s.kind <;> simp [Kind.isSet] <;> rfl
    · rw [sz, se]; simp [Any.toInner]

example : lbs.IsSet ∧ lbs.Normal ∧ us.IsSet ∧ us.Normal := by decide

/-- C09, `EmptyRange` is a unit for every type and every value, and `UnboundedRange` absorbs. -/
theorem C09_union_units (a : Any T) :
    a.union (.inner .er) = .ok a ∧ (Any.inner .er).union a = .ok a ∧
      a.union (.inner .ur) = .ok (.inner .ur) ∧ (Any.inner .ur).union a = .ok (.inner .ur) := by
  refine ⟨?_, rfl, ?_, rfl⟩
  · rcases a with _ | _ | _ | _ | _ | _ | i <;> try rfl
    cases i <;> rfl
  · rcases a with _ | _ | _ | _ | _ | _ | i <;> try rfl
    cases i <;> rfl

/-! ### C10, C11, C12 Intersection laws -/

/-- C10 except for lossy pairs of `LowerBoundedSet`s. -/
theorem C10_inter_comm_partial (a b : Any T) (ha : a.toInner.Normal) (hb : b.toInner.Normal)
    (h : Lossless a b) (h' : Lossless b a) : a.inter b = b.inter a := by
  rw [Inner.normal_iff] at ha hb
  rw [Any.inter_eq hb, Any.inter_eq ha]
  exact Inner.inter_comm ha hb h h'

example : (Any.inner lbs).toInner.Normal ∧ (Any.inner us).toInner.Normal ∧
    Lossless (.inner lbs) (.inner us) ∧ Lossless (.inner us) (.inner lbs) := by decide
-- two `LowerBoundedSet`s
example : let s : Inner Int := .lbs ⟨⟨[co (-9) (-4)]⟩, ci 2⟩
    s.Normal ∧ Lossless (.inner lbs) (.inner s) ∧ Lossless (.inner s) (.inner lbs) := by decide

/-- C10, nothing more holds: `intersection` commutes exactly on the pairs that are lossless in both
orders. -/
theorem C10_inter_comm_iff (a b : Any T) (ha : a.toInner.Normal) (hb : b.toInner.Normal) :
    a.inter b = b.inter a ↔ Lossless a b ∧ Lossless b a := by
  refine ⟨fun h => ?_, fun h => C10_inter_comm_partial a b ha hb h.1 h.2⟩
  obtain ⟨x, hx, sx, _, _⟩ := Any.inter_comp a b
  obtain ⟨y, hy, sy, _, _⟩ := Any.inter_comp b a
  obtain rfl : x = y := by rw [hx, hy] at h; injection h
  have e : interSem a.toInner b.toInner = interSem b.toInner a.toInner := by rw [← sx, ← sy]
  exact ⟨lossless_of_comm ha hb e.ge, lossless_of_comm hb ha e.le⟩

example : (Any.inner lbs).toInner.Normal ∧ (Any.inner lbs').toInner.Normal ∧
    ¬ (Lossless (.inner lbs) (.inner lbs') ∧ Lossless (.inner lbs') (.inner lbs)) := by decide

/-- C10 is false for two `LowerBoundedSet`s. -/
theorem C10_counterexample :
    ∃ a b : Any Int, Reachable a ∧ Reachable b ∧ a.inter b ≠ b.inter a :=
  ⟨.inner lbs, .inner lbs', lbs_reachable, lbs'_reachable, by decide +kernel⟩

/-- C11, when no intersection in it is of a lossy pair. -/
theorem C11_inter_assoc_partial (a b c : Any T) (ha : a.toInner.Normal) (hb : b.toInner.Normal)
    (hc : c.toInner.Normal) (hab : Lossless a b) (hbc : Lossless b c)
    (hx : ∀ x, a.inter b = .ok x → Lossless (.inner x) c)
    (hy : ∀ y, b.inter c = .ok y → Lossless a (.inner y)) :
    ∃ x y, a.inter b = .ok x ∧ b.inter c = .ok y ∧
      (Any.inner x).inter c = a.inter (.inner y) ∧ ∃ z, (Any.inner x).inter c = .ok z := by
  rw [Inner.normal_iff] at ha hb hc
  obtain ⟨x, hx', _, wx, _⟩ := Any.inter_comp a b
  obtain ⟨y, hy', _, wy, _⟩ := Any.inter_comp b c
  refine ⟨x, y, hx', hy', ?_, (C04_no_panic (.inner x) c).2.1⟩
  have hx := hx x hx'
  have hy := hy y hy'
  rw [Any.inter_eq hb] at hx'
  rw [Any.inter_eq hc] at hy'
  rw [Any.inter_eq (a := .inner x) hc, Any.inter_eq (b := .inner y) (wy ⟨hb, hc⟩)]
  exact Inner.inter_assoc ha hb hc hx' hy' hab hx hbc hy

example : Lossless (.inner lbs') (.inner lbs) ∧ Lossless (.inner lbs) (.inner us) ∧
    (∀ x, (Any.inner lbs').inter (.inner lbs) = .ok x → Lossless (.inner x) (.inner us)) ∧
    (∀ y, (Any.inner lbs).inter (.inner us) = .ok y → Lossless (.inner lbs') (.inner y)) := by
  refine ⟨by decide, by decide, fun x hx => ?_, fun y hy => ?_⟩
  · have : (Any.inner lbs').inter (.inner lbs) = .ok lbs' := by decide +kernel
    rw [this] at hx
    injection hx with hx
    subst hx
    decide
  · have : (Any.inner lbs).inter (.inner us) = .ok (.lbs ⟨⟨[cc 2 4]⟩, ci 30⟩) := by decide +kernel
    rw [this] at hy
    injection hy with hy
    subst hy
    decide

/-- C11 is false with two `LowerBoundedSet`s. -/
theorem C11_counterexample :
    ∃ (a b c : Any Int) (x y : Inner Int), Reachable a ∧ Reachable b ∧ Reachable c ∧
      a.inter b = .ok x ∧ b.inter c = .ok y ∧ (Any.inner x).inter c ≠ a.inter (.inner y) :=
  ⟨.inner lbs, .inner lbs', .range ⟨0, 5⟩, .lbs ⟨⟨[]⟩, ci 10⟩, .bs ⟨[co 1 3]⟩,
    lbs_reachable, lbs'_reachable, .range _, by decide +kernel, by decide +kernel,
    by decide +kernel⟩

/-- C12. Idempotence, `..` as unit and `EmptyRange` as zero, for the four set types
(`LowerBoundedSet` included). -/
theorem C12_inter_self (s : Inner T) (hs : s.IsSet) (hn : s.Normal) :
    (Any.inner s).inter (.inner s) = .ok s ∧ (Any.inner s).inter .rangeFull = .ok s ∧
      (Any.inner s).inter (.inner .ur) = .ok s ∧ (Any.inner s).inter (.inner .er) = .ok .er := by
  have hk := Inner.isSet_iff.mp hs
  have hw := (Inner.normal_iff s).mp hn
  refine ⟨?_, ?_, ?_, ?_⟩
  · obtain ⟨x, hx, sx, wx, kx⟩ := Any.inter_comp (.inner s) (.inner s)
    rw [hx]
    congr 1
    simp only [Any.toInner_inner] at sx wx kx
    refine (Inner.eq_of_sem ?_ hk hw (wx ⟨hw, hw⟩) ?_).symm
    · rw [kx]; revert hk; cases s.kind <;> simp [Kind.isSet] <;> rfl
    · rw [sx]
      by_cases h : BothLBS s s
      · cases s with
        | lbs s =>
          show sem s.ivs = sem s.ivs ∩ sem1 s.lowerBoundedRange.iv ∪ sem s.ranges.ivs ∩ sem s.ivs
          have e : sem s.ivs = sem s.ranges.ivs ∪ sem1 s.lowerBoundedRange.iv := by
            rw [LowerBoundedSet.ivs, sem_append, sem_one]
          rw [e]
          ext q
          simp only [Set.mem_union, Set.mem_inter_iff]
          tauto
        | _ => simp [BothLBS, Inner.kind] at h
      · rw [interSem_eq h, Set.inter_self]
  · cases s <;> simp_all [Inner.IsSet] <;> rfl
  · cases s <;> simp_all [Inner.IsSet] <;> rfl
  · cases s <;> simp_all [Inner.IsSet] <;> rfl

example : lbs.IsSet ∧ lbs.Normal ∧ us.IsSet ∧ us.Normal := by decide

/-! ### C13 Distributivity -/

/-- Auxiliary: union of two sets. -/
theorem Any.union_sets {a b : Inner T} (ha : a.IsSet) (hb : b.IsSet) (na : a.WF) (nb : b.WF) :
    ∃ c : Inner T, (Any.inner a).union (.inner b) = .ok (.inner c) ∧
      sem c.ivs = sem a.ivs ∪ sem b.ivs ∧ c.WF ∧ c.kind = unionKind a.kind b.kind ∧ c.IsSet := by
  have hka := Inner.isSet_iff.mp ha
  have hkb := Inner.isSet_iff.mp hb
  have hea : (Any.inner a).isER = false := by cases a <;> simp_all [Inner.IsSet, Any.isER]
  have heb : (Any.inner b).isER = false := by cases b <;> simp_all [Inner.IsSet, Any.isER]
  obtain ⟨c, hc, hs, hw, hk⟩ := Any.union_spec (a := .inner a) (b := .inner b)
    ((Inner.normal_iff _).mpr na) ((Inner.normal_iff _).mpr nb) hea heb
  have e : c.toInner.kind = unionKind a.kind b.kind := by
    rw [hk]; simp only [Any.toInner_inner]
    revert hka hkb; cases a.kind <;> cases b.kind <;> simp [Kind.isSet] <;> rfl
  refine ⟨c.toInner, hc, hs, hw, e, Inner.isSet_iff.mpr ?_⟩
  rw [e]
  revert hka hkb; cases a.kind <;> cases b.kind <;> simp [Kind.isSet] <;> rfl

/-- Auxiliary: intersection of a lossless pair of sets. -/
theorem Any.inter_sets {a b : Inner T} (ha : a.IsSet) (hb : b.IsSet) (na : a.WF) (nb : b.WF)
    (h : a.Lossless b) :
    ∃ c : Inner T, (Any.inner a).inter (.inner b) = .ok c ∧
      sem c.ivs = sem a.ivs ∩ sem b.ivs ∧ c.WF ∧ c.kind = interKind a.kind b.kind ∧ c.IsSet := by
  have hka := Inner.isSet_iff.mp ha
  have hkb := Inner.isSet_iff.mp hb
  obtain ⟨c, hc, hs, hw, hk⟩ := Any.inter_comp (.inner a) (.inner b)
  refine ⟨c, hc, ?_, hw ⟨na, nb⟩, hk, Inner.isSet_iff.mpr ?_⟩
  · rw [hs]; exact interSem_of_lossless h
  · rw [hk]
    simp only [Any.toInner_inner]
    revert hka hkb; cases a.kind <;> cases b.kind <;> simp [Kind.isSet] <;> rfl

/-- C13, first law, when no intersection in it is of a lossy pair. -/
theorem C13_inter_union_distrib_partial (a b c : Inner T) (ha : a.IsSet) (hb : b.IsSet)
    (hc : c.IsSet) (na : a.Normal) (nb : b.Normal) (nc : c.Normal)
    (h1 : Lossless (.inner a) (.inner b)) (h2 : Lossless (.inner a) (.inner c))
    (h3 : ∀ x, (Any.inner b).union (.inner c) = .ok x → Lossless (.inner a) x) :
    ∃ bc ab ac r, (Any.inner b).union (.inner c) = .ok (.inner bc) ∧
      (Any.inner a).inter (.inner b) = .ok ab ∧ (Any.inner a).inter (.inner c) = .ok ac ∧
      (Any.inner a).inter (.inner bc) = .ok r ∧
      (Any.inner ab).union (.inner ac) = .ok (.inner r) := by
  rw [Inner.normal_iff] at na nb nc
  obtain ⟨bc, hbc, sbc, wbc, kbc, ibc⟩ := Any.union_sets hb hc nb nc
  obtain ⟨ab, hab, sab, wab, kab, iab⟩ := Any.inter_sets ha hb na nb h1
  obtain ⟨ac, hac, sac, wac, kac, iac⟩ := Any.inter_sets ha hc na nc h2
  have kb := Inner.isSet_iff.mp hb
  have kc := Inner.isSet_iff.mp hc
  have ka := Inner.isSet_iff.mp ha
  obtain ⟨r, hr, sr, wr, kr, _⟩ := Any.inter_sets ha ibc na wbc (h3 _ hbc)
  obtain ⟨r', hr', sr', wr', kr', ir'⟩ := Any.union_sets iab iac wab wac
  refine ⟨bc, ab, ac, r, hbc, hab, hac, hr, ?_⟩
  rw [hr']
  congr 2
  refine Inner.eq_of_sem ?_ (Inner.isSet_iff.mp ir') wr' wr ?_
  · rw [kr', kr, kab, kac, kbc]
    revert ka kb kc
    cases a.kind <;> cases b.kind <;> cases c.kind <;> simp [Kind.isSet] <;> rfl
  · rw [sr', sr, sab, sac, sbc, Set.inter_union_distrib_left]

example : us.IsSet ∧ lbs.IsSet ∧ lbs'.IsSet ∧ us.Normal ∧ lbs.Normal ∧ lbs'.Normal ∧
    Lossless (.inner us) (.inner lbs) ∧ Lossless (.inner us) (.inner lbs') := by decide
-- all three lower-bounded
example : bs.IsSet ∧ bs.Normal ∧ Lossless (.inner lbs') (.inner lbs) ∧
    Lossless (.inner lbs') (.inner bs) ∧
    ∀ x, (Any.inner lbs).union (.inner bs) = .ok x → Lossless (.inner lbs') x := by
  refine ⟨by decide, by decide, by decide, by decide, fun x hx => ?_⟩
  have : (Any.inner lbs).union (.inner bs) = .ok (.inner lbs) := by decide +kernel
  rw [this] at hx
  injection hx with hx
  subst hx
  decide

/-- C13, second law, when no intersection in it is of a lossy pair. -/
theorem C13_union_inter_distrib_partial (a b c : Inner T) (ha : a.IsSet) (hb : b.IsSet)
    (hc : c.IsSet) (na : a.Normal) (nb : b.Normal) (nc : c.Normal)
    (h : Lossless (.inner b) (.inner c))
    (h' : ∀ x y, (Any.inner a).union (.inner b) = .ok x → (Any.inner a).union (.inner c) = .ok y →
      Lossless x y) :
    ∃ bc ab ac r, (Any.inner b).inter (.inner c) = .ok bc ∧
      (Any.inner a).union (.inner b) = .ok (.inner ab) ∧
      (Any.inner a).union (.inner c) = .ok (.inner ac) ∧
      (Any.inner a).union (.inner bc) = .ok (.inner r) ∧
      (Any.inner ab).inter (.inner ac) = .ok r := by
  rw [Inner.normal_iff] at na nb nc
  obtain ⟨bc, hbc, sbc, wbc, kbc, ibc⟩ := Any.inter_sets hb hc nb nc h
  obtain ⟨ab, hab, sab, wab, kab, iab⟩ := Any.union_sets ha hb na nb
  obtain ⟨ac, hac, sac, wac, kac, iac⟩ := Any.union_sets ha hc na nc
  have kb := Inner.isSet_iff.mp hb
  have kc := Inner.isSet_iff.mp hc
  have ka := Inner.isSet_iff.mp ha
  obtain ⟨r, hr, sr, wr, kr, _⟩ := Any.union_sets ha ibc na wbc
  obtain ⟨r', hr', sr', wr', kr', ir'⟩ := Any.inter_sets iab iac wab wac (h' _ _ hab hac)
  refine ⟨bc, ab, ac, r, hbc, hab, hac, hr, ?_⟩
  rw [hr']
  congr 1
  refine Inner.eq_of_sem ?_ (Inner.isSet_iff.mp ir') wr' wr ?_
  · rw [kr', kr, kab, kac, kbc]
    revert ka kb kc
    cases a.kind <;> cases b.kind <;> cases c.kind <;> simp [Kind.isSet] <;> rfl
  · rw [sr', sr, sab, sac, sbc, Set.union_inter_distrib_left]

example : bs.IsSet ∧ lbs'.IsSet ∧ lbs.IsSet ∧ bs.Normal ∧ lbs'.Normal ∧ lbs.Normal ∧
    Lossless (.inner lbs') (.inner lbs) := by decide
example : ∀ x y, (Any.inner bs).union (.inner lbs') = .ok x →
    (Any.inner bs).union (.inner lbs) = .ok y → Lossless x y := by
  intro x y hx hy
  have h1 : (Any.inner bs).union (.inner lbs') =
      .ok (.inner (.lbs ⟨⟨[co 0 3, cc 5 9]⟩, ci 10⟩)) := by decide +kernel
  have h2 : (Any.inner bs).union (.inner lbs) = .ok (.inner lbs) := by decide +kernel
  rw [h1] at hx
  rw [h2] at hy
  injection hx with hx
  injection hy with hy
  subst hx hy
  decide

/-- Auxiliary: `(1..3).to_set()`. -/
theorem co13_reachable : Reachable (.inner (.bs ⟨[co 1 3]⟩)) := by
  have h : (Any.range ⟨1, 3⟩ : Any Int).toSet.toInner = .bs ⟨[co 1 3]⟩ := by decide
  rw [← h]
  exact .toSet (.range _)

/-- C13 is false with two `LowerBoundedSet`s. -/
theorem C13_counterexample :
    ∃ (a b c bc ab ac r : Inner Int), Reachable (.inner a) ∧ Reachable (.inner b) ∧
      Reachable (.inner c) ∧ (Any.inner b).union (.inner c) = .ok (.inner bc) ∧
      (Any.inner a).inter (.inner b) = .ok ab ∧ (Any.inner a).inter (.inner c) = .ok ac ∧
      (Any.inner a).inter (.inner bc) = .ok r ∧
      (Any.inner ab).union (.inner ac) ≠ .ok (.inner r) :=
  ⟨lbs, .bs ⟨[co 1 3]⟩, .lbs ⟨⟨[]⟩, ci 10⟩, lbs', .bs ⟨[co 1 3]⟩, .lbs ⟨⟨[]⟩, ci 10⟩,
    .lbs ⟨⟨[]⟩, ci 10⟩, lbs_reachable, co13_reachable, .toSet (.rangeFrom ⟨10⟩),
    by decide +kernel, by decide +kernel, by decide +kernel, by decide +kernel, by decide +kernel⟩

/-! ### C14 De Morgan -/

omit [LinearOrder T] in
theorem Inner.isUBS_iff (i : Inner T) : i.IsUBS ↔ i.kind = .ubs := by
  cases i <;> simp [Inner.IsUBS, Inner.kind]

/-- Auxiliary: complement of a set. -/
theorem Any.complement_set {a : Inner T} (ha : a.IsSet) (na : a.WF) :
    ∃ c : Inner T, (Any.inner a).complement = .ok c ∧ sem c.ivs = csemOf (sem a.ivs) ∧ c.WF ∧
      c.kind = complKind a.kind ∧ c.IsSet := by
  have hka := Inner.isSet_iff.mp ha
  obtain ⟨c, hc, hs, hw, hk⟩ := Any.complement_comp (.inner a)
  refine ⟨c, hc, ?_, hw trivial, hk, Inner.isSet_iff.mpr ?_⟩
  · rw [hs]; exact csem_eq (Inner.canon_of_isSet hka na).1
  · rw [hk]
    simp only [Any.toInner_inner]
    revert hka; cases a.kind <;> simp [Kind.isSet] <;> rfl

/-- C14, first half: `a.union(b).complement() == a.complement().intersection(b.complement())`
exactly when the complements are a lossless pair (only two `UpperBoundedSet`s have complements that
can be a lossy pair). -/
theorem C14_complement_union_partial (a b : Inner T) (ha : a.IsSet) (hb : b.IsSet) (na : a.Normal)
    (nb : b.Normal) :
    ∃ ab ca cb r, (Any.inner a).union (.inner b) = .ok (.inner ab) ∧
      (Any.inner a).complement = .ok ca ∧ (Any.inner b).complement = .ok cb ∧
      (Any.inner ab).complement = .ok r ∧
      ((Any.inner ca).inter (.inner cb) = .ok r ↔ Lossless (.inner ca) (.inner cb)) ∧
      (¬ (a.IsUBS ∧ b.IsUBS) → Lossless (.inner ca) (.inner cb)) := by
  rw [Inner.normal_iff] at na nb
  have ka := Inner.isSet_iff.mp ha
  have kb := Inner.isSet_iff.mp hb
  obtain ⟨ab, hab, sab, wab, kab, iab⟩ := Any.union_sets ha hb na nb
  obtain ⟨ca, hca, sca, wca, kca, ica⟩ := Any.complement_set ha na
  obtain ⟨cb, hcb, scb, wcb, kcb, icb⟩ := Any.complement_set hb nb
  obtain ⟨r, hr, sr, wr, kr, ir⟩ := Any.complement_set iab wab
  refine ⟨ab, ca, cb, r, hab, hca, hcb, hr, ⟨fun h => ?_, fun h => ?_⟩, fun h => ?_⟩
  · obtain ⟨r', hr', sr', _, _⟩ := Any.inter_comp (.inner ca) (.inner cb)
    obtain rfl : r = r' := by rw [h] at hr'; injection hr'
    refine lossless_of_interSem ((Inner.normal_iff _).mpr wca) ((Inner.normal_iff _).mpr wcb)
      (le_of_eq ?_)
    simp only [Any.toInner_inner] at sr' ⊢
    rw [← sr', sr, sab, sca, scb, csemOf_union]
  · obtain ⟨r', hr', sr', wr', kr', ir'⟩ := Any.inter_sets ica icb wca wcb h
    rw [hr']
    congr 1
    refine Inner.eq_of_sem ?_ (Inner.isSet_iff.mp ir') wr' wr ?_
    · rw [kr', kr, kab, kca, kcb]
      revert ka kb
      cases a.kind <;> cases b.kind <;> simp [Kind.isSet] <;> rfl
    · rw [sr', sr, sab, sca, scb, csemOf_union]
  · refine Inner.Lossless.of_not_both ?_
    rintro ⟨h1, h2⟩
    rw [Any.toInner_inner, Inner.isLBS_iff, kca] at h1
    rw [Any.toInner_inner, Inner.isLBS_iff, kcb] at h2
    refine h ⟨?_, ?_⟩
    · rw [Inner.isUBS_iff]; revert h1 ka; cases a.kind <;> simp [complKind, Kind.isSet]
    · rw [Inner.isUBS_iff]; revert h2 kb; cases b.kind <;> simp [complKind, Kind.isSet]

example : ubs.IsSet ∧ lbs.IsSet ∧ ubs.Normal ∧ lbs.Normal ∧ ¬ (ubs.IsUBS ∧ lbs.IsUBS) := by decide

/-- C14, first half, is false for two `UpperBoundedSet`s: the complements of `..0 ∪ 3..10` and
`..-3` meet in `0..3 ∪ 10..`, but the code loses `0..3`. -/
theorem C14_counterexample :
    ∃ (a b ab ca cb r : Inner Int), Reachable (.inner a) ∧ Reachable (.inner b) ∧
      (Any.inner a).union (.inner b) = .ok (.inner ab) ∧
      (Any.inner a).complement = .ok ca ∧ (Any.inner b).complement = .ok cb ∧
      (Any.inner ab).complement = .ok r ∧ (Any.inner ca).inter (.inner cb) ≠ .ok r := by
  refine ⟨.ubs ⟨io (-3), ⟨[]⟩⟩, .ubs ⟨io 0, ⟨[co 3 10]⟩⟩, .ubs ⟨io 0, ⟨[co 3 10]⟩⟩,
    .lbs ⟨⟨[]⟩, ci (-3)⟩, .lbs ⟨⟨[co 0 3]⟩, ci 10⟩, .lbs ⟨⟨[co 0 3]⟩, ci 10⟩,
    .toSet (.rangeTo ⟨-3⟩), .union (.rangeTo ⟨0⟩) (.range ⟨3, 10⟩) ?_, ?_, ?_, ?_, ?_, ?_⟩ <;>
    decide +kernel

/-- C14, second half: `a.intersection(b).complement()` has exactly the members of
`a.complement().union(b.complement())`, for all fifteen types and all values, except lossy pairs. -/
theorem C14_complement_inter_partial (a b : Any T) (ha : a.Fresh) (hb : b.Fresh)
    (h : Lossless a b) :
    ∃ i l ca cb r, a.inter b = .ok i ∧ (Any.inner i).complement = .ok l ∧ a.complement = .ok ca ∧
      b.complement = .ok cb ∧ (Any.inner ca).union (.inner cb) = .ok r ∧
      ∀ t, l.contains t = r.contains t := by
  obtain ⟨i, hi, si⟩ := C02_inter_contains_partial a b ha hb h
  obtain ⟨l, hl, sl⟩ := C03_complement_contains (.inner i) trivial
  obtain ⟨ca, hca, sca⟩ := C03_complement_contains a ha
  obtain ⟨cb, hcb, scb⟩ := C03_complement_contains b hb
  obtain ⟨r, hr, sr⟩ := C01_union_contains (.inner ca) (.inner cb) trivial trivial
  refine ⟨i, l, ca, cb, r, hi, hl, hca, hcb, hr, fun t => ?_⟩
  rw [sl, sr]
  simp only [Any.contains_inner]
  rw [si, sca, scb, Bool.not_and]

example : Lossless (.inner lbs') (.inner lbs) ∧ Lossless (.inner lbs) (.inner us) := by decide

/-- C14, second half, is false for two `LowerBoundedSet`s. -/
theorem C14_counterexample_inter :
    ∃ (a b : Any Int) (i l ca cb : Inner Int) (r : Any Int) (t : Int), Reachable a ∧ Reachable b ∧
      a.inter b = .ok i ∧ (Any.inner i).complement = .ok l ∧ a.complement = .ok ca ∧
      b.complement = .ok cb ∧ (Any.inner ca).union (.inner cb) = .ok r ∧
      l.contains t ≠ r.contains t := by
  refine ⟨.inner lbs, .inner lbs', .lbs ⟨⟨[]⟩, ci 10⟩, .ubs ⟨io 10, ⟨[]⟩⟩,
    .ubs ⟨io (-5), ⟨[co (-3) 0]⟩⟩, .ubs ⟨io 1, ⟨[co 3 10]⟩⟩,
    .inner (.ubs ⟨io 1, ⟨[co 3 10]⟩⟩), 1, lbs_reachable, lbs'_reachable, ?_, ?_, ?_, ?_, ?_, ?_⟩ <;>
    decide +kernel

/-! ### C15 Double complement -/

/-- C15, members: all fifteen types, all values. -/
theorem C15_complement_complement (a : Any T) (ha : a.Fresh) :
    ∃ c d, a.complement = .ok c ∧ (Any.inner c).complement = .ok d ∧
      ∀ t, d.contains t = a.contains t := by
  obtain ⟨c, hc, sc⟩ := C03_complement_contains a ha
  obtain ⟨d, hd, sd⟩ := C03_complement_contains (.inner c) trivial
  refine ⟨c, d, hc, hd, fun t => ?_⟩
  rw [sd]
  simp only [Any.contains_inner]
  rw [sc, Bool.not_not]

example : (Any.inner (.bs ⟨[co 5 9, co 0 7, co 3 3]⟩) : Any Int).Fresh := trivial

/-- C15, the triple complement equals the complement, for normal sets. -/
theorem C15_triple_complement (a : Inner T) (ha : a.IsSet) (na : a.Normal) :
    ∃ c d, (Any.inner a).complement = .ok c ∧ (Any.inner c).complement = .ok d ∧
      (Any.inner d).complement = .ok c := by
  rw [Inner.normal_iff] at na
  have ka := Inner.isSet_iff.mp ha
  obtain ⟨c, hc, sc, wc, kc, ic⟩ := Any.complement_set ha na
  obtain ⟨d, hd, sd, wd, kd, id⟩ := Any.complement_set ic wc
  obtain ⟨e, he, se, we, ke, ie⟩ := Any.complement_set id wd
  refine ⟨c, d, hc, hd, ?_⟩
  rw [he]
  congr 1
  refine Inner.eq_of_sem ?_ (Inner.isSet_iff.mp ie) we wc ?_
  · rw [ke, kd, kc]; revert ka; cases a.kind <;> simp [Kind.isSet] <;> rfl
  · rw [se, sd, sc, csemOf_triple]

example : us.IsSet ∧ us.Normal := by decide
-- the double complement itself is not `==`: touching pieces are merged
example : ∃ a c d : Inner Int, a.IsSet ∧ a.Normal ∧ (Any.inner a).complement = .ok c ∧
    (Any.inner c).complement = .ok d ∧ d ≠ a :=
  ⟨.bs ⟨[co 0 3, co 3 5]⟩, .us (.piecewise ⟨io 0, ⟨[]⟩, ci 5⟩), .bs ⟨[co 0 5]⟩, by decide +kernel⟩

/-! ### C16 Excluded middle and contradiction -/

/-- C16. All fifteen types, all values. -/
theorem C16_excluded_middle (a : Any T) (ha : a.Fresh) :
    ∃ c u i, a.complement = .ok c ∧ a.union (.inner c) = .ok u ∧ a.inter (.inner c) = .ok i ∧
      ∀ t, u.contains t = true ∧ i.contains t = false := by
  obtain ⟨c, hc, sc⟩ := C03_complement_contains a ha
  obtain ⟨u, hu, su⟩ := C01_union_contains a (.inner c) ha trivial
  obtain ⟨i, hi, si⟩ := C02_inter_subset a (.inner c) ha trivial
  refine ⟨c, u, i, hc, hu, hi, fun t => ⟨?_, ?_⟩⟩
  · rw [su]
    simp only [Any.contains_inner]
    rw [sc, Bool.or_not_self]
  · by_contra h
    have := si t (by simpa using h)
    rw [Any.contains, sc] at this
    simp [this.1] at this

example : (Any.range ⟨5, 3⟩ : Any Int).Fresh := trivial

end Rangetools
