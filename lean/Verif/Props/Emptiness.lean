import Verif.Props.Algebra
import Mathlib.Algebra.Order.Field.Rat
import Mathlib.Algebra.Order.Field.Basic
import Mathlib.Data.List.Pairwise
import Mathlib.Tactic.NormNum

/-!
# C17 – C23: equality, `is_empty`, `disjoint`, `intersects`
-/

namespace Rangetools
open Iv Samples

variable {T : Type} [LinearOrder T]

/-! ### C17 Equality versus membership -/

/-- C17. Over a dense order without endpoints, sets of the same type with the same members have equal
complements (hence equal double complements).  That `==` implies the same members is
`C17_eq_members` in `Derived.lean`. -/
theorem C17_members_complement [DenselyOrdered T] [NoMinOrder T] [NoMaxOrder T] [Nonempty T]
    (a b : Inner T) (ha : a.IsSet) (hk : a.SameType b) (na : a.Normal)
    (nb : b.Normal) (h : ∀ t, a.contains t = b.contains t) :
    (Any.inner a).complement = (Any.inner b).complement := by
  rw [Inner.normal_iff] at na nb
  rw [Inner.sameType_iff] at hk
  have hb : b.IsSet := by
    rw [Inner.isSet_iff, ← hk]; exact Inner.isSet_iff.mp ha
  obtain ⟨x, hx, sx, wx, kx, ix⟩ := Any.complement_set ha na
  obtain ⟨y, hy, sy, wy, ky, _⟩ := Any.complement_set hb nb
  rw [hx, hy]
  congr 1
  have h' : ∀ t : T, (cut t false, Side.after) ∈ sem a.ivs ↔ (cut t false, Side.after) ∈ sem b.ivs := by
    intro t
    rw [← a.contains_probe, ← b.contains_probe, h]
  refine Inner.eq_of_sem (by rw [kx, ky, hk]) (Inner.isSet_iff.mp ix) wx wy ?_
  rw [sx, sy]
  exact csemOf_congr
    (fun x => ⟨after_of_members fun t => (h' t).mp, after_of_members fun t => (h' t).mpr⟩)
    (fun x => ⟨before_of_members fun t => (h' t).mp, before_of_members fun t => (h' t).mpr⟩)

/-- `a..b` over the rationals -/
def qco (a b : ℚ) : BoundedRange ℚ := ⟨.included a, .excluded b⟩

-- `0..3 ∪ 3..5` and `0..5`: same members, same type, normal, not equal
example : let a : Inner ℚ := .bs ⟨[qco 0 3, qco 3 5]⟩
    let b : Inner ℚ := .bs ⟨[qco 0 5]⟩
    a.IsSet ∧ a.SameType b ∧ a.Normal ∧ b.Normal ∧ a ≠ b ∧
      ∀ t, a.contains t = b.contains t := by
  refine ⟨trivial, trivial, ?_, ?_, ?_, ?_⟩
  · rw [Inner.normal_iff]
    show Canon _
    simp [BoundedSet.ivs, canon_cons, canon_nil, BoundedRange.iv, qco, lo, hi, LowerBound.included,
      UpperBound.excluded, cut_lt]
    try norm_num
  · rw [Inner.normal_iff]
    show Canon _
    simp [BoundedSet.ivs, canon_cons, canon_nil, BoundedRange.iv, qco, lo, hi, LowerBound.included,
      UpperBound.excluded, cut_lt]
  · simp
  · intro t
    simp only [Inner.contains, BoundedSet.contains, qco, BoundedRange.contains, LowerBound.included,
      UpperBound.excluded, List.any_cons, List.any_nil, Bool.or_false]
    rw [Bool.eq_iff_iff]
    simp only [Bool.or_eq_true, Bool.and_eq_true, decide_eq_true_eq]
    constructor
    · rintro (⟨h1, h2⟩ | ⟨h1, h2⟩)
      · exact ⟨h1, h2.trans (by norm_num)⟩
      · exact ⟨le_trans (by norm_num) h1, h2⟩
    · rintro ⟨h1, h2⟩
      rcases lt_or_ge t 3 with h | h
      · exact Or.inl ⟨h1, h⟩
      · exact Or.inr ⟨h, h2⟩

/-- C17. Same members do not imply `==`, and both values are reachable: `(0..3).union(3..5)` keeps
the touching pieces apart. -/
theorem C17_same_members_not_eq :
    ∃ a b : Inner Int, Reachable (.inner a) ∧ Reachable (.inner b) ∧ a.SameType b ∧ a.IsSet ∧
      (∀ t, a.contains t = b.contains t) ∧ a ≠ b := by
  refine ⟨.bs ⟨[co 0 3, co 3 5]⟩, (Any.range ⟨0, 5⟩ : Any Int).toSet.toInner,
    .union (.range ⟨0, 3⟩) (.range ⟨3, 5⟩) (by decide +kernel), .toSet (.range _), trivial,
    trivial, ?_, by decide⟩
  have : (Any.range ⟨0, 5⟩ : Any Int).toSet.toInner = .bs ⟨[co 0 5]⟩ := by decide
  rw [this]
  intro t
  rw [Bool.eq_iff_iff]
  simp only [Inner.contains, BoundedSet.contains, co, BoundedRange.contains, LowerBound.included,
    UpperBound.excluded, List.any_cons, List.any_nil, Bool.or_false, Bool.or_eq_true,
    Bool.and_eq_true, decide_eq_true_eq]
  omega

/-! ### C18 `is_empty` is sound -/

/-- C18. All fifteen types, all values (exhausted `RangeInclusive`s included). -/
theorem C18_isEmpty_sound (a : Any T) (h : a.isEmpty = true) (t : T) : a.contains t = false := by
  rw [← Any.isEmpty_toInner, Inner.isEmpty_iff_sem] at h
  rw [← Bool.not_eq_true]
  intro hc
  have := Any.probe_of_contains hc
  rw [h] at this
  exact this

example : (Any.range ⟨5, 3⟩ : Any Int).isEmpty = true := by decide

/-! ### C19 `is_empty` is complete where it can be -/

/-- Auxiliary: a non-empty value has a piece with something in it. -/
theorem Inner.exists_piece {i : Inner T} (h : i.isEmpty = false) : ∃ p ∈ i.ivs, p.1 < p.2 := by
  rw [← Bool.not_eq_true, Inner.isEmpty_iff_sem, sem_eq_empty_iff] at h
  push Not at h
  exact h

/-- C19, dense orders without endpoints: exact for all fifteen types and all values. -/
theorem C19_isEmpty_dense [DenselyOrdered T] [NoMinOrder T] [NoMaxOrder T] [Nonempty T] (a : Any T)
    (ha : a.Fresh) : a.isEmpty = false ↔ ∃ t, a.contains t = true := by
  constructor
  · intro h
    rw [← Any.isEmpty_toInner] at h
    obtain ⟨p, hp, hlt⟩ := Inner.exists_piece h
    obtain ⟨t, h1, h2⟩ := exists_elem_between hlt
    exact ⟨t, (a.contains_probe ha t).mpr ⟨p, hp, mem_after.mpr ⟨h1, h2⟩⟩⟩
  · rintro ⟨t, ht⟩
    by_contra hc
    rw [C18_isEmpty_sound a (by simpa using hc) t] at ht
    exact absurd ht (by simp)

-- both ends excluded
example : (Any.inner (.br ⟨.excluded 3, .excluded 4⟩) : Any ℚ).Fresh := trivial

/-- C19, any order: exact for bounded ranges and sets whose pieces have an included end. -/
theorem C19_isEmpty_included (i : Inner T) (hinc : i.BoundedWithIncluded) :
    i.isEmpty = false ↔ ∃ t, i.contains t = true := by
  constructor
  · intro h
    obtain ⟨p, hp, hlt⟩ := Inner.exists_piece h
    have key : ∃ r : BoundedRange T, r.HasIncluded ∧ p = r.iv := by
      cases i with
      | br r => exact ⟨r, hinc, by simpa [Inner.ivs] using hp⟩
      | bs s =>
        obtain ⟨r, hr, rfl⟩ := List.mem_map.mp hp
        exact ⟨r, hinc r hr, rfl⟩
      | er => simp [Inner.ivs] at hp
      | _ => exact hinc.elim
    obtain ⟨r, hr, rfl⟩ := key
    simp only [BoundedRange.iv] at hlt
    rcases hr with ⟨a, ha⟩ | ⟨b, hb⟩
    · refine ⟨a, (i.contains_probe a).mpr ⟨_, hp, mem_after.mpr ?_⟩⟩
      simp only [BoundedRange.iv]
      rw [ha] at hlt ⊢
      exact ⟨le_rfl, hlt⟩
    · refine ⟨b, (i.contains_probe b).mpr ⟨_, hp, mem_after.mpr ?_⟩⟩
      simp only [BoundedRange.iv]
      rw [hb] at hlt ⊢
      refine ⟨?_, cut_false_lt_true b⟩
      rcases hs : r.start with ⟨c | c⟩ <;> rw [hs] at hlt <;>
        simp only [hi, lo, UpperBound.included, cut_lt] at hlt ⊢ <;> rw [cut_le]
      · rcases hlt with hlt | ⟨_, hlt⟩
        · exact Or.inl hlt
        · exact absurd hlt (by decide)
      · rcases hlt with hlt | ⟨hlt, _⟩
        · exact Or.inl hlt
        · exact Or.inr ⟨hlt, le_rfl⟩
  · rintro ⟨t, ht⟩
    by_contra hc
    rw [← Any.contains_inner, C18_isEmpty_sound (.inner i) (by simpa [Any.isEmpty] using hc) t] at ht
    exact absurd ht (by simp)

example : (Inner.bs ⟨[co 0 3, ⟨.excluded 5, .included 9⟩]⟩).BoundedWithIncluded := by
  intro r hr
  rcases List.mem_cons.mp hr with rfl | hr
  · exact Or.inl ⟨0, rfl⟩
  · obtain rfl := List.mem_singleton.mp hr
    exact Or.inr ⟨9, rfl⟩

/-- C19, the exceptions are real: an integer range excluded on both sides, and a half-line below the
least natural number, are "not empty" but contain nothing. -/
theorem C19_incomplete :
    (∃ a : Any Int, a.isEmpty = false ∧ ∀ t, a.contains t = false) ∧
      (∃ a : Any Nat, a.isEmpty = false ∧ ∀ t, a.contains t = false) := by
  refine ⟨⟨.inner (.br ⟨.excluded 3, .excluded 4⟩), by decide, fun t => ?_⟩,
    ⟨.rangeTo ⟨0⟩, by decide, fun t => ?_⟩⟩
  · rw [← Bool.not_eq_true]
    simp only [Any.contains, Inner.contains, BoundedRange.contains, LowerBound.excluded,
      UpperBound.excluded, Bool.and_eq_true, decide_eq_true_eq]
    omega
  · simp [Any.contains, RangeTo.contains]

/-! ### C20 `disjoint` / `intersects` soundness -/

/-- C20. `intersects` is the negation of `disjoint`; `disjoint` implies no common element; a common
element implies `intersects`.  All pairs of types, all values. -/
theorem C20_disjoint_sound (a b : Any T) :
    ∃ d, a.disjoint b = .ok d ∧ a.intersects b = .ok (!d) ∧
      (d = true → ∀ t, ¬ (a.contains t = true ∧ b.contains t = true)) ∧
      ((∃ t, a.contains t = true ∧ b.contains t = true) → d = false) := by
  obtain ⟨i, hi, si, _, ki⟩ := Any.inter_comp a b
  have key : i.isEmpty = true → ∀ t, ¬ (a.contains t = true ∧ b.contains t = true) := by
    rintro he t ⟨h1, h2⟩
    have hn : ¬ BothLBS a.toInner b.toInner := by
      rintro ⟨k1, k2⟩
      rw [k1, k2] at ki
      cases i <;> simp_all [Inner.kind, Inner.isEmpty, interKind]
    rw [Inner.isEmpty_iff_sem, si, interSem_eq hn] at he
    exact Set.notMem_empty _
      (he ▸ Set.mem_inter (Any.probe_of_contains h1) (Any.probe_of_contains h2))
  refine ⟨i.isEmpty, by simp [Any.disjoint, hi], by simp [Any.intersects, Any.disjoint, hi], key, ?_⟩
  rintro ⟨t, ht⟩
  by_contra hc
  exact key (by simpa using hc) t ht

example : ∃ t, (Any.inner lbs).contains t = true ∧ (Any.inner lbs').contains t = true :=
  ⟨1, by decide⟩
example : (Any.inner bs).disjoint (.range ⟨3, 5⟩) = .ok true := by decide +kernel

/-! ### C21 `intersects` completeness -/

/-- C21. Over a dense order without endpoints `intersects` is exact. -/
theorem C21_intersects_dense [DenselyOrdered T] [NoMinOrder T] [NoMaxOrder T] [Nonempty T]
    (a b : Any T) (ha : a.Fresh) (hb : b.Fresh) :
    ∃ r, a.intersects b = .ok r ∧
      (r = true ↔ ∃ t, a.contains t = true ∧ b.contains t = true) := by
  obtain ⟨d, hd, hi, _, h2⟩ := C20_disjoint_sound a b
  refine ⟨!d, hi, ?_, fun h => by simp [h2 h]⟩
  intro hr
  obtain ⟨c, hc, hs⟩ := C02_inter_subset a b ha hb
  have he : c.isEmpty = false := by
    have : d = c.isEmpty := by
      have := hd
      simp only [Any.disjoint, hc, Res.ok_bind, Res.pure_eq, Res.ok.injEq] at this
      exact this.symm
    rw [← this]; simpa using hr
  obtain ⟨t, ht⟩ := (C19_isEmpty_dense (.inner c) trivial).mp he
  exact ⟨t, hs t ht⟩

example : (Any.range ⟨0, 1⟩ : Any ℚ).Fresh ∧
    (Any.inner (.br ⟨.excluded (1/2), .excluded 4⟩) : Any ℚ).Fresh := ⟨trivial, trivial⟩

/-! ### C22 Exactness on std ranges -/

theorem Canon.inclStarts {L : List (ECut T × ECut T)} (hc : Canon L) (h : InclStarts (sem L)) :
    ∀ p ∈ L, ∀ a : T, p.1 ≠ cut a true := by
  intro p hp
  have hlt := hc.1 p hp
  refine h p.1 ⟨p, hp, mem_after.mpr ⟨le_rfl, hlt⟩⟩ ?_
  rintro ⟨q, hq, hat⟩
  rw [mem_at] at hat
  by_cases e : p = q
  · subst e; exact lt_irrefl _ hat.1
  · have : p.2 ≤ q.1 ∨ q.2 ≤ p.1 := by
      have hpw : L.Pairwise (fun x y => x.2 ≤ y.1 ∨ y.2 ≤ x.1) :=
        hc.2.imp (fun h => Or.inl h)
      have : Std.Symm (fun x y : ECut T × ECut T => x.2 ≤ y.1 ∨ y.2 ≤ x.1) :=
        ⟨fun _ _ h => h.symm⟩
      exact hpw.forall hp hq e
    rcases this with h1 | h1
    · exact absurd (hlt.trans_le (h1.trans hat.1.le)) (lt_irrefl _)
    · exact absurd (hat.2.trans_le h1) (lt_irrefl _)

/-- A value bounded below whose pieces start with included bounds is empty exactly when `is_empty`. -/
theorem Inner.isEmpty_exact {i : Inner T} (hs : InclStarts (sem i.ivs)) (hb : i.BoundedBelow) :
    i.isEmpty = false ↔ ∃ t, i.contains t = true := by
  constructor
  · intro h
    obtain ⟨p, hp, hlt⟩ := Inner.exists_piece h
    -- the first piece
    obtain ⟨m, hm, hmlt, hmin⟩ : ∃ m ∈ i.ivs, m.1 < m.2 ∧ ∀ q ∈ i.ivs, q.1 < q.2 → m.1 ≤ q.1 := by
      have : ∀ L : List (ECut T × ECut T), (∃ p ∈ L, p.1 < p.2) →
          ∃ m ∈ L, m.1 < m.2 ∧ ∀ q ∈ L, q.1 < q.2 → m.1 ≤ q.1 := by
        intro L
        induction L with
        | nil => simp
        | cons a L ih =>
          intro hex
          by_cases hL : ∃ p ∈ L, p.1 < p.2
          · obtain ⟨m, hm, hmlt, hmin⟩ := ih hL
            by_cases ha : a.1 < a.2 ∧ a.1 < m.1
            · refine ⟨a, List.mem_cons_self, ha.1, fun q hq hql => ?_⟩
              rcases List.mem_cons.mp hq with rfl | hq
              · exact le_rfl
              · exact ha.2.le.trans (hmin q hq hql)
            · refine ⟨m, List.mem_cons_of_mem _ hm, hmlt, fun q hq hql => ?_⟩
              rcases List.mem_cons.mp hq with rfl | hq
              · exact not_lt.mp (fun hc => ha ⟨hql, hc⟩)
              · exact hmin q hq hql
          · obtain ⟨p, hp, hlt⟩ := hex
            rcases List.mem_cons.mp hp with rfl | hp
            · refine ⟨p, List.mem_cons_self, hlt, fun q hq hql => ?_⟩
              rcases List.mem_cons.mp hq with rfl | hq
              · exact le_rfl
              · exact absurd ⟨q, hq, hql⟩ hL
            · exact absurd ⟨p, hp, hlt⟩ hL
      exact this _ ⟨p, hp, hlt⟩
    have h1 : (m.1, Side.after) ∈ sem i.ivs := ⟨m, hm, mem_after.mpr ⟨le_rfl, hmlt⟩⟩
    have h2 : (m.1, Side.at) ∉ sem i.ivs := by
      rintro ⟨q, hq, hat⟩
      rw [mem_at] at hat
      exact absurd hat.1 (hmin q hq (hat.1.trans hat.2)).not_gt
    have h3 := hs m.1 h1 h2
    have h4 : m.1 ≠ ⊥ := by
      cases i with
      | br r =>
        obtain rfl : m = r.iv := by simpa [Inner.ivs] using hm
        exact (bot_lt_lo _).ne'
      | bs s =>
        obtain ⟨r, _, rfl⟩ := List.mem_map.mp hm
        exact (bot_lt_lo _).ne'
      | lbr r =>
        obtain rfl : m = r.iv := by simpa [Inner.ivs] using hm
        exact (bot_lt_lo _).ne'
      | lbs s =>
        rcases List.mem_append.mp hm with hm | hm
        · obtain ⟨r, _, rfl⟩ := List.mem_map.mp hm
          exact (bot_lt_lo _).ne'
        · obtain rfl := List.mem_singleton.mp hm
          exact (bot_lt_lo _).ne'
      | er => simp [Inner.ivs] at hm
      | _ => exact hb.elim
    rcases cases_ecut m.1 with e | e | ⟨a, s, e⟩
    · exact absurd e h4
    · exact absurd hmlt (by rw [e]; exact not_top_lt)
    · cases s with
      | true => exact absurd e (h3 a)
      | false => exact ⟨a, (i.contains_probe a).mpr (e ▸ h1)⟩
  · rintro ⟨t, ht⟩
    by_contra hc
    rw [← Any.contains_inner,
      C18_isEmpty_sound (.inner i) (by simpa [Any.isEmpty] using hc) t] at ht
    exact absurd ht (by simp)

omit [LinearOrder T] in
theorem Any.IsStd.fresh {a : Any T} (h : a.IsStd) : a.Fresh := by
  cases a <;> first | exact h | trivial

theorem Any.IsStd.spec {a : Any T} (h : a.IsStd) :
    a.toInner.WF ∧ InclStarts (sem a.toInner.ivs) := by
  refine ⟨by cases a <;> first | exact h.elim | trivial, InclStarts.of_pieces ?_⟩
  intro p hp x
  cases a with
  | inner i => exact h.elim
  | range r =>
    obtain rfl := List.mem_singleton.mp hp
    simp [BoundedRange.iv, BoundedRange.ofRange, LowerBound.included, lo, cut_inj]
  | rangeInclusive r =>
    obtain rfl := List.mem_singleton.mp hp
    simp [BoundedRange.iv, BoundedRange.ofRangeInclusive, LowerBound.included, lo, cut_inj]
  | rangeFrom r =>
    obtain rfl := List.mem_singleton.mp hp
    simp [LowerBoundedRange.iv, LowerBoundedRange.ofRangeFrom, LowerBound.included, lo, cut_inj]
  | rangeTo r =>
    obtain rfl := List.mem_singleton.mp hp
    exact bot_lt_cut.ne
  | rangeToInclusive r =>
    obtain rfl := List.mem_singleton.mp hp
    exact bot_lt_cut.ne
  | rangeFull =>
    obtain rfl := List.mem_singleton.mp hp
    exact bot_lt_cut.ne

theorem interSem_inclStarts {a b : Inner T} (wa : a.WF) (wb : b.WF) (ha : InclStarts (sem a.ivs))
    (hb : InclStarts (sem b.ivs)) : InclStarts (interSem a b) := by
  by_cases h : BothLBS a b
  · cases a with
    | lbs a =>
      cases b with
      | lbs b =>
        have pa := Canon.inclStarts (L := a.ivs) wa ha
        have pb := Canon.inclStarts (L := b.ivs) wb hb
        refine (ha.inter ?_).union (InclStarts.inter ?_ hb)
        · rw [← sem_one]
          refine InclStarts.of_pieces fun p hp => pb p ?_
          exact List.mem_append_right _ hp
        · exact InclStarts.of_pieces fun p hp => pa p (List.mem_append_left _ hp)
      | _ => simp [BothLBS, Inner.kind] at h
    | _ => simp [BothLBS, Inner.kind] at h
  · rw [interSem_eq h]
    exact ha.inter hb

/-- Auxiliary to C22: expressions of `union` and `intersection` over std ranges. -/
theorem Expr.eval_std (e : Expr T) (h : e.AllLeaves Any.IsStd) (hp : e.Positive) {c : Any T}
    (hc : e.eval = .ok c) : c.Fresh ∧ c.toInner.WF ∧ InclStarts (sem c.toInner.ivs) := by
  induction e generalizing c with
  | leaf a =>
    obtain rfl : a = c := by simpa [Expr.eval] using hc
    exact ⟨Any.IsStd.fresh h, Any.IsStd.spec h⟩
  | toInner e ih =>
    obtain ⟨a, ha⟩ := C05_expr_no_panic e
    simp only [Expr.eval, ha, Res.ok_bind, Res.pure_eq, Res.ok.injEq] at hc
    subst hc
    exact ⟨trivial, (ih h hp ha).2⟩
  | toSet e ih =>
    obtain ⟨a, ha⟩ := C05_expr_no_panic e
    simp only [Expr.eval, ha, Res.ok_bind, Res.pure_eq, Res.ok.injEq] at hc
    subst hc
    obtain ⟨_, h1, h2⟩ := ih h hp ha
    refine ⟨trivial, ?_, ?_⟩
    · rw [Any.toInner_inner, Any.toSet_eq]; exact Inner.toSet_WF h1
    · rw [Any.toInner_inner, Any.toSet_eq, Inner.toSet_sem]; exact h2
  | union e f ihe ihf =>
    obtain ⟨a, ha⟩ := C05_expr_no_panic e
    obtain ⟨b, hb⟩ := C05_expr_no_panic f
    obtain ⟨c', hc', hs, hw, hf⟩ := Any.union_comp a b
    simp only [Expr.eval, ha, hb, Res.ok_bind, hc', Res.ok.injEq] at hc
    subst hc
    obtain ⟨fa, wa, ia⟩ := ihe h.1 hp.1 ha
    obtain ⟨fb, wb, ib⟩ := ihf h.2 hp.2 hb
    refine ⟨?_, hw wa wb, hs ▸ ia.union ib⟩
    rcases hf with rfl | rfl | ⟨i, rfl⟩
    · exact fa
    · exact fb
    · trivial
  | inter e f ihe ihf =>
    obtain ⟨a, ha⟩ := C05_expr_no_panic e
    obtain ⟨b, hb⟩ := C05_expr_no_panic f
    obtain ⟨x, hx, hs, hw, _⟩ := Any.inter_comp a b
    simp only [Expr.eval, ha, hb, hx, Res.ok_bind, Res.pure_eq, Res.ok.injEq] at hc
    subst hc
    obtain ⟨_, wa, ia⟩ := ihe h.1 hp.1 ha
    obtain ⟨_, wb, ib⟩ := ihf h.2 hp.2 hb
    refine ⟨trivial, hw ⟨wa, wb⟩, ?_⟩
    rw [Any.toInner_inner, hs]
    exact interSem_inclStarts wa wb ia ib
  | complement e ih => exact absurd hp (by simp [Expr.Positive])

/-- C22. Whatever is built from std ranges by `union` and `intersection` (and conversions): if the
result's type has a lower bound, `is_empty` is exact over every totally ordered element type. -/
theorem C22_isEmpty_exact (e : Expr T) (h : e.AllLeaves Any.IsStd) (hp : e.Positive) :
    ∃ c, e.eval = .ok c ∧
      (c.toInner.BoundedBelow → (c.isEmpty = false ↔ ∃ t, c.contains t = true)) := by
  obtain ⟨c, hc⟩ := C05_expr_no_panic e
  refine ⟨c, hc, fun hb => ?_⟩
  obtain ⟨hf, _, hi⟩ := e.eval_std h hp hc
  rw [← Any.isEmpty_toInner, Inner.isEmpty_exact hi hb]
  refine exists_congr fun t => ?_
  rw [Any.contains_toInner c hf]

/-- `((0..3) ∪ (5..)) ∩ ..=7` -/
def sampleStd : Expr Int :=
  .inter (.union (.leaf (.range ⟨0, 3⟩)) (.leaf (.rangeFrom ⟨5⟩))) (.leaf (.rangeToInclusive ⟨7⟩))

example : sampleStd.AllLeaves Any.IsStd ∧ sampleStd.Positive ∧
    ∃ c, sampleStd.eval = .ok c ∧ c.toInner.BoundedBelow :=
  ⟨⟨⟨trivial, trivial⟩, trivial⟩, ⟨⟨trivial, trivial⟩, trivial⟩,
    .inner (.bs ⟨[co 0 3, cc 5 7]⟩), by decide +kernel, trivial⟩

/-- C22. Two std ranges, one of them with a lower bound: `intersects` is exact over every totally
ordered element type. -/
theorem C22_intersects_std (a b : Any T) (ha : a.IsStd) (hb : b.IsStd)
    (h : a.toInner.BoundedBelow ∨ b.toInner.BoundedBelow) :
    ∃ r, a.intersects b = .ok r ∧
      (r = true ↔ ∃ t, a.contains t = true ∧ b.contains t = true) := by
  obtain ⟨c, hc, hs, hw, hk⟩ := Any.inter_comp a b
  have hn : Lossless a b := Inner.Lossless.of_not_both (by
    rintro ⟨h1, _⟩
    cases a <;> first | exact ha.elim | exact h1)
  obtain ⟨c', hc', hm⟩ := C02_inter_contains_partial a b ha.fresh hb.fresh hn
  obtain rfl : c = c' := by rw [hc] at hc'; injection hc'
  have hbb : c.BoundedBelow := by
    have : c.kind = .br ∨ c.kind = .lbr := by
      rw [hk]
      cases a <;> first | exact ha.elim | (cases b <;> first
        | exact hb.elim
        | (exact Or.inl rfl)
        | (exact Or.inr rfl)
        | (exact (h.elim id id).elim))
    clear hk hs hw hc hm hc'
    cases c <;> simp_all [Inner.kind, Inner.BoundedBelow]
  have hi : InclStarts (sem c.ivs) := by
    rw [hs]; exact interSem_inclStarts ha.spec.1 hb.spec.1 ha.spec.2 hb.spec.2
  refine ⟨!c.isEmpty, by simp [Any.intersects, Any.disjoint, hc], ?_⟩
  rw [Bool.not_eq_true', Inner.isEmpty_exact hi hbb]
  refine exists_congr fun t => ?_
  rw [hm, Bool.and_eq_true]

example : (Any.range ⟨0, 4⟩ : Any Int).IsStd ∧ (Any.rangeToInclusive ⟨0⟩ : Any Int).IsStd ∧
    (Any.range ⟨0, 4⟩ : Any Int).toInner.BoundedBelow := ⟨trivial, trivial, trivial⟩

/-! ### C23 Symmetry -/

/-- C23. All pairs of types, all values, `LowerBoundedSet`s included. -/
theorem C23_symmetric (a b : Any T) :
    a.disjoint b = b.disjoint a ∧ a.intersects b = b.intersects a := by
  obtain ⟨x, hx, sx, _, kx⟩ := Any.inter_comp a b
  obtain ⟨y, hy, sy, _, ky⟩ := Any.inter_comp b a
  have h : x.isEmpty = y.isEmpty := by
    by_cases hl : BothLBS a.toInner b.toInner
    · rw [hl.1, hl.2] at kx ky
      cases x <;> cases y <;> simp_all [Inner.kind, interKind, Inner.isEmpty]
    · rw [Bool.eq_iff_iff, Inner.isEmpty_iff_sem, Inner.isEmpty_iff_sem, sx, sy, interSem_eq hl,
        interSem_eq (fun hh => hl hh.symm), Set.inter_comm]
  simp [Any.disjoint, Any.intersects, hx, hy, h]

end Rangetools
