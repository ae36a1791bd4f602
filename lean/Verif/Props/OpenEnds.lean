import Verif.Props.SubsetStd
import Verif.Props.StdUpper

/-!
# C22, C58: everything that can be built from half-open ranges
-/

namespace Rangetools
open Iv Samples

variable {T : Type} [LinearOrder T]

/-- No piece begins or ends just after an element. -/
def Inner.OpenEnds (i : Inner T) : Prop := ∀ p ∈ i.ivs, ∀ a : T, p.1 ≠ cut a true ∧ p.2 ≠ cut a true

/-- Just after an element, nothing begins and nothing ends. -/
def FlatAfter (S : Set (ECut T × Side)) : Prop :=
  ∀ a : T, (cut a true, Side.after) ∈ S ∨ (cut a true, Side.before) ∈ S → (cut a true, Side.at) ∈ S

theorem FlatAfter.of_pieces {L : List (ECut T × ECut T)} (h : ∀ p ∈ L, ∀ a : T, p.1 ≠ cut a true ∧ p.2 ≠ cut a true) :
    FlatAfter (sem L) := by
  rintro a (⟨p, hp, h1⟩ | ⟨p, hp, h1⟩)
  · rw [mem_after] at h1
    exact ⟨p, hp, mem_at.mpr ⟨lt_of_le_of_ne h1.1 (h p hp a).1, h1.2⟩⟩
  · rw [mem_before] at h1
    exact ⟨p, hp, mem_at.mpr ⟨h1.1, lt_of_le_of_ne h1.2 (h p hp a).2.symm⟩⟩

omit [LinearOrder T] in
theorem FlatAfter.union {S S' : Set (ECut T × Side)} (h : FlatAfter S) (h' : FlatAfter S') :
    FlatAfter (S ∪ S') := by
  rintro a ((h1 | h1) | (h1 | h1))
  · exact Or.inl (h a (Or.inl h1))
  · exact Or.inr (h' a (Or.inl h1))
  · exact Or.inl (h a (Or.inr h1))
  · exact Or.inr (h' a (Or.inr h1))

omit [LinearOrder T] in
theorem FlatAfter.inter {S S' : Set (ECut T × Side)} (h : FlatAfter S) (h' : FlatAfter S') : FlatAfter (S ∩ S') := by
  rintro a (h1 | h1)
  · exact ⟨h a (Or.inl h1.1), h' a (Or.inl h1.2)⟩
  · exact ⟨h a (Or.inr h1.1), h' a (Or.inr h1.2)⟩

theorem FlatAfter.csem {L : List (ECut T × ECut T)} (h : ∀ p ∈ L, ∀ a : T, p.1 ≠ cut a true ∧ p.2 ≠ cut a true) :
    FlatAfter (csem L) := by
  have hb : ∀ a : T, (⊥ : ECut T) < cut a true := fun a => bot_lt_cut
  have ht : ∀ a : T, cut a true < (⊤ : ECut T) := fun a => cut_lt_top
  rintro a (⟨-, h1⟩ | ⟨-, h1⟩) <;> refine ⟨mem_at.mpr ⟨hb a, ht a⟩, fun p hp => ?_⟩ <;> have h2 := h1 p hp <;>
    obtain ⟨n1, n2⟩ := h p hp a <;> rcases h2 with h2 | h2
  · exact Or.inl (mem_at.mpr ⟨hb a, (mem_after.mp h2).2⟩)
  · exact Or.inr (mem_at.mpr ⟨lt_of_le_of_ne (mem_after.mp h2).1 n2, ht a⟩)
  · exact Or.inl (mem_at.mpr ⟨hb a, lt_of_le_of_ne (mem_before.mp h2).2 n1.symm⟩)
  · exact Or.inr (mem_at.mpr ⟨(mem_before.mp h2).1, ht a⟩)

theorem Canon.openEnds {L : List (ECut T × ECut T)} (hc : Canon L) (h : FlatAfter (sem L)) :
    ∀ p ∈ L, ∀ a : T, p.1 ≠ cut a true ∧ p.2 ≠ cut a true := by
  have hpw : L.Pairwise (fun x y => x.2 ≤ y.1 ∨ y.2 ≤ x.1) := hc.2.imp (fun h => Or.inl h)
  have : Std.Symm (fun x y : ECut T × ECut T => x.2 ≤ y.1 ∨ y.2 ≤ x.1) := ⟨fun _ _ h => h.symm⟩
  intro p hp a
  have hlt := hc.1 p hp
  have key : ∀ c, c = p.1 ∨ c = p.2 → ∀ q ∈ L, ¬ (q.1 < c ∧ c < q.2) := by
    rintro c hcp q hq ⟨h1, h2⟩
    by_cases e : p = q
    · subst e
      rcases hcp with rfl | rfl
      · exact lt_irrefl _ h1
      · exact lt_irrefl _ h2
    · rcases hpw.forall hp hq e with h3 | h3 <;> rcases hcp with rfl | rfl
      · exact absurd (hlt.trans_le (h3.trans h1.le)) (lt_irrefl _)
      · exact absurd (h3.trans_lt h1) (lt_irrefl _)
      · exact absurd (h2.trans_le h3) (lt_irrefl _)
      · exact absurd (hlt.trans (h2.trans_le h3)) (lt_irrefl _)
  constructor
  · intro e
    obtain ⟨q, hq, hat⟩ := h a (Or.inl ⟨p, hp, mem_after.mpr ⟨e.le, e ▸ hlt⟩⟩)
    exact key _ (Or.inl e.symm) q hq (mem_at.mp hat)
  · intro e
    obtain ⟨q, hq, hat⟩ := h a (Or.inr ⟨p, hp, mem_before.mpr ⟨e ▸ hlt, e.ge⟩⟩)
    exact key _ (Or.inr e.symm) q hq (mem_at.mp hat)

theorem Inner.OpenEnds.flat {i : Inner T} (h : i.OpenEnds) : FlatAfter (sem i.ivs) := .of_pieces h

/-- Values of all types but `BoundedRange`, whose ends may be the wrong way round. -/
theorem Inner.openEnds_of_flat {i : Inner T} (w : i.WF) (hk : i.kind ≠ .br) (h : FlatAfter (sem i.ivs)) : i.OpenEnds := by
  have one : ∀ p : ECut T × ECut T, p.1 < p.2 → Canon [p] := fun p hp =>
    ⟨fun q hq => by rw [List.mem_singleton.mp hq]; exact hp, List.pairwise_singleton _ _⟩
  refine Canon.openEnds ?_ h
  cases i with
  | br r => exact absurd rfl hk
  | bs s => exact w
  | lbs s => exact w
  | ubs s => exact w
  | us s => exact w
  | lbr r => exact one _ (lo_lt_top _)
  | ubr r => exact one _ (bot_lt_hi _)
  | ur => exact one _ bot_lt_top
  | er => exact canon_nil

theorem interSem_flat {a b : Inner T} (ha : a.OpenEnds) (hb : b.OpenEnds) : FlatAfter (interSem a b) := by
  by_cases h : BothLBS a b
  · cases a with
    | lbs a =>
      cases b with
      | lbs b =>
        refine (FlatAfter.inter ha.flat ?_).union (FlatAfter.inter ?_ hb.flat)
        · rw [← sem_one]
          exact FlatAfter.of_pieces fun p hp => hb p (List.mem_append_right _ hp)
        · exact FlatAfter.of_pieces fun p hp => ha p (List.mem_append_left _ hp)
      | _ => simp [BothLBS, Inner.kind] at h
    | _ => simp [BothLBS, Inner.kind] at h
  · rw [interSem_eq h]
    exact ha.flat.inter hb.flat

theorem Inner.inter_br_ends {i j : Inner T} {r : BoundedRange T} (h : i.inter j = .ok (.br r)) (hi : i.OpenEnds)
    (hj : j.OpenEnds) : (Inner.br r).OpenEnds := by
  have mx : ∀ {x y c : ECut T}, x ≠ c → y ≠ c → max x y ≠ c := fun {x y c} h1 h2 => by
    rcases max_choice x y with e | e <;> rw [e] <;> assumption
  have mn : ∀ {x y c : ECut T}, x ≠ c → y ≠ c → min x y ≠ c := fun {x y c} h1 h2 => by
    rcases min_choice x y with e | e <;> rw [e] <;> assumption
  obtain ⟨c, hc, -, -, hk⟩ := Inner.inter_comp i j
  obtain rfl : c = .br r := Res.ok.inj (hc.symm.trans h)
  intro p hp a
  obtain rfl := List.mem_singleton.mp hp
  cases i with
  | br x =>
    have hx := hi _ (List.mem_singleton.mpr rfl) a
    cases j with
    | br y =>
      have hy := hj _ (List.mem_singleton.mpr rfl) a
      obtain rfl : x.interBR y = r := Inner.br.inj (Res.ok.inj h)
      simp only [BoundedRange.interBR, BoundedRange.iv, lo_max, hi_min]
      exact ⟨mx hx.1 hy.1, mn hx.2 hy.2⟩
    | lbr y =>
      have hy := hj _ (List.mem_singleton.mpr rfl) a
      obtain rfl : x.interLBR y = r := Inner.br.inj (Res.ok.inj h)
      simp only [BoundedRange.interLBR, BoundedRange.iv, lo_max]
      exact ⟨mx hx.1 hy.1, hx.2⟩
    | ubr y =>
      have hy := hj _ (List.mem_singleton.mpr rfl) a
      obtain rfl : x.interUBR y = r := Inner.br.inj (Res.ok.inj h)
      simp only [BoundedRange.interUBR, BoundedRange.iv, hi_min]
      exact ⟨hx.1, mn hx.2 hy.2⟩
    | ur =>
      obtain rfl : x = r := Inner.br.inj (Res.ok.inj h)
      exact hx
    | _ => cases hk
  | lbr x =>
    have hx := hi _ (List.mem_singleton.mpr rfl) a
    cases j with
    | br y =>
      have hy := hj _ (List.mem_singleton.mpr rfl) a
      obtain rfl : x.interBR y = r := Inner.br.inj (Res.ok.inj h)
      simp only [LowerBoundedRange.interBR, BoundedRange.interLBR, BoundedRange.iv, lo_max]
      exact ⟨mx hy.1 hx.1, hy.2⟩
    | ubr y =>
      have hy := hj _ (List.mem_singleton.mpr rfl) a
      obtain rfl : x.interUBR y = r := Inner.br.inj (Res.ok.inj h)
      exact ⟨hx.1, hy.2⟩
    | _ => cases hk
  | ubr x =>
    have hx := hi _ (List.mem_singleton.mpr rfl) a
    cases j with
    | br y =>
      have hy := hj _ (List.mem_singleton.mpr rfl) a
      obtain rfl : x.interBR y = r := Inner.br.inj (Res.ok.inj h)
      simp only [UpperBoundedRange.interBR, BoundedRange.interUBR, BoundedRange.iv, hi_min]
      exact ⟨hy.1, mn hy.2 hx.2⟩
    | lbr y =>
      have hy := hj _ (List.mem_singleton.mpr rfl) a
      obtain rfl : x.interLBR y = r := Inner.br.inj (Res.ok.inj h)
      exact ⟨hy.1, hx.2⟩
    | _ => cases hk
  | ur =>
    obtain rfl : j = .br r := Res.ok.inj h
    exact hj _ (List.mem_singleton.mpr rfl) a
  | _ => cases j <;> cases hk

theorem Any.inter_br_ends {a b : Any T} {r : BoundedRange T} (h : a.inter b = .ok (.br r)) (ha : a.toInner.OpenEnds)
    (hb : b.toInner.OpenEnds) : (Inner.br r).OpenEnds := by
  have std : ∀ i j : Inner T, i.OpenEnds → j.OpenEnds → i.interFromStd j = .ok (.br r) → (Inner.br r).OpenEnds := by
    intro i j hi hj h
    cases j with
    | er => cases h
    | br y => exact Inner.inter_br_ends h hi hj
    | lbr y => exact Inner.inter_br_ends h hi hj
    | ubr y => exact Inner.inter_br_ends h hi hj
    | ur => exact Inner.inter_br_ends h hi hj
    | _ => exact Inner.inter_br_ends h hj hi
  have frm : ∀ i j : Inner T, i.OpenEnds → j.OpenEnds → (match j with | .er => (.ok .er : Res (Inner T)) | o => i.inter o) = .ok (.br r) →
      (Inner.br r).OpenEnds := by
    intro i j hi hj h
    cases j with
    | er => cases h
    | _ => exact Inner.inter_br_ends h hi hj
  cases a with
  | inner i => exact Inner.inter_br_ends h ha hb
  | rangeFrom x => exact frm _ _ ha hb h
  | rangeFull => exact frm _ _ ha hb h
  | _ => exact std _ _ ha hb h

theorem Any.OpenEnd.ends {b : Any T} (h : b.OpenEnd) : b.toInner.OpenEnds := by
  intro p hp a
  cases b with
  | range r =>
    obtain rfl := List.mem_singleton.mp hp
    simp [BoundedRange.iv, BoundedRange.ofRange, LowerBound.included, UpperBound.excluded, lo, hi, cut_inj]
  | rangeFrom r =>
    obtain rfl := List.mem_singleton.mp hp
    refine ⟨?_, cut_lt_top.ne'⟩
    simp [LowerBoundedRange.iv, LowerBoundedRange.ofRangeFrom, LowerBound.included, lo, cut_inj]
  | rangeTo r =>
    obtain rfl := List.mem_singleton.mp hp
    refine ⟨bot_lt_cut.ne, ?_⟩
    simp [UpperBoundedRange.iv, UpperBoundedRange.ofRangeTo, UpperBound.excluded, hi, cut_inj]
  | rangeFull =>
    obtain rfl := List.mem_singleton.mp hp
    exact ⟨bot_lt_cut.ne, cut_lt_top.ne'⟩
  | _ => exact h.elim

/-- Auxiliary to C22: expressions, complements included, over half-open std ranges. -/
theorem Expr.eval_open (e : Expr T) (h : e.AllLeaves Any.OpenEnd) {c : Any T} (hc : e.eval = .ok c) :
    c.Fresh ∧ c.toInner.WF ∧ c.toInner.OpenEnds := by
  have set : ∀ {i : Inner T}, i.WF → i.OpenEnds → i.toSet.toInner.WF ∧ i.toSet.toInner.OpenEnds := by
    intro i w o
    refine ⟨Inner.toSet_WF w, Inner.openEnds_of_flat (Inner.toSet_WF w) ?_ ?_⟩
    · rw [Inner.toSet_kind]; cases i <;> exact fun h => by cases h
    · rw [Inner.toSet_sem]; exact o.flat
  induction e generalizing c with
  | leaf a =>
    obtain rfl : a = c := by simpa [Expr.eval] using hc
    refine ⟨?_, ?_, Any.OpenEnd.ends h⟩ <;> cases a <;> first | exact h.elim | trivial
  | toInner e ih =>
    obtain ⟨a, ha⟩ := C05_expr_no_panic e
    simp only [Expr.eval, ha, Res.ok_bind, Res.pure_eq, Res.ok.injEq] at hc
    subst hc
    exact ⟨trivial, (ih h ha).2⟩
  | toSet e ih =>
    obtain ⟨a, ha⟩ := C05_expr_no_panic e
    simp only [Expr.eval, ha, Res.ok_bind, Res.pure_eq, Res.ok.injEq] at hc
    subst hc
    obtain ⟨_, h1, h2⟩ := ih h ha
    refine ⟨trivial, ?_⟩
    rw [Any.toInner_inner, Any.toSet_eq]
    exact set h1 h2
  | union e f ihe ihf =>
    obtain ⟨a, ha⟩ := C05_expr_no_panic e
    obtain ⟨b, hb⟩ := C05_expr_no_panic f
    obtain ⟨fa, wa, oa⟩ := ihe h.1 ha
    obtain ⟨fb, wb, ob⟩ := ihf h.2 hb
    simp only [Expr.eval, ha, hb, Res.ok_bind] at hc
    rcases Any.union_cases a b with ⟨_, hu⟩ | ⟨_, hu⟩ | ⟨_, _, v, hu, hv⟩ <;>
      obtain rfl := Res.ok.inj (hu.symm.trans hc)
    · exact ⟨fb, wb, ob⟩
    · exact ⟨fa, wa, oa⟩
    · obtain ⟨v', hv', hs, hw, hk⟩ := SetVal.union_comp a.toSet b.toSet
      obtain rfl : v = v' := Res.ok.inj (hv.symm.trans hv')
      rw [Any.toSet_eq, Any.toSet_eq] at hs hw
      obtain ⟨wa', oa'⟩ := set wa oa
      obtain ⟨wb', ob'⟩ := set wb ob
      refine ⟨trivial, hw wa' wb', Inner.openEnds_of_flat (hw wa' wb') ?_ ?_⟩
      · cases v <;> exact fun h => by cases h
      · rw [Any.toInner_inner, hs]; exact oa'.flat.union ob'.flat
  | inter e f ihe ihf =>
    obtain ⟨a, ha⟩ := C05_expr_no_panic e
    obtain ⟨b, hb⟩ := C05_expr_no_panic f
    obtain ⟨_, wa, oa⟩ := ihe h.1 ha
    obtain ⟨_, wb, ob⟩ := ihf h.2 hb
    obtain ⟨x, hx, hs, hw, _⟩ := Any.inter_comp a b
    simp only [Expr.eval, ha, hb, hx, Res.ok_bind, Res.pure_eq, Res.ok.injEq] at hc
    subst hc
    refine ⟨trivial, hw ⟨wa, wb⟩, ?_⟩
    by_cases hk : x.kind = .br
    · cases x with
      | br r => exact Any.inter_br_ends hx oa ob
      | _ => cases hk
    · exact Inner.openEnds_of_flat (hw ⟨wa, wb⟩) hk (by rw [Any.toInner_inner, hs]; exact interSem_flat oa ob)
  | complement e ih =>
    obtain ⟨a, ha⟩ := C05_expr_no_panic e
    obtain ⟨_, wa, oa⟩ := ih h ha
    obtain ⟨x, hx, hs, hw, hk⟩ := Any.complement_comp a
    simp only [Expr.eval, ha, hx, Res.ok_bind, Res.pure_eq, Res.ok.injEq] at hc
    subst hc
    refine ⟨trivial, hw trivial, Inner.openEnds_of_flat (hw trivial) ?_ (by rw [Any.toInner_inner, hs]; exact FlatAfter.csem oa)⟩
    rw [Any.toInner_inner, hk]
    cases a.toInner.kind <;> exact fun h => by cases h

/-- C22. Whatever is built from half-open std ranges by `union`, `intersection` and `complement`: if the result's type has a
lower bound, `is_empty` is exact over every totally ordered element type. -/
theorem C22_isEmpty_half_open (e : Expr T) (h : e.AllLeaves Any.OpenEnd) :
    ∃ c, e.eval = .ok c ∧ (c.toInner.BoundedBelow → (c.isEmpty = false ↔ ∃ t, c.contains t = true)) := by
  obtain ⟨c, hc⟩ := C05_expr_no_panic e
  refine ⟨c, hc, fun hb => ?_⟩
  obtain ⟨hf, _, ho⟩ := e.eval_open h hc
  rw [← Any.isEmpty_toInner, Inner.isEmpty_exact (InclStarts.of_pieces fun p hp a => (ho p hp a).1) hb]
  exact exists_congr fun t => by rw [Any.contains_toInner c hf]

/-- C22. Two such values, one of a type with a lower bound: `intersects` is exact over every totally ordered element type. -/
theorem C22_intersects_half_open (e f : Expr T) (he : e.AllLeaves Any.OpenEnd) (hf : f.AllLeaves Any.OpenEnd) {a b : Any T}
    (ha : e.eval = .ok a) (hb : f.eval = .ok b) (h : a.toInner.BoundedBelow ∨ b.toInner.BoundedBelow) :
    ∃ r, a.intersects b = .ok r ∧ (r = true ↔ ∃ t, a.contains t = true ∧ b.contains t = true) := by
  obtain ⟨fa, _, _⟩ := e.eval_open he ha
  obtain ⟨fb, _, _⟩ := f.eval_open hf hb
  obtain ⟨d, _, hi, _, hs⟩ := C20_disjoint_sound a b
  obtain ⟨c, hc, hsub⟩ := C02_inter_subset a b fa fb
  obtain ⟨c', hc', -, -, hk⟩ := Any.inter_comp a b
  obtain rfl : c = c' := Res.ok.inj (hc.symm.trans hc')
  have hi' : a.intersects b = .ok (!c.isEmpty) := by simp [Any.intersects, Any.disjoint, hc]
  refine ⟨!c.isEmpty, hi', fun hr => ?_, fun hx => ?_⟩
  · have hbb : c.BoundedBelow := by
      revert hk h
      generalize a.toInner = i
      generalize b.toInner = j
      intro h hk
      cases i <;> cases j <;> cases c <;> first | trivial | exact (h.elim id id).elim
    obtain ⟨v, hv, hx⟩ := C22_isEmpty_half_open (.inter e f) ⟨he, hf⟩
    obtain rfl : Any.inner c = v := by simpa [Expr.eval, ha, hb, hc] using hv
    obtain ⟨t, ht⟩ := (hx hbb).mp (by simpa [Any.isEmpty] using hr)
    exact ⟨t, hsub t ht⟩
  · rw [hi] at hi'
    rw [← Res.ok.inj hi', hs hx]; rfl

/-- C58. Two such values, the first of a type with a lower bound: the subset test `a.disjoint(b.complement())` is exact over every
totally ordered element type, even where the intersection with the complement loses elements. -/
theorem C58_subset_half_open (e f : Expr T) (he : e.AllLeaves Any.OpenEnd) (hf : f.AllLeaves Any.OpenEnd) {a b : Any T}
    (ha : e.eval = .ok a) (hb : f.eval = .ok b) (h : a.toInner.BoundedBelow) :
    ∃ c d, b.complement = .ok c ∧ a.disjoint (.inner c) = .ok d ∧
      (d = true ↔ ∀ t, a.contains t = true → b.contains t = true) := by
  obtain ⟨fb, _, _⟩ := f.eval_open hf hb
  obtain ⟨c, hc, hx⟩ := C03_complement_contains b fb
  obtain ⟨r, hr, hi⟩ := C22_intersects_half_open e (.complement f) he hf ha (b := .inner c) (by simp [Expr.eval, hb, hc]) (Or.inl h)
  obtain ⟨d, hd, hn, -⟩ := C20_disjoint_sound a (.inner c)
  obtain rfl : r = !d := Res.ok.inj (hr.symm.trans hn)
  refine ⟨c, d, hc, hd, ?_⟩
  rw [← Bool.not_eq_false, ← Bool.not_eq_true', hi, not_exists]
  refine forall_congr' fun t => ?_
  rw [Any.contains_inner, hx]
  cases a.contains t <;> cases b.contains t <;> simp

/-- C22, half-open is needed once complements are taken: the part of `3..5` outside `..=4` is not empty, according to `is_empty`. -/
theorem C22_half_open_needed : ∃ (e : Expr Int) (c : Any Int), e.AllLeaves Any.IsStd ∧ e.eval = .ok c ∧
    c.toInner.BoundedBelow ∧ c.isEmpty = false ∧ ∀ t, c.contains t = false := by
  refine ⟨.inter (.leaf (.range ⟨3, 5⟩)) (.complement (.leaf (.rangeToInclusive ⟨4⟩))), .inner (.br ⟨.excluded 4, .excluded 5⟩),
    ⟨trivial, trivial⟩, by decide +kernel, trivial, by decide +kernel, fun t => ?_⟩
  rw [← Bool.not_eq_true]
  simp only [Any.contains, Inner.contains, BoundedRange.contains, LowerBound.excluded, UpperBound.excluded, Bool.and_eq_true,
    decide_eq_true_eq]
  omega

/-- `(0..3) ∪ (5..)`, without `7..9`. -/
def sampleOpen : Expr Int :=
  .inter (.union (.leaf (.range ⟨0, 3⟩)) (.leaf (.rangeFrom ⟨5⟩))) (.complement (.leaf (.range ⟨7, 9⟩)))

example : sampleOpen.AllLeaves Any.OpenEnd ∧ ¬ sampleOpen.Positive ∧ ∃ c, sampleOpen.eval = .ok c ∧ c.toInner.BoundedBelow :=
  ⟨⟨⟨trivial, trivial⟩, trivial⟩, fun h => h.2, .inner (.lbs ⟨⟨[co 0 3, co 5 7]⟩, ci 9⟩), by decide +kernel, trivial⟩

/-- A value of a type without a lower bound, over an element type without a least element, has elements. -/
theorem Inner.exists_contains_below [Nonempty T] [NoMinOrder T] {i : Inner T} (hb : ¬ i.BoundedBelow) :
    ∃ t, i.contains t = true := by
  cases i <;> first | exact absurd trivial hb | skip
  case ubr r => exact r.exists_contains
  case ubs s =>
    obtain ⟨t, ht⟩ := s.upperBoundedRange.exists_contains
    exact ⟨t, by simp [Inner.contains, UpperBoundedSet.contains, ht]⟩
  case ur => exact ⟨Classical.arbitrary T, rfl⟩
  case us s =>
    cases s with
    | full => exact ⟨Classical.arbitrary T, rfl⟩
    | piecewise q =>
      obtain ⟨t, ht⟩ := q.upperBoundedRange.exists_contains
      exact ⟨t, by simp [Inner.contains, UnboundedSet.contains, PiecewiseUnboundedSet.contains, ht]⟩

/-- C22. Over an element type without a least element, such as the integers, `is_empty` is exact for everything that can be built
from half-open std ranges. -/
theorem C22_isEmpty_half_open_no_min [Nonempty T] [NoMinOrder T] (e : Expr T) (h : e.AllLeaves Any.OpenEnd) :
    ∃ c, e.eval = .ok c ∧ (c.isEmpty = false ↔ ∃ t, c.contains t = true) := by
  obtain ⟨c, hc, hx⟩ := C22_isEmpty_half_open e h
  refine ⟨c, hc, ?_⟩
  by_cases hb : c.toInner.BoundedBelow
  · exact hx hb
  · have hf := (e.eval_open h hc).1
    simp only [← Any.isEmpty_toInner, ← Any.contains_toInner c hf]
    refine iff_of_true ?_ (Inner.exists_contains_below hb)
    revert hb
    cases c.toInner <;> intro hb <;> first | exact absurd trivial hb | rfl

/-- C58. And the subset test is exact for all pairs of such values. -/
theorem C58_subset_half_open_no_min [Nonempty T] [NoMinOrder T] (e f : Expr T) (he : e.AllLeaves Any.OpenEnd)
    (hf : f.AllLeaves Any.OpenEnd) {a b : Any T} (ha : e.eval = .ok a) (hb : f.eval = .ok b) :
    ∃ c d, b.complement = .ok c ∧ a.disjoint (.inner c) = .ok d ∧
      (d = true ↔ ∀ t, a.contains t = true → b.contains t = true) := by
  obtain ⟨fa, _, _⟩ := e.eval_open he ha
  obtain ⟨fb, _, _⟩ := f.eval_open hf hb
  obtain ⟨c, d, hc, hd, hs⟩ := C58_subset a b fb
  refine ⟨c, d, hc, hd, hs, fun h => ?_⟩
  obtain ⟨c', hc', hx⟩ := C03_complement_contains b fb
  obtain rfl : c = c' := Res.ok.inj (hc.symm.trans hc')
  obtain ⟨i, hi, hsub⟩ := C02_inter_subset a (.inner c) fa trivial
  obtain ⟨v, hv, hE⟩ := C22_isEmpty_half_open_no_min (.inter e (.complement f)) ⟨he, hf⟩
  obtain rfl : Any.inner i = v := by simpa [Expr.eval, ha, hb, hc, hi] using hv
  obtain rfl : i.isEmpty = d := by simpa [Any.disjoint, hi] using hd
  rw [← Bool.not_eq_false]
  intro hn
  obtain ⟨t, ht⟩ := hE.mp hn
  obtain ⟨h1, h2⟩ := hsub t ht
  rw [Any.contains_inner, hx, h t h1] at h2
  cases h2

/-- The integers have no least element; `..3 ∪ (..5)ᶜ` is such a value, without a lower bound. -/
example : Nonempty Int ∧ NoMinOrder Int ∧ ∃ c : Any Int,
    (Expr.union (.leaf (.rangeTo ⟨3⟩)) (.complement (.leaf (.rangeTo ⟨5⟩)))).eval = .ok c ∧ ¬ c.toInner.BoundedBelow :=
  ⟨inferInstance, inferInstance, .inner (.us (.piecewise ⟨io 3, ⟨[]⟩, ci 5⟩)), by decide +kernel, id⟩

/-- C22. `is_empty` is exact for everything that can be built from half-open std ranges precisely over the element types that have
elements but no least one. -/
theorem C22_half_open_types :
    (∀ e : Expr T, e.AllLeaves Any.OpenEnd → ∃ c, e.eval = .ok c ∧ (c.isEmpty = false ↔ ∃ t, c.contains t = true)) ↔
      NoMinOrder T ∧ Nonempty T := by
  constructor
  · intro h
    refine ⟨⟨fun m => ?_⟩, ?_⟩
    · obtain ⟨c, hc, hx⟩ := h (.leaf (.rangeTo ⟨m⟩)) trivial
      obtain rfl : Any.rangeTo ⟨m⟩ = c := Res.ok.inj hc
      obtain ⟨t, ht⟩ := hx.mp rfl
      exact ⟨t, by simpa [Any.contains, RangeTo.contains] using ht⟩
    · obtain ⟨c, hc, hx⟩ := h (.leaf .rangeFull) trivial
      obtain rfl : Any.rangeFull = c := Res.ok.inj hc
      obtain ⟨t, -⟩ := hx.mp rfl
      exact ⟨t⟩
  · rintro ⟨_, _⟩ e he
    exact C22_isEmpty_half_open_no_min e he

end Rangetools
