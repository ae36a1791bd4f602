import Verif.Spec.Repair
import Verif.Props.Mono
import Verif.Props.Lattice

/-!
# C76: one line to repair

The failures of C02, C05, C10, C11, C13, C14, C58 and C71 all come from one line.  With that line changed
(`Spec/Repair.lean`) each of these claims holds without exception, and no other result changes.
-/

namespace Rangetools
open Iv Samples
variable {T : Type} [LinearOrder T]

theorem Any.interRepaired_eq {a b : Any T} (h : ¬ BothLBS a.toInner b.toInner) : a.interRepaired b = a.inter b := by
  unfold Any.interRepaired
  split
  · rename_i h1 h2; exact absurd ⟨by rw [h1]; rfl, by rw [h2]; rfl⟩ h
  · rfl

theorem LowerBoundedSet.interRepaired_comp (a b : LowerBoundedSet T) :
    Comp (a.interRepaired b) (sem a.ivs ∩ sem b.ivs) (Canon a.ivs) := by
  obtain ⟨x, hx1, hx2, -⟩ := LowerBoundedSet.interBS_comp a b.ranges
  rw [LowerBoundedSet.interRepaired]
  simp only [hx1, Res.ok_bind]
  refine (LowerBoundedSet.addSet_comp _ x).congr ?_ (LowerBoundedSet.interLBR_canon _)
  have hx' : sem x.ivs = _ := hx2
  rw [LowerBoundedSet.interLBR_sem, hx', LowerBoundedSet.ivs.eq_def b, sem_append, sem_one, ← Set.inter_union_distrib_left,
    Set.union_comm]

theorem Any.interRepaired_comp (a b : Any T) :
    IComp (a.interRepaired b) (sem a.toInner.ivs ∩ sem b.toInner.ivs) (a.toInner.WF ∧ b.toInner.WF)
      (interKind a.toInner.kind b.toInner.kind) := by
  by_cases h : BothLBS a.toInner b.toInner
  · unfold Any.interRepaired
    split
    · rename_i s o hs ho
      rw [hs, ho]
      exact IComp.lbs (s.interRepaired_comp o) fun h => h.1
    · rename_i hn
      obtain ⟨h1, h2⟩ := h
      cases ha : a.toInner <;> rw [ha] at h1 <;> try cases h1
      cases hb : b.toInner <;> rw [hb] at h2 <;> try cases h2
      exact absurd hb (hn _ _ ha)
  · rw [Any.interRepaired_eq h, ← interSem_eq h]
    exact Any.inter_comp a b

/-- C76. C02 without exception. -/
theorem C76_contains (a b : Any T) (ha : a.Fresh) (hb : b.Fresh) :
    ∃ c, a.interRepaired b = .ok c ∧ ∀ t, c.contains t = (a.contains t && b.contains t) := by
  obtain ⟨c, hc, hs, _, _⟩ := Any.interRepaired_comp a b
  refine ⟨c, hc, fun t => ?_⟩
  rw [Bool.eq_iff_iff, Bool.and_eq_true, c.contains_probe, a.contains_probe ha, b.contains_probe hb, hs, Set.mem_inter_iff]

/-- C76. On values a program can build the repair changes a result only where it was wrong. -/
theorem C76_conservative (a b : Any T) (ha : a.toInner.Normal) (hb : b.toInner.Normal) :
    a.interRepaired b = a.inter b ↔ Lossless a b := by
  obtain ⟨c, hc, sc, wc, kc⟩ := Any.interRepaired_comp a b
  obtain ⟨d, hd, sd, wd, kd⟩ := Any.inter_comp a b
  constructor
  · intro h
    obtain rfl : c = d := by rw [hc, hd] at h; injection h
    exact lossless_of_interSem ha hb (by rw [← sd, sc])
  · intro h
    by_cases hl : BothLBS a.toInner b.toInner
    · rw [Inner.normal_iff] at ha hb
      rw [hc, hd]
      congr 1
      refine Inner.eq_of_sem (kc.trans kd.symm) (by rw [kc, hl.1, hl.2]; rfl) (wc ⟨ha, hb⟩) (wd ⟨ha, hb⟩) ?_
      rw [sc, sd, interSem_of_lossless h]
    · exact Any.interRepaired_eq hl

theorem Expr.evalRepaired_spec (e : Expr T) (h : e.AllLeaves Any.Fresh) :
    ∃ c, e.evalRepaired = .ok c ∧ c.Fresh ∧ ∀ t, c.contains t = e.denotes t := by
  induction e with
  | leaf a => exact ⟨a, rfl, h, fun _ => rfl⟩
  | toInner e ih =>
    obtain ⟨c, hc, fc, ht⟩ := ih h
    refine ⟨.inner c.toInner, by simp [Expr.evalRepaired, hc], trivial, fun t => ?_⟩
    rw [Expr.denotes, ← ht]
    exact c.contains_toInner fc t
  | toSet e ih =>
    obtain ⟨c, hc, fc, ht⟩ := ih h
    refine ⟨.inner c.toSet.toInner, by simp [Expr.evalRepaired, hc], trivial, fun t => ?_⟩
    rw [Expr.denotes, ← ht, Bool.eq_iff_iff, c.contains_probe fc]
    rw [Any.contains, Inner.contains_probe, Any.toSet_eq, Inner.toSet_sem]
  | union e f ihe ihf =>
    obtain ⟨a, ha, fa, hat⟩ := ihe h.1
    obtain ⟨b, hb, fb, hbt⟩ := ihf h.2
    obtain ⟨c, hc, hct⟩ := C01_union_contains a b fa fb
    refine ⟨c, by simp [Expr.evalRepaired, ha, hb, hc], ?_, fun t => by rw [hct, hat, hbt, Expr.denotes]⟩
    obtain ⟨c', hc', _, _, hf⟩ := Any.union_comp a b
    obtain rfl : c = c' := by rw [hc] at hc'; injection hc'
    rcases hf with rfl | rfl | ⟨i, rfl⟩
    · exact fa
    · exact fb
    · trivial
  | inter e f ihe ihf =>
    obtain ⟨a, ha, fa, hat⟩ := ihe h.1
    obtain ⟨b, hb, fb, hbt⟩ := ihf h.2
    obtain ⟨c, hc, hct⟩ := C76_contains a b fa fb
    refine ⟨.inner c, by simp [Expr.evalRepaired, ha, hb, hc], trivial, fun t => ?_⟩
    rw [Any.contains, hct, hat, hbt, Expr.denotes]
  | complement e ih =>
    obtain ⟨a, ha, fa, hat⟩ := ih h
    obtain ⟨c, hc, hct⟩ := C03_complement_contains a fa
    refine ⟨.inner c, by simp [Expr.evalRepaired, ha, hc], trivial, fun t => ?_⟩
    rw [Any.contains, hct, hat, Expr.denotes]

/-- C76. C05 without exception. -/
theorem C76_expr_contains (e : Expr T) (h : e.AllLeaves Any.Fresh) :
    ∃ c, e.evalRepaired = .ok c ∧ ∀ t, c.contains t = e.denotes t := by
  obtain ⟨c, hc, -, ht⟩ := e.evalRepaired_spec h
  exact ⟨c, hc, ht⟩

-- the expression of `C05_counterexample`
example : badExpr.AllLeaves Any.Fresh ∧ badExpr.evalRepaired = .ok (.inner (.lbs ⟨⟨[co 1 3]⟩, ci 10⟩)) :=
  ⟨by simp [badExpr, Expr.AllLeaves, Any.Fresh], by decide +kernel⟩

/-- C76. C10 and C11 without exception, up to `==`. -/
theorem C76_comm_assoc (a b c : Any T) (ha : a.toInner.Normal) (hb : b.toInner.Normal) (hc : c.toInner.Normal) :
    a.interRepaired b = b.interRepaired a ∧
    ∃ x y, a.interRepaired b = .ok x ∧ b.interRepaired c = .ok y ∧ x.Normal ∧
      (Any.inner x).interRepaired c = a.interRepaired (.inner y) := by
  have wa := (Inner.normal_iff _).mp ha
  have wb := (Inner.normal_iff _).mp hb
  have wc := (Inner.normal_iff _).mp hc
  constructor
  · by_cases hl : BothLBS a.toInner b.toInner
    · obtain ⟨x, hx, sx, wx, kx⟩ := Any.interRepaired_comp a b
      obtain ⟨y, hy, sy, wy, ky⟩ := Any.interRepaired_comp b a
      rw [hx, hy]
      congr 1
      refine Inner.eq_of_sem (by rw [kx, ky, interKind_comm]) (by rw [kx, hl.1, hl.2]; rfl) (wx ⟨wa, wb⟩) (wy ⟨wb, wa⟩) ?_
      rw [sx, sy, Set.inter_comm]
    · have hl' : ¬ BothLBS b.toInner a.toInner := fun h => hl ⟨h.2, h.1⟩
      rw [Any.interRepaired_eq hl, Any.interRepaired_eq hl']
      exact C10_inter_comm_partial a b ha hb (.of_not_both (by rw [Inner.isLBS_iff, Inner.isLBS_iff]; exact hl))
        (.of_not_both (by rw [Inner.isLBS_iff, Inner.isLBS_iff]; exact hl'))
  · obtain ⟨x, hx, sx, wx, kx⟩ := Any.interRepaired_comp a b
    obtain ⟨y, hy, sy, wy, ky⟩ := Any.interRepaired_comp b c
    refine ⟨x, y, hx, hy, (Inner.normal_iff _).mpr (wx ⟨wa, wb⟩), ?_⟩
    obtain ⟨u, hu, su, wu, ku⟩ := Any.interRepaired_comp (.inner x) c
    obtain ⟨v, hv, sv, wv, kv⟩ := Any.interRepaired_comp a (.inner y)
    rw [Any.toInner_inner] at su wu ku sv wv kv
    have hk : u.kind = v.kind := by rw [ku, kv, kx, ky, interKind_assoc]
    rcases u.kind.trichotomy with hr | hs | he
    · obtain ⟨rx, rc⟩ := interKind_isRange (ku ▸ hr)
      obtain ⟨ra, rb⟩ := interKind_isRange (kx ▸ rx)
      obtain ⟨_, ry⟩ := interKind_isRange (kv ▸ hk ▸ hr)
      have no : ∀ {i j : Inner T}, i.kind.isRange = true → ¬ BothLBS i j := by
        intro i j h hn; rw [hn.1] at h; cases h
      have ll : ∀ {i j : Inner T}, i.kind.isRange = true → i.Lossless j := fun h =>
        .of_not_both (by rw [Inner.isLBS_iff, Inner.isLBS_iff]; exact no h)
      rw [Any.interRepaired_eq (no ra)] at hx ⊢
      rw [Any.interRepaired_eq (no rb)] at hy
      rw [Any.interRepaired_eq (a := .inner x) (no rx)]
      obtain ⟨x', y', hx', hy', h, -⟩ := C11_inter_assoc_partial a b c ha hb hc (ll ra) (ll rb)
        (fun z hz => by obtain rfl : x = z := by rw [hx] at hz; injection hz
                        exact ll rx) (fun _ _ => ll ra)
      obtain rfl : x = x' := by rw [hx] at hx'; injection hx'
      obtain rfl : y = y' := by rw [hy] at hy'; injection hy'
      exact h
    · rw [hu, hv]
      congr 1
      exact Inner.eq_of_sem hk hs (wu ⟨wx ⟨wa, wb⟩, wc⟩) (wv ⟨wa, wy ⟨wb, wc⟩⟩) (by rw [su, sv, sx, sy, Set.inter_assoc])
    · rw [hu, hv, Inner.eq_er he, Inner.eq_er (hk.symm.trans he)]

/-- Auxiliary: the repaired intersection of two sets. -/
theorem Any.interRepaired_sets {a b : Inner T} (ha : a.IsSet) (hb : b.IsSet) (na : a.WF) (nb : b.WF) :
    ∃ c : Inner T, (Any.inner a).interRepaired (.inner b) = .ok c ∧
      sem c.ivs = sem a.ivs ∩ sem b.ivs ∧ c.WF ∧ c.kind = interKind a.kind b.kind ∧ c.IsSet := by
  have hka := Inner.isSet_iff.mp ha
  have hkb := Inner.isSet_iff.mp hb
  obtain ⟨c, hc, hs, hw, hk⟩ := Any.interRepaired_comp (.inner a) (.inner b)
  refine ⟨c, hc, hs, hw ⟨na, nb⟩, hk, Inner.isSet_iff.mpr ?_⟩
  rw [hk]
  simp only [Any.toInner_inner]
  revert hka hkb; cases a.kind <;> cases b.kind <;> simp [Kind.isSet] <;> rfl

/-- C76. C13 without exception, up to `==`. -/
theorem C76_distrib (a b c : Inner T) (ha : a.IsSet) (hb : b.IsSet) (hc : c.IsSet) (na : a.Normal) (nb : b.Normal)
    (nc : c.Normal) :
    (∃ bc ab ac r, (Any.inner b).union (.inner c) = .ok (.inner bc) ∧ (Any.inner a).interRepaired (.inner b) = .ok ab ∧
      (Any.inner a).interRepaired (.inner c) = .ok ac ∧ (Any.inner a).interRepaired (.inner bc) = .ok r ∧
      (Any.inner ab).union (.inner ac) = .ok (.inner r)) ∧
    ∃ bc ab ac r, (Any.inner b).interRepaired (.inner c) = .ok bc ∧ (Any.inner a).union (.inner b) = .ok (.inner ab) ∧
      (Any.inner a).union (.inner c) = .ok (.inner ac) ∧ (Any.inner a).union (.inner bc) = .ok (.inner r) ∧
      (Any.inner ab).interRepaired (.inner ac) = .ok r := by
  rw [Inner.normal_iff] at na nb nc
  have kb := Inner.isSet_iff.mp hb
  have kc := Inner.isSet_iff.mp hc
  have ka := Inner.isSet_iff.mp ha
  constructor
  · obtain ⟨bc, hbc, sbc, wbc, kbc, ibc⟩ := Any.union_sets hb hc nb nc
    obtain ⟨ab, hab, sab, wab, kab, iab⟩ := Any.interRepaired_sets ha hb na nb
    obtain ⟨ac, hac, sac, wac, kac, iac⟩ := Any.interRepaired_sets ha hc na nc
    obtain ⟨r, hr, sr, wr, kr, _⟩ := Any.interRepaired_sets ha ibc na wbc
    obtain ⟨r', hr', sr', wr', kr', ir'⟩ := Any.union_sets iab iac wab wac
    refine ⟨bc, ab, ac, r, hbc, hab, hac, hr, ?_⟩
    rw [hr']
    congr 2
    refine Inner.eq_of_sem ?_ (Inner.isSet_iff.mp ir') wr' wr ?_
    · rw [kr', kr, kab, kac, kbc]
      revert ka kb kc
      cases a.kind <;> cases b.kind <;> cases c.kind <;> simp [Kind.isSet] <;> rfl
    · rw [sr', sr, sab, sac, sbc, Set.inter_union_distrib_left]
  · obtain ⟨bc, hbc, sbc, wbc, kbc, ibc⟩ := Any.interRepaired_sets hb hc nb nc
    obtain ⟨ab, hab, sab, wab, kab, iab⟩ := Any.union_sets ha hb na nb
    obtain ⟨ac, hac, sac, wac, kac, iac⟩ := Any.union_sets ha hc na nc
    obtain ⟨r, hr, sr, wr, kr, _⟩ := Any.union_sets ha ibc na wbc
    obtain ⟨r', hr', sr', wr', kr', ir'⟩ := Any.interRepaired_sets iab iac wab wac
    refine ⟨bc, ab, ac, r, hbc, hab, hac, hr, ?_⟩
    rw [hr']
    congr 1
    refine Inner.eq_of_sem ?_ (Inner.isSet_iff.mp ir') wr' wr ?_
    · rw [kr', kr, kab, kac, kbc]
      revert ka kb kc
      cases a.kind <;> cases b.kind <;> cases c.kind <;> simp [Kind.isSet] <;> rfl
    · rw [sr', sr, sab, sac, sbc, Set.union_inter_distrib_left]

/-- C76. C14 without exception: the first half up to `==`, the second for the members. -/
theorem C76_de_morgan (a b : Inner T) (ha : a.IsSet) (hb : b.IsSet) (na : a.Normal) (nb : b.Normal) :
    (∃ ab ca cb r, (Any.inner a).union (.inner b) = .ok (.inner ab) ∧ (Any.inner a).complement = .ok ca ∧
      (Any.inner b).complement = .ok cb ∧ (Any.inner ab).complement = .ok r ∧
      (Any.inner ca).interRepaired (.inner cb) = .ok r) ∧
    ∃ i l ca cb r, (Any.inner a).interRepaired (.inner b) = .ok i ∧ (Any.inner i).complement = .ok l ∧
      (Any.inner a).complement = .ok ca ∧ (Any.inner b).complement = .ok cb ∧
      (Any.inner ca).union (.inner cb) = .ok r ∧ ∀ t, l.contains t = r.contains t := by
  constructor
  · rw [Inner.normal_iff] at na nb
    have ka := Inner.isSet_iff.mp ha
    have kb := Inner.isSet_iff.mp hb
    obtain ⟨ab, hab, sab, wab, kab, iab⟩ := Any.union_sets ha hb na nb
    obtain ⟨ca, hca, sca, wca, kca, ica⟩ := Any.complement_set ha na
    obtain ⟨cb, hcb, scb, wcb, kcb, icb⟩ := Any.complement_set hb nb
    obtain ⟨r, hr, sr, wr, kr, ir⟩ := Any.complement_set iab wab
    refine ⟨ab, ca, cb, r, hab, hca, hcb, hr, ?_⟩
    obtain ⟨r', hr', sr', wr', kr', ir'⟩ := Any.interRepaired_sets ica icb wca wcb
    rw [hr']
    congr 1
    refine Inner.eq_of_sem ?_ (Inner.isSet_iff.mp ir') wr' wr ?_
    · rw [kr', kr, kab, kca, kcb]
      revert ka kb
      cases a.kind <;> cases b.kind <;> simp [Kind.isSet] <;> rfl
    · rw [sr', sr, sab, sca, scb, csemOf_union]
  · obtain ⟨i, hi, si⟩ := C76_contains (.inner a) (.inner b) trivial trivial
    obtain ⟨l, hl, sl⟩ := C03_complement_contains (.inner i) trivial
    obtain ⟨ca, hca, sca⟩ := C03_complement_contains (.inner a) trivial
    obtain ⟨cb, hcb, scb⟩ := C03_complement_contains (.inner b) trivial
    obtain ⟨r, hr, sr⟩ := C01_union_contains (.inner ca) (.inner cb) trivial trivial
    refine ⟨i, l, ca, cb, r, hi, hl, hca, hcb, hr, fun t => ?_⟩
    rw [sl, sr]
    simp only [Any.contains_inner]
    rw [si, sca, scb, Bool.not_and]

/-- C76. C58's difference and C71's monotonicity without exception. -/
theorem C76_difference_mono (a a' b b' : Any T) (fa : a.Fresh) (fa' : a'.Fresh) (fb : b.Fresh) (fb' : b'.Fresh) :
    (∃ c d, b.complement = .ok c ∧ a.interRepaired (.inner c) = .ok d ∧
      ∀ t, d.contains t = (a.contains t && !b.contains t)) ∧
    (a.Subset a' → b.Subset b' → ∃ c c', a.interRepaired b = .ok c ∧ a'.interRepaired b' = .ok c' ∧
      (Any.inner c).Subset (.inner c')) := by
  constructor
  · obtain ⟨c, hc, sc⟩ := C03_complement_contains b fb
    obtain ⟨d, hd, sd⟩ := C76_contains a (.inner c) fa trivial
    refine ⟨c, d, hc, hd, fun t => ?_⟩
    rw [sd, Any.contains_inner, sc]
  · intro ha hb
    obtain ⟨c, hc, sc⟩ := C76_contains a b fa fb
    obtain ⟨c', hc', sc'⟩ := C76_contains a' b' fa' fb'
    refine ⟨c, c', hc, hc', fun t ht => ?_⟩
    rw [Any.contains_inner, sc, Bool.and_eq_true] at ht
    rw [Any.contains_inner, sc', Bool.and_eq_true]
    exact ⟨ha t ht.1, hb t ht.2⟩

-- the operands of `C10_counterexample`, repaired
example : lbs.IsSet ∧ lbs'.IsSet ∧ lbs.Normal ∧ lbs'.Normal ∧ ¬ Lossless (.inner lbs) (.inner lbs') ∧
    (Any.inner lbs).interRepaired (.inner lbs') = .ok (.lbs ⟨⟨[co 1 3]⟩, ci 10⟩) ∧
    (Any.inner lbs').interRepaired (.inner lbs) = .ok (.lbs ⟨⟨[co 1 3]⟩, ci 10⟩) := by
  refine ⟨?_, ?_, ?_, ?_, ?_, ?_, ?_⟩ <;> decide +kernel

end Rangetools
