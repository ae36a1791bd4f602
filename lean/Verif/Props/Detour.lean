import Verif.Spec.Detour
import Verif.Props.Lattice
import Verif.Props.Size

/-!
# C70: intersection by way of complements and a union

The one operation of the crate that can lose elements is the intersection of two `LowerBoundedSet`s (C02).
De Morgan's law avoids it.
-/

namespace Rangetools
open Iv Samples
variable {T : Type} [LinearOrder T]

theorem Expr.detour_lossless (e : Expr T) : e.detour.LosslessInter := by
  induction e with
  | leaf a => trivial
  | toInner e ih => exact ih
  | toSet e ih => exact ih
  | union e f ihe ihf => exact ⟨ihe, ihf⟩
  | inter e f ihe ihf => exact ⟨ihe, ihf⟩
  | complement e ih => exact ih

omit [LinearOrder T] in
theorem Expr.detour_allLeaves {P : Any T → Prop} (e : Expr T) (h : e.AllLeaves P) : e.detour.AllLeaves P := by
  induction e with
  | leaf a => exact h
  | toInner e ih => exact ih h
  | toSet e ih => exact ih h
  | union e f ihe ihf => exact ⟨ihe h.1, ihf h.2⟩
  | inter e f ihe ihf => exact ⟨ihe h.1, ihf h.2⟩
  | complement e ih => exact ih h

theorem Expr.detour_denotes (e : Expr T) (t : T) : e.detour.denotes t = e.denotes t := by
  induction e with
  | leaf a => rfl
  | toInner e ih => exact ih
  | toSet e ih => exact ih
  | union e f ihe ihf => simp only [detour, denotes, ihe, ihf]
  | inter e f ihe ihf => simp only [detour, denotes, ihe, ihf, Bool.not_or, Bool.not_not]
  | complement e ih => simp only [detour, denotes, ih]

/-- C70. With intersections written as complements and unions, every expression has exactly the right
members; there is no exception. -/
theorem C70_expr_contains (e : Expr T) (h : e.AllLeaves Any.Fresh) :
    ∃ c, e.detour.eval = .ok c ∧ ∀ t, c.contains t = e.denotes t := by
  obtain ⟨c, hc, ht⟩ := C05_expr_contains_partial e.detour (e.detour_allLeaves h) e.detour_lossless
  exact ⟨c, hc, fun t => (ht t).trans (e.detour_denotes t)⟩

-- the expression of `C05_counterexample`, which loses `1`
example : badExpr.AllLeaves Any.Fresh ∧ badExpr.detour.eval = .ok (.inner (.lbs ⟨⟨[co 1 3]⟩, ci 10⟩)) :=
  ⟨by simp [badExpr, Expr.AllLeaves, Any.Fresh], by decide +kernel⟩

/-! ### The laws -/

/-- The type of a union. -/
def unionKind' (j k : Kind) : Kind :=
  if j = .er then k else if k = .er then j else unionKind (setKind j) (setKind k)

/-- The type of a detour. -/
def meetKind (j k : Kind) : Kind := complKind (unionKind' (complKind j) (complKind k))

theorem Inner.union_kind {a b : Inner T} (ha : a.Normal) (hb : b.Normal) :
    ∃ c, (Any.inner a).union (.inner b) = .ok (.inner c) ∧ sem c.ivs = sem a.ivs ∪ sem b.ivs ∧ c.WF ∧
      c.kind = unionKind' a.kind b.kind := by
  by_cases hea : a = .er
  · subst hea
    exact ⟨b, rfl, by simp [Inner.ivs], (Inner.normal_iff _).mp hb, rfl⟩
  by_cases heb : b = .er
  · subst heb
    refine ⟨a, (C09_union_units _).1, by simp [Inner.ivs], (Inner.normal_iff _).mp ha, ?_⟩
    cases a <;> rfl
  have he : ∀ i : Inner T, i ≠ .er → (Any.inner i).isER = false ∧ i.kind ≠ .er := by
    intro i hi; cases i <;> simp_all [Any.isER, Inner.kind]
  obtain ⟨c, hc, hs, hw, hk⟩ := Any.union_spec (a := .inner a) (b := .inner b) ha hb (he a hea).1 (he b heb).1
  refine ⟨c.toInner, hc, hs, hw, ?_⟩
  rw [hk, unionKind', if_neg (he a hea).2, if_neg (he b heb).2]
  rfl

theorem csem_of_WF {a : Inner T} (ha : a.WF) (hk : a.kind ≠ .br) : csem a.ivs = csemOf (sem a.ivs) :=
  csem_eq (Inner.canon ha hk).1

theorem Any.meet_comp (a b : Any T) :
    ∃ c, a.meet b = .ok c ∧ sem c.ivs = csemOf (csem a.toInner.ivs ∪ csem b.toInner.ivs) ∧ c.WF ∧
      c.kind = meetKind a.toInner.kind b.toInner.kind := by
  obtain ⟨ca, hca, sa, wa, ka⟩ := Any.complement_comp a
  obtain ⟨cb, hcb, sb, wb, kb⟩ := Any.complement_comp b
  obtain ⟨u, hu, su, wu, ku⟩ := Inner.union_kind ((Inner.normal_iff _).mpr (wa trivial)) ((Inner.normal_iff _).mpr (wb trivial))
  obtain ⟨c, hc, sc, wc, kc⟩ := Any.complement_comp (.inner u)
  refine ⟨c, by simp [Any.meet, hca, hcb, hu, hc], ?_, wc trivial, ?_⟩
  · rw [sc, Any.toInner_inner, csem_of_WF wu, su, sa, sb]
    rw [ku, ka, kb]
    cases a.toInner.kind <;> cases b.toInner.kind <;> decide
  · rw [kc, Any.toInner_inner, ku, ka, kb]; rfl

theorem meetKind_ne (j k : Kind) : meetKind j k ≠ .br := by cases j <;> cases k <;> decide

theorem Inner.eq_of_meet {a b : Inner T} (hk : a.kind = b.kind) (hne : a.kind ≠ .br) (ha : a.WF) (hb : b.WF)
    (h : sem a.ivs = sem b.ivs) : a = b :=
  Inner.ivs_inj hk (canon_unique (Inner.canon ha hne) (Inner.canon hb (hk ▸ hne)) h)

/-- C70. The detour is commutative: no invariant, no exception. -/
theorem C70_comm (a b : Any T) : a.meet b = b.meet a ∧ ∃ c, a.meet b = .ok c ∧ c.Normal := by
  obtain ⟨c, hc, sc, wc, kc⟩ := Any.meet_comp a b
  obtain ⟨d, hd, sd, wd, kd⟩ := Any.meet_comp b a
  refine ⟨?_, c, hc, (Inner.normal_iff _).mpr wc⟩
  rw [hc, hd]
  congr 1
  refine Inner.eq_of_meet ?_ (by rw [kc]; exact meetKind_ne _ _) wc wd (by rw [sc, sd, Set.union_comm])
  rw [kc, kd]
  cases a.toInner.kind <;> cases b.toInner.kind <;> decide

/-- C70. The detour is associative: no invariant, no exception. -/
theorem C70_assoc (a b c : Any T) :
    ∃ x y, a.meet b = .ok x ∧ b.meet c = .ok y ∧ (Any.inner x).meet c = a.meet (.inner y) := by
  obtain ⟨x, hx, sx, wx, kx⟩ := Any.meet_comp a b
  obtain ⟨y, hy, sy, wy, ky⟩ := Any.meet_comp b c
  refine ⟨x, y, hx, hy, ?_⟩
  obtain ⟨u, hu, su, wu, ku⟩ := Any.meet_comp (.inner x) c
  obtain ⟨v, hv, sv, wv, kv⟩ := Any.meet_comp a (.inner y)
  rw [hu, hv]
  congr 1
  refine Inner.eq_of_meet ?_ (by rw [ku]; exact meetKind_ne _ _) wu wv ?_
  · rw [ku, kv, Any.toInner_inner, Any.toInner_inner, kx, ky]
    cases a.toInner.kind <;> cases b.toInner.kind <;> cases c.toInner.kind <;> decide
  · rw [su, sv, Any.toInner_inner, Any.toInner_inner, csem_of_WF wx (by rw [kx]; exact meetKind_ne _ _),
      csem_of_WF wy (by rw [ky]; exact meetKind_ne _ _), sx, sy]
    generalize csem a.toInner.ivs = A
    generalize csem b.toInner.ivs = B
    generalize csem c.toInner.ivs = C
    rw [csemOf_union _ C, csemOf_union A (csemOf _), csemOf_triple, csemOf_triple, csemOf_union A B,
      csemOf_union B C, Set.inter_assoc]

-- the operands of `C10_counterexample`
example : (Any.inner lbs).meet (.inner lbs') = .ok (.lbs ⟨⟨[co 1 3]⟩, ci 10⟩) ∧
    (Any.inner lbs').meet (.inner lbs) = .ok (.lbs ⟨⟨[co 1 3]⟩, ci 10⟩) := by decide +kernel

end Rangetools
