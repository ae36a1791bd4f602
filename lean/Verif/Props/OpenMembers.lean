import Verif.Props.OpenEnds
import Verif.Props.DenseOnly
import Verif.Props.Derived

/-!
# C17: over every order, members determine the complements of half-open values
-/

namespace Rangetools
open Iv Samples

variable {T : Type} [LinearOrder T] {L M : List (ECut T × ECut T)}

theorem le_cut_false {x : ECut T} {a : T} (h : x ≤ cut a true) (hn : x ≠ cut a true) : x ≤ cut a false := by
  have h := lt_of_le_of_ne h hn
  rcases cases_ecut x with rfl | rfl | ⟨c, s, rfl⟩
  · exact bot_le
  · exact absurd h not_top_lt
  · by_contra hc
    exact not_inside (not_le.1 hc) h

theorem cut_true_lt {x : ECut T} {a : T} (h : cut a false < x) (hn : x ≠ cut a true) : cut a true < x := by
  by_contra hc
  exact absurd (le_cut_false (not_lt.1 hc) hn) h.not_ge

theorem after_of_members_open (hL : ∀ p ∈ L, ∀ a : T, p.1 ≠ cut a true ∧ p.2 ≠ cut a true)
    (hM : ∀ p ∈ M, ∀ a : T, p.1 ≠ cut a true ∧ p.2 ≠ cut a true)
    (h : ∀ t : T, (cut t false, Side.after) ∈ sem L → (cut t false, Side.after) ∈ sem M)
    (hb : ((⊥ : ECut T), Side.after) ∈ sem L → ((⊥ : ECut T), Side.after) ∈ sem M)
    {x : ECut T} (hx : (x, Side.after) ∈ sem L) : (x, Side.after) ∈ sem M := by
  rcases cases_ecut x with rfl | rfl | ⟨a, s, rfl⟩
  · exact hb hx
  · obtain ⟨p, _, hx⟩ := hx
    exact absurd (mem_after.mp hx).2 not_top_lt
  cases s with
  | false => exact h a hx
  | true =>
    obtain ⟨p, hp, hx⟩ := hx
    rw [mem_after] at hx
    obtain ⟨q, hq, hqa⟩ := h a ⟨p, hp, mem_after.mpr ⟨le_cut_false hx.1 (hL p hp a).1, (cut_false_lt_true a).trans hx.2⟩⟩
    rw [mem_after] at hqa
    exact ⟨q, hq, mem_after.mpr ⟨hqa.1.trans (cut_false_lt_true a).le, cut_true_lt hqa.2 (hM q hq a).2⟩⟩

theorem before_of_members_open (hL : ∀ p ∈ L, ∀ a : T, p.1 ≠ cut a true ∧ p.2 ≠ cut a true)
    (hM : ∀ p ∈ M, ∀ a : T, p.1 ≠ cut a true ∧ p.2 ≠ cut a true)
    (h : ∀ t : T, (cut t false, Side.after) ∈ sem L → (cut t false, Side.after) ∈ sem M)
    (hb : ((⊥ : ECut T), Side.after) ∈ sem L → ((⊥ : ECut T), Side.after) ∈ sem M)
    (ht : ((⊤ : ECut T), Side.before) ∈ sem L → ((⊤ : ECut T), Side.before) ∈ sem M)
    {x : ECut T} (hx : (x, Side.before) ∈ sem L) : (x, Side.before) ∈ sem M := by
  rcases cases_ecut x with rfl | rfl | ⟨a, s, rfl⟩
  · obtain ⟨p, _, hx⟩ := hx
    exact absurd (mem_before.mp hx).1 not_lt_bot
  · exact ht hx
  obtain ⟨p, hp, hx⟩ := hx
  rw [mem_before] at hx
  cases s with
  | true =>
    obtain ⟨q, hq, hqa⟩ := h a ⟨p, hp, mem_after.mpr ⟨le_cut_false hx.1.le hx.1.ne, (cut_false_lt_true a).trans_le hx.2⟩⟩
    rw [mem_after] at hqa
    exact ⟨q, hq, mem_before.mpr ⟨hqa.1.trans_lt (cut_false_lt_true a), (cut_true_lt hqa.2 (hM q hq a).2).le⟩⟩
  | false =>
    obtain ⟨m, h1, h2, h3⟩ := exists_greatest_below hx.1 (M.map Prod.snd)
    -- an element of `L` at or after the last end of `M` below `a`, or just before that end
    have go : ∀ t : T, p.1 ≤ cut t false → cut t false < cut a false → m ≤ cut t true →
        (cut a false, Side.before) ∈ sem M := by
      intro t h4 h5 h6
      obtain ⟨q, hq, hqt⟩ := h t ⟨p, hp, mem_after.mpr ⟨h4, h5.trans_le hx.2⟩⟩
      rw [mem_after] at hqt
      refine ⟨q, hq, mem_before.mpr ⟨hqt.1.trans_lt h5, ?_⟩⟩
      by_contra hc
      exact absurd (h6.trans_lt (cut_true_lt hqt.2 (hM q hq t).2)) (h3 q.2 (List.mem_map_of_mem hq) (not_le.1 hc)).not_gt
    rcases cases_ecut m with rfl | rfl | ⟨c, r, rfl⟩
    · by_cases hex : ∃ t : T, cut t false < cut a false
      · obtain ⟨t, ht'⟩ := hex
        exact go t (h2.trans bot_le) ht' bot_le
      · push Not at hex
        obtain ⟨q, hq, hqt⟩ := hb ⟨p, hp, mem_after.mpr ⟨h2, lt_of_lt_of_le bot_lt_cut hx.2⟩⟩
        rw [mem_after] at hqt
        refine ⟨q, hq, mem_before.mpr ⟨lt_of_le_of_lt hqt.1 bot_lt_cut, ?_⟩⟩
        rcases cases_ecut q.2 with e | e | ⟨c, r, e⟩ <;> rw [e] at hqt ⊢
        · exact absurd hqt.2 (lt_irrefl _)
        · exact le_top
        · exact (hex c).trans (cut_le.mpr (Or.inr ⟨rfl, Bool.false_le r⟩))
    · exact absurd h1 not_top_lt
    · cases r with
      | false => exact go c h2 h1 (cut_false_lt_true c).le
      | true => exact go c (le_cut_false h2 (hL p hp c).1) ((cut_false_lt_true c).trans h1) le_rfl

/-- C17. Over every totally ordered element type: two sets of the same type, built from half-open std ranges by `union`,
`intersection` and `complement`, that have the same members have equal complements. -/
theorem C17_half_open (e f : Expr T) (he : e.AllLeaves Any.OpenEnd) (hf : f.AllLeaves Any.OpenEnd) {a b : Inner T}
    (hea : e.eval = .ok (.inner a)) (hfb : f.eval = .ok (.inner b)) (ha : a.IsSet) (hk : a.SameType b)
    (h : ∀ t, a.contains t = b.contains t) : (Any.inner a).complement = (Any.inner b).complement := by
  obtain ⟨-, wa, oa⟩ := e.eval_open he hea
  obtain ⟨-, wb, ob⟩ := f.eval_open hf hfb
  rw [Any.toInner_inner] at wa oa wb ob
  have hk' : b.SameType a := by cases a <;> cases b <;> first | exact hk.elim | trivial
  have hb : b.IsSet := by cases a <;> cases b <;> first | exact hk.elim | exact ha.elim | trivial
  obtain ⟨e1, e2⟩ := Inner.ends_of_sameType ha hk
  obtain ⟨f1, f2⟩ := Inner.ends_of_sameType hb hk'
  rw [Inner.sameType_iff] at hk
  obtain ⟨x, hx, sx, wx, kx, ix⟩ := Any.complement_set ha wa
  obtain ⟨y, hy, sy, wy, ky, _⟩ := Any.complement_set hb wb
  rw [hx, hy]
  congr 1
  have h' : ∀ t : T, (cut t false, Side.after) ∈ sem a.ivs ↔ (cut t false, Side.after) ∈ sem b.ivs := by
    intro t
    rw [← a.contains_probe, ← b.contains_probe, h]
  refine Inner.eq_of_sem (by rw [kx, ky, hk]) (Inner.isSet_iff.mp ix) wx wy ?_
  rw [sx, sy]
  exact csemOf_congr
    (fun x => ⟨after_of_members_open oa ob (fun t => (h' t).mp) e1, after_of_members_open ob oa (fun t => (h' t).mpr) f1⟩)
    (fun x => ⟨before_of_members_open oa ob (fun t => (h' t).mp) e1 e2,
      before_of_members_open ob oa (fun t => (h' t).mpr) f1 f2⟩)

/-- C17. So comparing the complements of two such sets tells exactly whether they have the same members. -/
theorem C17_half_open_iff (e f : Expr T) (he : e.AllLeaves Any.OpenEnd) (hf : f.AllLeaves Any.OpenEnd) {a b : Inner T}
    (hea : e.eval = .ok (.inner a)) (hfb : f.eval = .ok (.inner b)) (ha : a.IsSet) (hk : a.SameType b) :
    ∃ x y, (Any.inner a).complement = .ok x ∧ (Any.inner b).complement = .ok y ∧
      (x.eqWith elemEq y = true ↔ ∀ t, a.contains t = b.contains t) := by
  obtain ⟨x, hx, mx⟩ := C03_complement_contains (.inner a) trivial
  obtain ⟨y, hy, my⟩ := C03_complement_contains (.inner b) trivial
  refine ⟨x, y, hx, hy, fun h t => ?_, fun h => ?_⟩
  · have := C17_eq_members x y h t
    rw [mx, my] at this
    simpa [Any.contains] using this
  · obtain rfl : x = y := Res.ok.inj (hx.symm.trans ((C17_half_open e f he hf hea hfb ha hk h).trans hy))
    exact (C59_eq_structural _ (fun _ _ => decide_eq_true_iff) x x).mpr rfl

/-- `(0..3) ∪ (3..5)` and `(0..5).to_set()` over the integers: different sets with the same members and the same complement. -/
example : let e : Expr Int := .union (.leaf (.range ⟨0, 3⟩)) (.leaf (.range ⟨3, 5⟩))
    let f : Expr Int := .toSet (.leaf (.range ⟨0, 5⟩))
    e.AllLeaves Any.OpenEnd ∧ f.AllLeaves Any.OpenEnd ∧ e.eval = .ok (.inner (.bs ⟨[co 0 3, co 3 5]⟩)) ∧
      f.eval = .ok (.inner (.bs ⟨[co 0 5]⟩)) :=
  ⟨⟨trivial, trivial⟩, trivial, by decide +kernel, by decide +kernel⟩

/-- C17, half-open is needed: `(3..5).to_set()` and `(3..=4).to_set()` have the same integers, but different complements. -/
theorem C17_half_open_needed : ∃ a b : Inner Int, (Expr.toSet (.leaf (.range ⟨3, 5⟩))).eval = .ok (.inner a) ∧
    (Expr.toSet (.leaf (.rangeInclusive ⟨3, 4, false⟩))).eval = .ok (.inner b) ∧ a.IsSet ∧ a.SameType b ∧
    (∀ t, a.contains t = b.contains t) ∧ (Any.inner a).complement ≠ (Any.inner b).complement := by
  refine ⟨.bs ⟨[co 3 5]⟩, .bs ⟨[cc 3 4]⟩, by decide +kernel, by decide +kernel, trivial, trivial, fun t => ?_, by decide +kernel⟩
  rw [Bool.eq_iff_iff]
  simp [Inner.contains, BoundedSet.contains, BoundedRange.contains, co, cc, LowerBound.included, UpperBound.excluded,
    UpperBound.included]
  omega

end Rangetools
