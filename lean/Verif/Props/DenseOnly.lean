import Verif.Props.Emptiness
import Mathlib.Order.Interval.Set.Basic

/-!
# C17: members determine the complement exactly over dense orders
-/

namespace Rangetools
open Iv

variable {T : Type} [LinearOrder T]

theorem exists_elem_between_cuts [DenselyOrdered T] {a b : T} {s r : Bool} (h : cut a s < cut b r) :
    ∃ t : T, cut a s ≤ cut t false ∧ cut t false < cut b r := by
  rcases cut_lt.mp h with hab | ⟨rfl, hs⟩
  · obtain ⟨t, h1, h2⟩ := exists_between hab
    exact ⟨t, cut_le.mpr (Or.inl h1), cut_lt.mpr (Or.inl h2)⟩
  · refine ⟨a, cut_le.mpr (Or.inr ⟨rfl, ?_⟩), cut_lt.mpr (Or.inr ⟨rfl, ?_⟩)⟩
    · cases s
      · exact le_rfl
      · exact absurd hs (Bool.le_true _).not_gt
    · cases r
      · exact absurd hs (Bool.false_le _).not_gt
      · exact Bool.false_lt_true

/-- No cut lies strictly between the two of an element. -/
theorem not_inside {a c : T} {s r : Bool} (h1 : cut c false < cut a s) (h2 : cut a s < cut c r) : False := by
  rw [cut_lt] at h1 h2
  rcases h1 with h1 | ⟨rfl, h1⟩
  · rcases h2 with h2 | ⟨rfl, -⟩
    · exact lt_asymm h1 h2
    · exact lt_irrefl _ h1
  · rcases h2 with h2 | ⟨-, h2⟩
    · exact lt_irrefl _ h2
    · cases s
      · exact lt_irrefl _ h1
      · exact absurd h2 (Bool.le_true _).not_gt

variable [DenselyOrdered T] {L M : List (ECut T × ECut T)}

theorem after_of_members_dense (h : ∀ t : T, (cut t false, Side.after) ∈ sem L → (cut t false, Side.after) ∈ sem M)
    (hb : ((⊥ : ECut T), Side.after) ∈ sem L → ((⊥ : ECut T), Side.after) ∈ sem M)
    (ht : ((⊤ : ECut T), Side.before) ∈ sem L → ((⊤ : ECut T), Side.before) ∈ sem M)
    {x : ECut T} (hx : (x, Side.after) ∈ sem L) : (x, Side.after) ∈ sem M := by
  rcases cases_ecut x with rfl | rfl | ⟨a, s, rfl⟩
  · exact hb hx
  · obtain ⟨p, _, hx⟩ := hx
    exact absurd (mem_after.mp hx).2 not_top_lt
  obtain ⟨p, hp, hx⟩ := hx
  rw [mem_after] at hx
  obtain ⟨m, h1, h2, h3⟩ := exists_least_above hx.2 (M.map Prod.fst)
  by_cases hex : ∃ t : T, cut a s ≤ cut t false ∧ cut t false < m
  · obtain ⟨t, ht1, ht2⟩ := hex
    obtain ⟨q, hq, hqt⟩ := h t ⟨p, hp, mem_after.mpr ⟨hx.1.trans ht1, ht2.trans_le h2⟩⟩
    rw [mem_after] at hqt
    refine ⟨q, hq, mem_after.mpr ⟨?_, ht1.trans_lt hqt.2⟩⟩
    by_contra hc
    rw [not_le] at hc
    exact absurd (hqt.1.trans_lt ht2) (h3 q.1 (List.mem_map_of_mem hq) hc).not_gt
  · rcases cases_ecut m with rfl | rfl | ⟨c, r, rfl⟩
    · exact absurd h1 not_lt_bot
    · have low : ∀ t : T, cut t false < cut a s := fun t => by
        by_contra hc
        exact hex ⟨t, not_lt.1 hc, cut_lt_top⟩
      have hp2 : p.2 = ⊤ := top_le_iff.mp h2
      obtain ⟨q, hq, hqt⟩ := ht ⟨p, hp, mem_before.mpr ⟨(hx.1.trans_lt cut_lt_top), hp2.ge⟩⟩
      rw [mem_before] at hqt
      refine ⟨q, hq, mem_after.mpr ⟨?_, lt_of_lt_of_le cut_lt_top hqt.2⟩⟩
      by_contra hc
      rw [not_le] at hc
      rcases cases_ecut q.1 with e | e | ⟨c, r, e⟩ <;> rw [e] at hc hqt
      · exact not_lt_bot hc
      · exact lt_irrefl _ hqt.1
      · exact not_inside (low c) hc
    · exact absurd (exists_elem_between_cuts h1) hex

theorem before_of_members_dense (h : ∀ t : T, (cut t false, Side.after) ∈ sem L → (cut t false, Side.after) ∈ sem M)
    (hb : ((⊥ : ECut T), Side.after) ∈ sem L → ((⊥ : ECut T), Side.after) ∈ sem M)
    (ht : ((⊤ : ECut T), Side.before) ∈ sem L → ((⊤ : ECut T), Side.before) ∈ sem M)
    {x : ECut T} (hx : (x, Side.before) ∈ sem L) : (x, Side.before) ∈ sem M := by
  rcases cases_ecut x with rfl | rfl | ⟨a, s, rfl⟩
  · obtain ⟨p, _, hx⟩ := hx
    exact absurd (mem_before.mp hx).1 not_lt_bot
  · exact ht hx
  obtain ⟨p, hp, hx⟩ := hx
  rw [mem_before] at hx
  obtain ⟨m, h1, h2, h3⟩ := exists_greatest_below hx.1 (M.map Prod.snd)
  by_cases hex : ∃ t : T, m ≤ cut t false ∧ cut t false < cut a s
  · obtain ⟨t, ht1, ht2⟩ := hex
    obtain ⟨q, hq, hqt⟩ := h t ⟨p, hp, mem_after.mpr ⟨h2.trans ht1, ht2.trans_le hx.2⟩⟩
    rw [mem_after] at hqt
    refine ⟨q, hq, mem_before.mpr ⟨hqt.1.trans_lt ht2, ?_⟩⟩
    by_contra hc
    rw [not_le] at hc
    exact absurd (ht1.trans_lt hqt.2) (h3 q.2 (List.mem_map_of_mem hq) hc).not_gt
  · rcases cases_ecut m with rfl | rfl | ⟨c, r, rfl⟩
    · have high : ∀ t : T, cut a s ≤ cut t false := fun t => by
        by_contra hc
        exact hex ⟨t, bot_le, not_le.1 hc⟩
      have hp1 : p.1 = ⊥ := le_bot_iff.mp h2
      obtain ⟨q, hq, hqt⟩ := hb ⟨p, hp, mem_after.mpr ⟨hp1.le, lt_of_lt_of_le bot_lt_cut hx.2⟩⟩
      rw [mem_after] at hqt
      refine ⟨q, hq, mem_before.mpr ⟨lt_of_le_of_lt hqt.1 bot_lt_cut, ?_⟩⟩
      rcases cases_ecut q.2 with e | e | ⟨c, r, e⟩ <;> rw [e] at hqt ⊢
      · exact absurd hqt.2 (lt_irrefl _)
      · exact le_top
      · refine (high c).trans (cut_le.mpr (Or.inr ⟨rfl, Bool.false_le r⟩))
    · exact absurd h1 not_top_lt
    · exact absurd (exists_elem_between_cuts h1) hex

omit [DenselyOrdered T] in
theorem Inner.ends_of_sameType {a b : Inner T} (ha : a.IsSet) (hk : a.SameType b) :
    (((⊥ : ECut T), Side.after) ∈ sem a.ivs → ((⊥ : ECut T), Side.after) ∈ sem b.ivs) ∧
      (((⊤ : ECut T), Side.before) ∈ sem a.ivs → ((⊤ : ECut T), Side.before) ∈ sem b.ivs) := by
  have nb : ∀ s : BoundedSet T, ((⊥ : ECut T), Side.after) ∉ sem s.ivs := by
    rintro s ⟨p, hp, h⟩
    obtain ⟨r, -, rfl⟩ := List.mem_map.mp hp
    exact absurd (mem_after.mp h).1 (bot_lt_lo _).not_ge
  have nt : ∀ s : BoundedSet T, ((⊤ : ECut T), Side.before) ∉ sem s.ivs := by
    rintro s ⟨p, hp, h⟩
    obtain ⟨r, -, rfl⟩ := List.mem_map.mp hp
    exact absurd (mem_before.mp h).2 (hi_lt_top _).not_ge
  have up : ∀ (r : UpperBoundedRange T) (l : List (ECut T × ECut T)), ((⊥ : ECut T), Side.after) ∈ sem (r.iv :: l) :=
    fun r l => ⟨_, List.mem_cons_self, mem_after.mpr ⟨le_rfl, bot_lt_hi _⟩⟩
  have lw : ∀ (r : LowerBoundedRange T) (l : List (ECut T × ECut T)), ((⊤ : ECut T), Side.before) ∈ sem (l ++ [r.iv]) :=
    fun r l => ⟨_, List.mem_append_right _ List.mem_cons_self, mem_before.mpr ⟨lo_lt_top _, le_rfl⟩⟩
  have us : ∀ s : UnboundedSet T, ((⊥ : ECut T), Side.after) ∈ sem s.ivs ∧ ((⊤ : ECut T), Side.before) ∈ sem s.ivs := by
    rintro (_ | q)
    · exact ⟨⟨_, List.mem_cons_self, mem_after.mpr ⟨le_rfl, bot_lt_top⟩⟩, ⟨_, List.mem_cons_self, mem_before.mpr ⟨bot_lt_top, le_rfl⟩⟩⟩
    · exact ⟨up _ _, lw q.lowerBoundedRange (q.upperBoundedRange.iv :: q.ranges.ivs)⟩
  cases a <;> cases b <;> first | exact hk.elim | exact ha.elim | skip
  case bs.bs s t => exact ⟨fun h => absurd h (nb s), fun h => absurd h (nt s)⟩
  case lbs.lbs s t =>
    refine ⟨fun ⟨p, hp, h⟩ => ?_, fun _ => lw _ _⟩
    rcases List.mem_append.mp hp with hp | hp
    · exact absurd ⟨p, hp, h⟩ (nb s.ranges)
    · obtain rfl := List.mem_singleton.mp hp
      exact absurd (mem_after.mp h).1 (bot_lt_lo _).not_ge
  case ubs.ubs s t =>
    refine ⟨fun _ => up _ _, fun ⟨p, hp, h⟩ => ?_⟩
    rcases List.mem_cons.mp hp with rfl | hp
    · exact absurd (mem_before.mp h).2 (hi_lt_top _).not_ge
    · exact absurd ⟨p, hp, h⟩ (nt s.ranges)
  case us.us s t => exact ⟨fun _ => (us t).1, fun _ => (us t).2⟩

/-- C17. Density alone is enough: over a dense order, with or without ends, sets of the same type with the same members have
equal complements. -/
theorem C17_members_complement_dense (a b : Inner T) (ha : a.IsSet) (hk : a.SameType b) (na : a.Normal) (nb : b.Normal)
    (h : ∀ t, a.contains t = b.contains t) : (Any.inner a).complement = (Any.inner b).complement := by
  have hk' : b.SameType a := by cases a <;> cases b <;> first | exact hk.elim | trivial
  have hb : b.IsSet := by cases a <;> cases b <;> first | exact hk.elim | exact ha.elim | trivial
  obtain ⟨e1, e2⟩ := Inner.ends_of_sameType ha hk
  obtain ⟨f1, f2⟩ := Inner.ends_of_sameType hb hk'
  rw [Inner.normal_iff] at na nb
  rw [Inner.sameType_iff] at hk
  obtain ⟨x, hx, sx, wx, kx, ix⟩ := Any.complement_set ha na
  obtain ⟨y, hy, sy, wy, ky, _⟩ := Any.complement_set hb nb
  rw [hx, hy]
  congr 1
  have h' : ∀ t : T, (cut t false, Side.after) ∈ sem a.ivs ↔ (cut t false, Side.after) ∈ sem b.ivs := by
    intro t
    rw [← a.contains_probe, ← b.contains_probe, h]
  refine Inner.eq_of_sem (by rw [kx, ky, hk]) (Inner.isSet_iff.mp ix) wx wy ?_
  rw [sx, sy]
  exact csemOf_congr
    (fun x => ⟨after_of_members_dense (fun t => (h' t).mp) e1 e2, after_of_members_dense (fun t => (h' t).mpr) f1 f2⟩)
    (fun x => ⟨before_of_members_dense (fun t => (h' t).mp) e1 e2, before_of_members_dense (fun t => (h' t).mpr) f1 f2⟩)

omit [DenselyOrdered T] in
/-- C17. And necessary: members determine the complements of sets of each type precisely if the element type is dense. -/
theorem C17_dense_iff :
    (∀ a b : Inner T, a.IsSet → a.SameType b → a.Normal → b.Normal → (∀ t, a.contains t = b.contains t) →
      (Any.inner a).complement = (Any.inner b).complement) ↔ DenselyOrdered T := by
  constructor
  · refine fun h => ⟨fun a b hab => ?_⟩
    by_contra hc
    push Not at hc
    have n1 : (Inner.bs ⟨[⟨.excluded a, .excluded b⟩]⟩ : Inner T).Normal := by
      rw [Inner.normal_iff]
      show Canon _
      simp [BoundedSet.ivs, canon_cons, canon_nil, BoundedRange.iv, lo, hi, LowerBound.excluded, UpperBound.excluded, cut_lt, hab]
    have n2 : (Inner.bs ⟨[]⟩ : Inner T).Normal := by
      rw [Inner.normal_iff]
      show Canon _
      simp [BoundedSet.ivs, canon_nil]
    have e := h (.bs ⟨[⟨.excluded a, .excluded b⟩]⟩) (.bs ⟨[]⟩) trivial trivial n1 n2 fun t => by
      simp only [Inner.contains, BoundedSet.contains, List.any_cons, List.any_nil, Bool.or_false, BoundedRange.contains,
        LowerBound.excluded, UpperBound.excluded, Bool.and_eq_false_iff, decide_eq_false_iff_not]
      by_cases hat : a < t
      · exact Or.inr (not_lt.2 (hc t hat))
      · exact Or.inl hat
    rw [Inner.normal_iff] at n1 n2
    obtain ⟨x, hx, sx, -⟩ := Any.complement_set (a := .bs ⟨[⟨.excluded a, .excluded b⟩]⟩) trivial n1
    obtain ⟨y, hy, sy, -⟩ := Any.complement_set (a := .bs ⟨[]⟩) trivial n2
    rw [hx, hy] at e
    obtain rfl : x = y := by injection e
    have hin : (cut a true, Side.after) ∈ sem x.ivs := by
      rw [sy, csemOf_mem_after]
      exact ⟨cut_lt_top, fun ⟨p, hp, _⟩ => by cases hp⟩
    rw [sx, csemOf_mem_after] at hin
    refine hin.2 ⟨_, List.mem_cons_self, mem_after.mpr ⟨le_rfl, ?_⟩⟩
    exact cut_lt.mpr (Or.inl hab)
  · intro _ a b ha hk na nb h
    exact C17_members_complement_dense a b ha hk na nb h

/-- The rational numbers from 0 to 1: dense, with ends. -/
abbrev UnitQ := {q : ℚ // 0 ≤ q ∧ q ≤ 1}

instance : DenselyOrdered UnitQ where
  dense a b h := by
    obtain ⟨c, h1, h2⟩ := exists_between (show a.1 < b.1 from h)
    exact ⟨⟨c, a.2.1.trans h1.le, h2.le.trans b.2.2⟩, h1, h2⟩

/-- `..0 ∪ 0..1` and `..1` over them: the hypotheses hold, and the sets differ. -/
example : let o : UnitQ := ⟨0, by norm_num⟩
    let i : UnitQ := ⟨1, by norm_num⟩
    let a : Inner UnitQ := .ubs ⟨⟨.excluded o⟩, ⟨[⟨.included o, .excluded i⟩]⟩⟩
    let b : Inner UnitQ := .ubs ⟨⟨.excluded i⟩, ⟨[]⟩⟩
    a.IsSet ∧ a.SameType b ∧ a.Normal ∧ b.Normal ∧ a ≠ b ∧ ∀ t, a.contains t = b.contains t := by
  intro o i a b
  have hoi : o < i := by show (0 : ℚ) < 1; norm_num
  refine ⟨trivial, trivial, ?_, ?_, by simp [a, b], ?_⟩
  · rw [Inner.normal_iff]
    show Canon _
    simp [UpperBoundedSet.ivs, BoundedSet.ivs, canon_cons, canon_nil, BoundedRange.iv, UpperBoundedRange.iv, lo, hi,
      LowerBound.included, UpperBound.excluded, cut_lt, hoi]
  · rw [Inner.normal_iff]
    show Canon _
    simp [UpperBoundedSet.ivs, BoundedSet.ivs, canon_cons, canon_nil, UpperBoundedRange.iv, hi, UpperBound.excluded]
  · intro t
    have ht : o ≤ t := t.2.1
    simp [a, b, Inner.contains, UpperBoundedSet.contains, UpperBoundedRange.contains, BoundedSet.contains, BoundedRange.contains,
      LowerBound.included, UpperBound.excluded, ht, not_lt.2 ht]

end Rangetools
