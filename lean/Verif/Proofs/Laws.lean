import Verif.Proofs.AnyOps
import Verif.Spec.Algebra
import Mathlib.Order.Basic
import Mathlib.Order.Max

/-!
# Uniqueness of canonical values, complements on probes, emptiness, reachability
-/

namespace Rangetools
open Iv

variable {T : Type} [LinearOrder T]

/-! ### Spec vocabulary in terms of interval lists -/

theorem noOverlap_iff (u : UpperBound T) (l : LowerBound T) : NoOverlap u l ↔ hi u ≤ lo l := by
  rcases u with ⟨x | x⟩ <;> rcases l with ⟨y | y⟩ <;>
    simp only [NoOverlap, hi, lo, cut_le] <;> simp [le_iff_lt_or_eq]

theorem pieces_iff (l : List (BoundedRange T)) : Pieces l ↔ Canon (l.map BoundedRange.iv) := by
  unfold Pieces Canon
  simp only [noOverlap_iff, BoundedRange.isEmpty_eq_false_iff, List.mem_map, List.pairwise_map,
    BoundedRange.iv]
  constructor
  · rintro ⟨h1, h2⟩
    refine ⟨?_, h2⟩
    rintro p ⟨r, hr, rfl⟩
    exact h1 r hr
  · rintro ⟨h1, h2⟩
    exact ⟨fun r hr => h1 _ ⟨r, hr, rfl⟩, h2⟩

theorem Inner.normal_iff (i : Inner T) : i.Normal ↔ i.WF := by
  cases i with
  | bs s => exact pieces_iff _
  | lbs s =>
    simp only [Inner.Normal, Inner.WF, LowerBoundedSet.ivs, canon_append, canon_singleton,
      pieces_iff, noOverlap_iff]
    constructor
    · rintro ⟨h1, h2⟩
      refine ⟨h1, lo_lt_top _, ?_⟩
      intro p hp q hq
      rw [List.mem_singleton] at hq
      subst hq
      obtain ⟨r, hr, rfl⟩ := List.mem_map.mp hp
      exact h2 r hr
    · rintro ⟨h1, _, h2⟩
      exact ⟨h1, fun r hr => h2 r.iv (List.mem_map_of_mem hr) _ (List.mem_singleton.mpr rfl)⟩
  | ubs s =>
    simp only [Inner.Normal, Inner.WF, UpperBoundedSet.ivs, canon_cons,
      pieces_iff, noOverlap_iff]
    constructor
    · rintro ⟨h1, h2⟩
      refine ⟨bot_lt_hi _, ?_, h1⟩
      intro p hp
      obtain ⟨r, hr, rfl⟩ := List.mem_map.mp hp
      exact h2 r hr
    · rintro ⟨_, h2, h1⟩
      exact ⟨h1, fun r hr => h2 r.iv (List.mem_map_of_mem hr)⟩
  | us s =>
    cases s with
    | full => simp [Inner.Normal, Inner.WF, UnboundedSet.ivs, canon_singleton]
    | piecewise p =>
      simp only [Inner.Normal, Inner.WF, UnboundedSet.ivs, PiecewiseUnboundedSet.ivs, canon_cons,
        canon_append, pieces_iff, noOverlap_iff]
      constructor
      · rintro ⟨h1, h2, h3, h4⟩
        refine ⟨bot_lt_hi _, ?_, h1, ⟨lo_lt_top _, by simp, canon_nil⟩, ?_⟩
        · intro q hq
          rcases List.mem_append.mp hq with hq | hq
          · obtain ⟨r, hr, rfl⟩ := List.mem_map.mp hq
            exact h3 r hr
          · rw [List.mem_singleton] at hq
            subst hq
            exact h4
        · intro q hq q' hq'
          rw [List.mem_singleton] at hq'
          subst hq'
          obtain ⟨r, hr, rfl⟩ := List.mem_map.mp hq
          exact h2 r hr
      · rintro ⟨_, h2, h1, _, h3⟩
        exact ⟨h1, fun r hr => h3 r.iv (List.mem_map_of_mem hr) _ (List.mem_singleton.mpr rfl),
          fun r hr => h2 r.iv (List.mem_append_left _ (List.mem_map_of_mem hr)),
          h2 _ (List.mem_append_right _ (List.mem_singleton.mpr rfl))⟩
  | _ => exact Iff.rfl

omit [LinearOrder T] in
theorem Inner.isLBS_iff (i : Inner T) : i.IsLBS ↔ i.kind = .lbs := by
  cases i <;> simp [Inner.IsLBS, Inner.kind]

theorem Inner.Lossless.of_not_both {a b : Inner T} (h : ¬ (a.IsLBS ∧ b.IsLBS)) : a.Lossless b := by
  cases a <;> cases b <;> first | trivial | exact absurd ⟨trivial, trivial⟩ h

/-- On lossless operands the intersection is exact. -/
theorem interSem_of_lossless {a b : Inner T} (h : a.Lossless b) :
    interSem a b = sem a.ivs ∩ sem b.ivs := by
  by_cases hb : BothLBS a b
  · cases a with
    | lbs a =>
      cases b with
      | lbs b =>
        refine Set.Subset.antisymm (interSem_subset _ _) ?_
        simp only [interSem, Inner.ivs, LowerBoundedSet.ivs, sem_append, sem_cons, sem_nil,
          Set.union_empty]
        rintro q ⟨h1, h2⟩
        rcases h2 with h2 | h2
        · rcases h1 with h1 | h1
          · exact .inr ⟨h1, .inl h2⟩
          · exfalso
            obtain ⟨r, hr, hq⟩ := BoundedSet.mem_sem_ivs.mp h2
            have hn := (noOverlap_iff _ _).mp (h r hr)
            have hq' := Set.mem_inter h1 hq
            rw [sem1_inter, sem1_empty] at hq'
            · exact hq'
            · exact (min_le_right _ _).trans (hn.trans (le_max_left _ _))
        · exact .inl ⟨h1, h2⟩
      | _ => exact absurd hb.2 (by simp [Inner.kind])
    | _ => exact absurd hb.1 (by simp [Inner.kind])
  · exact interSem_eq hb

theorem Any.contains_toInner (a : Any T) (h : a.Fresh) (t : T) :
    a.toInner.contains t = a.contains t := by
  cases a with
  | range r => rfl
  | rangeInclusive r =>
    simp only [Any.Fresh] at h
    simp [Any.toInner, Inner.contains, Any.contains, BoundedRange.contains,
      BoundedRange.ofRangeInclusive, RangeInclusive.contains, h, LowerBound.included,
      UpperBound.included]
  | _ => rfl

theorem Any.contains_probe (a : Any T) (h : a.Fresh) (t : T) :
    a.contains t = true ↔ (cut t false, Side.after) ∈ sem a.toInner.ivs := by
  rw [← Any.contains_toInner a h, Inner.contains_probe]

/-- Exhausted or not, members have their probe. -/
theorem Any.probe_of_contains {a : Any T} {t : T} (h : a.contains t = true) :
    (cut t false, Side.after) ∈ sem a.toInner.ivs := by
  by_cases hf : a.Fresh
  · exact (a.contains_probe hf t).mp h
  · cases a with
    | rangeInclusive r =>
      refine ((Any.rangeInclusive { r with exhausted := false }).contains_probe rfl t).mp ?_
      simp only [Any.contains, RangeInclusive.contains, Bool.and_eq_true, decide_eq_true_eq] at h ⊢
      refine ⟨h.1, ?_⟩
      have h2 := h.2
      split at h2
      · simpa using (decide_eq_true_eq.mp h2).le
      · simpa using h2
    | _ => exact absurd trivial hf

/-! ### Uniqueness -/

omit [LinearOrder T] in
theorem BoundedRange.iv_inj {a b : BoundedRange T} (h : a.iv = b.iv) : a = b := by
  obtain ⟨s, e⟩ := a
  obtain ⟨s', e'⟩ := b
  simp only [BoundedRange.iv, Prod.mk.injEq, lo_inj, hi_inj] at h
  rw [h.1, h.2]

omit [LinearOrder T] in
theorem LowerBoundedRange.iv_inj {a b : LowerBoundedRange T} (h : a.iv = b.iv) : a = b := by
  obtain ⟨s⟩ := a
  obtain ⟨s'⟩ := b
  simp only [LowerBoundedRange.iv, Prod.mk.injEq, lo_inj, and_true] at h
  rw [h]

omit [LinearOrder T] in
theorem UpperBoundedRange.iv_inj {a b : UpperBoundedRange T} (h : a.iv = b.iv) : a = b := by
  obtain ⟨s⟩ := a
  obtain ⟨s'⟩ := b
  simp only [UpperBoundedRange.iv, Prod.mk.injEq, hi_inj, true_and] at h
  rw [h]

omit [LinearOrder T] in
theorem BoundedSet.ivs_inj {a b : BoundedSet T} (h : a.ivs = b.ivs) : a = b := by
  obtain ⟨l⟩ := a
  obtain ⟨m⟩ := b
  have : l = m := List.map_inj_right (fun _ _ => BoundedRange.iv_inj) |>.mp h
  rw [this]

omit [LinearOrder T] in
/-- Values of the same type with the same interval list are equal. -/
theorem Inner.ivs_inj {a b : Inner T} (hk : a.kind = b.kind) (h : a.ivs = b.ivs) : a = b := by
  cases a with
  | br a =>
    cases b <;> simp [Inner.kind] at hk
    rename_i b
    simp only [Inner.ivs, List.cons.injEq, and_true] at h
    rw [BoundedRange.iv_inj h]
  | bs a =>
    cases b <;> simp [Inner.kind] at hk
    rw [BoundedSet.ivs_inj h]
  | lbr a =>
    cases b <;> simp [Inner.kind] at hk
    simp only [Inner.ivs, List.cons.injEq, and_true] at h
    rw [LowerBoundedRange.iv_inj h]
  | lbs a =>
    cases b <;> simp [Inner.kind] at hk
    rename_i b
    obtain ⟨h1, h2⟩ := List.append_inj' h rfl
    simp only [List.cons.injEq, and_true] at h2
    obtain ⟨ar, al⟩ := a
    obtain ⟨br, bl⟩ := b
    rw [show ar = br from BoundedSet.ivs_inj h1, show al = bl from LowerBoundedRange.iv_inj h2]
  | ubr a =>
    cases b <;> simp [Inner.kind] at hk
    simp only [Inner.ivs, List.cons.injEq, and_true] at h
    rw [UpperBoundedRange.iv_inj h]
  | ubs a =>
    cases b <;> simp [Inner.kind] at hk
    rename_i b
    simp only [Inner.ivs, UpperBoundedSet.ivs, List.cons.injEq] at h
    obtain ⟨ar, al⟩ := a
    obtain ⟨br, bl⟩ := b
    rw [show al = bl from BoundedSet.ivs_inj h.2, show ar = br from UpperBoundedRange.iv_inj h.1]
  | ur => cases b <;> simp [Inner.kind] at hk; rfl
  | us a =>
    cases b <;> simp [Inner.kind] at hk
    rename_i b
    cases a with
    | full =>
      cases b with
      | full => rfl
      | piecewise q =>
        have := congrArg List.length h
        simp [Inner.ivs, UnboundedSet.ivs, PiecewiseUnboundedSet.ivs] at this
    | piecewise p =>
      cases b with
      | full =>
        have := congrArg List.length h
        simp [Inner.ivs, UnboundedSet.ivs, PiecewiseUnboundedSet.ivs] at this
      | piecewise q =>
        simp only [Inner.ivs, UnboundedSet.ivs, PiecewiseUnboundedSet.ivs, List.cons.injEq] at h
        obtain ⟨h1, h2⟩ := List.append_inj' h.2 rfl
        simp only [List.cons.injEq, and_true] at h2
        obtain ⟨pu, pr, pl⟩ := p
        obtain ⟨qu, qr, ql⟩ := q
        rw [show pr = qr from BoundedSet.ivs_inj h1, show pl = ql from LowerBoundedRange.iv_inj h2,
          show pu = qu from UpperBoundedRange.iv_inj h.1]
  | er => cases b <;> simp [Inner.kind] at hk; rfl

omit [LinearOrder T] in
theorem Inner.sameType_iff {a b : Inner T} : a.SameType b ↔ a.kind = b.kind := by
  cases a <;> cases b <;> simp [Inner.SameType, Inner.kind]

/-- The four set types. -/
def Kind.isSet : Kind → Bool
  | .bs | .lbs | .ubs | .us => true
  | _ => false

theorem Inner.canon_of_isSet {a : Inner T} (h : a.kind.isSet = true) (hw : a.WF) : Canon a.ivs := by
  cases a <;> first | exact hw | (simp [Inner.kind, Kind.isSet] at h)

/-- Normalised sets of the same type with the same probes are equal. -/
theorem Inner.eq_of_sem {a b : Inner T} (hk : a.kind = b.kind) (hs : a.kind.isSet = true)
    (ha : a.WF) (hb : b.WF) (h : sem a.ivs = sem b.ivs) : a = b :=
  Inner.ivs_inj hk (canon_unique (Inner.canon_of_isSet hs ha)
    (Inner.canon_of_isSet (hk ▸ hs) hb) h)

/-! ### Complement as a function of the probes -/

/-- The complement on probe sets. -/
def csemOf (S : Set (ECut T × Side)) : Set (ECut T × Side) := fun q =>
  q ∈ sem1 ((⊥, ⊤) : ECut T × ECut T) ∧
    match q.2 with
    | .after => (q.1, Side.after) ∉ S
    | .before => (q.1, Side.before) ∉ S
    | .at => (q.1, Side.after) ∉ S ∧ (q.1, Side.before) ∉ S

theorem csem_eq {L : List (ECut T × ECut T)} (hL : ∀ p ∈ L, p.1 < p.2) :
    csem L = csemOf (sem L) := by
  ext ⟨x, s⟩
  show (_ ∧ ∀ p ∈ L, _) ↔ (_ ∧ _)
  refine and_congr_right fun hx => ?_
  cases s with
  | after =>
    rw [mem_after] at hx
    show _ ↔ ¬ ∃ p ∈ L, _
    push Not
    refine forall₂_congr fun p _ => ?_
    rw [csem1, Set.mem_union, mem_after, mem_after, mem_after, not_and_or, not_le, not_lt]
    simp [hx.2]
  | before =>
    rw [mem_before] at hx
    show _ ↔ ¬ ∃ p ∈ L, _
    push Not
    refine forall₂_congr fun p _ => ?_
    rw [csem1, Set.mem_union, mem_before, mem_before, mem_before, not_and_or, not_lt, not_le]
    simp [hx.1]
  | «at» =>
    rw [mem_at] at hx
    show _ ↔ (¬ ∃ p ∈ L, _) ∧ (¬ ∃ p ∈ L, _)
    push Not
    rw [← forall₂_and]
    refine forall₂_congr fun p hp => ?_
    rw [csem1, Set.mem_union, mem_at, mem_at, mem_before, mem_after]
    simp only [hx.1, hx.2, true_and, and_true]
    have := hL p hp
    constructor
    · rintro (h | h)
      · exact ⟨fun hc => absurd h hc.1.not_gt, fun hc => absurd h hc.1.not_gt⟩
      · exact ⟨fun hc => absurd h hc.2.not_gt, fun hc => absurd h hc.2.not_gt⟩
    · rintro ⟨h1, h2⟩
      by_contra hc
      push Not at hc
      rcases hc.1.lt_or_eq with h | h
      · exact h2 ⟨h, hc.2⟩
      · exact h1 ⟨h.le, h ▸ this⟩

theorem csemOf_union (S S' : Set (ECut T × Side)) :
    csemOf (S ∪ S') = csemOf S ∩ csemOf S' := by
  ext ⟨x, s⟩
  rw [Set.mem_inter_iff]
  cases s with
  | after =>
    show (_ ∧ ¬ (_ ∈ S ∪ S')) ↔ (_ ∧ ¬ _) ∧ (_ ∧ ¬ _)
    rw [Set.mem_union]; tauto
  | before =>
    show (_ ∧ ¬ (_ ∈ S ∪ S')) ↔ (_ ∧ ¬ _) ∧ (_ ∧ ¬ _)
    rw [Set.mem_union]; tauto
  | «at» =>
    show (_ ∧ ¬ (_ ∈ S ∪ S') ∧ ¬ (_ ∈ S ∪ S')) ↔ (_ ∧ ¬ _ ∧ ¬ _) ∧ (_ ∧ ¬ _ ∧ ¬ _)
    rw [Set.mem_union, Set.mem_union]; tauto

theorem csemOf_mem_after {S : Set (ECut T × Side)} {x : ECut T} :
    (x, Side.after) ∈ csemOf S ↔ x < ⊤ ∧ (x, Side.after) ∉ S := by
  show (_ ∧ _) ↔ _
  rw [mem_after]
  simp

theorem csemOf_mem_before {S : Set (ECut T × Side)} {x : ECut T} :
    (x, Side.before) ∈ csemOf S ↔ ⊥ < x ∧ (x, Side.before) ∉ S := by
  show (_ ∧ _) ↔ _
  rw [mem_before]
  simp

theorem csemOf_mem_at {S : Set (ECut T × Side)} {x : ECut T} :
    (x, Side.at) ∈ csemOf S ↔
      (⊥ < x ∧ x < ⊤) ∧ (x, Side.after) ∉ S ∧ (x, Side.before) ∉ S := by
  show (_ ∧ _) ↔ _
  rw [mem_at]

theorem csemOf_triple (S : Set (ECut T × Side)) : csemOf (csemOf (csemOf S)) = csemOf S := by
  ext ⟨x, s⟩
  cases s with
  | after => simp only [csemOf_mem_after]; tauto
  | before => simp only [csemOf_mem_before]; tauto
  | «at» => simp only [csemOf_mem_at, csemOf_mem_after, csemOf_mem_before]; tauto

theorem csemOf_congr {S S' : Set (ECut T × Side)}
    (h1 : ∀ x, (x, Side.after) ∈ S ↔ (x, Side.after) ∈ S')
    (h2 : ∀ x, (x, Side.before) ∈ S ↔ (x, Side.before) ∈ S') : csemOf S = csemOf S' := by
  ext ⟨x, s⟩
  cases s with
  | after => simp only [csemOf_mem_after, h1]
  | before => simp only [csemOf_mem_before, h2]
  | «at» => simp only [csemOf_mem_at, h1, h2]

/-! ### Intersections of two ranges -/

/-- The range types other than `EmptyRange`. -/
def Kind.isRange : Kind → Bool
  | .br | .lbr | .ubr | .ur => true
  | _ => false

theorem Inner.inter_ranges {a b : Inner T} (ha : a.kind.isRange = true)
    (hb : b.kind.isRange = true) :
    ∃ c p q, a.inter b = .ok c ∧ c.kind.isRange = true ∧ a.ivs = [p] ∧ b.ivs = [q] ∧
      c.ivs = [(max p.1 q.1, min p.2 q.2)] := by
  cases a <;> cases b <;> simp [Inner.kind, Kind.isRange] at ha hb <;>
    exact ⟨_, _, _, rfl, rfl, rfl, rfl, by
      simp [Inner.ivs, BoundedRange.iv, LowerBoundedRange.iv, UpperBoundedRange.iv,
        BoundedRange.interBR, BoundedRange.interLBR, BoundedRange.interUBR,
        LowerBoundedRange.interBR, LowerBoundedRange.interLBR, LowerBoundedRange.interUBR,
        UpperBoundedRange.interBR, UpperBoundedRange.interLBR, UpperBoundedRange.interUBR,
        max_comm, min_comm]⟩

theorem interKind_isRange {j k : Kind} (h : (interKind j k).isRange = true) :
    j.isRange = true ∧ k.isRange = true := by
  revert h; cases j <;> cases k <;> decide

theorem Kind.trichotomy (k : Kind) : k.isRange = true ∨ k.isSet = true ∨ k = .er := by
  cases k <;> simp [Kind.isRange, Kind.isSet]

omit [LinearOrder T] in
theorem Inner.eq_er {a : Inner T} (h : a.kind = .er) : a = .er := by
  cases a <;> simp_all [Inner.kind]

theorem Inner.inter_comm {a b : Inner T} (ha : a.WF) (hb : b.WF) (h : a.Lossless b)
    (h' : b.Lossless a) : a.inter b = b.inter a := by
  obtain ⟨x, hx, sx, wx, kx⟩ := Inner.inter_comp a b
  obtain ⟨y, hy, sy, wy, ky⟩ := Inner.inter_comp b a
  have hk : x.kind = y.kind := by rw [kx, ky, interKind_comm]
  rw [hx, hy]
  congr 1
  rcases x.kind.trichotomy with hr | hs | he
  · obtain ⟨ra, rb⟩ := interKind_isRange (kx ▸ hr)
    obtain ⟨x', p, q, hx', _, hp, hq, hxi⟩ := Inner.inter_ranges ra rb
    obtain ⟨y', q', p', hy', _, hq', hp', hyi⟩ := Inner.inter_ranges rb ra
    have e1 : x = x' := by rw [hx] at hx'; injection hx'
    have e2 : y = y' := by rw [hy] at hy'; injection hy'
    have e3 : p = p' := by rw [hp] at hp'; injection hp'
    have e4 : q = q' := by rw [hq] at hq'; injection hq'
    subst e1 e2 e3 e4
    refine Inner.ivs_inj hk ?_
    rw [hxi, hyi, max_comm, min_comm]
  · refine Inner.eq_of_sem hk hs (wx ⟨ha, hb⟩) (wy ⟨hb, ha⟩) ?_
    rw [sx, sy, interSem_of_lossless h, interSem_of_lossless h', Set.inter_comm]
  · rw [Inner.eq_er he, Inner.eq_er (hk.symm.trans he)]

/-- Dispatch on the left operand's type makes no difference for normalised operands. -/
theorem Any.inter_eq {a b : Any T} (hb : b.toInner.WF) :
    a.inter b = a.toInner.inter b.toInner := by
  have key : ∀ i : Inner T, i.kind.isRange = true → i.interFromStd b.toInner =
      i.inter b.toInner := by
    intro i hi
    have hw : i.WF := by cases i <;> simp_all [Inner.kind, Inner.WF, Kind.isRange]
    have hc : b.toInner.inter i = i.inter b.toInner :=
      Inner.inter_comm hb hw
        (.of_not_both (by rintro ⟨_, h⟩; rw [Inner.isLBS_iff] at h; simp [h, Kind.isRange] at hi))
        (.of_not_both (by rintro ⟨h, _⟩; rw [Inner.isLBS_iff] at h; simp [h, Kind.isRange] at hi))
    cases hbt : b.toInner with
    | er => cases i <;> simp_all [Inner.kind, Kind.isRange] <;> rfl
    | br _ => rfl
    | lbr _ => rfl
    | ubr _ => rfl
    | ur => rfl
    | bs _ => rw [← hbt, ← hc, hbt]; rfl
    | lbs _ => rw [← hbt, ← hc, hbt]; rfl
    | ubs _ => rw [← hbt, ← hc, hbt]; rfl
    | us _ => rw [← hbt, ← hc, hbt]; rfl
  have key2 : ∀ i : Inner T, i.kind.isRange = true →
      (match b.toInner with | .er => .ok .er | o => i.inter o) = i.inter b.toInner := by
    intro i hi
    cases hbt : b.toInner with
    | er => cases i <;> simp_all [Inner.kind, Kind.isRange] <;> rfl
    | _ => rfl
  cases a with
  | inner i => rfl
  | rangeFrom r => exact key2 _ rfl
  | rangeFull => exact key2 _ rfl
  | range r => exact key _ rfl
  | rangeInclusive r => exact key _ rfl
  | rangeTo r => exact key _ rfl
  | rangeToInclusive r => exact key _ rfl

theorem Inner.inter_assoc {a b c x y : Inner T} (ha : a.WF) (hb : b.WF) (hc : c.WF)
    (hx : a.inter b = .ok x) (hy : b.inter c = .ok y)
    (h1 : a.Lossless b) (h2 : x.Lossless c) (h3 : b.Lossless c) (h4 : a.Lossless y) :
    x.inter c = a.inter y := by
  obtain ⟨x', hx', sx, wx, kx⟩ := Inner.inter_comp a b
  obtain ⟨y', hy', sy, wy, ky⟩ := Inner.inter_comp b c
  have e1 : x = x' := by rw [hx] at hx'; injection hx'
  have e2 : y = y' := by rw [hy] at hy'; injection hy'
  subst e1 e2
  obtain ⟨u, hu, su, wu, ku⟩ := Inner.inter_comp x c
  obtain ⟨v, hv, sv, wv, kv⟩ := Inner.inter_comp a y
  have hk : u.kind = v.kind := by rw [ku, kv, kx, ky, interKind_assoc]
  rw [hu, hv]
  congr 1
  rcases u.kind.trichotomy with hr | hs | he
  · obtain ⟨rx, rc⟩ := interKind_isRange (ku ▸ hr)
    obtain ⟨ra, rb⟩ := interKind_isRange (kx ▸ rx)
    obtain ⟨_, ry⟩ := interKind_isRange (kv ▸ hk ▸ hr)
    obtain ⟨x', p, q, hx', _, hp, hq, hxi⟩ := Inner.inter_ranges ra rb
    obtain ⟨y', q', r, hy', _, hq', hr', hyi⟩ := Inner.inter_ranges rb rc
    obtain ⟨u', px, r', hu', _, hpx, hr'', hui⟩ := Inner.inter_ranges rx rc
    obtain ⟨v', p', py, hv', _, hp', hpy, hvi⟩ := Inner.inter_ranges ra ry
    have e1 : x = x' := by rw [hx] at hx'; injection hx'
    have e2 : y = y' := by rw [hy] at hy'; injection hy'
    have e3 : u = u' := by rw [hu] at hu'; injection hu'
    have e4 : v = v' := by rw [hv] at hv'; injection hv'
    subst e1 e2 e3 e4
    refine Inner.ivs_inj hk ?_
    rw [hp] at hp'; rw [hq] at hq'; rw [hr'] at hr''; rw [hxi] at hpx; rw [hyi] at hpy
    simp only [List.cons.injEq, and_true] at hp' hq' hr'' hpx hpy
    subst hp' hq' hr'' hpx hpy
    rw [hui, hvi]
    simp only [max_assoc, min_assoc]
  · refine Inner.eq_of_sem hk hs (wu ⟨wx ⟨ha, hb⟩, hc⟩) (wv ⟨ha, wy ⟨hb, hc⟩⟩) ?_
    rw [su, sv, interSem_of_lossless h2, interSem_of_lossless h4, sx, sy, interSem_of_lossless h1,
      interSem_of_lossless h3, Set.inter_assoc]
  · rw [Inner.eq_er he, Inner.eq_er (hk.symm.trans he)]

/-! ### Emptiness -/

theorem sem1_eq_empty_iff {p : ECut T × ECut T} : sem1 p = ∅ ↔ p.2 ≤ p.1 := by
  refine ⟨fun h => ?_, sem1_empty⟩
  by_contra hc
  rw [not_le] at hc
  have : (p.1, Side.after) ∈ sem1 p := mem_after.mpr ⟨le_rfl, hc⟩
  rw [h] at this
  exact this

theorem sem_eq_empty_iff {L : List (ECut T × ECut T)} : sem L = ∅ ↔ ∀ p ∈ L, p.2 ≤ p.1 := by
  constructor
  · intro h p hp
    rw [← sem1_eq_empty_iff, Set.eq_empty_iff_forall_notMem]
    intro q hq
    have : q ∈ sem L := ⟨p, hp, hq⟩
    rw [h] at this
    exact this
  · intro h
    rw [Set.eq_empty_iff_forall_notMem]
    rintro q ⟨p, hp, hq⟩
    rw [sem1_empty (h p hp)] at hq
    exact hq

theorem Inner.isEmpty_iff_sem (i : Inner T) : i.isEmpty = true ↔ sem i.ivs = ∅ := by
  rw [sem_eq_empty_iff]
  cases i with
  | br r => simp [Inner.isEmpty, Inner.ivs, BoundedRange.isEmpty_iff, BoundedRange.iv]
  | bs s =>
    simp [Inner.isEmpty, Inner.ivs, BoundedSet.isEmpty_iff, BoundedSet.ivs,
      BoundedRange.isEmpty_iff, BoundedRange.iv]
  | lbr r =>
    simp only [Inner.isEmpty, Inner.ivs, Bool.false_eq_true, false_iff, List.mem_singleton,
      forall_eq, not_le, LowerBoundedRange.iv, lo_lt_top]
  | lbs s =>
    simp only [Inner.isEmpty, Inner.ivs, Bool.false_eq_true, false_iff]
    intro h
    have := h s.lowerBoundedRange.iv (by simp [LowerBoundedSet.ivs])
    exact absurd (lo_lt_top s.lowerBoundedRange.start) this.not_gt
  | ubr r =>
    simp only [Inner.isEmpty, Inner.ivs, Bool.false_eq_true, false_iff, List.mem_singleton,
      forall_eq, not_le, UpperBoundedRange.iv, bot_lt_hi]
  | ubs s =>
    simp only [Inner.isEmpty, Inner.ivs, Bool.false_eq_true, false_iff]
    intro h
    have := h s.upperBoundedRange.iv (by simp [UpperBoundedSet.ivs])
    exact absurd (bot_lt_hi s.upperBoundedRange.stop) this.not_gt
  | ur => simp [Inner.isEmpty, Inner.ivs]
  | us s =>
    simp only [Inner.isEmpty, Inner.ivs, Bool.false_eq_true, false_iff]
    intro h
    cases s with
    | full => simp [UnboundedSet.ivs] at h
    | piecewise p =>
      have := h p.upperBoundedRange.iv (by simp [UnboundedSet.ivs, PiecewiseUnboundedSet.ivs])
      exact absurd (bot_lt_hi p.upperBoundedRange.stop) this.not_gt
  | er => simp [Inner.isEmpty, Inner.ivs]

theorem Any.isEmpty_toInner (a : Any T) : a.toInner.isEmpty = a.isEmpty := by
  cases a <;> rfl

/-! ### Reachable values are normalised -/

theorem Reachable.wf {a : Any T} (h : Reachable a) : a.toInner.WF := by
  induction h with
  | boundedSetEmpty => exact canon_nil
  | unboundedSetFull =>
    simp [Any.toInner, Inner.WF, UnboundedSet.ivs, canon_singleton]
  | unboundedSetNew u l => exact UnboundedSet.new_canon u l
  | toInner _ ih => exact ih
  | toSet _ ih => rw [Any.toSet_eq]; exact Inner.toSet_WF ih
  | union _ _ hc iha ihb =>
    rename_i a b c _ _
    obtain ⟨c', hc', _, hw, _⟩ := Any.union_comp a b
    obtain rfl : c = c' := by rw [hc] at hc'; injection hc'
    exact hw iha ihb
  | inter _ _ hc iha ihb =>
    rename_i a b c _ _
    obtain ⟨c', hc', _, hw, _⟩ := Any.inter_comp a b
    obtain rfl : c = c' := by rw [hc] at hc'; injection hc'
    exact hw ⟨iha, ihb⟩
  | complement _ hc _ =>
    rename_i a c _ _
    obtain ⟨c', hc', _, hw, _⟩ := Any.complement_comp a
    obtain rfl : c = c' := by rw [hc] at hc'; injection hc'
    exact hw trivial
  | _ => trivial

/-! ### Dense orders -/

/-- Over a dense order without endpoints there is an element between any two cuts. -/
theorem exists_elem_between [DenselyOrdered T] [NoMinOrder T] [NoMaxOrder T] [Nonempty T]
    {x y : ECut T} (h : x < y) : ∃ t : T, x ≤ cut t false ∧ cut t false < y := by
  rcases cases_ecut x with rfl | rfl | ⟨a, s, rfl⟩
  · rcases cases_ecut y with rfl | rfl | ⟨b, r, rfl⟩
    · exact absurd h (lt_irrefl _)
    · obtain ⟨t⟩ := ‹Nonempty T›
      exact ⟨t, bot_le, cut_lt_top⟩
    · obtain ⟨t, ht⟩ := exists_lt b
      exact ⟨t, bot_le, cut_lt.mpr (Or.inl ht)⟩
  · exact absurd h not_top_lt
  · rcases cases_ecut y with rfl | rfl | ⟨b, r, rfl⟩
    · exact absurd h not_lt_bot
    · obtain ⟨t, ht⟩ := exists_gt a
      exact ⟨t, cut_le.mpr (Or.inl ht), cut_lt_top⟩
    · rcases cut_lt.mp h with hab | ⟨rfl, hs⟩
      · obtain ⟨t, h1, h2⟩ := exists_between hab
        exact ⟨t, cut_le.mpr (Or.inl h1), cut_lt.mpr (Or.inl h2)⟩
      · refine ⟨a, cut_le.mpr (Or.inr ⟨rfl, ?_⟩), cut_lt.mpr (Or.inr ⟨rfl, ?_⟩)⟩
        · cases s
          · exact le_rfl
          · exact absurd hs (Bool.le_true _).not_gt
        · cases r
          · exact absurd hs (Bool.false_le _).not_gt
          · exact Bool.false_lt_true

/-- The least of finitely many points above `x`, or `y` if there are none. -/
theorem exists_least_above {x y : ECut T} (h : x < y) (l : List (ECut T)) :
    ∃ m, x < m ∧ m ≤ y ∧ ∀ z ∈ l, x < z → m ≤ z := by
  induction l with
  | nil => exact ⟨y, h, le_rfl, by simp⟩
  | cons a l ih =>
    obtain ⟨m, h1, h2, h3⟩ := ih
    by_cases ha : x < a
    · refine ⟨min m a, lt_min h1 ha, (min_le_left _ _).trans h2, ?_⟩
      intro z hz hxz
      rcases List.mem_cons.mp hz with rfl | hz
      · exact min_le_right _ _
      · exact (min_le_left _ _).trans (h3 z hz hxz)
    · refine ⟨m, h1, h2, ?_⟩
      intro z hz hxz
      rcases List.mem_cons.mp hz with rfl | hz
      · exact absurd hxz ha
      · exact h3 z hz hxz

/-- The greatest of finitely many points below `x`, or `y` if there are none. -/
theorem exists_greatest_below {x y : ECut T} (h : y < x) (l : List (ECut T)) :
    ∃ m, m < x ∧ y ≤ m ∧ ∀ z ∈ l, z < x → z ≤ m := by
  induction l with
  | nil => exact ⟨y, h, le_rfl, by simp⟩
  | cons a l ih =>
    obtain ⟨m, h1, h2, h3⟩ := ih
    by_cases ha : a < x
    · refine ⟨max m a, max_lt h1 ha, h2.trans (le_max_left _ _), ?_⟩
      intro z hz hxz
      rcases List.mem_cons.mp hz with rfl | hz
      · exact le_max_right _ _
      · exact (h3 z hz hxz).trans (le_max_left _ _)
    · refine ⟨m, h1, h2, ?_⟩
      intro z hz hxz
      rcases List.mem_cons.mp hz with rfl | hz
      · exact absurd hxz ha
      · exact h3 z hz hxz

/-- Over a dense order without endpoints, inclusion of members implies inclusion of the `after`
probes. -/
theorem after_of_members [DenselyOrdered T] [NoMinOrder T] [NoMaxOrder T] [Nonempty T]
    {L M : List (ECut T × ECut T)}
    (h : ∀ t : T, (cut t false, Side.after) ∈ sem L → (cut t false, Side.after) ∈ sem M)
    {x : ECut T} (hx : (x, Side.after) ∈ sem L) : (x, Side.after) ∈ sem M := by
  obtain ⟨p, hp, hx⟩ := hx
  rw [mem_after] at hx
  obtain ⟨m, h1, h2, h3⟩ := exists_least_above hx.2 (M.map Prod.fst)
  obtain ⟨t, ht1, ht2⟩ := exists_elem_between h1
  obtain ⟨q, hq, hqt⟩ := h t ⟨p, hp, mem_after.mpr ⟨hx.1.trans ht1, ht2.trans_le h2⟩⟩
  rw [mem_after] at hqt
  refine ⟨q, hq, mem_after.mpr ⟨?_, ht1.trans_lt hqt.2⟩⟩
  by_contra hc
  rw [not_le] at hc
  exact absurd (hqt.1.trans_lt ht2) (h3 q.1 (List.mem_map_of_mem hq) hc).not_gt

/-- The same for the `before` probes. -/
theorem before_of_members [DenselyOrdered T] [NoMinOrder T] [NoMaxOrder T] [Nonempty T]
    {L M : List (ECut T × ECut T)}
    (h : ∀ t : T, (cut t false, Side.after) ∈ sem L → (cut t false, Side.after) ∈ sem M)
    {x : ECut T} (hx : (x, Side.before) ∈ sem L) : (x, Side.before) ∈ sem M := by
  obtain ⟨p, hp, hx⟩ := hx
  rw [mem_before] at hx
  obtain ⟨m, h1, h2, h3⟩ := exists_greatest_below hx.1 (M.map Prod.snd)
  obtain ⟨t, ht1, ht2⟩ := exists_elem_between h1
  obtain ⟨q, hq, hqt⟩ := h t ⟨p, hp, mem_after.mpr ⟨h2.trans ht1, ht2.trans_le hx.2⟩⟩
  rw [mem_after] at hqt
  refine ⟨q, hq, mem_before.mpr ⟨hqt.1.trans_lt ht2, ?_⟩⟩
  by_contra hc
  rw [not_le] at hc
  exact absurd (ht1.trans_lt hqt.2) (h3 q.2 (List.mem_map_of_mem hq) hc).not_gt

/-! ### Included starts -/

/-- Every point at which a piece begins is `⊥` or an included start. -/
def InclStarts (S : Set (ECut T × Side)) : Prop :=
  ∀ c, (c, Side.after) ∈ S → (c, Side.at) ∉ S → ∀ a : T, c ≠ cut a true

theorem InclStarts.of_pieces {L : List (ECut T × ECut T)} (h : ∀ p ∈ L, ∀ a : T, p.1 ≠ cut a true) :
    InclStarts (sem L) := by
  intro c h1 h2 a
  obtain ⟨p, hp, h1⟩ := h1
  rw [mem_after] at h1
  have : p.1 = c := by
    by_contra hne
    exact h2 ⟨p, hp, mem_at.mpr ⟨lt_of_le_of_ne h1.1 hne, h1.2⟩⟩
  rw [← this]
  exact h p hp a

omit [LinearOrder T] in
theorem InclStarts.union {S S' : Set (ECut T × Side)} (h : InclStarts S) (h' : InclStarts S') :
    InclStarts (S ∪ S') := by
  intro c h1 h2
  rw [Set.mem_union, not_or] at h2
  rcases h1 with h1 | h1
  · exact h c h1 h2.1
  · exact h' c h1 h2.2

omit [LinearOrder T] in
theorem InclStarts.inter {S S' : Set (ECut T × Side)} (h : InclStarts S) (h' : InclStarts S') :
    InclStarts (S ∩ S') := by
  intro c h1 h2
  rw [Set.mem_inter_iff, not_and_or] at h2
  rcases h2 with h2 | h2
  · exact h c h1.1 h2
  · exact h' c h1.2 h2

/-! ### When the intersection of two `LowerBoundedSet`s is exact -/

/-- An interval that a lossy intersection of two normal `LowerBoundedSet`s loses. -/
theorem lost_of_not_lossless {a b : LowerBoundedSet T} (na : (Inner.lbs a).Normal)
    (nb : (Inner.lbs b).Normal) (h : ¬ (Inner.lbs a).Lossless (.lbs b)) :
    ∃ x y, x < y ∧ ∀ q ∈ sem1 (x, y), q ∈ sem1 a.lowerBoundedRange.iv ∧ q ∈ sem b.ranges.ivs ∧
      q ∉ sem a.ranges.ivs ∧ q ∉ sem1 b.lowerBoundedRange.iv := by
  simp only [Inner.Lossless, not_forall] at h
  obtain ⟨r, hr, hn⟩ := h
  rw [noOverlap_iff, not_le] at hn
  have hne : r.iv.1 < r.iv.2 := by
    have := nb.1.1 r hr
    by_contra hh
    have := r.isEmpty_iff.mpr (not_lt.mp hh)
    simp_all
  refine ⟨max (lo a.lowerBoundedRange.start) r.iv.1, min ⊤ r.iv.2,
    max_lt (lt_min (hn.trans_le le_top) hn) (lt_min (hne.trans_le le_top) hne), fun q hq => ?_⟩
  have hq' : q ∈ sem1 a.lowerBoundedRange.iv ∩ sem1 r.iv := by rw [sem1_inter]; exact hq
  obtain ⟨h1, h2⟩ := hq'
  refine ⟨h1, BoundedSet.mem_sem_ivs.mpr ⟨r, hr, h2⟩, fun h3 => ?_, fun h3 => ?_⟩
  · obtain ⟨r', hr', h3⟩ := BoundedSet.mem_sem_ivs.mp h3
    have hd := (noOverlap_iff _ _).mp (na.2 r' hr')
    have hq := Set.mem_inter h1 h3
    rw [sem1_inter, sem1_empty] at hq
    · exact hq
    · exact (min_le_right _ _).trans (hd.trans (le_max_left _ _))
  · have hd := (noOverlap_iff _ _).mp (nb.2 r hr)
    have hq := Set.mem_inter h3 h2
    rw [sem1_inter, sem1_empty] at hq
    · exact hq
    · exact (min_le_right _ _).trans (hd.trans (le_max_left _ _))

/-- For normal operands, `Lossless` is exactly the condition under which no probe is lost. -/
theorem lossless_of_interSem {a b : Inner T} (na : a.Normal) (nb : b.Normal)
    (h : sem a.ivs ∩ sem b.ivs ⊆ interSem a b) : a.Lossless b := by
  by_contra hn
  cases a with
  | lbs a =>
    cases b with
    | lbs b =>
      obtain ⟨x, y, hxy, hq⟩ := lost_of_not_lossless na nb hn
      obtain ⟨h1, h2, h3, h4⟩ := hq (x, .after) (mem_after.mpr ⟨le_rfl, hxy⟩)
      have hq : (x, Side.after) ∈ interSem (.lbs a) (.lbs b) := h ⟨by
        simp only [Inner.ivs, LowerBoundedSet.ivs, sem_append, sem_one]; exact .inr h1, by
        simp only [Inner.ivs, LowerBoundedSet.ivs, sem_append, sem_one]; exact .inl h2⟩
      rcases hq with hq | hq
      · exact h4 hq.2
      · exact h3 hq.1
    | _ => exact hn trivial
  | _ => exact hn trivial

/-- If `a ∩ b` and `b ∩ a` have the same probes then neither loses any. -/
theorem lossless_of_comm {a b : Inner T} (na : a.Normal) (nb : b.Normal)
    (h : interSem b a ⊆ interSem a b) : a.Lossless b := by
  by_contra hn
  cases a with
  | lbs a =>
    cases b with
    | lbs b =>
      obtain ⟨x, y, hxy, hq⟩ := lost_of_not_lossless na nb hn
      obtain ⟨h1, h2, h3, h4⟩ := hq (x, .after) (mem_after.mpr ⟨le_rfl, hxy⟩)
      have hq : (x, Side.after) ∈ interSem (.lbs a) (.lbs b) := h (.inr ⟨h2, by
        simp only [LowerBoundedSet.ivs, sem_append, sem_one]; exact .inr h1⟩)
      rcases hq with hq | hq
      · exact h4 hq.2
      · exact h3 hq.1
    | _ => exact hn trivial
  | _ => exact hn trivial

end Rangetools
