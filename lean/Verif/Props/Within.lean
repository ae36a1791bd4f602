import Verif.Spec.Within
import Verif.Spec.Samples
import Verif.Props.Lattice
import Mathlib.Data.List.Pairwise

/-!
# C119: what subset tests with `==` find out
-/

namespace Rangetools
open Iv

variable {T : Type} [LinearOrder T]

theorem startsFirst_iff (x y : LowerBound T) : StartsFirst x y ↔ lo x ≤ lo y := by
  rcases x with ⟨_ | _⟩ <;> rcases y with ⟨_ | _⟩ <;> simp only [StartsFirst, lo, cut_le] <;>
    simp [le_iff_lt_or_eq]

theorem endsFirst_iff (x y : UpperBound T) : EndsFirst x y ↔ hi x ≤ hi y := by
  rcases x with ⟨_ | _⟩ <;> rcases y with ⟨_ | _⟩ <;> simp only [EndsFirst, hi, cut_le] <;>
    simp [le_iff_lt_or_eq]

/-- The interval of a piece. -/
def cutsOf (p : Option (LowerBound T) × Option (UpperBound T)) : ECut T × ECut T :=
  (p.1.elim ⊥ lo, p.2.elim ⊤ hi)

omit [LinearOrder T] in
theorem ivs_eq_stretches {a : Inner T} (ha : a.IsSet) : a.ivs = a.stretches.map cutsOf := by
  cases a with
  | us s =>
    cases s with
    | full => rfl
    | piecewise p =>
      simp only [Inner.ivs, UnboundedSet.ivs, Inner.stretches, List.map_cons, List.map_append, List.map_map, List.map_nil]
      rfl
  | bs s => simp only [Inner.ivs, BoundedSet.ivs, Inner.stretches, List.map_map]; rfl
  | lbs s =>
    simp only [Inner.ivs, LowerBoundedSet.ivs, BoundedSet.ivs, Inner.stretches, List.map_append, List.map_map]; rfl
  | ubs s =>
    simp only [Inner.ivs, UpperBoundedSet.ivs, BoundedSet.ivs, Inner.stretches, List.map_cons, List.map_map]; rfl
  | _ => exact ha.elim

theorem fitsIn_iff (p q : Option (LowerBound T) × Option (UpperBound T)) :
    FitsIn p q ↔ (cutsOf q).1 ≤ (cutsOf p).1 ∧ (cutsOf p).2 ≤ (cutsOf q).2 := by
  obtain ⟨p1, p2⟩ := p
  obtain ⟨q1, q2⟩ := q
  refine and_congr ?_ ?_
  · cases q1 <;> cases p1 <;> simp [cutsOf, startsFirst_iff, (bot_lt_lo _).ne']
  · cases q2 <;> cases p2 <;> simp [cutsOf, endsFirst_iff, (hi_lt_top _).ne]

/-- An interval covered by a canonical list lies in one interval of it. -/
theorem exists_cover {α : Type} [LinearOrder α] {p : α × α} {M : List (α × α)} (hp : p.1 < p.2) (hM : Canon M)
    (h : sem1 p ⊆ sem M) : ∃ q ∈ M, q.1 ≤ p.1 ∧ p.2 ≤ q.2 := by
  obtain ⟨q, hq, h1, h2⟩ : ∃ q ∈ M, q.1 ≤ p.1 ∧ p.1 < q.2 := h (show (p.1, Side.after) ∈ sem1 p from ⟨le_rfl, hp⟩)
  refine ⟨q, hq, h1, ?_⟩
  by_contra hn
  rw [not_le] at hn
  obtain ⟨r, hr, h3, h4⟩ : ∃ r ∈ M, r.1 < q.2 ∧ q.2 < r.2 := h (show (q.2, Side.at) ∈ sem1 p from ⟨h2, hn⟩)
  have key : q = r ∨ q.2 ≤ r.1 ∨ r.2 ≤ q.1 := by
    by_cases he : q = r
    · exact .inl he
    · refine .inr ?_
      have hs : M.Pairwise fun p q => p.2 ≤ q.1 ∨ q.2 ≤ p.1 := hM.2.imp .inl
      have : Std.Symm fun p q : α × α => p.2 ≤ q.1 ∨ q.2 ≤ p.1 := ⟨fun _ _ => Or.symm⟩
      exact hs.forall hq hr he
  rcases key with rfl | h5 | h5
  · exact absurd h4 (lt_irrefl _)
  · exact absurd h3 h5.not_gt
  · exact absurd (h2.trans h4) (h5.trans h1).not_gt

theorem within_iff {a b : Inner T} (ha : a.IsSet) (hb : b.IsSet) (na : a.WF) (nb : b.WF) :
    Within a b ↔ sem a.ivs ⊆ sem b.ivs := by
  have ca := Inner.canon_of_isSet (Inner.isSet_iff.mp ha) na
  have cb := Inner.canon_of_isSet (Inner.isSet_iff.mp hb) nb
  rw [ivs_eq_stretches ha] at ca ⊢
  rw [ivs_eq_stretches hb] at cb ⊢
  constructor
  · rintro h ⟨x, s⟩ ⟨p, hp, hx⟩
    obtain ⟨p, hp', rfl⟩ := List.mem_map.mp hp
    obtain ⟨q, hq, hf⟩ := h p hp'
    obtain ⟨h1, h2⟩ := (fitsIn_iff p q).mp hf
    refine ⟨_, List.mem_map.mpr ⟨q, hq, rfl⟩, ?_⟩
    cases s
    · exact ⟨h1.trans_lt hx.1, hx.2.trans h2⟩
    · exact ⟨h1.trans_lt hx.1, hx.2.trans_le h2⟩
    · exact ⟨h1.trans hx.1, hx.2.trans_le h2⟩
  · intro h p hp
    have hp' : cutsOf p ∈ a.stretches.map cutsOf := List.mem_map.mpr ⟨p, hp, rfl⟩
    obtain ⟨m, hm, h1, h2⟩ := exists_cover (ca.1 _ hp') cb fun x hx => h ⟨_, hp', hx⟩
    obtain ⟨q, hq, rfl⟩ := List.mem_map.mp hm
    exact ⟨q, hq, (fitsIn_iff p q).mpr ⟨h1, h2⟩⟩

/-! ### Types -/

omit [LinearOrder T] in
theorem stretches_below {a : Inner T} (ha : a.IsSet) : a.BoundedBelow ↔ ∀ p ∈ a.stretches, p.1 ≠ none := by
  cases a with
  | us s =>
    cases s <;> simp only [Inner.BoundedBelow, Inner.stretches, List.forall_mem_cons] <;> simp
  | _ =>
    first
    | exact ha.elim
    | (simp only [Inner.BoundedBelow, Inner.stretches, List.forall_mem_append, List.forall_mem_cons,
        List.forall_mem_map]; simp)

omit [LinearOrder T] in
theorem stretches_above {a : Inner T} (ha : a.IsSet) : a.BoundedAbove ↔ ∀ p ∈ a.stretches, p.2 ≠ none := by
  cases a with
  | us s =>
    cases s <;> simp only [Inner.BoundedAbove, Inner.stretches, List.forall_mem_append, List.forall_mem_cons] <;> simp
  | _ =>
    first
    | exact ha.elim
    | (simp only [Inner.BoundedAbove, Inner.stretches, List.forall_mem_append, List.forall_mem_cons,
        List.forall_mem_map]; simp)

theorem Within.bounds {a b : Inner T} (ha : a.IsSet) (hb : b.IsSet) (h : Within a b) :
    (b.BoundedBelow → a.BoundedBelow) ∧ (b.BoundedAbove → a.BoundedAbove) := by
  rw [stretches_below ha, stretches_below hb, stretches_above ha, stretches_above hb]
  constructor
  · intro hq p hp e
    obtain ⟨q, hq', h1, -⟩ := h p hp
    obtain ⟨x, hx⟩ := Option.ne_none_iff_exists'.mp (hq q hq')
    obtain ⟨y, hy, -⟩ := h1 x hx
    rw [e] at hy
    cases hy
  · intro hq p hp e
    obtain ⟨q, hq', -, h1⟩ := h p hp
    obtain ⟨x, hx⟩ := Option.ne_none_iff_exists'.mp (hq q hq')
    obtain ⟨y, hy, -⟩ := h1 x hx
    rw [e] at hy
    cases hy

theorem Within.kinds {a b : Inner T} (ha : a.IsSet) (hb : b.IsSet) (h : Within a b) :
    unionKind a.kind b.kind = b.kind ∧ interKind a.kind b.kind = a.kind ∧ interKind b.kind a.kind = a.kind ∧
      unionKind b.kind a.kind = b.kind := by
  obtain ⟨h1, h2⟩ := h.bounds ha hb
  clear h
  cases a <;> first | exact ha.elim | skip
  all_goals cases b <;> first
    | exact hb.elim
    | exact ⟨rfl, rfl, rfl, rfl⟩
    | exact (h1 trivial).elim
    | exact (h2 trivial).elim

/-! ### The tests -/

/-- C119. `a.union(b) == b`, or with the operands exchanged, if and only if every piece of `a` lies in a single
piece of `b`. -/
theorem C119_union (a b : Inner T) (ha : a.IsSet) (hb : b.IsSet) (na : a.Normal) (nb : b.Normal) :
    ((Any.inner a).union (.inner b) = .ok (.inner b) ↔ Within a b) ∧
      ((Any.inner b).union (.inner a) = .ok (.inner b) ↔ Within a b) := by
  rw [Inner.normal_iff] at na nb
  have kb := Inner.isSet_iff.mp hb
  rw [within_iff ha hb na nb]
  obtain ⟨c, hc, sc, wc, kc, -⟩ := Any.union_sets ha hb na nb
  obtain ⟨d, hd, sd, wd, kd, -⟩ := Any.union_sets hb ha nb na
  rw [hc, hd]
  refine ⟨⟨fun h => ?_, fun h => ?_⟩, fun h => ?_, fun h => ?_⟩
  · injection h with h
    injection h with h
    rw [← h, sc]
    exact Set.subset_union_left
  · have k := ((within_iff ha hb na nb).mpr h).kinds ha hb
    congr 2
    exact Inner.eq_of_sem (by rw [kc, k.1]) (by rw [kc, k.1]; exact kb) wc nb (by rw [sc, Set.union_eq_right.mpr h])
  · injection h with h
    injection h with h
    rw [← h, sd]
    exact Set.subset_union_right
  · have k := ((within_iff ha hb na nb).mpr h).kinds ha hb
    have e := k.2.2.2
    congr 2
    exact Inner.eq_of_sem (by rw [kd, e]) (by rw [kd, e]; exact kb) wd nb (by rw [sd, Set.union_eq_left.mpr h])

/-- C119. `a.intersection(b) == a` if and only if every piece of `a` lies in a single piece of `b`. -/
theorem C119_inter (a b : Inner T) (ha : a.IsSet) (hb : b.IsSet) (na : a.Normal) (nb : b.Normal) :
    (Any.inner a).inter (.inner b) = .ok a ↔ Within a b := by
  rw [Inner.normal_iff] at na nb
  rw [within_iff ha hb na nb]
  obtain ⟨c, hc, sc, wc, kc⟩ := Any.inter_comp (.inner a) (.inner b)
  simp only [Any.toInner_inner] at sc wc kc
  rw [hc]
  constructor
  · intro h
    injection h with h
    rw [← h, sc]
    exact fun q hq => (interSem_subset _ _ hq).2
  · intro h
    have k := ((within_iff ha hb na nb).mpr h).kinds ha hb
    congr 1
    exact (Inner.eq_of_sem (by rw [kc, k.2.1]) (Inner.isSet_iff.mp ha) na (wc ⟨na, nb⟩)
      (by rw [sc, interSem_of_subset nb h])).symm

/-- C119. With the operands of the intersection exchanged, the test fails in addition where members are lost
(C02). -/
theorem C119_inter_exchanged (a b : Inner T) (ha : a.IsSet) (hb : b.IsSet) (na : a.Normal) (nb : b.Normal) :
    (Any.inner b).inter (.inner a) = .ok a ↔ Within a b ∧ Lossless (.inner b) (.inner a) := by
  constructor
  · intro h
    have hw : Within a b := by
      rw [within_iff ha hb ((Inner.normal_iff _).mp na) ((Inner.normal_iff _).mp nb)]
      obtain ⟨c, hc, sc, -, -⟩ := Any.inter_comp (.inner b) (.inner a)
      rw [hc] at h
      injection h with h
      rw [← h, sc]
      exact fun q hq => (interSem_subset _ _ hq).1
    refine ⟨hw, ((C10_inter_comm_iff (.inner b) (.inner a) nb na).mp ?_).1⟩
    rw [h, (C119_inter a b ha hb na nb).mpr hw]
  · rintro ⟨hw, hl⟩
    rw [Inner.normal_iff] at na nb
    obtain ⟨c, hc, sc, wc, kc⟩ := Any.inter_comp (.inner b) (.inner a)
    simp only [Any.toInner_inner] at sc wc kc
    rw [hc]
    congr 1
    refine (Inner.eq_of_sem (by rw [kc, (hw.kinds ha hb).2.2.1]) (Inner.isSet_iff.mp ha) na (wc ⟨nb, na⟩) ?_).symm
    have e := interSem_of_lossless hl
    simp only [Any.toInner_inner] at e
    rw [sc, e, Set.inter_eq_right.mpr ((within_iff ha hb na nb).mp hw)]

/-- C119. If a test succeeds, every element of `a` is in `b`. -/
theorem C119_members (a b : Inner T) (ha : a.IsSet) (hb : b.IsSet) (na : a.Normal) (nb : b.Normal) (h : Within a b)
    (t : T) : a.contains t = true → b.contains t = true := by
  rw [Inner.normal_iff] at na nb
  rw [Inner.contains_probe, Inner.contains_probe]
  exact fun ht => (within_iff ha hb na nb).mp h ht

/-- C119. The converse is false: the elements of `2..4` are in `0..3` and `3..5`, yet `2..4` is in neither. -/
theorem C119_counterexample :
    ∃ a b : Inner Int, Reachable (.inner a) ∧ Reachable (.inner b) ∧ a.IsSet ∧ b.IsSet ∧
      (∀ t, a.contains t = true → b.contains t = true) ∧ (Any.inner a).union (.inner b) ≠ .ok (.inner b) ∧
      (Any.inner a).inter (.inner b) ≠ .ok a := by
  refine ⟨.bs ⟨[Samples.co 2 4]⟩, .bs ⟨[Samples.co 0 3, Samples.co 3 5]⟩, ?_,
    .union (.range ⟨0, 3⟩) (.range ⟨3, 5⟩) (by decide +kernel), trivial, trivial, ?_, by decide +kernel,
    by decide +kernel⟩
  · have h : Reachable (.inner ((Any.range ⟨2, 4⟩ : Any Int).toSet.toInner)) := .toSet (.range _)
    exact h
  · intro t
    simp only [Inner.contains, BoundedSet.contains, Samples.co, BoundedRange.contains, LowerBound.included,
      UpperBound.excluded, List.any_cons, List.any_nil, Bool.or_false, Bool.or_eq_true, Bool.and_eq_true,
      decide_eq_true_eq]
    omega

/-! ### Elements -/

omit [LinearOrder T] in
theorem meets_iff (x : UpperBound T) (y : LowerBound T) : Meets x y ↔ hi x = lo y := by
  rcases x with ⟨_ | _⟩ <;> rcases y with ⟨_ | _⟩ <;> simp [Meets, hi, lo, cut_inj]

omit [LinearOrder T] in
theorem apart_iff {a : Inner T} (ha : a.IsSet) : a.Apart ↔ ∀ p ∈ a.ivs, ∀ q ∈ a.ivs, p.2 = q.1 → p.2 = ⊤ ∨ q.1 = ⊥ := by
  rw [ivs_eq_stretches ha]
  simp only [List.forall_mem_map]
  constructor
  · intro h p hp q hq e
    obtain ⟨p1, _ | x⟩ := p
    · exact .inl rfl
    · obtain ⟨_ | y, q2⟩ := q
      · exact .inr rfl
      · exact (h _ hp _ hq x y rfl rfl ((meets_iff x y).mpr e)).elim
  · rintro h ⟨p1, p2⟩ hp ⟨q1, q2⟩ hq x y rfl rfl hm
    have e := (meets_iff x y).mp hm
    rcases h _ hp _ hq e with h | h
    · exact absurd h (by rcases x with ⟨_ | _⟩ <;> simp [cutsOf, hi, cut])
    · exact absurd h (by rcases y with ⟨_ | _⟩ <;> simp [cutsOf, lo, cut])

/-- A canonical list leaves out the points where its intervals end. -/
theorem not_at_end {α : Type} [LinearOrder α] {M : List (α × α)} (hM : Canon M) {p : α × α} (hp : p ∈ M) :
    (p.2, Side.at) ∉ sem M := by
  rintro ⟨o, ho, h1, h2⟩
  have h1 : o.1 < p.2 := h1
  have h2 : p.2 < o.2 := h2
  have tri : ∀ r ∈ M, r = o ∨ r.2 ≤ o.1 ∨ o.2 ≤ r.1 := by
    intro r hr
    by_cases he : r = o
    · exact .inl he
    · have hs : M.Pairwise fun p q => p.2 ≤ q.1 ∨ q.2 ≤ p.1 := hM.2.imp .inl
      have : Std.Symm fun p q : α × α => p.2 ≤ q.1 ∨ q.2 ≤ p.1 := ⟨fun _ _ => Or.symm⟩
      exact .inr (hs.forall hr ho he)
  have hp' := hM.1 p hp
  rcases tri p hp with rfl | h | h
  · exact absurd h2 (lt_irrefl _)
  · exact absurd h1 h.not_gt
  · exact absurd (h2.trans_le h) hp'.not_gt

/-- A canonical list without touching intervals leaves out no single point. -/
theorem at_of_sides {α : Type} [LinearOrder α] {M : List (α × α)}
    (h : ∀ p ∈ M, ∀ q ∈ M, p.2 ≠ q.1) {x : α} (h1 : (x, Side.before) ∈ sem M) (h2 : (x, Side.after) ∈ sem M) :
    (x, Side.at) ∈ sem M := by
  obtain ⟨p, hp, h3, h4⟩ := h1
  obtain ⟨q, hq, h5, h6⟩ := h2
  have h3 : p.1 < x := h3
  have h4 : x ≤ p.2 := h4
  have h5 : q.1 ≤ x := h5
  have h6 : x < q.2 := h6
  rcases h4.lt_or_eq with h7 | rfl
  · exact ⟨p, hp, h3, h7⟩
  · rcases h5.lt_or_eq with h8 | h8
    · exact ⟨q, hq, h8, h6⟩
    · exact absurd h8.symm (h p hp q hq)

/-- C119. On dense types without end points, the tests find out exactly whether the elements of `a` are in `b`, for
every `a`, if and only if no piece of `b` begins where another one ends. -/
theorem C119_dense [DenselyOrdered T] [NoMinOrder T] [NoMaxOrder T] [Nonempty T] (b : Inner T) (hb : b.IsSet)
    (nb : b.Normal) : b.Apart ↔ ∀ a : Inner T, a.IsSet → a.Normal →
      (Within a b ↔ ∀ t, a.contains t = true → b.contains t = true) := by
  have wb := (Inner.normal_iff _).mp nb
  have cb := Inner.canon_of_isSet (Inner.isSet_iff.mp hb) wb
  rw [apart_iff hb]
  constructor
  · intro h a ha na
    refine ⟨fun hw t => C119_members a b ha hb na nb hw t, fun hs => ?_⟩
    rw [Inner.normal_iff] at na
    rw [within_iff ha hb na wb]
    have hs' : ∀ t : T, (cut t false, Side.after) ∈ sem a.ivs → (cut t false, Side.after) ∈ sem b.ivs := by
      intro t
      rw [← Inner.contains_probe, ← Inner.contains_probe]
      exact hs t
    have hne : ∀ p ∈ b.ivs, ∀ q ∈ b.ivs, p.2 ≠ q.1 := by
      intro p hp q hq e
      rcases h p hp q hq e with h | h
      · exact absurd ((e.symm.trans h) ▸ cb.1 q hq) not_top_lt
      · exact absurd ((e.trans h) ▸ cb.1 p hp) not_lt_bot
    rintro ⟨x, s⟩ hx
    cases s with
    | before => exact before_of_members hs' hx
    | after => exact after_of_members hs' hx
    | «at» =>
      obtain ⟨p, hp, h1, h2⟩ := hx
      exact at_of_sides hne (before_of_members hs' ⟨p, hp, h1, h2.le⟩) (after_of_members hs' ⟨p, hp, h1.le, h2⟩)
  · intro h p hp q hq e
    exfalso
    obtain ⟨t, h1, h2⟩ := exists_elem_between (cb.1 p hp)
    obtain ⟨u, h3, h4⟩ := exists_elem_between (cb.1 q hq)
    have htu : t < u := by
      have := cut_lt.mp (h2.trans_le (e ▸ h3))
      simpa using this
    let a : Inner T := .bs ⟨[⟨.included t, .included u⟩]⟩
    have hu : cut u true ≤ q.2 := by
      rcases cases_ecut q.2 with e' | e' | ⟨v, r, e'⟩
      · exact absurd (e' ▸ h4) not_lt_bot
      · rw [e']; exact le_top
      · rw [e'] at h4 ⊢
        rw [cut_lt] at h4
        rw [cut_le]
        rcases h4 with h4 | ⟨rfl, h4⟩
        · exact .inl h4
        · refine .inr ⟨rfl, ?_⟩
          cases r
          · exact absurd h4 (lt_irrefl _)
          · exact le_rfl
    have sa : a.ivs = [(cut t false, cut u true)] := rfl
    have na : a.Normal := by
      rw [Inner.normal_iff]
      show Canon a.ivs
      rw [sa]
      refine ⟨?_, List.pairwise_singleton _ _⟩
      intro r hr
      rw [List.mem_singleton.mp hr]
      exact cut_lt.mpr (.inl htu)
    have hw := (h a trivial na).mpr fun s => by
      rw [Inner.contains_probe, Inner.contains_probe, sa]
      rintro ⟨r, hr, h5⟩
      rw [List.mem_singleton.mp hr] at h5
      have h6 : cut t false ≤ cut s false := h5.1
      have h7 : cut s false < cut u true := h5.2
      rcases lt_or_ge (cut s false) p.2 with h8 | h8
      · exact ⟨p, hp, h1.trans h6, h8⟩
      · exact ⟨q, hq, e ▸ h8, h7.trans_le hu⟩
    rw [within_iff (a := a) trivial hb ((Inner.normal_iff _).mp na) wb, sa] at hw
    refine not_at_end cb hp (hw ⟨_, List.mem_singleton_self _, ?_⟩)
    refine ⟨h2, ?_⟩
    show p.2 < cut u true
    refine lt_of_le_of_lt (e ▸ h3) (cut_lt.mpr (.inr ⟨rfl, ?_⟩))
    decide

/-- C119. No piece of a complement begins where another one ends.  So complementing `b` twice before the test makes
it exact on dense types. -/
theorem C119_complement (a : Inner T) (ha : a.IsSet) (na : a.Normal) :
    ∃ c, (Any.inner a).complement = .ok c ∧ c.IsSet ∧ c.Normal ∧ c.Apart := by
  rw [Inner.normal_iff] at na
  obtain ⟨c, hc, sc, wc, kc, ic⟩ := Any.complement_set ha na
  have cc := Inner.canon_of_isSet (Inner.isSet_iff.mp ic) wc
  refine ⟨c, hc, ic, (Inner.normal_iff _).mpr wc, (apart_iff ic).mpr fun p hp q hq e => ?_⟩
  exfalso
  have h1 := cc.1 p hp
  have h2 := cc.1 q hq
  have m1 : (p.2, Side.before) ∈ sem c.ivs := ⟨p, hp, mem_before.2 ⟨h1, le_rfl⟩⟩
  have m2 : (p.2, Side.after) ∈ sem c.ivs := ⟨q, hq, mem_after.2 ⟨e.ge, e ▸ h2⟩⟩
  refine not_at_end cc hp ?_
  rw [sc] at m1 m2 ⊢
  exact ⟨mem_at.2 ⟨lt_of_le_of_lt bot_le h1, lt_of_lt_of_le (e ▸ h2) le_top⟩, m2.2, m1.2⟩

/-- C119. Passing the test is a partial order on normal sets, of all four types together. -/
theorem C119_order (a b c : Inner T) (ha : a.IsSet) (hb : b.IsSet) (hc : c.IsSet) (na : a.Normal) (nb : b.Normal)
    (nc : c.Normal) : Within a a ∧ (Within a b → Within b c → Within a c) ∧ (Within a b → Within b a → a = b) := by
  rw [Inner.normal_iff] at na nb nc
  refine ⟨?_, ?_, fun h1 h2 => ?_⟩
  · rw [within_iff ha ha na na]
  · rw [within_iff ha hb na nb, within_iff hb hc nb nc, within_iff ha hc na nc]
    exact Set.Subset.trans
  · refine Inner.eq_of_sem ?_ (Inner.isSet_iff.mp ha) na nb (Set.Subset.antisymm
      ((within_iff ha hb na nb).mp h1) ((within_iff hb ha nb na).mp h2))
    rw [← (h1.kinds ha hb).2.1, (h2.kinds hb ha).2.2.1]

section Samples
open Samples

example : lbs.IsSet ∧ us.IsSet ∧ lbs.Normal ∧ us.Normal := by decide

-- 5..6 and 20.. fit into 0.., and the exchanged intersection misses it
example : Within (.lbs ⟨⟨[co 5 6]⟩, ci 20⟩) (.lbs ⟨⟨[]⟩, ci 0⟩) ∧
    ¬ Lossless (.inner (.lbs ⟨⟨[]⟩, ci 0⟩)) (.inner (.lbs ⟨⟨[co 5 6]⟩, ci 20⟩)) := by
  refine ⟨?_, by decide⟩
  refine (C119_inter (T := Int) _ _ ?_ ?_ (by decide) (by decide)).mp (by decide +kernel) <;> trivial

example : us.Apart := by
  simp only [us, Inner.Apart, Inner.stretches]
  simp [Meets, io, ci, cc, UpperBound.excluded, LowerBound.included, UpperBound.included]
end Samples

end Rangetools
