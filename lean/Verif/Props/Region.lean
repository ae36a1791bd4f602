import Verif.Proofs.Region
import Verif.Props.Algebra
import Verif.Spec.Mono

/-!
# C77 What an expression means, exactly
-/

namespace Rangetools
open Iv Samples

variable {T : Type} [LinearOrder T]

/-- C77. Every expression evaluates, and to a value of exactly the type and with exactly the spots its
`Expr.region` says.  No condition on the intersections: what the code loses, the meaning loses. -/
theorem C77_region (e : Expr T) (hn : e.AllLeaves (fun a => a.toInner.Normal)) :
    ∃ v, e.eval = .ok v ∧ v.toInner.Normal ∧ v.toInner.region = e.region := by
  induction e with
  | leaf a => exact ⟨a, rfl, hn, rfl⟩
  | toInner e ih =>
    obtain ⟨v, hv, nv, hr⟩ := ih hn
    exact ⟨.inner v.toInner, by simp [Expr.eval, hv], nv, hr⟩
  | toSet e ih =>
    obtain ⟨v, hv, nv, hr⟩ := ih hn
    rw [Inner.normal_iff] at nv
    refine ⟨.inner v.toSet.toInner, by simp [Expr.eval, hv], ?_, ?_⟩
    · rw [Inner.normal_iff, Any.toInner_inner, Any.toSet_eq]; exact Inner.toSet_WF nv
    · rw [Any.toInner_inner, Any.toSet_eq, Inner.toSet_region _ nv, hr]; rfl
  | union e f ihe ihf =>
    obtain ⟨v, hv, nv, hr⟩ := ihe hn.1
    obtain ⟨w, hw, nw, hr'⟩ := ihf hn.2
    rw [Inner.normal_iff] at nv nw
    obtain ⟨c, hc, _, h, _⟩ := Any.union_comp v w
    refine ⟨c, by simp [Expr.eval, hv, hw, hc], (Inner.normal_iff _).mpr (h nv nw), ?_⟩
    rw [Any.union_region nv nw hc, hr, hr']; rfl
  | inter e f ihe ihf =>
    obtain ⟨v, hv, nv, hr⟩ := ihe hn.1
    obtain ⟨w, hw, nw, hr'⟩ := ihf hn.2
    rw [Inner.normal_iff] at nv nw
    obtain ⟨c, hc, _, h, _⟩ := Any.inter_comp v w
    refine ⟨.inner c, by simp [Expr.eval, hv, hw, hc], (Inner.normal_iff _).mpr (h ⟨nv, nw⟩), ?_⟩
    rw [Any.toInner_inner, Any.inter_region nv nw hc, hr, hr']; rfl
  | complement e ih =>
    obtain ⟨v, hv, nv, hr⟩ := ih hn
    rw [Inner.normal_iff] at nv
    obtain ⟨c, hc, _, h, _⟩ := Any.complement_comp v
    refine ⟨.inner c, by simp [Expr.eval, hv, hc], (Inner.normal_iff _).mpr (h trivial), ?_⟩
    rw [Any.toInner_inner, Any.complement_region nv hc, hr]; rfl

/-- C77. Membership in the value of any expression whatever. -/
theorem C77_contains (e : Expr T) (hn : e.AllLeaves (fun a => a.toInner.Normal)) (hf : e.AllLeaves Any.Fresh) :
    ∃ v, e.eval = .ok v ∧ ∀ t, v.contains t = true ↔ spot t 2 ∈ e.region.inside := by
  obtain ⟨v, hv, _, hr⟩ := C77_region e hn
  refine ⟨v, hv, fun t => ?_⟩
  rw [← hr, v.contains_probe (e.eval_fresh hf hv)]
  exact (v.toInner.mem_inside (spot t 2)).symm

/-- C77. The meaning is fully abstract: two expressions evaluate to `==` values exactly when they mean the
same (a `BoundedRange` keeps its endpoints even when empty, so it is left out). -/
theorem C77_equal_iff (e f : Expr T) (he : e.AllLeaves (fun a => a.toInner.Normal))
    (hf : f.AllLeaves (fun a => a.toInner.Normal)) (hb : e.region.shape ≠ some ⟨false, true, true⟩) :
    (∃ v w, e.eval = .ok v ∧ f.eval = .ok w ∧ v.toInner = w.toInner) ↔ e.region = f.region := by
  obtain ⟨v, hv, nv, hr⟩ := C77_region e he
  obtain ⟨w, hw, nw, hr'⟩ := C77_region f hf
  constructor
  · rintro ⟨v', w', hv', hw', h⟩
    obtain rfl : v = v' := by rw [hv] at hv'; injection hv'
    obtain rfl : w = w' := by rw [hw] at hw'; injection hw'
    rw [← hr, ← hr', h]
  · intro h
    refine ⟨v, w, hv, hw, ?_⟩
    refine Inner.eq_of_region ((Inner.normal_iff _).mp nv) ((Inner.normal_iff _).mp nw) ?_ (by rw [hr, hr', h])
    intro hk
    apply hb
    rw [← hr]
    show v.toInner.shape = _
    rw [Inner.shape_eq, hk]
    rfl

example : badExpr.AllLeaves (fun a => a.toInner.Normal) ∧ badExpr.AllLeaves Any.Fresh ∧
    badExpr.region.shape = some Shape.lbs :=
  ⟨⟨⟨trivial, trivial⟩, trivial, trivial⟩, ⟨⟨trivial, trivial⟩, trivial, trivial⟩, rfl⟩

-- what C05 loses, spelled out: 1 is in both operands and in the last stretch of the first, not of the second
example : spot 1 2 ∉ badExpr.region.inside ∧ spot 12 2 ∈ badExpr.region.inside := by
  have e : badExpr.region.inside =
      (((Inner.br (co (-5) (-3))).inside ∪ (Inner.lbr (ci 0)).inside) ∩
        ((Inner.br (co 1 3)).inside ∪ (Inner.lbr (ci 10)).inside)) \
        (tail ((Inner.br (co (-5) (-3))).inside ∪ (Inner.lbr (ci 0)).inside) \
          tail ((Inner.br (co 1 3)).inside ∪ (Inner.lbr (ci 10)).inside)) := rfl
  rw [e]
  constructor
  · rintro ⟨_, h⟩
    refine h ⟨fun q hq => Or.inr (lt_of_lt_of_le ?_ hq), fun h' => ?_⟩
    · exact spot_lt.mpr (by decide)
    · rcases h' (spot 5 2) (spot_le.mpr (by decide)) with ⟨_, h2⟩ | h2
      · exact absurd (spot_lt.mp h2) (by decide)
      · exact absurd (spot_lt.mp h2) (by decide)
  · refine ⟨⟨Or.inr (spot_lt.mpr (by decide)), Or.inr (spot_lt.mpr (by decide))⟩, fun h => h.2 fun q hq => ?_⟩
    exact Or.inr (lt_of_lt_of_le (spot_lt.mpr (by decide)) hq)

/-! ### Exact conditions for the laws that fail -/

/-- The last stretch of an intersection is that of both operands. -/
theorem tail_lossy (A B : Set (Spot T)) : tail ((A ∩ B) \ (tail A \ tail B)) = tail A ∩ tail B := by
  ext p
  constructor
  · intro h
    exact ⟨fun q hq => (h q hq).1.1, fun q hq => (h q hq).1.2⟩
  · rintro ⟨h1, h2⟩ q hq
    exact ⟨⟨h1 q hq, h2 q hq⟩, fun h => h.2 fun r hr => h2 r (hq.trans hr)⟩

theorem tail_subset (A : Set (Spot T)) : tail A ⊆ A := fun p h => h p le_rfl

/-- A range without spots is empty. -/
theorem BoundedRange.isEmpty_iff_spots (r : BoundedRange T) : r.isEmpty = true ↔ ∀ p, p ∉ r.spots := by
  rw [BoundedRange.isEmpty_iff]
  constructor
  · intro h p hp
    rw [r.mem_spots, sem1_empty (p := r.iv) h] at hp
    exact hp
  · intro h
    by_contra hn
    have hlt : lo r.start < hi r.stop := not_le.mp hn
    obtain ⟨⟨b⟩, u⟩ := r
    cases b with
    | included a => exact h (spot a 2) ((BoundedRange.mem_spots _ _).mpr ⟨le_rfl, hlt⟩)
    | excluded a => exact h (spot a 4) ((BoundedRange.mem_spots _ _).mpr ⟨le_rfl, hlt⟩)

omit [LinearOrder T] in
theorem Region.ofSet_inj {k : Option Shape} {S S' : Set (Spot T)} : Region.ofSet k S = .ofSet k S' ↔ S = S' := by
  constructor
  · intro h; simp only [Region.ofSet, Region.mk.injEq] at h; exact h.2.1
  · rintro rfl; rfl

/-- The propositional core of `C11_inter_assoc_iff`. -/
theorem assoc_prop {ar ah br bh cr ch : Prop} (ha : ar → ¬ ah) (hc : cr → ¬ ch) :
    ((((((ar ∨ ah) ∧ (br ∨ bh)) ∧ ¬ (ah ∧ ¬ bh)) ∧ (cr ∨ ch)) ∧ ¬ ((ah ∧ bh) ∧ ¬ ch)) ↔
      (((ar ∨ ah) ∧ ((br ∨ bh) ∧ (cr ∨ ch)) ∧ ¬ (bh ∧ ¬ ch)) ∧ ¬ (ah ∧ ¬ (bh ∧ ch)))) ↔
    (ar → cr → ¬ bh) := by
  by_cases h1 : ar <;> by_cases h2 : ah <;> by_cases h3 : bh <;> by_cases h4 : cr <;> by_cases h5 : ch <;>
    simp_all

/-- C11 for three `LowerBoundedSet`s, exactly: the two bracketings agree if and only if no bounded piece of
the first and bounded piece of the third overlap within the half-line of the second. -/
theorem C11_inter_assoc_iff (a b c : LowerBoundedSet T) (na : (Inner.lbs a).Normal) (nb : (Inner.lbs b).Normal)
    (nc : (Inner.lbs c).Normal) :
    (∃ x y, (Any.inner (.lbs a)).inter (.inner (.lbs b)) = .ok x ∧
      (Any.inner (.lbs b)).inter (.inner (.lbs c)) = .ok y ∧
      (Any.inner x).inter (.inner (.lbs c)) = (Any.inner (.lbs a)).inter (.inner y)) ↔
    ∀ r ∈ a.ranges.ranges, ∀ s ∈ c.ranges.ranges,
      ((r.interBR s).interLBR b.lowerBoundedRange).isEmpty = true := by
  let la : Expr T := .leaf (.inner (.lbs a))
  let lb : Expr T := .leaf (.inner (.lbs b))
  let lc : Expr T := .leaf (.inner (.lbs c))
  have key := C77_equal_iff (.inter (.inter la lb) lc) (.inter la (.inter lb lc)) ⟨⟨na, nb⟩, nc⟩ ⟨na, nb, nc⟩
    (show some Shape.lbs ≠ _ by decide)
  have h1 : (∃ x y, (Any.inner (.lbs a)).inter (.inner (.lbs b)) = .ok x ∧
      (Any.inner (.lbs b)).inter (.inner (.lbs c)) = .ok y ∧
      (Any.inner x).inter (.inner (.lbs c)) = (Any.inner (.lbs a)).inter (.inner y)) ↔
      ∃ v w, (Expr.inter (.inter la lb) lc).eval = .ok v ∧ (Expr.inter la (.inter lb lc)).eval = .ok w ∧
        v.toInner = w.toInner := by
    obtain ⟨x, hx⟩ := (C04_no_panic (.inner (.lbs a)) (.inner (.lbs b))).2.1
    obtain ⟨y, hy⟩ := (C04_no_panic (.inner (.lbs b)) (.inner (.lbs c))).2.1
    obtain ⟨u, hu⟩ := (C04_no_panic (.inner x) (.inner (.lbs c))).2.1
    obtain ⟨v, hv⟩ := (C04_no_panic (.inner (.lbs a)) (.inner y)).2.1
    simp [Expr.eval, la, lb, lc, hx, hy, hu, hv, Any.toInner_inner]
  rw [h1, key]
  have e1 : (Expr.inter (.inter la lb) lc).region = .ofSet (some Shape.lbs)
      (((((Inner.lbs a).inside ∩ (Inner.lbs b).inside) \ (tail (Inner.lbs a).inside \ tail (Inner.lbs b).inside)) ∩
        (Inner.lbs c).inside) \ (tail (((Inner.lbs a).inside ∩ (Inner.lbs b).inside) \
          (tail (Inner.lbs a).inside \ tail (Inner.lbs b).inside)) \ tail (Inner.lbs c).inside)) := rfl
  have e2 : (Expr.inter la (.inter lb lc)).region = .ofSet (some Shape.lbs)
      (((Inner.lbs a).inside ∩ (((Inner.lbs b).inside ∩ (Inner.lbs c).inside) \
        (tail (Inner.lbs b).inside \ tail (Inner.lbs c).inside))) \
        (tail (Inner.lbs a).inside \ tail (((Inner.lbs b).inside ∩ (Inner.lbs c).inside) \
        (tail (Inner.lbs b).inside \ tail (Inner.lbs c).inside)))) := rfl
  rw [e1, e2, Region.ofSet_inj, tail_lossy, tail_lossy]
  rw [Inner.normal_iff] at na nb nc
  rw [tail_lbs na, tail_lbs nb, tail_lbs nc]
  have ia : ∀ p, p ∈ (Inner.lbs a).inside ↔ p ∈ a.ranges.spots ∨ p ∈ a.lowerBoundedRange.spots := fun _ => Iff.rfl
  have ib : ∀ p, p ∈ (Inner.lbs b).inside ↔ p ∈ b.ranges.spots ∨ p ∈ b.lowerBoundedRange.spots := fun _ => Iff.rfl
  have ic : ∀ p, p ∈ (Inner.lbs c).inside ↔ p ∈ c.ranges.spots ∨ p ∈ c.lowerBoundedRange.spots := fun _ => Iff.rfl
  have da : ∀ p, p ∈ a.ranges.spots → p ∉ a.lowerBoundedRange.spots := lbs_disjoint na
  have dc : ∀ p, p ∈ c.ranges.spots → p ∉ c.lowerBoundedRange.spots := lbs_disjoint nc
  have hm : (∀ r ∈ a.ranges.ranges, ∀ s ∈ c.ranges.ranges,
      ((r.interBR s).interLBR b.lowerBoundedRange).isEmpty = true) ↔
      ∀ p, p ∈ a.ranges.spots → p ∈ c.ranges.spots → p ∉ b.lowerBoundedRange.spots := by
    simp only [BoundedRange.isEmpty_iff_spots]
    have hs : ∀ (r s : BoundedRange T) p, p ∈ ((r.interBR s).interLBR b.lowerBoundedRange).spots ↔
        p ∈ r.spots ∧ p ∈ s.spots ∧ p ∈ b.lowerBoundedRange.spots := by
      intro r s p
      show (LowerBound.spot _ < p ∧ p < UpperBound.spot _) ↔ (_ ∧ _) ∧ (_ ∧ _) ∧ _ < p
      simp only [BoundedRange.interBR, BoundedRange.interLBR, LowerBound.max_spot_lt, UpperBound.lt_min_spot]
      tauto
    simp only [hs]
    constructor
    · rintro h p ⟨r, hr, hp⟩ ⟨s, hs, hp'⟩ hb
      exact h r hr s hs p ⟨hp, hp', hb⟩
    · rintro h r hr s hs p ⟨hp, hp', hb⟩
      exact h p ⟨r, hr, hp⟩ ⟨s, hs, hp'⟩ hb
  rw [hm, Set.ext_iff]
  refine forall_congr' fun p => ?_
  simp only [Set.mem_sdiff, Set.mem_inter_iff, ia, ib, ic]
  exact assoc_prop (da p) (dc p)

example : (Inner.lbs ⟨⟨[co 1 3]⟩, ci 10⟩ : Inner Int).Normal ∧ (Inner.lbs ⟨⟨[co (-5) (-3)]⟩, ci 0⟩ : Inner Int).Normal ∧
    ((co 1 3).interBR (co 1 3)).interLBR (ci 0) = co 1 3 ∧ (co 1 3 : BoundedRange Int).isEmpty = false := by decide

/-- Half-lines compare as their starts do. -/
theorem above_subset (x : LowerBound T) (y : ECut T) :
    (∀ p, Above (lo x) (probe p) → Above y (probe p)) ↔ y ≤ lo x := by
  constructor
  · intro h
    obtain ⟨b⟩ := x
    cases b with
    | included a => exact h (spot a 2) le_rfl
    | excluded a => exact h (spot a 4) le_rfl
  · intro h p
    rcases probe p with ⟨z, _ | _ | _⟩
    · exact fun hz => lt_of_le_of_lt h hz
    · exact fun hz => lt_of_le_of_lt h hz
    · exact fun hz => le_trans h hz

/-- The propositional core of `C13_inter_union_iff`. -/
theorem distrib_prop {ar ah br bh cr ch uh : Prop} (h1 : bh → uh) (h2 : ch → uh)
    (h3 : uh → (br ∨ bh) ∨ (cr ∨ ch)) :
    ((((ar ∨ ah) ∧ ((br ∨ bh) ∨ (cr ∨ ch))) ∧ ¬ (ah ∧ ¬ uh)) ↔
      (((ar ∨ ah) ∧ (br ∨ bh)) ∧ ¬ (ah ∧ ¬ bh)) ∨ (((ar ∨ ah) ∧ (cr ∨ ch)) ∧ ¬ (ah ∧ ¬ ch))) ↔
    (ah → uh → bh ∨ ch) := by
  by_cases h4 : ah <;> by_cases h5 : uh <;> by_cases h6 : bh <;> by_cases h7 : ch <;> by_cases h8 : ar <;>
    by_cases h9 : br <;> by_cases h10 : cr <;> simp_all

/-- C13 for three `LowerBoundedSet`s, exactly: `a ∩ (b ∪ c) == (a ∩ b) ∪ (a ∩ c)` if and only if the
half-line of `b ∪ c`, as far as `a`'s half-line goes, starts where the first of the two half-lines does. -/
theorem C13_inter_union_iff (a b c u : LowerBoundedSet T) (na : (Inner.lbs a).Normal) (nb : (Inner.lbs b).Normal)
    (nc : (Inner.lbs c).Normal) (hu : (Any.inner (.lbs b)).union (.inner (.lbs c)) = .ok (.inner (.lbs u))) :
    (∃ ab ac r, (Any.inner (.lbs a)).inter (.inner (.lbs b)) = .ok ab ∧
      (Any.inner (.lbs a)).inter (.inner (.lbs c)) = .ok ac ∧
      (Any.inner (.lbs a)).inter (.inner (.lbs u)) = .ok r ∧
      (Any.inner ab).union (.inner ac) = .ok (.inner r)) ↔
    a.lowerBoundedRange.start.max u.lowerBoundedRange.start =
      a.lowerBoundedRange.start.max (b.lowerBoundedRange.start.min c.lowerBoundedRange.start) := by
  let la : Expr T := .leaf (.inner (.lbs a))
  let lb : Expr T := .leaf (.inner (.lbs b))
  let lc : Expr T := .leaf (.inner (.lbs c))
  let lu : Expr T := .leaf (.inner (.lbs u))
  have nu : (Inner.lbs u).Normal := by
    obtain ⟨v, hv, _, h, _⟩ := Any.union_comp (.inner (.lbs b)) (.inner (.lbs c))
    obtain rfl : v = .inner (.lbs u) := by rw [hu] at hv; injection hv with e; exact e.symm
    rw [Inner.normal_iff] at nb nc ⊢
    exact h nb nc
  have key := C77_equal_iff (.inter la lu) (.union (.inter la lb) (.inter la lc)) ⟨na, nu⟩ ⟨⟨na, nb⟩, na, nc⟩
    (show some Shape.lbs ≠ _ by decide)
  have h1 : (∃ ab ac r, (Any.inner (.lbs a)).inter (.inner (.lbs b)) = .ok ab ∧
      (Any.inner (.lbs a)).inter (.inner (.lbs c)) = .ok ac ∧
      (Any.inner (.lbs a)).inter (.inner (.lbs u)) = .ok r ∧
      (Any.inner ab).union (.inner ac) = .ok (.inner r)) ↔
      ∃ v w, (Expr.inter la lu).eval = .ok v ∧ (Expr.union (.inter la lb) (.inter la lc)).eval = .ok w ∧
        v.toInner = w.toInner := by
    obtain ⟨x, hx, _, _, kx⟩ := Any.inter_comp (.inner (.lbs a)) (.inner (.lbs b))
    obtain ⟨y, hy, _, _, ky⟩ := Any.inter_comp (.inner (.lbs a)) (.inner (.lbs c))
    obtain ⟨r, hr⟩ := (C04_no_panic (.inner (.lbs a)) (.inner (.lbs u))).2.1
    obtain ⟨w, hw, _, _, hf⟩ := Any.union_comp (.inner x) (.inner y)
    obtain ⟨w, rfl⟩ : ∃ i, w = .inner i := by rcases hf with h | h | h <;> first | exact ⟨_, h⟩ | exact h
    simp [Expr.eval, la, lb, lc, lu, hx, hy, hr, hw, Any.toInner_inner, eq_comm]
  rw [h1, key]
  have e0 : (Inner.lbs u).inside = (Inner.lbs b).inside ∪ (Inner.lbs c).inside := by
    have := Any.union_region (a := .inner (.lbs b)) (b := .inner (.lbs c)) ((Inner.normal_iff _).mp nb) ((Inner.normal_iff _).mp nc) hu
    exact congrArg Region.inside this
  have e1 : (Expr.inter la lu).region = .ofSet (some Shape.lbs)
      (((Inner.lbs a).inside ∩ (Inner.lbs u).inside) \ (tail (Inner.lbs a).inside \ tail (Inner.lbs u).inside)) := rfl
  have e2 : (Expr.union (.inter la lb) (.inter la lc)).region = .ofSet (some Shape.lbs)
      ((((Inner.lbs a).inside ∩ (Inner.lbs b).inside) \ (tail (Inner.lbs a).inside \ tail (Inner.lbs b).inside)) ∪
       (((Inner.lbs a).inside ∩ (Inner.lbs c).inside) \ (tail (Inner.lbs a).inside \ tail (Inner.lbs c).inside))) := rfl
  rw [e1, e2, Region.ofSet_inj]
  rw [Inner.normal_iff] at na nb nc nu
  rw [tail_lbs na, tail_lbs nb, tail_lbs nc, tail_lbs nu, e0, Set.ext_iff]
  have hsub : ∀ p, p ∈ b.lowerBoundedRange.spots ∨ p ∈ c.lowerBoundedRange.spots → p ∈ u.lowerBoundedRange.spots := by
    intro p hp
    rw [← tail_lbs nu, e0]
    rcases hp with hp | hp
    · rw [← tail_lbs nb] at hp; exact fun q hq => Or.inl (hp q hq)
    · rw [← tail_lbs nc] at hp; exact fun q hq => Or.inr (hp q hq)
  have hcore : ∀ p, (p ∈ (((Inner.lbs a).inside ∩ ((Inner.lbs b).inside ∪ (Inner.lbs c).inside)) \
        (a.lowerBoundedRange.spots \ u.lowerBoundedRange.spots)) ↔
      p ∈ ((((Inner.lbs a).inside ∩ (Inner.lbs b).inside) \ (a.lowerBoundedRange.spots \ b.lowerBoundedRange.spots)) ∪
       (((Inner.lbs a).inside ∩ (Inner.lbs c).inside) \ (a.lowerBoundedRange.spots \ c.lowerBoundedRange.spots)))) ↔
      (p ∈ a.lowerBoundedRange.spots → p ∈ u.lowerBoundedRange.spots →
        p ∈ b.lowerBoundedRange.spots ∨ p ∈ c.lowerBoundedRange.spots) := fun p => by
    have hup : p ∈ u.lowerBoundedRange.spots → p ∈ (Inner.lbs b).inside ∪ (Inner.lbs c).inside := by
      intro h; rw [← e0]; exact Or.inr h
    exact distrib_prop (ar := p ∈ a.ranges.spots) (br := p ∈ b.ranges.spots) (cr := p ∈ c.ranges.spots)
      (fun h => hsub p (Or.inl h)) (fun h => hsub p (Or.inr h)) hup
  rw [forall_congr' hcore]
  have hab : ∀ (r : LowerBoundedRange T) p, p ∈ r.spots ↔ Above (lo r.start) (probe p) := fun r p =>
    (above_lo r.start p).symm
  have hmax : ∀ (x y : LowerBound T) (p : Spot T),
      Above (lo (x.max y)) (probe p) ↔ Above (lo x) (probe p) ∧ Above (lo y) (probe p) := by
    intro x y p; rw [above_lo, above_lo, above_lo, LowerBound.max_spot_lt]
  have hmin : ∀ (x y : LowerBound T) (p : Spot T),
      Above (lo (x.min y)) (probe p) ↔ Above (lo x) (probe p) ∨ Above (lo y) (probe p) := by
    intro x y p
    rw [lo_min]
    rcases probe p with ⟨z, _ | _ | _⟩ <;> simp [Above]
  have hle : lo u.lowerBoundedRange.start ≤ lo (b.lowerBoundedRange.start.min c.lowerBoundedRange.start) := by
    rw [← above_subset]
    intro p hp
    rw [hmin] at hp
    rw [← hab]
    refine hsub p ?_
    rwa [hab, hab]
  have : (∀ p, p ∈ a.lowerBoundedRange.spots → p ∈ u.lowerBoundedRange.spots →
        p ∈ b.lowerBoundedRange.spots ∨ p ∈ c.lowerBoundedRange.spots) ↔
      lo (b.lowerBoundedRange.start.min c.lowerBoundedRange.start) ≤
        lo (a.lowerBoundedRange.start.max u.lowerBoundedRange.start) := by
    rw [← above_subset]
    simp only [hab, hmax, hmin, and_imp]
  rw [this, ← lo_inj, lo_max, lo_max]
  constructor
  · intro h
    exact le_antisymm (max_le_max le_rfl hle) (max_le (le_max_left _ _) h)
  · intro h
    rw [h]; exact le_max_right _ _

-- `(0..)` met with `1..3 ∪ 5..` and `3..5 ∪ 10..`: the union's half-line still starts at 5
example : (Any.inner (.lbs ⟨⟨[co 1 3]⟩, ci 5⟩)).union (.inner (.lbs ⟨⟨[co 3 5]⟩, ci 10⟩)) =
      .ok (.inner (.lbs ⟨⟨[co 1 3, co 3 5]⟩, ci 5⟩)) ∧
    (ci 0).start.max (ci 5).start = (ci 0).start.max ((ci 5).start.min (ci 10).start) := by
  refine ⟨by decide +kernel, by decide⟩

-- with `1..6` for `1..3` it starts at 1, and the law fails
example : (Any.inner (.lbs ⟨⟨[co 1 6]⟩, ci 10⟩)).union (.inner (.lbs ⟨⟨[co 0 2]⟩, ci 5⟩)) =
      .ok (.inner (.lbs ⟨⟨[]⟩, ci 0⟩)) ∧
    (ci (-1)).start.max (ci 0).start ≠ (ci (-1)).start.max ((ci 10).start.min (ci 5).start) := by
  refine ⟨by decide +kernel, by decide⟩

/-- The propositional core of `C13_union_inter_iff`. -/
theorem distrib_prop' {ar ah br bh cr ch uh vh : Prop} (h1 : bh → uh) (h2 : ch → vh) (h3 : ah → uh) (h4 : ah → vh)
    (h5 : uh → (ar ∨ ah) ∨ (br ∨ bh)) (h6 : cr → ¬ ch) :
    (((ar ∨ ah) ∨ (((br ∨ bh) ∧ (cr ∨ ch)) ∧ ¬ (bh ∧ ¬ ch))) ↔
      ((((ar ∨ ah) ∨ (br ∨ bh)) ∧ ((ar ∨ ah) ∨ (cr ∨ ch))) ∧ ¬ (uh ∧ ¬ vh))) ↔
    (ar → uh → vh) ∧ (cr → ¬ (ar ∨ ah) → (bh ↔ uh ∧ ¬ vh) ∨ ¬ (br ∨ bh)) := by
  by_cases k1 : ar <;> by_cases k2 : ah <;> by_cases k3 : br <;> by_cases k4 : bh <;> by_cases k5 : cr <;>
    by_cases k6 : ch <;> by_cases k7 : uh <;> by_cases k8 : vh <;> simp_all

/-- C13, second law, for three `LowerBoundedSet`s, exactly: `a ∪ (b ∩ c) == (a ∪ b) ∩ (a ∪ c)` if and only if the
part of the half-line of `a ∪ b` before that of `a ∪ c` meets no piece of `a`, and, outside `a`, meets the pieces
of `c` where the half-line of `b` does, as far as `b` covers them. -/
theorem C13_union_inter_iff (a b c u v : LowerBoundedSet T) (na : (Inner.lbs a).Normal) (nb : (Inner.lbs b).Normal)
    (nc : (Inner.lbs c).Normal) (hu : (Any.inner (.lbs a)).union (.inner (.lbs b)) = .ok (.inner (.lbs u)))
    (hv : (Any.inner (.lbs a)).union (.inner (.lbs c)) = .ok (.inner (.lbs v))) :
    (∃ bc r, (Any.inner (.lbs b)).inter (.inner (.lbs c)) = .ok bc ∧
      (Any.inner (.lbs a)).union (.inner bc) = .ok (.inner r) ∧
      (Any.inner (.lbs u)).inter (.inner (.lbs v)) = .ok r) ↔
    (∀ p ∈ a.ranges.spots, p ∈ u.lowerBoundedRange.spots → p ∈ v.lowerBoundedRange.spots) ∧
    (∀ p ∈ c.ranges.spots, p ∈ (Inner.lbs b).inside → p ∉ (Inner.lbs a).inside →
      (p ∈ b.lowerBoundedRange.spots ↔ p ∈ u.lowerBoundedRange.spots ∧ p ∉ v.lowerBoundedRange.spots)) := by
  let la : Expr T := .leaf (.inner (.lbs a))
  let lb : Expr T := .leaf (.inner (.lbs b))
  let lc : Expr T := .leaf (.inner (.lbs c))
  let lu : Expr T := .leaf (.inner (.lbs u))
  let lv : Expr T := .leaf (.inner (.lbs v))
  have nu : (Inner.lbs u).Normal := by
    obtain ⟨w, hw, _, h, _⟩ := Any.union_comp (.inner (.lbs a)) (.inner (.lbs b))
    obtain rfl : w = .inner (.lbs u) := by rw [hu] at hw; injection hw with e; exact e.symm
    rw [Inner.normal_iff] at na nb ⊢
    exact h na nb
  have nv : (Inner.lbs v).Normal := by
    obtain ⟨w, hw, _, h, _⟩ := Any.union_comp (.inner (.lbs a)) (.inner (.lbs c))
    obtain rfl : w = .inner (.lbs v) := by rw [hv] at hw; injection hw with e; exact e.symm
    rw [Inner.normal_iff] at na nc ⊢
    exact h na nc
  have key := C77_equal_iff (.union la (.inter lb lc)) (.inter lu lv) ⟨na, nb, nc⟩ ⟨nu, nv⟩
    (show some Shape.lbs ≠ _ by decide)
  have h1 : (∃ bc r, (Any.inner (.lbs b)).inter (.inner (.lbs c)) = .ok bc ∧
      (Any.inner (.lbs a)).union (.inner bc) = .ok (.inner r) ∧
      (Any.inner (.lbs u)).inter (.inner (.lbs v)) = .ok r) ↔
      ∃ x y, (Expr.union la (.inter lb lc)).eval = .ok x ∧ (Expr.inter lu lv).eval = .ok y ∧
        x.toInner = y.toInner := by
    obtain ⟨x, hx, _, _, kx⟩ := Any.inter_comp (.inner (.lbs b)) (.inner (.lbs c))
    obtain ⟨r, hr⟩ := (C04_no_panic (.inner (.lbs u)) (.inner (.lbs v))).2.1
    obtain ⟨w, hw, _, _, hf⟩ := Any.union_comp (.inner (.lbs a)) (.inner x)
    obtain ⟨w, rfl⟩ : ∃ i, w = .inner i := by rcases hf with h | h | h <;> first | exact ⟨_, h⟩ | exact h
    simp [Expr.eval, la, lb, lc, lu, lv, hx, hr, hw, Any.toInner_inner, eq_comm]
  rw [h1, key]
  have e0 : (Inner.lbs u).inside = (Inner.lbs a).inside ∪ (Inner.lbs b).inside := by
    have := Any.union_region (a := .inner (.lbs a)) (b := .inner (.lbs b)) ((Inner.normal_iff _).mp na)
      ((Inner.normal_iff _).mp nb) hu
    exact congrArg Region.inside this
  have e0' : (Inner.lbs v).inside = (Inner.lbs a).inside ∪ (Inner.lbs c).inside := by
    have := Any.union_region (a := .inner (.lbs a)) (b := .inner (.lbs c)) ((Inner.normal_iff _).mp na)
      ((Inner.normal_iff _).mp nc) hv
    exact congrArg Region.inside this
  have e1 : (Expr.union la (.inter lb lc)).region = .ofSet (some Shape.lbs)
      ((Inner.lbs a).inside ∪ (((Inner.lbs b).inside ∩ (Inner.lbs c).inside) \
        (tail (Inner.lbs b).inside \ tail (Inner.lbs c).inside))) := rfl
  have e2 : (Expr.inter lu lv).region = .ofSet (some Shape.lbs)
      (((Inner.lbs u).inside ∩ (Inner.lbs v).inside) \ (tail (Inner.lbs u).inside \ tail (Inner.lbs v).inside)) := rfl
  rw [e1, e2, Region.ofSet_inj]
  rw [Inner.normal_iff] at na nb nc nu nv
  have sub : ∀ {S S' : Set (Spot T)}, S ⊆ S' → ∀ p, p ∈ tail S → p ∈ tail S' := fun h p hp q hq => h (hp q hq)
  have au := sub (e0 ▸ Set.subset_union_left : (Inner.lbs a).inside ⊆ (Inner.lbs u).inside)
  have bu := sub (e0 ▸ Set.subset_union_right : (Inner.lbs b).inside ⊆ (Inner.lbs u).inside)
  have av := sub (e0' ▸ Set.subset_union_left : (Inner.lbs a).inside ⊆ (Inner.lbs v).inside)
  have cv := sub (e0' ▸ Set.subset_union_right : (Inner.lbs c).inside ⊆ (Inner.lbs v).inside)
  rw [tail_lbs na, tail_lbs nu] at au
  rw [tail_lbs nb, tail_lbs nu] at bu
  rw [tail_lbs na, tail_lbs nv] at av
  rw [tail_lbs nc, tail_lbs nv] at cv
  rw [tail_lbs nb, tail_lbs nc, tail_lbs nu, tail_lbs nv, e0, e0', Set.ext_iff]
  have hcore := fun p => distrib_prop' (ar := p ∈ a.ranges.spots) (br := p ∈ b.ranges.spots)
    (cr := p ∈ c.ranges.spots) (bu p) (cv p) (au p) (av p)
    (fun h => by
      have : p ∈ (Inner.lbs u).inside := Or.inr h
      rw [e0] at this; exact this) (lbs_disjoint nc p)
  refine (forall_congr' hcore).trans ?_
  constructor
  · intro h
    refine ⟨fun p => (h p).1, fun p hc hb ha => ?_⟩
    rcases (h p).2 hc ha with h' | h'
    · exact h'
    · exact absurd hb h'
  · rintro ⟨h, h'⟩ p
    refine ⟨h p, fun hc ha => ?_⟩
    by_cases hb : p ∈ (Inner.lbs b).inside
    · exact Or.inl (h' p hc hb ha)
    · exact Or.inr hb

-- lossy on both sides, and equal all the same: `100..`, `5..` and `7..8 ∪ 10..`
example : (Inner.lbs ⟨⟨[]⟩, ci 100⟩ : Inner Int).Normal ∧ (Inner.lbs ⟨⟨[]⟩, ci 5⟩ : Inner Int).Normal ∧
    (Inner.lbs ⟨⟨[co 7 8]⟩, ci 10⟩ : Inner Int).Normal ∧
    (Any.inner (.lbs ⟨⟨[]⟩, ci 100⟩)).union (.inner (.lbs ⟨⟨[]⟩, ci 5⟩)) = .ok (.inner (.lbs ⟨⟨[]⟩, ci 5⟩)) ∧
    (Any.inner (.lbs ⟨⟨[]⟩, ci 100⟩)).union (.inner (.lbs ⟨⟨[co 7 8]⟩, ci 10⟩)) =
      .ok (.inner (.lbs ⟨⟨[co 7 8]⟩, ci 10⟩)) ∧
    (Any.inner (.lbs ⟨⟨[]⟩, ci 5⟩)).inter (.inner (.lbs ⟨⟨[co 7 8]⟩, ci 10⟩)) = .ok (.lbs ⟨⟨[]⟩, ci 10⟩) ∧
    (Any.inner (.lbs ⟨⟨[]⟩, ci 100⟩)).union (.inner (.lbs ⟨⟨[]⟩, ci 10⟩)) = .ok (.inner (.lbs ⟨⟨[]⟩, ci 10⟩)) := by
  refine ⟨by decide, by decide, by decide, by decide +kernel, by decide +kernel, by decide +kernel, by decide +kernel⟩

-- `6..7 ∪ 100..`, `5..` and `10..`: nothing is lost in `b ∩ c`, but the law fails on a piece of `a`
example : (Any.inner (.lbs ⟨⟨[co 6 7]⟩, ci 100⟩)).union (.inner (.lbs ⟨⟨[]⟩, ci 10⟩)) =
      .ok (.inner (.lbs ⟨⟨[co 6 7]⟩, ci 10⟩)) ∧
    (Any.inner (.lbs ⟨⟨[]⟩, ci 5⟩)).inter (.inner (.lbs ⟨⟨[co 6 7]⟩, ci 10⟩)) = .ok (.lbs ⟨⟨[]⟩, ci 10⟩) := by
  refine ⟨by decide +kernel, by decide +kernel⟩

/-- C71 for intersections, exactly: the larger operands' intersection covers the smaller's if and only if no
element of the smaller one is lost by the larger. -/
theorem C71_inter_iff (a b a' b' : LowerBoundedSet T) (na : (Inner.lbs a').Normal)
    (ha : (Any.inner (.lbs a)).Subset (.inner (.lbs a'))) (hb : (Any.inner (.lbs b)).Subset (.inner (.lbs b')))
    (c c' : Inner T) (hc : (Any.inner (.lbs a)).inter (.inner (.lbs b)) = .ok c)
    (hc' : (Any.inner (.lbs a')).inter (.inner (.lbs b')) = .ok c') :
    (Any.inner c).Subset (.inner c') ↔
      ∀ t, c.contains t = true → a'.lowerBoundedRange.contains t = true → b'.lowerBoundedRange.contains t = true := by
  obtain ⟨x, hx, ex⟩ := C02_inter_lbs_exact a b
  obtain rfl : c = x := by rw [hc] at hx; injection hx
  obtain ⟨y, hy, ey⟩ := C02_inter_lbs_exact a' b'
  obtain rfl : c' = y := by rw [hc'] at hy; injection hy
  refine forall_congr' fun t => ?_
  simp only [Any.contains]
  refine imp_congr_right fun ht => ?_
  have h1 : a'.contains t = true := ha t (by
    rw [ex] at ht; simp only [Bool.or_eq_true, Bool.and_eq_true] at ht
    simp only [Any.contains, Inner.contains, LowerBoundedSet.contains, Bool.or_eq_true] at ht ⊢; tauto)
  have h2 : b'.contains t = true := hb t (by
    rw [ex] at ht; simp only [Bool.or_eq_true, Bool.and_eq_true] at ht
    simp only [Any.contains, Inner.contains, LowerBoundedSet.contains, Bool.or_eq_true] at ht ⊢; tauto)
  have hd : a'.ranges.contains t = true → ¬ a'.lowerBoundedRange.contains t = true := by
    rw [BoundedSet.contains_probe, LowerBoundedRange.contains_probe]
    exact fun h h' => lbs_disjoint ((Inner.normal_iff _).mp na) (spot t 2)
      ((BoundedSet.mem_spots _ _).mpr h) ((LowerBoundedRange.mem_spots _ _).mpr h')
  rw [ey]
  simp only [LowerBoundedSet.contains, Bool.or_eq_true, Bool.and_eq_true] at h1 h2 ⊢
  tauto

-- `(20..)` and `(-5..-3) ∪ (0..)` met with `(1..3) ∪ (10..)`: the pieces lost were never in the smaller result
example : (Any.inner (.lbs ⟨⟨[]⟩, ci 20⟩)).inter (.inner lbs') = .ok (.lbs ⟨⟨[]⟩, ci 20⟩) ∧
    (Any.inner lbs).inter (.inner lbs') = .ok (.lbs ⟨⟨[]⟩, ci 10⟩) ∧ lbs.Normal := by decide +kernel

end Rangetools
