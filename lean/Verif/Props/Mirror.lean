import Verif.Proofs.Mirror
import Verif.Props.Region

/-!
# C83: left and right are treated alike, but for one impl
-/

namespace Rangetools
open Iv Samples
variable {T : Type}

/-! ### The mirror -/

theorem Bound.mirror_mirror (b : Bound T) : b.mirror.mirror = b := by cases b <;> rfl

theorem BoundedSet.mirror_mirror (s : BoundedSet T) : s.mirror.mirror = s := by
  obtain ⟨l⟩ := s
  show BoundedSet.mk (List.map BoundedRange.mirror (List.map BoundedRange.mirror l).reverse).reverse = _
  rw [List.map_reverse, List.reverse_reverse, List.map_map]
  refine congrArg BoundedSet.mk (Eq.trans (List.map_congr_left fun r _ => ?_) (List.map_id l))
  rcases r with ⟨⟨a | a⟩, ⟨b | b⟩⟩ <;> rfl

/-- C83. Looking twice gives the value back (`Tᵒᵈᵒᵈ` is `T`). -/
theorem C83_twice (i : Inner T) : i.mirror.mirror = i := by
  have hl : ∀ r : LowerBoundedRange T, r.mirror.mirror = r := by rintro ⟨⟨a | a⟩⟩ <;> rfl
  have hu : ∀ r : UpperBoundedRange T, r.mirror.mirror = r := by rintro ⟨⟨a | a⟩⟩ <;> rfl
  cases i with
  | br r => rcases r with ⟨⟨a | a⟩, ⟨b | b⟩⟩ <;> rfl
  | bs s => exact congrArg Inner.bs s.mirror_mirror
  | lbr r => exact congrArg Inner.lbr (hl r)
  | ubr r => exact congrArg Inner.ubr (hu r)
  | lbs s => exact congrArg Inner.lbs (congrArg₂ LowerBoundedSet.mk s.ranges.mirror_mirror (hl s.lowerBoundedRange))
  | ubs s => exact congrArg Inner.ubs (congrArg₂ UpperBoundedSet.mk (hu s.upperBoundedRange) s.ranges.mirror_mirror)
  | ur => rfl
  | er => rfl
  | us s =>
    cases s with
    | full => rfl
    | piecewise s =>
      obtain ⟨u, r, l⟩ := s
      show Inner.us (.piecewise ⟨u.mirror.mirror, r.mirror.mirror, l.mirror.mirror⟩) = _
      rw [hl, hu, r.mirror_mirror]
      rfl

variable [LinearOrder T]

theorem noOverlap_mirror (u : UpperBound T) (l : LowerBound T) : NoOverlap l.mirror u.mirror ↔ NoOverlap u l := by
  rw [noOverlap_iff_spot, noOverlap_iff_spot, LowerBound.mirror_spot, UpperBound.mirror_spot, flip_le]

theorem BoundedRange.mirror_isEmpty (r : BoundedRange T) : r.mirror.isEmpty = r.isEmpty := by
  have h : r.mirror.isEmpty = false ↔ r.isEmpty = false := by
    rw [r.isEmpty_eq_false_iff_spot, r.mirror.isEmpty_eq_false_iff_spot]
    show r.stop.mirror.spot < r.start.mirror.spot ↔ _
    rw [LowerBound.mirror_spot, UpperBound.mirror_spot, flip_lt]
  cases h1 : r.mirror.isEmpty <;> cases h2 : r.isEmpty <;> simp_all

omit [LinearOrder T] in
theorem BoundedSet.forall_mirror {P : BoundedRange Tᵒᵈ → Prop} (s : BoundedSet T) :
    (∀ r ∈ s.mirror.ranges, P r) ↔ ∀ r ∈ s.ranges, P r.mirror := by
  simp [BoundedSet.mirror]

theorem BoundedSet.mirror_pieces (s : BoundedSet T) (h : Pieces s.ranges) : Pieces s.mirror.ranges := by
  refine ⟨s.forall_mirror.mpr fun r hr => ?_, ?_⟩
  · rw [r.mirror_isEmpty]; exact h.1 r hr
  · show List.Pairwise _ (List.map _ _).reverse
    rw [List.pairwise_reverse, List.pairwise_map]
    exact h.2.imp fun h => (noOverlap_mirror _ _).mpr h

/-- C83. The mirror keeps the private invariant. -/
theorem C83_normal (i : Inner T) (h : i.Normal) : i.mirror.Normal := by
  cases i with
  | bs s => exact s.mirror_pieces h
  | lbs s => exact ⟨s.ranges.mirror_pieces h.1, s.ranges.forall_mirror.mpr fun r hr => (noOverlap_mirror _ _).mpr (h.2 r hr)⟩
  | ubs s => exact ⟨s.ranges.mirror_pieces h.1, s.ranges.forall_mirror.mpr fun r hr => (noOverlap_mirror _ _).mpr (h.2 r hr)⟩
  | us s =>
    cases s with
    | full => trivial
    | piecewise s =>
      exact ⟨s.ranges.mirror_pieces h.1, s.ranges.forall_mirror.mpr fun r hr => (noOverlap_mirror _ _).mpr (h.2.2.1 r hr),
        s.ranges.forall_mirror.mpr fun r hr => (noOverlap_mirror _ _).mpr (h.2.1 r hr), (noOverlap_mirror _ _).mpr h.2.2.2⟩
  | _ => trivial

/-! ### The operations -/

/-- C83. Same members. -/
theorem C83_contains (i : Inner T) (t : T) : i.mirror.contains (OrderDual.toDual t) = i.contains t := by
  rw [Bool.eq_iff_iff, Inner.contains_probe, Inner.contains_probe]
  have h1 := i.mem_inside (spot t 2)
  have h2 := i.mirror.mem_inside (spot (OrderDual.toDual t) 2)
  exact h2.symm.trans ((i.mirror_inside (spot t 2)).trans h1)

/-- C83. `is_empty` agrees. -/
theorem C83_isEmpty (i : Inner T) : i.mirror.isEmpty = i.isEmpty := by
  cases i with
  | br r => exact r.mirror_isEmpty
  | bs s =>
    show List.all (List.map _ _).reverse _ = List.all _ _
    rw [List.all_reverse, List.all_map]
    exact congrArg (List.all s.ranges) (funext fun r => r.mirror_isEmpty)
  | _ => rfl

/-- Values of the mirror image of a region. -/
theorem Inner.eq_mirror {c : Inner T} {c' : Inner Tᵒᵈ} (hc : c.WF) (hc' : c'.WF) (hb : c.kind ≠ .br)
    (h : FlipRegion c.region c'.region) : c' = c.mirror := by
  have hn := (Inner.normal_iff _).mp (C83_normal c ((Inner.normal_iff _).mpr hc))
  refine (Inner.eq_of_region hn hc' ?_ (c.mirror_region.unique h)).symm
  cases c <;> first | (exact absurd rfl hb) | (intro h; cases h)

/-- C83. `to_set`. -/
theorem C83_toSet (i : Inner T) (h : i.Normal) : i.mirror.toSet.toInner = i.toSet.toInner.mirror := by
  have hw := (Inner.normal_iff _).mp h
  have hw' := (Inner.normal_iff _).mp (C83_normal i h)
  refine Inner.eq_mirror (Inner.toSet_WF hw) (Inner.toSet_WF hw') ?_ ?_
  · rw [Inner.toSet_kind]; cases i <;> simp [Inner.kind, setKind]
  · rw [Inner.toSet_region _ hw, Inner.toSet_region _ hw']
    exact i.mirror_region.toSet

/-- C83. `complement`. -/
theorem C83_complement (i : Inner T) (h : i.Normal) :
    ∃ c, (Any.inner i).complement = .ok c ∧ (Any.inner i.mirror).complement = .ok c.mirror := by
  have hw := (Inner.normal_iff _).mp h
  have hw' := (Inner.normal_iff _).mp (C83_normal i h)
  obtain ⟨c, hc, _, wc, kc⟩ := Any.complement_comp (.inner i)
  obtain ⟨c', hc', _, wc', kc'⟩ := Any.complement_comp (.inner i.mirror)
  obtain rfl : c' = c.mirror := by
    refine Inner.eq_mirror (wc trivial) (wc' trivial) ?_ ?_
    · rw [kc]; cases i <;> simp [Any.toInner, Inner.kind, complKind]
    · rw [Any.complement_region (a := .inner i) hw hc, Any.complement_region (a := .inner i.mirror) hw' hc']
      exact i.mirror_region.complement
  exact ⟨c, hc, hc'⟩

/-- C83. `union`. -/
theorem C83_union (a b : Inner T) (ha : a.Normal) (hb : b.Normal) :
    ∃ c, (Any.inner a).union (.inner b) = .ok (.inner c) ∧ (Any.inner a.mirror).union (.inner b.mirror) = .ok (.inner c.mirror) := by
  have wa := (Inner.normal_iff _).mp ha
  have wb := (Inner.normal_iff _).mp hb
  have wa' := (Inner.normal_iff _).mp (C83_normal a ha)
  have wb' := (Inner.normal_iff _).mp (C83_normal b hb)
  by_cases ea : (Any.inner a).isER = true
  · obtain rfl : a = .er := by have := Any.eq_of_isER ea; injection this
    exact ⟨b, rfl, rfl⟩
  by_cases eb : (Any.inner b).isER = true
  · obtain rfl : b = .er := by have := Any.eq_of_isER eb; injection this
    exact ⟨a, by cases a <;> rfl, by cases a <;> rfl⟩
  have ea' : (Any.inner a.mirror).isER ≠ true := by cases a <;> exact ea
  have eb' : (Any.inner b.mirror).isER ≠ true := by cases b <;> exact eb
  obtain ⟨_, _, c, hc, _⟩ := ((Any.union_cases (.inner a) (.inner b)).resolve_left fun h => ea h.1).resolve_left fun h => eb h.1
  obtain ⟨_, _, c', hc', _⟩ :=
    ((Any.union_cases (.inner a.mirror) (.inner b.mirror)).resolve_left fun h => ea' h.1).resolve_left fun h => eb' h.1
  have w : c.toInner.WF := by
    obtain ⟨d, hd, _, hw, _⟩ := Any.union_comp (.inner a) (.inner b)
    obtain rfl : d = .inner c.toInner := by rw [hc] at hd; injection hd with hd; exact hd.symm
    exact hw wa wb
  have w' : c'.toInner.WF := by
    obtain ⟨d, hd, _, hw, _⟩ := Any.union_comp (.inner a.mirror) (.inner b.mirror)
    obtain rfl : d = .inner c'.toInner := by rw [hc'] at hd; injection hd with hd; exact hd.symm
    exact hw wa' wb'
  refine ⟨c.toInner, hc, ?_⟩
  rw [hc', Inner.eq_mirror w w' (by cases c <;> simp [SetVal.toInner, Inner.kind]) ?_]
  have r := Any.union_region (a := .inner a) (b := .inner b) wa wb hc
  have r' := Any.union_region (a := .inner a.mirror) (b := .inner b.mirror) wa' wb' hc'
  simp only [Any.toInner] at r r'
  rw [r, r']
  exact a.mirror_region.union b.mirror_region

omit [LinearOrder T] in
theorem LowerBound.spot_inj {a b : LowerBound T} (h : a.spot = b.spot) : a = b := by
  rcases a with ⟨a | a⟩ <;> rcases b with ⟨b | b⟩ <;> simp_all [LowerBound.spot, Rangetools.spot_inj]

omit [LinearOrder T] in
theorem UpperBound.spot_inj {a b : UpperBound T} (h : a.spot = b.spot) : a = b := by
  rcases a with ⟨a | a⟩ <;> rcases b with ⟨b | b⟩ <;> simp_all [UpperBound.spot, Rangetools.spot_inj]

theorem LowerBound.max_mirror (a b : LowerBound T) : a.mirror.min b.mirror = (a.max b).mirror := by
  refine UpperBound.spot_inj (eq_of_forall_lt_iff fun p => ?_)
  rw [← flip_unflip p, UpperBound.lt_min_spot, LowerBound.mirror_spot, LowerBound.mirror_spot, LowerBound.mirror_spot,
    flip_lt, flip_lt, flip_lt, LowerBound.max_spot_lt]

theorem UpperBound.min_mirror (a b : UpperBound T) : a.mirror.max b.mirror = (a.min b).mirror := by
  refine LowerBound.spot_inj (eq_of_forall_gt_iff fun p => ?_)
  rw [← flip_unflip p, LowerBound.max_spot_lt, UpperBound.mirror_spot, UpperBound.mirror_spot, UpperBound.mirror_spot,
    flip_lt, flip_lt, flip_lt, UpperBound.lt_min_spot]

/-- Ranges with ranges: no sets involved. -/
theorem Inner.inter_mirror_range {a b c : Inner T} (ha : a.kind.isSet = false) (hb : b.kind.isSet = false)
    (hc : a.inter b = .ok c) : a.mirror.inter b.mirror = .ok c.mirror := by
  cases a <;> cases b <;> first
    | (simp [Inner.kind, Kind.isSet] at ha; done)
    | (simp [Inner.kind, Kind.isSet] at hb; done)
    | skip
  all_goals
    simp only [Inner.inter, Res.ok.injEq] at hc
    subst hc
    simp only [Inner.mirror, Inner.inter, BoundedRange.interBR, BoundedRange.interLBR,
      BoundedRange.interUBR, LowerBoundedRange.interBR, LowerBoundedRange.interLBR,
      LowerBoundedRange.interUBR, UpperBoundedRange.interBR, UpperBoundedRange.interLBR,
      UpperBoundedRange.interUBR, BoundedRange.mirror, LowerBoundedRange.mirror, UpperBoundedRange.mirror,
      LowerBound.max_mirror, UpperBound.min_mirror]

/-- C83. `intersection`: the mirror image of the result is the result on the mirror images, if and only if neither
loses anything. -/
theorem C83_inter_iff (a b : Inner T) (ha : a.Normal) (hb : b.Normal) :
    (∃ c, (Any.inner a).inter (.inner b) = .ok c ∧ (Any.inner a.mirror).inter (.inner b.mirror) = .ok c.mirror) ↔
      a.Lossless b ∧ a.mirror.Lossless b.mirror := by
  have wa := (Inner.normal_iff _).mp ha
  have wb := (Inner.normal_iff _).mp hb
  have na' := C83_normal a ha
  have nb' := C83_normal b hb
  have wa' := (Inner.normal_iff _).mp na'
  have wb' := (Inner.normal_iff _).mp nb'
  obtain ⟨c, hc, _, wc, kc⟩ := Any.inter_comp (.inner a) (.inner b)
  obtain ⟨c', hc', _, wc', kc'⟩ := Any.inter_comp (.inner a.mirror) (.inner b.mirror)
  have r : c.region = a.region.inter b.region := Any.inter_region (a := .inner a) (b := .inner b) wa wb hc
  have r' : c'.region = a.mirror.region.inter b.mirror.region := Any.inter_region (a := .inner a.mirror) (b := .inner b.mirror) wa' wb' hc'
  have fm := a.mirror_region.meet b.mirror_region
  constructor
  · rintro ⟨d, hd, hd'⟩
    obtain rfl : c = d := by rw [hc] at hd; injection hd
    obtain rfl : c' = c.mirror := by rw [hc'] at hd'; injection hd'
    have fc := c.mirror_region
    rw [r, r'] at fc
    by_cases h1 : a.Lossless b
    · refine ⟨h1, (Region.inter_eq_meet_iff na' nb').mp ?_⟩
      rw [(Region.inter_eq_meet_iff ha hb).mpr h1] at fc
      exact fc.unique fm
    · exfalso
      have h2 : a.mirror.Lossless b.mirror := by
        cases a <;> cases b <;> first | trivial | exact absurd trivial h1
      rw [(Region.inter_eq_meet_iff na' nb').mpr h2] at fc
      refine h1 ((Region.inter_eq_meet_iff ha hb).mp (Region.ext' ?_ (fun p => ?_) fun p => ?_))
      · have := fc.shape.symm.trans fm.shape
        refine Option.map_injective ?_ this
        rintro ⟨_, _, _⟩ ⟨_, _, _⟩ h
        injection h with h1 h2 h3
        exact (Shape.mk.injEq ..).mpr ⟨h1, h3, h2⟩
      · rw [← fc.inside, fm.inside]
      · rw [← fc.outside, fm.outside]
  · rintro ⟨h1, h2⟩
    by_cases hset : a.kind.isSet = true ∨ b.kind.isSet = true
    · obtain rfl : c' = c.mirror := by
        refine Inner.eq_mirror (wc ⟨wa, wb⟩) (wc' ⟨wa', wb'⟩) ?_ ?_
        · rw [kc]
          revert hset
          show a.kind.isSet = true ∨ b.kind.isSet = true → interKind a.kind b.kind ≠ .br
          cases a.kind <;> cases b.kind <;> simp [Kind.isSet, interKind]
        · rw [r, r', (Region.inter_eq_meet_iff ha hb).mpr h1, (Region.inter_eq_meet_iff na' nb').mpr h2]
          exact fm
      exact ⟨c, hc, hc'⟩
    · rw [not_or, Bool.not_eq_true, Bool.not_eq_true] at hset
      exact ⟨c, hc, Inner.inter_mirror_range hset.1 hset.2 hc⟩

/-! ### Whole expressions -/

theorem Any.union_toInner {a b c : Any T} (hc : a.union b = .ok c) :
    (Any.inner a.toInner).union (.inner b.toInner) = .ok (.inner c.toInner) := by
  rcases Any.union_cases a b with ⟨h, hu⟩ | ⟨h, hu⟩ | ⟨ea, eb, d, hu, hd⟩
  · obtain rfl := Any.eq_of_isER h
    obtain rfl : c = b := by rw [hc] at hu; injection hu
    rfl
  · obtain rfl := Any.eq_of_isER h
    obtain rfl : c = a := by rw [hc] at hu; injection hu
    cases c with
    | inner i => cases i <;> rfl
    | _ => rfl
  · obtain rfl : c = .inner d.toInner := by rw [hc] at hu; injection hu
    have ha : (Any.inner a.toInner).isER ≠ true := fun h => Any.kind_ne_er ea (by rw [← Any.toInner_inner' a.toInner, Any.eq_of_isER h]; rfl)
    have hb : (Any.inner b.toInner).isER ≠ true := fun h => Any.kind_ne_er eb (by rw [← Any.toInner_inner' b.toInner, Any.eq_of_isER h]; rfl)
    obtain ⟨_, _, d', hu', hd'⟩ :=
      ((Any.union_cases (.inner a.toInner) (.inner b.toInner)).resolve_left fun h => ha h.1).resolve_left fun h => hb h.1
    rw [Any.toSet_eq, Any.toSet_eq] at hd hd'
    obtain rfl : d = d' := by
      have hd' : a.toInner.toSet.union b.toInner.toSet = .ok d' := hd'
      rw [hd] at hd'; injection hd'
    exact hu'

/-- C83. The mirror image of an expression evaluates to the mirror image of its value, as long as no intersection
loses anything on either side. -/
theorem C83_expr (e : Expr T) (hn : e.AllLeaves (fun a => a.toInner.Normal)) (hl : e.LosslessInter)
    (hl' : e.mirror.LosslessInter) :
    ∃ v, e.eval = .ok v ∧ e.mirror.eval = .ok (.inner v.toInner.mirror) := by
  have key : ∃ v, e.eval = .ok v ∧ v.toInner.Normal ∧ e.mirror.eval = .ok (.inner v.toInner.mirror) := by
    obtain ⟨v, hv, nv, -⟩ := C77_region e hn
    refine ⟨v, hv, nv, ?_⟩
    clear nv
    induction e generalizing v with
    | leaf a =>
      obtain rfl : a = v := by simpa [Expr.eval] using hv
      rfl
    | toInner e ih =>
      obtain ⟨w, hw, nw, -⟩ := C77_region e hn
      obtain rfl : Any.inner w.toInner = v := by simpa [Expr.eval, hw] using hv
      simp [Expr.mirror, Expr.eval, ih hn hl hl' w hw, Any.toInner]
    | toSet e ih =>
      obtain ⟨w, hw, nw, -⟩ := C77_region e hn
      obtain rfl : Any.inner w.toSet.toInner = v := by simpa [Expr.eval, hw] using hv
      simp only [Expr.mirror, Expr.eval, ih hn hl hl' w hw]
      have := C83_toSet _ nw
      rw [Any.toSet_eq w]
      exact congrArg (fun i => Res.ok (Any.inner i)) this
    | complement e ih =>
      obtain ⟨w, hw, nw, -⟩ := C77_region e hn
      obtain ⟨c, hc, hc'⟩ := C83_complement _ nw
      have hc : w.complement = .ok c := by rw [Any.complement_eq] at hc ⊢; exact hc
      obtain rfl : Any.inner c = v := by simpa [Expr.eval, hw, hc] using hv
      rw [Any.toInner_inner']
      simp [Expr.mirror, Expr.eval, ih hn hl hl' w hw, hc']
    | union e f ih ih' =>
      obtain ⟨w, hw, nw, -⟩ := C77_region e hn.1
      obtain ⟨x, hx, nx, -⟩ := C77_region f hn.2
      have hv : w.union x = .ok v := by simpa [Expr.eval, hw, hx] using hv
      obtain ⟨c, hc, hc'⟩ := C83_union _ _ nw nx
      rw [Any.union_toInner hv] at hc
      obtain rfl : v.toInner = c := by injection hc with hc; injection hc
      simp [Expr.mirror, Expr.eval, ih hn.1 hl.1 hl'.1 w hw, ih' hn.2 hl.2 hl'.2 x hx, hc']
    | inter e f ih ih' =>
      obtain ⟨w, hw, nw, -⟩ := C77_region e hn.1
      obtain ⟨x, hx, nx, -⟩ := C77_region f hn.2
      have h1 := ih hn.1 hl.1 hl'.1 w hw
      have h2 := ih' hn.2 hl.2.1 hl'.2.1 x hx
      have k1 := hl.2.2 w x hw hx
      have k2 := hl'.2.2 _ _ h1 h2
      obtain ⟨c, hc, hc'⟩ := (C83_inter_iff _ _ nw nx).mpr ⟨k1, k2⟩
      have hc : w.inter x = .ok c := by
        rw [Any.inter_eq ((Inner.normal_iff _).mp nx)]
        exact hc
      obtain rfl : Any.inner c = v := by simpa [Expr.eval, hw, hx, hc] using hv
      rw [Any.toInner_inner']
      simp [Expr.mirror, Expr.eval, h1, h2, hc']
  obtain ⟨v, hv, -, h⟩ := key
  exact ⟨v, hv, h⟩

/-! ### Cases that meet the hypotheses -/

-- the lossy pair of C02, and its mirror image, which is not
example : lbs.Normal ∧ lbs'.Normal ∧ ¬lbs.Lossless lbs' ∧ lbs.mirror.Lossless lbs'.mirror := by decide

example : (Any.inner lbs).inter (.inner lbs') = .ok (.lbs ⟨⟨[]⟩, ci 10⟩) := by decide +kernel

/-- In the mirror nothing is lost. -/
example : (Any.inner lbs.mirror).inter (.inner lbs'.mirror) = .ok (Inner.lbs ⟨⟨[co 1 3]⟩, ci 10⟩).mirror := by
  decide +kernel

-- a pair that loses nothing on either side
example : lbs.Normal ∧ ubs.Normal ∧ lbs.Lossless ubs ∧ lbs.mirror.Lossless ubs.mirror := by decide

example : (Any.inner lbs).inter (.inner ubs) = .ok (.bs ⟨[cc 2 4]⟩) ∧
    (Any.inner lbs.mirror).inter (.inner ubs.mirror) = .ok (Inner.bs ⟨[cc 2 4]⟩).mirror := by
  refine ⟨by decide +kernel, by decide +kernel⟩

/-- `(0..3).union(5..).intersection(..9)`. -/
def mirrorExpr : Expr Int := .inter (.union (.leaf (.range ⟨0, 3⟩)) (.leaf (.rangeFrom ⟨5⟩))) (.leaf (.rangeTo ⟨9⟩))

example : mirrorExpr.AllLeaves (fun a => a.toInner.Normal) := ⟨⟨trivial, trivial⟩, trivial⟩

example : mirrorExpr.LosslessInter :=
  ⟨⟨trivial, trivial⟩, trivial, fun a b _ hb => by
    obtain rfl : Any.rangeTo ⟨9⟩ = b := by injection hb
    show a.toInner.Lossless _
    cases a.toInner <;> trivial⟩

example : mirrorExpr.mirror.LosslessInter :=
  ⟨⟨trivial, trivial⟩, trivial, fun a b _ hb => by
    obtain rfl : Any.inner (Any.rangeTo ⟨9⟩).toInner.mirror = b := by injection hb
    show a.toInner.Lossless _
    cases a.toInner <;> trivial⟩

end Rangetools
