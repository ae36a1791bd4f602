import Verif.Proofs.TermsLine

/-!
# The drawings of a value
-/

namespace Rangetools
open Iv
variable {T : Type} [LinearOrder T]

/-- The half-line upwards of a single range; a set itself. -/
def Inner.rise : Inner T → Set (Spot T)
  | .br r => {p | r.start.spot < p}
  | .lbr r => {p | r.start.spot < p}
  | .ubr _ | .ur => Set.univ
  | i => i.inside

/-- The half-line downwards of a single range; a set itself. -/
def Inner.fall : Inner T → Set (Spot T)
  | .br r => {p | p < r.stop.spot}
  | .ubr r => {p | p < r.stop.spot}
  | .lbr _ | .ur => Set.univ
  | i => i.inside

theorem Inner.inside_eq (i : Inner T) : i.inside = i.rise ∩ i.fall := by
  cases i with
  | br r => rfl
  | lbr r => exact (Set.inter_univ _).symm
  | ubr r => exact (Set.univ_inter _).symm
  | ur => exact (Set.univ_inter _).symm
  | bs s => exact (Set.inter_self _).symm
  | lbs s => exact (Set.inter_self _).symm
  | ubs s => exact (Set.inter_self _).symm
  | us s => exact (Set.inter_self _).symm
  | er => exact (Set.inter_self _).symm

theorem exterior_rise {c : Spot T} (hc : Formula.IsCut c) : exterior {p | c < p} = {p | p < c} := by
  ext p
  constructor
  · intro h
    rcases lt_trichotomy p c with h' | rfl | h'
    · exact h'
    · obtain ⟨x, y, hxy⟩ := hc.around
      exact absurd hxy.gt (h y ((hxy.near y).mpr (.inr (.inr rfl))))
    · exact absurd h' (h p (Formula.near_refl p))
  · exact fun h q hq (hq' : c < q) => lt_asymm (Formula.nearClosed_lt hc p h q hq) hq'

theorem exterior_fall {c : Spot T} (hc : Formula.IsCut c) : exterior {p | p < c} = {p | c < p} := by
  ext p
  constructor
  · intro h
    rcases lt_trichotomy p c with h' | rfl | h'
    · exact absurd h' (h p (Formula.near_refl p))
    · obtain ⟨x, y, hxy⟩ := hc.around
      exact absurd hxy.lt (h x ((hxy.near x).mpr (.inr (.inl rfl))))
    · exact h'
  · exact fun h q hq (hq' : q < c) => lt_asymm (Formula.nearClosed_gt hc p h q hq) hq'

omit [LinearOrder T] in
theorem LowerBound.spot_isCut (l : LowerBound T) : Formula.IsCut l.spot := by
  rcases l with ⟨_ | _⟩
  · exact .inr rfl
  · exact .inl rfl

omit [LinearOrder T] in
theorem UpperBound.spot_isCut (l : UpperBound T) : Formula.IsCut l.spot := by
  rcases l with ⟨_ | _⟩
  · exact .inl rfl
  · exact .inr rfl

theorem Inner.outside_rise_fall (i : Inner T) : i.outside = exterior i.rise ∪ exterior i.fall := by
  have e : exterior (Set.univ : Set (Spot T)) = ∅ := exterior_univ
  cases i with
  | br r =>
    show _ = exterior {p | r.start.spot < p} ∪ exterior {p | p < r.stop.spot}
    rw [exterior_rise r.start.spot_isCut, exterior_fall r.stop.spot_isCut]; rfl
  | lbr r =>
    show _ = exterior {p | r.start.spot < p} ∪ exterior Set.univ
    rw [exterior_rise r.start.spot_isCut, e, Set.union_empty]; rfl
  | ubr r =>
    show _ = exterior Set.univ ∪ exterior {p | p < r.stop.spot}
    rw [exterior_fall r.stop.spot_isCut, e, Set.empty_union]; rfl
  | ur => exact (Set.union_self _).symm
  | bs s => exact (Set.union_self _).symm
  | lbs s => exact (Set.union_self _).symm
  | ubs s => exact (Set.union_self _).symm
  | us s => exact (Set.union_self _).symm
  | er => exact (Set.union_self _).symm

/-! ### What the type says of the drawings -/

/-- Neither drawing has more than the value. -/
theorem Inner.plain {i : Inner T} (h : i.shape = none ∨ i.shape = some ⟨false, false, false⟩ ∨ i.shape.any (·.set) = true) :
    i.rise = i.inside ∧ i.fall = i.inside := by
  cases i <;> first | exact ⟨rfl, rfl⟩ | simp [Inner.shape] at h

theorem Inner.rise_of {i : Inner T} (h : i.shape = some ⟨false, true, false⟩) : i.rise = i.inside ∧ i.fall = Set.univ := by
  cases i <;> first | exact ⟨rfl, rfl⟩ | simp [Inner.shape] at h

theorem Inner.fall_of {i : Inner T} (h : i.shape = some ⟨false, false, true⟩) : i.rise = Set.univ ∧ i.fall = i.inside := by
  cases i <;> first | exact ⟨rfl, rfl⟩ | simp [Inner.shape] at h

omit [LinearOrder T] in
theorem LowerBound.spot_inj {a b : LowerBound T} (h : a.spot = b.spot) : a = b := by
  rcases a with ⟨a | a⟩ <;> rcases b with ⟨b | b⟩ <;> simp only [LowerBound.spot, Rangetools.spot] at h <;>
    injection h with h1 h2 <;> first | (subst h1; rfl) | exact absurd h2 (by decide)

omit [LinearOrder T] in
theorem UpperBound.spot_inj {a b : UpperBound T} (h : a.spot = b.spot) : a = b := by
  rcases a with ⟨a | a⟩ <;> rcases b with ⟨b | b⟩ <;> simp only [UpperBound.spot, Rangetools.spot] at h <;>
    injection h with h1 h2 <;> first | (subst h1; rfl) | exact absurd h2 (by decide)

theorem rise_inj {c d : Spot T} (h : {p | c < p} = {p | d < p}) : c = d := by
  refine le_antisymm (not_lt.mp fun h' => ?_) (not_lt.mp fun h' => ?_)
  · exact lt_irrefl c ((Set.ext_iff.mp h c).mpr h')
  · exact lt_irrefl d ((Set.ext_iff.mp h d).mp h')

theorem fall_inj {c d : Spot T} (h : {p | p < c} = {p | p < d}) : c = d := by
  refine le_antisymm (not_lt.mp fun h' => ?_) (not_lt.mp fun h' => ?_)
  · exact lt_irrefl d ((Set.ext_iff.mp h d).mp h')
  · exact lt_irrefl c ((Set.ext_iff.mp h c).mpr h')

/-- A value is known by its type and its two drawings. -/
theorem Inner.eq_of_drawings {a b : Inner T} (ha : a.WF) (hb : b.WF) (hs : a.shape = b.shape) (hr : a.rise = b.rise)
    (hf : a.fall = b.fall) : a = b := by
  by_cases hk : a.kind = .br
  · cases a <;> simp [Inner.kind] at hk
    cases b <;> simp [Inner.shape] at hs
    next r r' =>
      have e1 := LowerBound.spot_inj (rise_inj hr)
      have e2 := UpperBound.spot_inj (fall_inj hf)
      obtain ⟨r1, r2⟩ := r
      obtain ⟨r3, r4⟩ := r'
      simp only at e1 e2
      subst e1 e2
      rfl
  · refine Inner.eq_of_region ha hb hk ?_
    rw [Inner.region, Inner.region, hs, Inner.inside_eq a, Inner.inside_eq b, Inner.outside_rise_fall a,
      Inner.outside_rise_fall b, hr, hf]

/-! ### The drawings of a result -/

/-- Intersection of two values neither of which is a set. -/
theorem Inner.inter_drawings {a b c : Inner T} (ha : a.shape.any (·.set) = false) (hb : b.shape.any (·.set) = false)
    (hc : a.inter b = .ok c) : c.rise = a.rise ∩ b.rise ∧ c.fall = a.fall ∩ b.fall := by
  cases a <;> cases b <;> first
    | (simp [Inner.shape] at ha; done)
    | (simp [Inner.shape] at hb; done)
    | skip
  all_goals
    simp only [Inner.inter, Res.ok.injEq] at hc
    subst hc
    refine ⟨Set.ext fun p => ?_, Set.ext fun p => ?_⟩
  all_goals
    simp only [Inner.rise, Inner.fall, Set.mem_inter_iff, Set.mem_ofPred_eq, inside_er, Set.mem_univ,
      Set.mem_empty_iff_false, BoundedRange.interBR, BoundedRange.interLBR,
      BoundedRange.interUBR, LowerBoundedRange.interBR, LowerBoundedRange.interLBR,
      LowerBoundedRange.interUBR, UpperBoundedRange.interBR, UpperBoundedRange.interLBR,
      UpperBoundedRange.interUBR, LowerBound.max_spot_lt, UpperBound.lt_min_spot]
    try tauto

namespace Core
variable {S : Nat → Set (Spot T)}

theorem spots_true : (const true).spots S = Set.univ := by ext; simp [spots]
theorem spots_false : (const false).spots S = ∅ := by ext; simp [spots]

theorem spots_meet (a b : Core) : (meet a b).spots S = a.spots S ∩ b.spots S := by
  unfold meet
  split
  · rename_i h; rw [h, Set.inter_self]
  · split
    · rename_i h; rw [h, spots_true, Set.univ_inter]
    · split
      · rename_i h; rw [h, spots_true, Set.inter_univ]
      · rfl

theorem spots_apart (a b : Core) : (apart a b).spots S = exterior (a.spots S) ∪ exterior (b.spots S) := by
  unfold apart
  split
  · rename_i h; rw [h, Set.union_self]; rfl
  · split
    · rename_i h; rw [h, spots_true, exterior_univ, Set.empty_union]; rfl
    · split
      · rename_i h; rw [h, spots_true, exterior_univ, Set.union_empty]; rfl
      · rfl

end Core

/-- The drawings of the variables. -/
def Term.drawn (κ : Nat → Option Shape) (σ : Nat → Inner T) (m : Nat) : Set (Spot T) :=
  if Shape.line κ m = .unused then ∅ else if m % 2 = 0 then (σ (m / 2)).rise else (σ (m / 2)).fall

omit [LinearOrder T] in
theorem Any.isER_iff (a : Any T) : a.isER = true ↔ a.toInner.shape = none := by
  cases a with
  | inner i => cases i <;> simp [Any.isER, Any.toInner, Inner.shape]
  | _ => simp [Any.isER, Any.toInner, Inner.shape]

/-- The value of an expression: normal, of the type and with the drawings `Spec/Terms` says. -/
theorem Term.eval_drawn (κ : Nat → Option Shape) (σ : Nat → Any T) (hκ : ∀ n, (σ n).toInner.shape = κ n)
    (hn : ∀ n, (σ n).toInner.WF) (e : Term) :
    ∃ v, (e.expr σ).eval = .ok v ∧ v.toInner.WF ∧ v.toInner.shape = e.shape κ ∧
      v.toInner.rise = (e.core κ).1.spots (drawn κ fun n => (σ n).toInner) ∧
      v.toInner.fall = (e.core κ).2.spots (drawn κ fun n => (σ n).toInner) := by
  induction e with
  | var n =>
    refine ⟨σ n, rfl, hn n, hκ n, ?_⟩
    have d0 : (2 * n) / 2 = n := by omega
    have d1 : (2 * n + 1) / 2 = n := by omega
    have m0 : (2 * n) % 2 = 0 := by omega
    have m1 : (2 * n + 1) % 2 = 1 := by omega
    have l0 : drawn κ (fun n => (σ n).toInner) (2 * n) =
        if Shape.line κ (2 * n) = .unused then ∅ else (σ n).toInner.rise := by
      simp only [drawn, m0, d0, if_true]
    have l1 : drawn κ (fun n => (σ n).toInner) (2 * n + 1) =
        if Shape.line κ (2 * n + 1) = .unused then ∅ else (σ n).toInner.fall := by
      simp only [drawn, m1, d1, Nat.one_ne_zero, if_false]
    have k0 : Shape.line κ (2 * n) = match κ n with
        | none => .unused
        | some k => if k.set then .set (!k.below) (!k.above) else if k.below then .rising else .unused := by
      simp only [Shape.line, m0, d0, if_true]; rfl
    have k1 : Shape.line κ (2 * n + 1) = match κ n with
        | none => .unused
        | some k => if k.set then .unused else if k.above then .falling else .unused := by
      simp only [Shape.line, m1, d1, Nat.one_ne_zero, if_false]; rfl
    rw [← hκ n] at k0 k1
    simp only [core, ← hκ n]
    revert k0 k1 l0 l1
    generalize (σ n).toInner = i
    intro l0 l1 k0 k1
    cases i <;> simp only [Inner.shape, if_true, if_false, Bool.false_eq_true] at k0 k1 ⊢ <;>
      simp [k0, k1, l0, l1, Core.spots, Inner.rise, Inner.fall, Inner.inside]
  | toInner e ih =>
    obtain ⟨v, hv, wv, h1, h2, h3⟩ := ih
    exact ⟨.inner v.toInner, by simp [expr, Expr.eval, hv], wv, h1, h2, h3⟩
  | toSet e ih =>
    obtain ⟨v, hv, wv, h1, h2, h3⟩ := ih
    have hr := Inner.toSet_region v.toInner wv
    have hs : v.toInner.toSet.toInner.shape = Shape.toSet v.toInner.shape := by
      have := congrArg Region.shape hr
      refine this.trans ?_
      simp only [Region.toSet, Inner.region, Shape.toSet]
      cases v.toInner.shape with
      | none => rfl
      | some k => dsimp only; split <;> rfl
    have hi : v.toInner.toSet.toInner.inside = v.toInner.inside := by
      have := congrArg Region.inside hr
      refine this.trans ?_
      simp only [Region.toSet, Inner.region]
      cases v.toInner.shape with
      | none => rfl
      | some k => dsimp only; split <;> rfl
    have hp := Inner.plain (i := v.toInner.toSet.toInner) (by
      rw [hs]
      cases v.toInner <;> simp [Inner.shape, Shape.toSet])
    refine ⟨.inner v.toSet.toInner, by simp [expr, Expr.eval, hv], ?_, ?_, ?_, ?_⟩
    · rw [Any.toInner_inner, Any.toSet_eq]; exact Inner.toSet_WF wv
    · rw [Any.toInner_inner, Any.toSet_eq, hs, h1]; rfl
    · rw [Any.toInner_inner, Any.toSet_eq, hp.1, hi, Inner.inside_eq, h2, h3, ← Core.spots_meet]; rfl
    · rw [Any.toInner_inner, Any.toSet_eq, hp.2, hi, Inner.inside_eq, h2, h3, ← Core.spots_meet]; rfl
  | union e f ihe ihf =>
    obtain ⟨v, hv, wv, h1, h2, h3⟩ := ihe
    obtain ⟨w, hw, ww, g1, g2, g3⟩ := ihf
    obtain ⟨c, hc, _, wc, _⟩ := Any.union_comp v w
    refine ⟨c, by simp [expr, Expr.eval, hv, hw, hc], wc wv ww, ?_⟩
    cases hsv : v.toInner.shape with
    | none =>
      obtain rfl : c = w := by
        rcases Any.union_cases v w with ⟨_, hu⟩ | ⟨hb, hu⟩ | ⟨ha, _⟩
        · rw [hc] at hu; injection hu
        · have : v.isER = true := (Any.isER_iff v).mpr hsv
          cases v with
          | inner i => cases i <;> simp [Any.isER] at this; simp [Any.union] at hc; exact hc.symm
          | _ => simp [Any.isER] at this
        · rw [(Any.isER_iff v).mpr hsv] at ha; cases ha
      rw [hsv] at h1
      simp only [shape, core, ← h1, Shape.union]
      exact ⟨g1, g2, g3⟩
    | some j =>
      cases hsw : w.toInner.shape with
      | none =>
        obtain rfl : c = v := by
          rcases Any.union_cases v w with ⟨ha, _⟩ | ⟨_, hu⟩ | ⟨_, hb, _⟩
          · rw [Any.isER_iff, hsv] at ha; cases ha
          · rw [hc] at hu; injection hu
          · rw [(Any.isER_iff w).mpr hsw] at hb; cases hb
        rw [hsv] at h1
        rw [hsw] at g1
        simp only [shape, core, ← h1, ← g1, Shape.union]
        exact ⟨hsv, h2, h3⟩
      | some k =>
        have hr := Any.union_region wv ww hc
        rw [hsv] at h1
        rw [hsw] at g1
        have hr' : v.toInner.region.union w.toInner.region =
            .ofSet (Shape.union (some j) (some k)) (v.toInner.inside ∪ w.toInner.inside) := by
          simp only [Region.union, Inner.region, hsv, hsw, Shape.union]
        rw [hr'] at hr
        have hs : c.toInner.shape = Shape.union (some j) (some k) := congrArg Region.shape hr
        have hi : c.toInner.inside = v.toInner.inside ∪ w.toInner.inside := congrArg Region.inside hr
        have hp := Inner.plain (i := c.toInner) (by
          rw [hs]
          simp only [Shape.union]
          cases (j.set || j.below || j.above) && (k.set || k.below || k.above) <;> simp)
        simp only [shape, core, ← h1, ← g1]
        refine ⟨hs, ?_, ?_⟩
        · rw [hp.1, hi, Inner.inside_eq v.toInner, Inner.inside_eq w.toInner, h2, h3, g2, g3, ← Core.spots_meet,
            ← Core.spots_meet]; rfl
        · rw [hp.2, hi, Inner.inside_eq v.toInner, Inner.inside_eq w.toInner, h2, h3, g2, g3, ← Core.spots_meet,
            ← Core.spots_meet]; rfl
  | inter e f ihe ihf =>
    obtain ⟨v, hv, wv, h1, h2, h3⟩ := ihe
    obtain ⟨w, hw, ww, g1, g2, g3⟩ := ihf
    obtain ⟨c, hc, _, wc, _⟩ := Any.inter_comp v w
    have hr := Any.inter_region wv ww hc
    refine ⟨.inner c, by simp [expr, Expr.eval, hv, hw, hc], wc ⟨wv, ww⟩, ?_⟩
    rw [Any.toInner_inner]
    simp only [shape, core, ← h1, ← g1]
    have m1 : v.toInner.inside = (Core.meet (e.core κ).1 (e.core κ).2).spots (drawn κ fun n => (σ n).toInner) := by
      rw [Inner.inside_eq, h2, h3, Core.spots_meet]
    have m2 : w.toInner.inside = (Core.meet (f.core κ).1 (f.core κ).2).spots (drawn κ fun n => (σ n).toInner) := by
      rw [Inner.inside_eq, g2, g3, Core.spots_meet]
    by_cases hl : v.toInner.shape = some Shape.lbs ∧ w.toInner.shape = some Shape.lbs
    · rw [if_pos hl]
      replace hr := hr.trans (if_pos hl)
      have hs : c.shape = some Shape.lbs := congrArg Region.shape hr
      have hi : c.inside = (v.toInner.inside ∩ w.toInner.inside) \ (tail v.toInner.inside \ tail w.toInner.inside) :=
        congrArg Region.inside hr
      have hp := Inner.plain (i := c) (by rw [hs]; simp [Shape.lbs])
      refine ⟨by rw [hs, hl.1, hl.2]; rfl, ?_, ?_⟩
      · rw [hp.1, hi, m1, m2]; rfl
      · rw [hp.2, hi, m1, m2]; rfl
    · rw [if_neg hl]
      by_cases hset : (v.toInner.shape.any (·.set) || w.toInner.shape.any (·.set)) = true
      · rw [if_pos hset]
        replace hr := hr.trans ((if_neg hl).trans (if_pos hset))
        have hs : c.shape = Shape.inter v.toInner.shape w.toInner.shape := congrArg Region.shape hr
        have hi : c.inside = v.toInner.inside ∩ w.toInner.inside := congrArg Region.inside hr
        have hp := Inner.plain (i := c) (by
          rw [hs]
          revert hset
          cases v.toInner.shape <;> cases w.toInner.shape <;> simp [Shape.inter]
          exact fun h => .inr h)
        refine ⟨hs, ?_, ?_⟩
        · rw [hp.1, hi, m1, m2, ← Core.spots_meet]
        · rw [hp.2, hi, m1, m2, ← Core.spots_meet]
      · rw [if_neg hset]
        replace hr := hr.trans ((if_neg hl).trans (if_neg hset))
        have hs : c.shape = Shape.inter v.toInner.shape w.toInner.shape := congrArg Region.shape hr
        rw [Bool.or_eq_true, not_or, Bool.not_eq_true, Bool.not_eq_true] at hset
        rw [Any.inter_eq ww] at hc
        have hd := Inner.inter_drawings hset.1 hset.2 hc
        refine ⟨hs, ?_, ?_⟩
        · rw [hd.1, h2, g2, ← Core.spots_meet]
        · rw [hd.2, h3, g3, ← Core.spots_meet]
  | complement e ih =>
    obtain ⟨v, hv, wv, h1, h2, h3⟩ := ih
    obtain ⟨c, hc, _, wc, _⟩ := Any.complement_comp v
    have hr := Any.complement_region wv hc
    have hs : c.shape = Shape.complement v.toInner.shape := congrArg Region.shape hr
    have hi : c.inside = (Core.apart (e.core κ).1 (e.core κ).2).spots (drawn κ fun n => (σ n).toInner) := by
      rw [Core.spots_apart, ← h2, ← h3, ← Inner.outside_rise_fall]
      exact congrArg Region.inside hr
    refine ⟨.inner c, by simp [expr, Expr.eval, hv, hc], wc trivial, by rw [Any.toInner_inner, hs, h1]; rfl, ?_⟩
    rw [Any.toInner_inner]
    simp only [core, ← h1]
    split
    · rename_i h
      have := Inner.rise_of (hs.trans h)
      exact ⟨this.1.trans hi, this.2.trans Core.spots_true.symm⟩
    · rename_i h
      have := Inner.fall_of (hs.trans h)
      exact ⟨this.1.trans Core.spots_true.symm, this.2.trans hi⟩
    · rename_i ha hb
      have hp := Inner.plain (i := c) (by
        rw [hs]
        revert ha hb
        cases v.toInner <;> simp [Inner.shape, Shape.complement])
      exact ⟨hp.1.trans hi, hp.2.trans hi⟩

end Rangetools
