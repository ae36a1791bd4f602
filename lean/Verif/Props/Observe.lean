import Verif.Proofs.Observe
import Verif.Props.Region

/-!
# C86: what membership can tell apart
-/

namespace Rangetools
open Iv Samples
variable {T : Type} [LinearOrder T]

/-! ### Regions and contexts -/

/-- Leaves allowed in a context. -/
def Ctx.Ok (c : Ctx T) : Prop := c.AllLeaves (fun a => a.toInner.Normal) ∧ c.AllLeaves Any.Fresh

/-- No context has different members on the two. -/
def Region.Alike (r r' : Region T) : Prop :=
  ∀ c : Ctx T, c.Ok → ∀ t, spot t 2 ∈ (c.region r).inside ↔ spot t 2 ∈ (c.region r').inside

omit [LinearOrder T] in
def Ctx.comp (d : Ctx T) : Ctx T → Ctx T
  | .hole => d
  | .leaf a => .leaf a
  | .toInner c => .toInner (comp d c)
  | .toSet c => .toSet (comp d c)
  | .union c e => .union (comp d c) (comp d e)
  | .inter c e => .inter (comp d c) (comp d e)
  | .complement c => .complement (comp d c)

theorem Ctx.comp_region (d c : Ctx T) (r : Region T) : (d.comp c).region r = c.region (d.region r) := by
  induction c with
  | hole => rfl
  | leaf => rfl
  | toInner c ih => exact ih
  | toSet c ih => exact congrArg Region.toSet ih
  | complement c ih => exact congrArg Region.complement ih
  | union c d ih ih' => exact congrArg₂ Region.union ih ih'
  | inter c d ih ih' => exact congrArg₂ Region.inter ih ih'

omit [LinearOrder T] in
theorem Ctx.comp_allLeaves {P : Any T → Prop} {d c : Ctx T} (hd : d.AllLeaves P) (hc : c.AllLeaves P) :
    (d.comp c).AllLeaves P := by
  induction c with
  | hole => exact hd
  | leaf => exact hc
  | toInner c ih => exact ih hc
  | toSet c ih => exact ih hc
  | complement c ih => exact ih hc
  | union c d ih ih' => exact ⟨ih hc.1, ih' hc.2⟩
  | inter c d ih ih' => exact ⟨ih hc.1, ih' hc.2⟩

theorem Region.Alike.ctx {r r' : Region T} (h : r.Alike r') {d : Ctx T} (hd : d.Ok) : (d.region r).Alike (d.region r') := by
  intro c hc t
  rw [← Ctx.comp_region, ← Ctx.comp_region]
  exact h _ ⟨Ctx.comp_allLeaves hd.1 hc.1, Ctx.comp_allLeaves hd.2 hc.2⟩ t

/-- The region of some value. -/
def Region.Good (r : Region T) : Prop := ∃ i : Inner T, i.Normal ∧ i.region = r

theorem Region.Good.complement {r : Region T} (h : r.Good) : r.complement.Good := by
  obtain ⟨i, hi, rfl⟩ := h
  obtain ⟨c, hc, -, wc, -⟩ := Any.complement_comp (.inner i)
  exact ⟨c, (Inner.normal_iff _).mpr (wc trivial), Any.complement_region (a := .inner i) ((Inner.normal_iff _).mp hi) hc⟩

/-! ### Constants -/

/-- `x..` -/
def from1 (x : T) : Any T := .inner (.lbr ⟨⟨.included x⟩⟩)

/-- `{[x, x], (x, ∞)}`, which is not joined. -/
def split1 (x : T) : Any T := .inner (.lbs ⟨⟨[⟨⟨.included x⟩, ⟨.included x⟩⟩]⟩, ⟨⟨.excluded x⟩⟩⟩)

theorem split1_normal (x : T) : (split1 x).toInner.Normal := by
  refine ⟨⟨?_, ?_⟩, ?_⟩
  · intro r hr
    rw [List.mem_singleton] at hr
    subst hr
    rw [BoundedRange.isEmpty_eq_false_iff_spot]
    exact spot_lt.mpr (Or.inr ⟨rfl, by decide⟩)
  · exact List.pairwise_singleton _ _
  · intro r hr
    rw [List.mem_singleton] at hr
    subst hr
    rw [noOverlap_iff_spot]
    exact le_rfl

theorem split1_inside (x : T) : (split1 x).toInner.inside = {p | spot x 1 < p ∧ p < spot x 3} ∪ {p | spot x 3 < p} := by
  ext p
  refine or_congr ⟨?_, fun h => ⟨_, List.mem_singleton.mpr rfl, h⟩⟩ Iff.rfl
  rintro ⟨r, hr, h⟩
  rw [List.mem_singleton] at hr
  subst hr
  exact h

theorem split1_mem (x : T) : spot x 2 ∈ (split1 x).toInner.inside := by
  rw [split1_inside]
  exact Or.inl ⟨spot_lt.mpr (Or.inr ⟨rfl, by decide⟩), spot_lt.mpr (Or.inr ⟨rfl, by decide⟩)⟩

theorem split1_tail (x : T) : spot x 2 ∉ tail (split1 x).toInner.inside := by
  intro h
  have := h (spot x 3) (spot_le.mpr (Or.inr ⟨rfl, by decide⟩))
  rw [split1_inside] at this
  rcases this with h | h
  · exact lt_irrefl _ h.2
  · exact lt_irrefl _ (show spot x 3 < spot x 3 from h)

/-! ### Testing one cut -/

/-- A region of a set type. -/
def Region.IsSet (r : Region T) : Prop := ∃ b c, r.shape = some ⟨true, b, c⟩

theorem Region.set_inter_range {r r' : Region T} {b c b' c' : Bool} (h : r.shape = some ⟨true, b, c⟩)
    (h' : r'.shape = some ⟨false, b', c'⟩) :
    r.inter r' = .ofSet (some ⟨true, b || b', c || c'⟩) (r.inside ∩ r'.inside) := by
  rw [Region.inter, h, h', if_neg (by rintro ⟨-, h⟩; cases h), if_pos (by simp)]
  rfl

omit [LinearOrder T] in
theorem Region.set_union {r r' : Region T} {b c : Bool} {k : Shape} (h : r.shape = some ⟨true, b, c⟩)
    (h' : r'.shape = some k) (hk : (k.set || k.below || k.above) = true) :
    r.union r' = .ofSet (some ⟨true, b && k.below, c && k.above⟩) (r.inside ∪ r'.inside) := by
  rw [Region.union, h, h']
  simp [hk]

theorem Region.lbs_inter {r r' : Region T} (h : r.shape = some Shape.lbs) (h' : r'.shape = some Shape.lbs) :
    r.inter r' = .ofSet (some Shape.lbs) ((r.inside ∩ r'.inside) \ (tail r.inside \ tail r'.inside)) := by
  rw [Region.inter, h, h', if_pos ⟨rfl, rfl⟩]

omit [LinearOrder T] in
theorem Region.set_complement {r : Region T} {b c : Bool} (h : r.shape = some ⟨true, b, c⟩) :
    r.complement.shape = some ⟨true, !b, !c⟩ := by
  rw [Region.complement, h]; rfl

/-- `x.intersection(y..).union(y..κ).union(κ..).intersection(split1 y)`. -/
def cutTest (y : T) (u : UpperBound T) (l : LowerBound T) : Ctx T :=
  .inter (.union (.union (.inter .hole (.leaf (from1 y))) (.leaf (.inner (.br ⟨⟨.included y⟩, u⟩))))
    (.leaf (.inner (.lbr ⟨l⟩)))) (.leaf (split1 y))

theorem cutTest_ok (y : T) (u : UpperBound T) (l : LowerBound T) : (cutTest y u l).Ok :=
  ⟨⟨⟨⟨⟨trivial, trivial⟩, trivial⟩, trivial⟩, split1_normal y⟩, ⟨⟨⟨⟨trivial, trivial⟩, trivial⟩, trivial⟩, trivial⟩⟩

theorem cutTest_mem {r : Region T} (hr : r.IsSet) (y : T) (u : UpperBound T) (l : LowerBound T) (hul : u.spot = l.spot)
    (hy : spot y 2 < l.spot) : spot y 2 ∈ ((cutTest y u l).region r).inside ↔ l.spot ∉ r.inside := by
  obtain ⟨k, S, O⟩ := r
  obtain ⟨b, c, hk⟩ := hr
  dsimp only at hk
  subst hk
  let A : Set (Spot T) := ((S ∩ {p | spot y 1 < p}) ∪ {p | spot y 1 < p ∧ p < u.spot}) ∪ {p | l.spot < p}
  have e : ((cutTest y u l).region ⟨some ⟨true, b, c⟩, S, O⟩).inside =
      (A ∩ (split1 y).toInner.inside) \ (tail A \ tail (split1 y).toInner.inside) := by
    show (((((⟨some ⟨true, b, c⟩, S, O⟩ : Region T).inter (from1 y).toInner.region).union
      (Inner.br ⟨⟨.included y⟩, u⟩).region).union (Inner.lbr ⟨l⟩).region).inter (split1 y).toInner.region).inside = _
    rw [Region.set_inter_range (r := ⟨some ⟨true, b, c⟩, S, O⟩) rfl rfl, Region.set_union rfl rfl rfl,
      Region.set_union rfl rfl rfl, Region.lbs_inter (by simp [Region.ofSet, Shape.lbs]) rfl]
    rfl
  have y1 : spot y 1 < spot y 2 := spot_lt.mpr (Or.inr ⟨rfl, by decide⟩)
  have hyA : spot y 2 ∈ A := Or.inl (Or.inr ⟨y1, hul ▸ hy⟩)
  rw [e]
  have : spot y 2 ∈ tail A ↔ l.spot ∈ S := by
    constructor
    · intro h
      rcases h l.spot hy.le with (h | h) | h
      · exact h.1
      · exact absurd (hul ▸ h.2) (lt_irrefl _)
      · exact absurd (show l.spot < l.spot from h) (lt_irrefl _)
    · intro h q hq
      rcases lt_trichotomy q l.spot with h' | h' | h'
      · exact Or.inl (Or.inr ⟨y1.trans_le hq, hul ▸ h'⟩)
      · subst h'; exact Or.inl (Or.inl ⟨h, y1.trans_le hq⟩)
      · exact Or.inr h'
  constructor
  · rintro ⟨_, h⟩ h'
    exact h ⟨this.mpr h', split1_tail y⟩
  · exact fun h => ⟨⟨hyA, split1_mem y⟩, fun h' => h (this.mp h'.1)⟩

/-- Visible cuts of alike sets agree. -/
theorem Region.Alike.cut {r r' : Region T} (h : r.Alike r') (hr : r.IsSet) (hr' : r'.IsSet) {x : T} {k : Fin 5}
    (hk : k = 1 ∨ k = 3) (hv : Visible (spot x k)) : spot x k ∈ r.inside ↔ spot x k ∈ r'.inside := by
  rw [visible_spot] at hv
  rcases hk with rfl | rfl
  · have hx : ¬IsMin x := fun hx => absurd (hv hx) (by decide)
    rw [not_isMin_iff] at hx
    obtain ⟨y, hy⟩ := hx
    have hlt : spot y 2 < spot x 1 := spot_lt.mpr (Or.inl hy)
    have := h _ (cutTest_ok y ⟨.excluded x⟩ ⟨.included x⟩) y
    rw [cutTest_mem hr y ⟨.excluded x⟩ ⟨.included x⟩ rfl hlt, cutTest_mem hr' y ⟨.excluded x⟩ ⟨.included x⟩ rfl hlt] at this
    exact not_iff_not.mp this
  · have hlt : spot x 2 < spot x 3 := spot_lt.mpr (Or.inr ⟨rfl, by decide⟩)
    have := h _ (cutTest_ok x ⟨.included x⟩ ⟨.excluded x⟩) x
    rw [cutTest_mem hr x ⟨.included x⟩ ⟨.excluded x⟩ rfl hlt, cutTest_mem hr' x ⟨.included x⟩ ⟨.excluded x⟩ rfl hlt] at this
    exact not_iff_not.mp this

/-! ### All visible spots -/

/-- `x.union(BoundedSet::empty()).intersection(Full)`: always of a set type. -/
def asSet : Ctx T := .inter (.union .hole (.leaf (.inner (.bs ⟨[]⟩)))) (.leaf (.inner (.us .full)))

theorem asSet_ok : (asSet : Ctx T).Ok :=
  ⟨⟨⟨trivial, ⟨by simp, List.Pairwise.nil⟩⟩, trivial⟩, ⟨trivial, trivial⟩, trivial⟩

theorem asSet_region {r : Region T} (hr : r.Good) :
    (asSet.region r).IsSet ∧ (asSet.region r).inside = r.inside := by
  obtain ⟨i, -, rfl⟩ := hr
  have e0 : (Inner.bs ⟨[]⟩ : Inner T).inside = ∅ := by
    ext p; constructor
    · rintro ⟨r, hr, -⟩; cases hr
    · exact False.elim
  show (Region.inter (Region.union i.region (Inner.bs ⟨[]⟩).region) (Inner.us .full).region).IsSet ∧
    (Region.inter (Region.union i.region (Inner.bs ⟨[]⟩).region) (Inner.us .full).region).inside = _
  have key : ∀ (k : Shape) (S O : Set (Spot T)),
      (Region.inter ⟨some k, S, O⟩ (Inner.us .full).region).IsSet ∧ (Region.inter ⟨some k, S, O⟩ (Inner.us .full).region).inside = S := by
    intro k S O
    rw [Region.inter, if_neg (by rintro ⟨-, h⟩; cases h), if_pos (by simp [Inner.region, Inner.shape])]
    refine ⟨⟨k.below, k.above, ?_⟩, Set.inter_univ _⟩
    simp [Region.ofSet, Shape.inter, Inner.region, Inner.shape]
  cases i with
  | er =>
    have e : Region.union (Inner.er : Inner T).region (Inner.bs ⟨[]⟩).region = (Inner.bs ⟨[]⟩).region := rfl
    rw [e]
    refine (key _ _ _).imp_right fun h => h.trans e0
  | _ => exact (key _ _ _).imp_right fun h => h.trans ((congrArg _ e0).trans (Set.union_empty _))

theorem Region.Alike.sameSet {r r' : Region T} (h : r.Alike r') (hr : r.Good) (hr' : r'.Good) :
    SameSet r.inside r'.inside := by
  obtain ⟨hs, hi⟩ := asSet_region hr
  obtain ⟨hs', hi'⟩ := asSet_region hr'
  have h1 := h.ctx asSet_ok
  rw [← hi, ← hi']
  generalize asSet.region r = s at *
  generalize asSet.region r' = s' at *
  -- the complement of the part on one side of a cut
  have gap : ∀ (g : Any T) (b c : Bool), g.toInner.Normal → g.Fresh → g.toInner.shape = some ⟨false, b, c⟩ →
      ∀ x k, (k = 1 ∨ k = 3) → Visible (spot x k) →
      (spot x k ∈ exterior (s.inside ∩ g.toInner.inside) ↔ spot x k ∈ exterior (s'.inside ∩ g.toInner.inside)) := by
    intro g b c hg hg' hsh x k hk hv
    have h2 := h1.ctx (d := .complement (.inter .hole (.leaf g))) ⟨⟨trivial, hg⟩, ⟨trivial, hg'⟩⟩
    have e : ∀ {s : Region T}, s.IsSet →
        (Ctx.region s (.complement (.inter .hole (.leaf g)))).IsSet ∧
          (Ctx.region s (.complement (.inter .hole (.leaf g)))).inside = exterior (s.inside ∩ g.toInner.inside) := by
      rintro s ⟨b', c', hs⟩
      have e : Ctx.region s (.inter .hole (.leaf g)) = _ := Region.set_inter_range hs hsh
      refine ⟨⟨!(b' || b), !(c' || c), ?_⟩, ?_⟩
      · show (Region.complement (Ctx.region s (.inter .hole (.leaf g)))).shape = _
        rw [e]; exact Region.set_complement rfl
      · show (Ctx.region s (.inter .hole (.leaf g))).outside = _
        rw [e]; rfl
    have := h2.cut (e hs).1 (e hs').1 hk hv
    rwa [(e hs).2, (e hs').2] at this
  intro p hp
  induction p using Spot.ind with
  | h x k =>
  rcases five k with rfl | rfl | rfl | rfl | rfl
  · have := gap (.inner (.ubr ⟨⟨.excluded x⟩⟩)) false true trivial trivial rfl x 1 (.inl rfl)
      (visible_spot.mpr fun hx => absurd (visible_spot.mp hp hx) (by decide))
    have e : ∀ S : Set (Spot T), spot x 1 ∈ exterior (S ∩ (Inner.ubr ⟨⟨.excluded x⟩⟩).inside) ↔ spot x 0 ∉ S := by
      intro S
      refine near_iff.trans ⟨fun h hS => (h.2.1 rfl).1 ⟨hS, spot_lt.mpr (Or.inr ⟨rfl, by decide⟩)⟩, fun h => ⟨?_, ?_, ?_⟩⟩
      · exact fun h' => lt_irrefl _ (show spot x 1 < spot x 1 from h'.2)
      · exact fun _ => ⟨fun h' => h h'.1, fun h' => lt_asymm (show spot x 2 < spot x 1 from h'.2) (spot_lt.mpr (Or.inr ⟨rfl, by decide⟩))⟩
      · exact fun h => absurd h (by decide)
    exact not_iff_not.mp ((e _).symm.trans (this.trans (e _)))
  · exact h1.cut hs hs' (.inl rfl) hp
  · exact h1 .hole ⟨trivial, trivial⟩ x
  · exact h1.cut hs hs' (.inr rfl) hp
  · have := gap (.inner (.lbr ⟨⟨.excluded x⟩⟩)) true false trivial trivial rfl x 3 (.inr rfl)
      (visible_spot.mpr fun _ => by decide)
    have e : ∀ S : Set (Spot T), spot x 3 ∈ exterior (S ∩ (Inner.lbr ⟨⟨.excluded x⟩⟩).inside) ↔ spot x 4 ∉ S := by
      intro S
      refine near_iff.trans ⟨fun h hS => (h.2.2 rfl).2 ⟨hS, spot_lt.mpr (Or.inr ⟨rfl, by decide⟩)⟩, fun h => ⟨?_, ?_, ?_⟩⟩
      · exact fun h' => lt_irrefl _ (show spot x 3 < spot x 3 from h'.2)
      · exact fun h => absurd h (by decide)
      · exact fun _ => ⟨fun h' => lt_asymm (show spot x 3 < spot x 2 from h'.2) (spot_lt.mpr (Or.inr ⟨rfl, by decide⟩)), fun h' => h h'.1⟩
    exact not_iff_not.mp ((e _).symm.trans (this.trans (e _)))

/-! ### The type -/

theorem from1_mem (x : T) : ∀ q, spot x 2 ≤ q → q ∈ (from1 x).toInner.inside := fun _ hq =>
  (spot_lt.mpr (Or.inr ⟨rfl, by decide⟩) : spot x 1 < spot x 2).trans_le hq

/-- Between a `LowerBoundedSet` that covers all from `x` on and `split1 x` the element `x` is lost. -/
theorem split1_lost {r : Region T} {x : T} (hr : r.shape = some Shape.lbs) (h : spot x 2 ∈ tail r.inside) :
    spot x 2 ∉ (r.inter (split1 x).toInner.region).inside := by
  rw [Region.lbs_inter hr rfl]
  exact fun h' => h'.2 ⟨h, split1_tail x⟩

theorem split1_kept {r : Region T} {x : T} (hr : r.shape ≠ some Shape.lbs) (h : spot x 2 ∈ r.inside) :
    spot x 2 ∈ (r.inter (split1 x).toInner.region).inside := by
  rw [Region.inter, if_neg fun h => hr h.1, if_pos (by simp [split1, Any.toInner, Inner.region, Inner.shape])]
  exact ⟨h, split1_mem x⟩

/-- `v.union(x..).intersection(split1 x)` shows whether the type of `v` has a bound below. -/
theorem below_test (x : T) (r : Region T) :
    spot x 2 ∈ (Ctx.region r (.inter (.union .hole (.leaf (from1 x))) (.leaf (split1 x)))).inside ↔
      ¬∃ k, r.shape = some k ∧ k.below = true := by
  show spot x 2 ∈ ((r.union (from1 x).toInner.region).inter (split1 x).toInner.region).inside ↔ _
  obtain ⟨k, S, O⟩ := r
  cases k with
  | none =>
    refine iff_of_true (split1_kept ?_ (from1_mem x _ le_rfl)) (by rintro ⟨k, h, -⟩; cases h)
    intro h; cases h
  | some k =>
    have e : (Region.union ⟨some k, S, O⟩ (from1 x).toInner.region) =
      .ofSet (some ⟨k.set || k.below || k.above, (k.set || k.below || k.above) && k.below, false⟩)
        (S ∪ (from1 x).toInner.inside) := by
      simp [Region.union, from1, Any.toInner, Inner.region, Inner.shape]
    rw [e]
    by_cases hb : k.below = true
    · refine iff_of_false (split1_lost (by simp [Region.ofSet, hb, Shape.lbs]) fun q hq => Or.inr (from1_mem x q hq))
        (not_not_intro ⟨k, rfl, hb⟩)
    · refine iff_of_true (split1_kept (by simp [Region.ofSet, hb, Shape.lbs]) (Or.inr (from1_mem x _ le_rfl))) ?_
      rintro ⟨k', h, hb'⟩
      injection h with h
      exact hb (h ▸ hb')

theorem Region.Alike.below [Nonempty T] {r r' : Region T} (h : r.Alike r') :
    (∃ k, r.shape = some k ∧ k.below = true) ↔ ∃ k, r'.shape = some k ∧ k.below = true := by
  obtain ⟨x⟩ := ‹Nonempty T›
  have := h (.inter (.union .hole (.leaf (from1 x))) (.leaf (split1 x)))
    ⟨⟨⟨trivial, trivial⟩, split1_normal x⟩, ⟨⟨trivial, trivial⟩, trivial⟩⟩ x
  rw [below_test, below_test] at this
  exact not_iff_not.mp this

theorem BoundedSet.eventually [Nonempty T] (s : BoundedSet T) : ∃ x₀, ∀ x, x₀ ≤ x → spot x 4 ∉ s.spots := by
  obtain ⟨l⟩ := s
  induction l with
  | nil =>
    obtain ⟨x⟩ := ‹Nonempty T›
    exact ⟨x, fun _ _ => by rintro ⟨r, hr, -⟩; cases hr⟩
  | cons r l ih =>
    obtain ⟨x₀, h⟩ := ih
    refine ⟨max x₀ (ofLex r.stop.spot).1, fun x hx => ?_⟩
    rintro ⟨q, hq, hm⟩
    rcases List.mem_cons.mp hq with rfl | hq
    · have h1 : spot x 4 < q.stop.spot := hm.2
      have h2 : q.stop.spot < spot x 4 := by
        have := (le_max_right _ _).trans hx
        rcases this.lt_or_eq with h | h
        · exact spot_lt.mpr (Or.inl h)
        · rcases q with ⟨s, ⟨b | b⟩⟩ <;> exact spot_lt.mpr (Or.inr ⟨h, by decide⟩)
      exact lt_asymm h1 h2
    · exact h x ((le_max_left _ _).trans hx) ⟨q, hq, hm⟩

/-- Far to the right everything is covered or nothing is, and the type says which. -/
theorem Inner.eventually [Nonempty T] (i : Inner T) : ∃ x₀, ∀ x, x₀ ≤ x →
    (spot x 4 ∈ i.inside ↔ ∃ k, i.shape = some k ∧ k.above = false) := by
  have up : ∀ r : UpperBoundedRange T, ∃ x₀, ∀ x, x₀ ≤ x → spot x 4 ∉ r.spots := fun r => by
    obtain ⟨x₀, h⟩ := BoundedSet.eventually (⟨[⟨⟨.included (ofLex r.stop.spot).1⟩, r.stop⟩]⟩ : BoundedSet T)
    refine ⟨max x₀ (ofLex r.stop.spot).1, fun x hx hm => h x ((le_max_left _ _).trans hx) ⟨_, List.mem_singleton.mpr rfl, ?_, hm⟩⟩
    rcases ((le_max_right _ _).trans hx).lt_or_eq with h | h
    · exact spot_lt.mpr (Or.inl h)
    · exact spot_lt.mpr (Or.inr ⟨h, by decide⟩)
  have low : ∀ r : LowerBoundedRange T, ∃ x₀, ∀ x, x₀ ≤ x → spot x 4 ∈ r.spots := fun r => by
    refine ⟨(ofLex r.start.spot).1, fun x hx => ?_⟩
    rcases hx.lt_or_eq with h | h
    · exact spot_lt.mpr (Or.inl h)
    · rcases r with ⟨⟨b | b⟩⟩ <;> exact spot_lt.mpr (Or.inr ⟨h, by decide⟩)
  have no : ∀ {k : Shape}, k.above = true → ¬∃ k', some k = some k' ∧ k'.above = false := by
    rintro k h ⟨k', e, h'⟩
    injection e with e
    rw [e, h'] at h; cases h
  cases i with
  | br r =>
    obtain ⟨x₀, h⟩ := BoundedSet.eventually ⟨[r]⟩
    exact ⟨x₀, fun x hx => iff_of_false (fun hm => h x hx ⟨r, List.mem_singleton.mpr rfl, hm⟩) (no rfl)⟩
  | bs s =>
    obtain ⟨x₀, h⟩ := s.eventually
    exact ⟨x₀, fun x hx => iff_of_false (h x hx) (no rfl)⟩
  | lbr r =>
    obtain ⟨x₀, h⟩ := low r
    exact ⟨x₀, fun x hx => iff_of_true (h x hx) ⟨_, rfl, rfl⟩⟩
  | lbs s =>
    obtain ⟨x₀, h⟩ := low s.lowerBoundedRange
    exact ⟨x₀, fun x hx => iff_of_true (Or.inr (h x hx)) ⟨_, rfl, rfl⟩⟩
  | ubr r =>
    obtain ⟨x₀, h⟩ := up r
    exact ⟨x₀, fun x hx => iff_of_false (h x hx) (no rfl)⟩
  | ubs s =>
    obtain ⟨x₀, h⟩ := up s.upperBoundedRange
    obtain ⟨x₁, h'⟩ := s.ranges.eventually
    exact ⟨max x₀ x₁, fun x hx => iff_of_false (by
      rintro (h0 | h0)
      · exact h x ((le_max_left _ _).trans hx) h0
      · exact h' x ((le_max_right _ _).trans hx) h0) (no rfl)⟩
  | ur => exact ⟨Classical.arbitrary T, fun x _ => iff_of_true trivial ⟨_, rfl, rfl⟩⟩
  | er => exact ⟨Classical.arbitrary T, fun x _ => iff_of_false id (by rintro ⟨k, h, -⟩; cases h)⟩
  | us s =>
    cases s with
    | full => exact ⟨Classical.arbitrary T, fun x _ => iff_of_true trivial ⟨_, rfl, rfl⟩⟩
    | piecewise p =>
      obtain ⟨x₀, h⟩ := low p.lowerBoundedRange
      exact ⟨x₀, fun x hx => iff_of_true (Or.inr (h x hx)) ⟨_, rfl, rfl⟩⟩

theorem Region.Alike.above [Nonempty T] {i j : Inner T} (hi : i.Normal) (hj : j.Normal) (h : i.region.Alike j.region) :
    (∃ k, i.shape = some k ∧ k.above = false) ↔ ∃ k, j.shape = some k ∧ k.above = false := by
  obtain ⟨x, hx⟩ := i.eventually
  obtain ⟨y, hy⟩ := j.eventually
  rw [← hx _ (le_max_left x y), ← hy _ (le_max_right x y)]
  exact h.sameSet ⟨i, hi, rfl⟩ ⟨j, hj, rfl⟩ _ (visible_spot.mpr fun _ => by decide)

theorem lt_near {x : T} {q q' : Spot T} (hq : spot x 2 ≤ q) (h : Near q q') : spot x 1 < q' := by
  have h12 : spot x 1 < spot x 2 := spot_lt.mpr (Or.inr ⟨rfl, by decide⟩)
  induction q using Spot.ind with
  | h a j =>
  induction q' using Spot.ind with
  | h b k =>
  rw [near_spot] at h
  rcases h with ⟨rfl, rfl⟩ | ⟨rfl, h⟩
  · exact h12.trans_le hq
  · rw [spot_le] at hq
    rcases hq with hq | ⟨rfl, hq⟩
    · exact spot_lt.mpr (Or.inl hq)
    · rcases h with ⟨rfl, _⟩ | ⟨rfl, rfl | rfl⟩
      · exact absurd hq (by decide)
      · exact h12
      · exact spot_lt.mpr (Or.inr ⟨rfl, by decide⟩)

/-- A `LowerBoundedRange` and a `LowerBoundedSet` are told apart by
`v.complement().intersection(..x).complement().intersection(split1 x)`. -/
theorem lower_test (x : T) {r : Region T} {s : Bool} (hr : r.shape = some ⟨s, true, false⟩) :
    spot x 2 ∈ (Ctx.region r (.inter (.complement (.inter (.complement .hole) (.leaf (.inner (.ubr ⟨⟨.excluded x⟩⟩)))))
      (.leaf (split1 x)))).inside ↔ s = false := by
  show spot x 2 ∈ ((r.complement.inter (Inner.ubr ⟨⟨.excluded x⟩⟩).region).complement.inter (split1 x).toInner.region).inside ↔ _
  have hc : r.complement.shape = some ⟨s, false, true⟩ := by
    rw [Region.complement, hr]; cases s <;> rfl
  have h12 : spot x 1 < spot x 2 := spot_lt.mpr (Or.inr ⟨rfl, by decide⟩)
  cases s with
  | false =>
    refine iff_of_true (split1_kept ?_ ?_) rfl
    · rw [Region.complement, Region.inter, hc, if_neg (by rintro ⟨h, -⟩; cases h)]
      intro h; cases h
    · show spot x 2 ∈ (r.complement.inter (Inner.ubr ⟨⟨.excluded x⟩⟩).region).outside
      rw [Region.inter, hc, if_neg (by rintro ⟨h, -⟩; cases h), if_neg (by simp [Inner.region, Inner.shape])]
      exact Or.inr h12
  | true =>
    refine iff_of_false (split1_lost ?_ ?_) (by simp)
    · rw [Region.complement, Region.set_inter_range hc rfl]; rfl
    · intro q hq
      show q ∈ (r.complement.inter (Inner.ubr ⟨⟨.excluded x⟩⟩).region).outside
      rw [Region.set_inter_range hc rfl]
      exact fun q' hn h' => lt_asymm (lt_near hq hn) h'.2

theorem lower_test_ok (x : T) : (Ctx.inter (.complement (.inter (.complement .hole) (.leaf (.inner (.ubr ⟨⟨.excluded x⟩⟩)))))
    (.leaf (split1 x))).Ok :=
  ⟨⟨⟨trivial, trivial⟩, split1_normal x⟩, ⟨⟨trivial, trivial⟩, trivial⟩⟩

theorem Region.Alike.lower [Nonempty T] {r r' : Region T} {s s' : Bool} (h : r.Alike r')
    (hr : r.shape = some ⟨s, true, false⟩) (hr' : r'.shape = some ⟨s', true, false⟩) : s = s' := by
  obtain ⟨x⟩ := ‹Nonempty T›
  have := h _ (lower_test_ok x) x
  rw [lower_test x hr, lower_test x hr'] at this
  cases s <;> cases s' <;> simp_all

theorem Region.Alike.complement {r r' : Region T} (h : r.Alike r') : r.complement.Alike r'.complement :=
  h.ctx (d := .complement .hole) ⟨trivial, trivial⟩

theorem Region.Alike.symm {r r' : Region T} (h : r.Alike r') : r'.Alike r := fun c hc t => (h c hc t).symm

/-- A `BoundedRange` that is not empty is told apart from a `BoundedSet`: cut down to its end, its complement
still shows the cut. -/
theorem not_alike_br {r : BoundedRange T} {s : BoundedSet T} (hr : r.start.spot < r.stop.spot) :
    ¬(Inner.br r).region.Alike (Inner.bs s).region := by
  intro h
  obtain ⟨x, k, hk, hv, l, hl, hx⟩ : ∃ x k, (k = 1 ∨ k = 3) ∧ Visible (spot x k) ∧ ∃ l : LowerBound T, l.spot = spot x k ∧
      r.stop.spot = spot x k := by
    rcases r with ⟨a, ⟨b | b⟩⟩
    rotate_left
    · exact ⟨b, 3, .inr rfl, visible_spot.mpr fun _ => by decide, ⟨.excluded b⟩, rfl, rfl⟩
    · refine ⟨b, 1, .inl rfl, visible_spot.mpr fun hb => ?_, ⟨.included b⟩, rfl, rfl⟩
      exfalso
      have hr : a.spot < spot b 1 := hr
      rcases a with ⟨a | a⟩ <;> rcases spot_lt.mp hr with h' | ⟨rfl, h'⟩
      · exact absurd h' (not_lt_of_ge (hb h'.le))
      · exact absurd h' (by decide)
      · exact absurd h' (not_lt_of_ge (hb h'.le))
      · exact absurd h' (by decide)
  have h1 := h.ctx (d := .complement (.inter .hole (.leaf (.inner (.br ⟨l, r.stop⟩))))) ⟨⟨trivial, trivial⟩, ⟨trivial, trivial⟩⟩
  have e1 : (Inner.br r).region.inter (Inner.br ⟨l, r.stop⟩).region =
      ⟨some ⟨false, true, true⟩, r.spots ∩ (Inner.br ⟨l, r.stop⟩).inside, (Inner.br r).outside ∪ (Inner.br ⟨l, r.stop⟩).outside⟩ := rfl
  have e2 := Region.set_inter_range (r := (Inner.bs s).region) (r' := (Inner.br ⟨l, r.stop⟩).region) rfl rfl
  have := h1.cut (x := x) (k := k) ⟨false, false, by
      show ((Inner.br r).region.inter (Inner.br ⟨l, r.stop⟩).region).complement.shape = _
      rw [e1]; rfl⟩ ⟨false, false, by
      show ((Inner.bs s).region.inter (Inner.br ⟨l, r.stop⟩).region).complement.shape = _
      rw [e2]; rfl⟩ hk hv
  refine absurd (this.mpr ?_) ?_
  · show _ ∈ ((Inner.bs s).region.inter (Inner.br ⟨l, r.stop⟩).region).outside
    rw [e2]
    rintro q - ⟨-, hq⟩
    have h1 : l.spot < q := hq.1
    have h2 : q < r.stop.spot := hq.2
    rw [hl] at h1; rw [hx] at h2
    exact lt_asymm h1 h2
  · show _ ∉ ((Inner.br r).region.inter (Inner.br ⟨l, r.stop⟩).region).outside
    rw [e1, ← hx]
    rintro ((h | h) | (h | h))
    · exact lt_asymm hr h
    · exact lt_irrefl _ h
    · exact lt_irrefl _ (hx ▸ hl ▸ h)
    · exact lt_irrefl _ h

theorem Region.Alike.same [Nonempty T] {i j : Inner T} (hi : i.Normal) (hj : j.Normal) (h : i.region.Alike j.region) :
    i.region.Same j.region := by
  have gi : i.region.Good := ⟨i, hi, rfl⟩
  have gj : j.region.Good := ⟨j, hj, rfl⟩
  have hin := h.sameSet gi gj
  have hout : SameSet i.outside j.outside := h.complement.sameSet gi.complement gj.complement
  refine ⟨hin, hout, ?_⟩
  have hb := h.below
  have hb' := h.complement.below
  have ha := h.above hi hj
  have hbr : ∀ {r : BoundedRange T} {s : BoundedSet T}, (Inner.br r).region.Alike (Inner.bs s).region →
      SameSet (Inner.br r).inside (Inner.bs s).inside →
      ∀ p, Visible p → p ∉ (Inner.br r).inside ∧ p ∈ exterior (Inner.bs s).inside := by
    intro r s h hin
    have hr : ∀ p, p ∉ (Inner.br r).inside := fun p hp => not_alike_br (hp.1.trans hp.2) h
    exact fun p hp => ⟨hr p, fun q hq hm => hr q ((hin q (hp.near hq)).mpr hm)⟩
  cases i <;> cases j <;> first
    | exact Or.inl rfl
    | (exfalso; simp [Inner.shape] at ha; done)
    | (exfalso; simp [Inner.region, Inner.shape] at hb; done)
    | (exfalso; simp [Inner.region, Inner.shape, Region.complement, Shape.complement] at hb'; done)
    | skip
  case br.bs r s =>
    exact Or.inr ⟨⟨_, rfl⟩, ⟨_, rfl⟩, fun p hp => ⟨(hbr h hin p hp).1, (hout p hp).mpr (hbr h hin p hp).2⟩⟩
  case bs.br s r =>
    exact Or.inr ⟨⟨_, rfl⟩, ⟨_, rfl⟩, fun p hp =>
      ⟨fun hm => (hbr h.symm hin.symm p hp).1 ((hin p hp).mp hm), (hbr h.symm hin.symm p hp).2⟩⟩
  all_goals exfalso
  case lbr.lbs => cases h.lower rfl rfl
  case lbs.lbr => cases h.lower rfl rfl
  case ubr.ubs => cases h.complement.lower rfl rfl
  case ubs.ubr => cases h.complement.lower rfl rfl

/-! ### The theorem -/

theorem indistinguishable_iff_alike {a b : Any T} (ha : a.toInner.Normal) (hb : b.toInner.Normal) (fa : a.Fresh)
    (fb : b.Fresh) : Indistinguishable a b ↔ a.toInner.region.Alike b.toInner.region := by
  constructor
  · intro h c hc t
    obtain ⟨v, hv, kv⟩ := C77_contains (c.fill (.leaf a)) (c.fill_allLeaves hc.1 ha) (c.fill_allLeaves hc.2 fa)
    obtain ⟨w, hw, kw⟩ := C77_contains (c.fill (.leaf b)) (c.fill_allLeaves hc.1 hb) (c.fill_allLeaves hc.2 fb)
    rw [← c.fill_region, ← c.fill_region, ← kv, ← kw, h c hc.1 hc.2 v w hv hw]
  · intro h c hn hf v w hv hw t
    obtain ⟨v', hv', kv⟩ := C77_contains (c.fill (.leaf a)) (c.fill_allLeaves hn ha) (c.fill_allLeaves hf fa)
    obtain ⟨w', hw', kw⟩ := C77_contains (c.fill (.leaf b)) (c.fill_allLeaves hn hb) (c.fill_allLeaves hf fb)
    obtain rfl : v' = v := by rw [hv] at hv'; injection hv' with h; exact h.symm
    obtain rfl : w' = w := by rw [hw] at hw'; injection hw' with h; exact h.symm
    rw [Bool.eq_iff_iff, kv, kw, c.fill_region, c.fill_region]
    exact h c ⟨hn, hf⟩ t

/-- C86. Two values cannot be told apart by the members of anything built from them if and only if they have the
same type and the same visible spots inside and outside (or are an empty `BoundedRange` and the empty
`BoundedSet`). -/
theorem C86_indistinguishable_iff [Nonempty T] (a b : Any T) (ha : a.toInner.Normal) (hb : b.toInner.Normal)
    (fa : a.Fresh) (fb : b.Fresh) : Indistinguishable a b ↔ a.toInner.region.Same b.toInner.region := by
  rw [indistinguishable_iff_alike ha hb fa fb]
  exact ⟨fun h => h.same ha hb, fun h c _ t => (c.region_same h).inside _ (visible_spot.mpr fun _ => by decide)⟩

/-- C86. So over an order without a least element, nothing but equal values is interchangeable: through the impl of
C02, membership sees how a set is cut into pieces. -/
theorem C86_equal [Nonempty T] [NoMinOrder T] (a b : Any T) (ha : a.toInner.Normal) (hb : b.toInner.Normal)
    (fa : a.Fresh) (fb : b.Fresh) (na : a.toInner.kind ≠ .br) (nb : b.toInner.kind ≠ .br) :
    Indistinguishable a b ↔ a.toInner = b.toInner := by
  rw [C86_indistinguishable_iff a b ha hb fa fb]
  constructor
  · rintro ⟨h1, h2, h3⟩
    have vis : ∀ p : Spot T, Visible p := fun p h => not_isMin _ h.1
    refine Inner.eq_of_region ((Inner.normal_iff _).mp ha) ((Inner.normal_iff _).mp hb) na
      (Region.ext' ?_ (fun p => h1 p (vis p)) fun p => h2 p (vis p))
    rcases h3 with h3 | ⟨⟨s, h3⟩, ⟨s', h4⟩, -⟩
    · exact h3
    · have key : ∀ (i : Inner T) s, i.kind ≠ .br → i.shape = some ⟨s, true, true⟩ → s = true := by
        intro i s hi hs
        cases i <;> first | (exact absurd rfl hi) | (cases hs; done) | (injection hs with hs; injection hs with hs; exact hs.symm)
      rw [h3, h4, key _ _ na h3, key _ _ nb h4]
  · intro h
    rw [h]
    exact .refl _

/-- C86. With a least element `m` there is one blind spot: `{..m, m..x}` and `{..x}` are different values that
nothing tells apart. -/
theorem C86_least (m x : T) (hm : IsMin m) (hx : m < x) :
    let a : Any T := .inner (.ubs ⟨⟨⟨.excluded m⟩⟩, ⟨[⟨⟨.included m⟩, ⟨.excluded x⟩⟩]⟩⟩)
    let b : Any T := .inner (.ubs ⟨⟨⟨.excluded x⟩⟩, ⟨[]⟩⟩)
    a.toInner.Normal ∧ b.toInner.Normal ∧ a.toInner ≠ b.toInner ∧ Indistinguishable a b := by
  intro a b
  have hmx : spot m 1 < spot x 1 := spot_lt.mpr (Or.inl hx)
  have na : a.toInner.Normal := by
    refine ⟨⟨?_, List.pairwise_singleton _ _⟩, ?_⟩
    · intro r hr
      rw [List.mem_singleton] at hr
      subst hr
      rw [BoundedRange.isEmpty_eq_false_iff_spot]
      exact hmx
    · intro r hr
      rw [List.mem_singleton] at hr
      subst hr
      rw [noOverlap_iff_spot]
      exact le_rfl
  have nb : b.toInner.Normal := ⟨⟨by simp, List.Pairwise.nil⟩, by simp⟩
  have : Nonempty T := ⟨m⟩
  refine ⟨na, nb, fun h => ?_, (C86_indistinguishable_iff a b na nb trivial trivial).mpr ?_⟩
  · injection h with h
    injection h with _ h
    injection h with h
    cases h
  · have hs : SameSet a.toInner.inside b.toInner.inside := by
      intro p hp
      constructor
      · rintro (h | ⟨r, hr, h⟩)
        · exact Or.inl (lt_trans (show p < spot m 1 from h) hmx)
        · rw [List.mem_singleton] at hr
          subst hr
          exact Or.inl h.2
      · rintro (h | ⟨r, hr, h⟩)
        · refine Or.inr ⟨_, List.mem_singleton.mpr rfl, ?_, h⟩
          show spot m 1 < p
          induction p using Spot.ind with
          | h y k =>
          rcases eq_or_ne y m with rfl | hy
          · exact spot_lt.mpr (Or.inr ⟨rfl, visible_spot.mp hp hm⟩)
          · exact spot_lt.mpr (Or.inl (lt_of_le_of_ne (not_lt.mp fun h => absurd h (not_lt_of_ge (hm h.le))) hy.symm))
        · cases hr
    exact ⟨hs, hs.exterior, Or.inl rfl⟩

/-! ### Where no intersection loses elements -/

/-- The members an expression denotes depend on the members of the value put in, not on its pieces or type. -/
theorem Ctx.denotes_fill (c : Ctx T) {a b : Any T} {t : T} (h : a.contains t = b.contains t) :
    (c.fill (.leaf a)).denotes t = (c.fill (.leaf b)).denotes t := by
  induction c with
  | hole => exact h
  | leaf => rfl
  | toInner c ih => exact ih
  | toSet c ih => exact ih
  | union c d ihc ihd => simp only [Ctx.fill, Expr.denotes, ihc, ihd]
  | inter c d ihc ihd => simp only [Ctx.fill, Expr.denotes, ihc, ihd]
  | complement c ih => simp only [Ctx.fill, Expr.denotes, ih]

omit [LinearOrder T] in
theorem Ctx.allLeaves_fill {P : Any T → Prop} (c : Ctx T) (h : c.AllLeaves P) {a : Any T} (ha : P a) :
    (c.fill (.leaf a)).AllLeaves P := by
  induction c with
  | hole => exact ha
  | leaf => exact h
  | toInner c ih => exact ih h
  | toSet c ih => exact ih h
  | union c d ihc ihd => exact ⟨ihc h.1, ihd h.2⟩
  | inter c d ihc ihd => exact ⟨ihc h.1, ihd h.2⟩
  | complement c ih => exact ih h

/-- C86. Values with the same members can only be told apart by an expression in which some intersection is of a lossy
pair: in all others the members of the result depend on the members of the value alone. -/
theorem C86_lossless (c : Ctx T) (hc : c.AllLeaves Any.Fresh) (a b : Any T) (ha : a.Fresh) (hb : b.Fresh)
    (la : (c.fill (.leaf a)).LosslessInter) (lb : (c.fill (.leaf b)).LosslessInter)
    (h : ∀ t, a.contains t = b.contains t) {v w : Any T} (hv : (c.fill (.leaf a)).eval = .ok v)
    (hw : (c.fill (.leaf b)).eval = .ok w) (t : T) : v.contains t = w.contains t := by
  obtain ⟨v', hv', ev⟩ := C05_expr_contains_partial _ (c.allLeaves_fill hc ha) la
  obtain ⟨w', hw', ew⟩ := C05_expr_contains_partial _ (c.allLeaves_fill hc hb) lb
  obtain rfl : v = v' := by rw [hv] at hv'; injection hv'
  obtain rfl : w = w' := by rw [hw] at hw'; injection hw'
  rw [ev, ew]
  exact c.denotes_fill (h t)

/-! ### Cases that meet the hypotheses -/

-- two sets with the same members
example : (Inner.bs ⟨[co 1 3, co 3 5]⟩).Normal ∧ (Inner.bs ⟨[co 1 5]⟩).Normal ∧
    (Inner.bs ⟨[co 1 3, co 3 5]⟩).kind ≠ .br ∧ (Inner.bs ⟨[co 1 3, co 3 5]⟩) ≠ .bs ⟨[co 1 5]⟩ := by decide

/-- `v.union(4..).intersection(split1 1)`. -/
def tellApart : Ctx Int := .inter (.union .hole (.leaf (from1 4))) (.leaf (split1 1))

/-- It loses 1 on the second and not on the first. -/
example :
    (tellApart.fill (.leaf (.inner (.bs ⟨[co 1 3, co 3 5]⟩)))).eval = .ok (.inner (.lbs ⟨⟨[cc 1 1, ⟨⟨.excluded 1⟩, ⟨.excluded 3⟩⟩]⟩, ci 3⟩)) ∧
    (tellApart.fill (.leaf (.inner (.bs ⟨[co 1 5]⟩)))).eval = .ok (.inner (.lbs ⟨⟨[]⟩, ⟨⟨.excluded 1⟩⟩⟩)) := by
  decide +kernel

-- a context with a lossless intersection
example : let c : Ctx Int := .inter (.union .hole (.leaf (.inner (.br (co 7 9))))) (.leaf (.range ⟨2, 8⟩))
    c.AllLeaves Any.Fresh ∧ (c.fill (.leaf (.inner (.bs ⟨[co 1 3, co 3 5]⟩)))).LosslessInter ∧
    (c.fill (.leaf (.inner (.bs ⟨[co 1 5]⟩)))).LosslessInter := by
  refine ⟨⟨⟨trivial, trivial⟩, trivial⟩, ⟨⟨trivial, trivial⟩, trivial, ?_⟩, ⟨trivial, trivial⟩, trivial, ?_⟩ <;>
    · rintro a b - h
      injection h with h
      subst h
      unfold Lossless Inner.Lossless
      simp [Any.toInner]

-- `Nat` has a least element
example : IsMin (0 : Nat) ∧ (0 : Nat) < 1 := ⟨fun _ _ => Nat.zero_le _, by decide⟩

-- every `Int` value meets the hypotheses of `C86_equal`
example : Nonempty Int ∧ NoMinOrder Int ∧ (split1 (1 : Int)).toInner.Normal ∧ (split1 (1 : Int)).Fresh :=
  ⟨⟨0⟩, inferInstance, split1_normal 1, trivial⟩

end Rangetools
