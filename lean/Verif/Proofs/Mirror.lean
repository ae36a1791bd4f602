import Verif.Spec.Mirror
import Verif.Proofs.Region

/-!
# Spots in the mirror
-/

namespace Rangetools
open Iv
variable {T : Type}

/-- A spot seen in the mirror. -/
def flip (p : Spot T) : Spot Tᵒᵈ := spot (OrderDual.toDual (ofLex p).1) (Fin.rev (ofLex p).2)

def unflip (p : Spot Tᵒᵈ) : Spot T := spot (OrderDual.ofDual (ofLex p).1) (Fin.rev (ofLex p).2)

theorem flip_spot (a : T) (k : Fin 5) : flip (spot a k) = spot (OrderDual.toDual a) k.rev := rfl

theorem flip_unflip (p : Spot Tᵒᵈ) : flip (unflip p) = p := by
  induction p using Spot.ind with | _ a k
  show spot _ (Fin.rev (Fin.rev k)) = _
  rw [Fin.rev_rev]; rfl

theorem forall_flip {P : Spot Tᵒᵈ → Prop} : (∀ p, P p) ↔ ∀ p : Spot T, P (flip p) :=
  ⟨fun h p => h _, fun h p => by rw [← flip_unflip p]; exact h _⟩

theorem rev_eq_iff (j : Fin 5) : (j.rev = 0 ↔ j = 4) ∧ (j.rev = 1 ↔ j = 3) ∧ (j.rev = 2 ↔ j = 2) ∧ (j.rev = 3 ↔ j = 1) ∧
    (j.rev = 4 ↔ j = 0) := by
  revert j; decide

theorem near_spot {a b : T} {j k : Fin 5} : Near (spot a j) (spot b k) ↔
    (a = b ∧ j = k) ∨ a = b ∧ (j = 1 ∧ (k = 0 ∨ k = 2) ∨ j = 3 ∧ (k = 2 ∨ k = 4)) := by
  rw [← spot_inj]
  exact Iff.rfl

theorem flip_near (p q : Spot T) : Near (flip p) (flip q) ↔ Near p q := by
  induction p using Spot.ind with | _ a j
  induction q using Spot.ind with | _ b k
  obtain ⟨j0, j1, j2, j3, j4⟩ := rev_eq_iff j
  obtain ⟨k0, k1, k2, k3, k4⟩ := rev_eq_iff k
  rw [flip_spot, flip_spot, near_spot, near_spot, Fin.rev_inj, OrderDual.toDual_inj, j1, j3, k0, k2, k4,
    or_comm (a := j = 3 ∧ _), or_comm (a := k = 4), or_comm (a := k = 2) (b := k = 0)]

/-- `S'` is `S` seen in the mirror. -/
def FlipSet (S : Set (Spot T)) (S' : Set (Spot Tᵒᵈ)) : Prop := ∀ p, flip p ∈ S' ↔ p ∈ S

theorem FlipSet.exterior {S : Set (Spot T)} {S' : Set (Spot Tᵒᵈ)} (h : FlipSet S S') :
    FlipSet (exterior S) (exterior S') := fun p => by
  show (∀ q, Near (flip p) q → q ∉ S') ↔ ∀ q, Near p q → q ∉ S
  rw [forall_flip]
  exact forall_congr' fun q => by rw [flip_near, h]

theorem FlipSet.union {A B : Set (Spot T)} {A' B' : Set (Spot Tᵒᵈ)} (h : FlipSet A A') (k : FlipSet B B') :
    FlipSet (A ∪ B) (A' ∪ B') := fun p => or_congr (h p) (k p)

theorem FlipSet.inter {A B : Set (Spot T)} {A' B' : Set (Spot Tᵒᵈ)} (h : FlipSet A A') (k : FlipSet B B') :
    FlipSet (A ∩ B) (A' ∩ B') := fun p => and_congr (h p) (k p)

theorem FlipSet.unique {A : Set (Spot T)} {A' B' : Set (Spot Tᵒᵈ)} (h : FlipSet A A') (k : FlipSet A B') : A' = B' := by
  ext p
  rw [← flip_unflip p, h, k]

variable [LinearOrder T]

theorem flip_lt {p q : Spot T} : flip p < flip q ↔ q < p := by
  induction p using Spot.ind with | _ a j
  induction q using Spot.ind with | _ b k
  rw [flip_spot, flip_spot, spot_lt, spot_lt, OrderDual.toDual_lt_toDual, Fin.rev_lt_rev, OrderDual.toDual_inj, eq_comm]

theorem flip_le {p q : Spot T} : flip p ≤ flip q ↔ q ≤ p := by rw [← not_lt, flip_lt, not_lt]

omit [LinearOrder T] in
theorem LowerBound.mirror_spot (b : LowerBound T) : b.mirror.spot = flip b.spot := by
  rcases b with ⟨b | b⟩ <;> rfl

omit [LinearOrder T] in
theorem UpperBound.mirror_spot (b : UpperBound T) : b.mirror.spot = flip b.spot := by
  rcases b with ⟨b | b⟩ <;> rfl

theorem BoundedRange.mirror_spots (r : BoundedRange T) : FlipSet r.spots r.mirror.spots := fun p => by
  show r.stop.mirror.spot < flip p ∧ flip p < r.start.mirror.spot ↔ r.start.spot < p ∧ p < r.stop.spot
  rw [UpperBound.mirror_spot, LowerBound.mirror_spot, flip_lt, flip_lt, and_comm]

theorem LowerBoundedRange.mirror_spots (r : LowerBoundedRange T) : FlipSet r.spots r.mirror.spots := fun p => by
  show flip p < r.start.mirror.spot ↔ r.start.spot < p
  rw [LowerBound.mirror_spot, flip_lt]

theorem UpperBoundedRange.mirror_spots (r : UpperBoundedRange T) : FlipSet r.spots r.mirror.spots := fun p => by
  show r.stop.mirror.spot < flip p ↔ p < r.stop.spot
  rw [UpperBound.mirror_spot, flip_lt]

theorem BoundedSet.mirror_spots (s : BoundedSet T) : FlipSet s.spots s.mirror.spots := fun p => by
  show (∃ r ∈ (s.ranges.map BoundedRange.mirror).reverse, flip p ∈ r.spots) ↔ ∃ r ∈ s.ranges, p ∈ r.spots
  simp only [List.mem_reverse, List.mem_map]
  constructor
  · rintro ⟨_, ⟨r, hr, rfl⟩, h⟩
    exact ⟨r, hr, (r.mirror_spots p).mp h⟩
  · rintro ⟨r, hr, h⟩
    exact ⟨_, ⟨r, hr, rfl⟩, (r.mirror_spots p).mpr h⟩

theorem Inner.mirror_inside (i : Inner T) : FlipSet i.inside i.mirror.inside := by
  cases i with
  | br r => exact r.mirror_spots
  | bs s => exact s.mirror_spots
  | lbr r => exact r.mirror_spots
  | ubr r => exact r.mirror_spots
  | lbs s => exact fun p => (or_congr (s.lowerBoundedRange.mirror_spots p) (s.ranges.mirror_spots p)).trans or_comm
  | ubs s => exact fun p => (or_congr (s.ranges.mirror_spots p) (s.upperBoundedRange.mirror_spots p)).trans or_comm
  | ur => exact fun _ => Iff.rfl
  | er => exact fun _ => Iff.rfl
  | us s =>
    cases s with
    | full => exact fun _ => Iff.rfl
    | piecewise s =>
      intro p
      have h1 := s.lowerBoundedRange.mirror_spots p
      have h2 := s.ranges.mirror_spots p
      have h3 := s.upperBoundedRange.mirror_spots p
      show (flip p ∈ s.lowerBoundedRange.mirror.spots ∨ flip p ∈ s.ranges.mirror.spots) ∨
        flip p ∈ s.upperBoundedRange.mirror.spots ↔
        (p ∈ s.upperBoundedRange.spots ∨ p ∈ s.ranges.spots) ∨ p ∈ s.lowerBoundedRange.spots
      rw [h1, h2, h3]
      tauto

theorem Inner.mirror_outside (i : Inner T) : FlipSet i.outside i.mirror.outside := by
  cases i with
  | br r =>
    intro p
    show flip p < r.stop.mirror.spot ∨ r.start.mirror.spot < flip p ↔ p < r.start.spot ∨ r.stop.spot < p
    rw [UpperBound.mirror_spot, LowerBound.mirror_spot, flip_lt, flip_lt, or_comm]
  | lbr r =>
    intro p
    show r.start.mirror.spot < flip p ↔ p < r.start.spot
    rw [LowerBound.mirror_spot, flip_lt]
  | ubr r =>
    intro p
    show flip p < r.stop.mirror.spot ↔ r.stop.spot < p
    rw [UpperBound.mirror_spot, flip_lt]
  | bs s => exact (Inner.mirror_inside (.bs s)).exterior
  | lbs s => exact (Inner.mirror_inside (.lbs s)).exterior
  | ubs s => exact (Inner.mirror_inside (.ubs s)).exterior
  | ur => exact (Inner.mirror_inside .ur).exterior
  | er => exact (Inner.mirror_inside .er).exterior
  | us s => exact (Inner.mirror_inside (.us s)).exterior

/-- The two ends exchanged. -/
def Shape.mirror (k : Shape) : Shape := ⟨k.set, k.above, k.below⟩

omit [LinearOrder T] in
theorem Inner.mirror_shape (i : Inner T) : i.mirror.shape = i.shape.map Shape.mirror := by cases i <;> rfl

/-- `a'` is `a` seen in the mirror. -/
structure FlipRegion (a : Region T) (a' : Region Tᵒᵈ) : Prop where
  shape : a'.shape = a.shape.map Shape.mirror
  inside : FlipSet a.inside a'.inside
  outside : FlipSet a.outside a'.outside

theorem Inner.mirror_region (i : Inner T) : FlipRegion i.region i.mirror.region :=
  ⟨i.mirror_shape, i.mirror_inside, i.mirror_outside⟩

omit [LinearOrder T] in
theorem FlipRegion.unique {a : Region T} {a' b' : Region Tᵒᵈ} (h : FlipRegion a a') (k : FlipRegion a b') : a' = b' := by
  obtain ⟨_, _, _⟩ := a'
  obtain ⟨_, _, _⟩ := b'
  simp only [Region.mk.injEq]
  exact ⟨h.shape.trans k.shape.symm, h.inside.unique k.inside, h.outside.unique k.outside⟩

omit [LinearOrder T] in
theorem FlipRegion.ofSet {k : Option Shape} {k' : Option Shape} {S : Set (Spot T)} {S' : Set (Spot Tᵒᵈ)}
    (hk : k' = k.map Shape.mirror) (h : FlipSet S S') : FlipRegion (.ofSet k S) (.ofSet k' S') :=
  ⟨hk, h, h.exterior⟩

omit [LinearOrder T] in
theorem FlipRegion.toSet {a : Region T} {a' : Region Tᵒᵈ} (h : FlipRegion a a') : FlipRegion a.toSet a'.toSet := by
  obtain ⟨k, S, X⟩ := a
  obtain ⟨k', S', X'⟩ := a'
  obtain rfl : k' = k.map Shape.mirror := h.shape
  cases k with
  | none => exact h
  | some k =>
    rcases k with ⟨s, _ | _, _ | _⟩
    · exact h
    all_goals exact FlipRegion.ofSet rfl h.inside

omit [LinearOrder T] in
theorem FlipRegion.union {a b : Region T} {a' b' : Region Tᵒᵈ} (h : FlipRegion a a') (k : FlipRegion b b') :
    FlipRegion (a.union b) (a'.union b') := by
  obtain ⟨j, S, X⟩ := a
  obtain ⟨j', S', X'⟩ := a'
  obtain rfl : j' = j.map Shape.mirror := h.shape
  obtain ⟨l, R, Y⟩ := b
  obtain ⟨l', R', Y'⟩ := b'
  obtain rfl : l' = l.map Shape.mirror := k.shape
  cases j with
  | none => exact k
  | some j =>
    cases l with
    | none => exact h
    | some l =>
      refine FlipRegion.ofSet ?_ (h.inside.union k.inside)
      rcases j with ⟨_ | _, _ | _, _ | _⟩ <;> rcases l with ⟨_ | _, _ | _, _ | _⟩ <;> rfl

omit [LinearOrder T] in
theorem FlipRegion.complement {a : Region T} {a' : Region Tᵒᵈ} (h : FlipRegion a a') :
    FlipRegion a.complement a'.complement := by
  obtain ⟨k, S, X⟩ := a
  obtain ⟨k', S', X'⟩ := a'
  obtain rfl : k' = k.map Shape.mirror := h.shape
  refine ⟨?_, h.outside, h.outside.exterior⟩
  rcases k with _ | ⟨_ | _, _ | _, _ | _⟩ <;> rfl

/-- What `intersection` ought to be: `Region.inter` without the exception. -/
def Region.meet (a b : Region T) : Region T :=
  if a.shape.any (·.set) || b.shape.any (·.set) then .ofSet (Shape.inter a.shape b.shape) (a.inside ∩ b.inside)
  else ⟨Shape.inter a.shape b.shape, a.inside ∩ b.inside, a.outside ∪ b.outside⟩

omit [LinearOrder T] in
theorem FlipRegion.meet {a b : Region T} {a' b' : Region Tᵒᵈ} (h : FlipRegion a a') (k : FlipRegion b b') :
    FlipRegion (a.meet b) (a'.meet b') := by
  obtain ⟨j, S, X⟩ := a
  obtain ⟨j', S', X'⟩ := a'
  obtain rfl : j' = j.map Shape.mirror := h.shape
  obtain ⟨l, R, Y⟩ := b
  obtain ⟨l', R', Y'⟩ := b'
  obtain rfl : l' = l.map Shape.mirror := k.shape
  have hs : Shape.inter (j.map Shape.mirror) (l.map Shape.mirror) = (Shape.inter j l).map Shape.mirror := by
    cases j <;> cases l <;> rfl
  have e : ∀ j : Option Shape, (j.map Shape.mirror).any (·.set) = j.any (·.set) := fun j => by cases j <;> rfl
  unfold Region.meet
  simp only [e]
  split
  · exact FlipRegion.ofSet hs (h.inside.inter k.inside)
  · exact ⟨hs, h.inside.inter k.inside, h.outside.union k.outside⟩

theorem BoundedRange.isEmpty_eq_false_iff_spot (r : BoundedRange T) : r.isEmpty = false ↔ r.start.spot < r.stop.spot := by
  rw [r.isEmpty_eq_false_iff]
  rcases r with ⟨⟨a | a⟩, ⟨b | b⟩⟩ <;>
    simp [lo, hi, LowerBound.spot, UpperBound.spot, cut_lt, spot_lt, le_iff_lt_or_eq]

/-- There is a spot between any two bounds. -/
theorem exists_spot_between (l : LowerBound T) (u : UpperBound T) (h : l.spot < u.spot) :
    ∃ p, l.spot < p ∧ p < u.spot := by
  rcases l with ⟨a | a⟩ <;> rcases u with ⟨b | b⟩ <;> simp only [LowerBound.spot, UpperBound.spot, spot_lt] at h ⊢ <;>
    rcases h with h | ⟨rfl, h⟩ <;>
    first
    | exact ⟨spot a 4, spot_lt.mpr (Or.inr ⟨rfl, by decide⟩), spot_lt.mpr (Or.inl h)⟩
    | exact absurd h (by decide)
    | exact ⟨spot a 2, spot_lt.mpr (Or.inr ⟨rfl, by decide⟩), spot_lt.mpr (Or.inr ⟨rfl, by decide⟩)⟩

/-- The exception does not matter if and only if the operands are lossless. -/
theorem Region.inter_eq_meet_iff {a b : Inner T} (na : a.Normal) (nb : b.Normal) :
    a.region.inter b.region = a.region.meet b.region ↔ a.Lossless b := by
  by_cases hl : a.shape = some Shape.lbs ∧ b.shape = some Shape.lbs
  · obtain ⟨ka, kb⟩ := hl
    cases a <;> first | (cases ka; done) | skip
    cases b <;> first | (cases kb; done) | skip
    next a b =>
    have e1 : (Inner.lbs a).region.inter (Inner.lbs b).region = .ofSet (some Shape.lbs)
      (((Inner.lbs a).inside ∩ (Inner.lbs b).inside) \
        (tail (Inner.lbs a).inside \ tail (Inner.lbs b).inside)) := if_pos ⟨rfl, rfl⟩
    have e2 : (Inner.lbs a).region.meet (Inner.lbs b).region = .ofSet (some Shape.lbs)
      ((Inner.lbs a).inside ∩ (Inner.lbs b).inside) := rfl
    have wa := (Inner.normal_iff _).mp na
    have wb := (Inner.normal_iff _).mp nb
    rw [e1, e2, tail_lbs wa, tail_lbs wb]
    constructor
    · intro h r hr
      have h : ((Inner.lbs a).inside ∩ (Inner.lbs b).inside) \ (a.lowerBoundedRange.spots \ b.lowerBoundedRange.spots) =
        (Inner.lbs a).inside ∩ (Inner.lbs b).inside := congrArg Region.inside h
      rw [noOverlap_iff_spot]
      by_contra hn
      rw [not_le] at hn
      have hne := r.isEmpty_eq_false_iff_spot.mp (nb.1.1 r hr)
      obtain ⟨p, h1, h2, h3⟩ : ∃ p, a.lowerBoundedRange.start.spot < p ∧ r.start.spot < p ∧ p < r.stop.spot := by
        rcases le_total a.lowerBoundedRange.start.spot r.start.spot with hle | hle
        · obtain ⟨p, h1, h2⟩ := exists_spot_between _ _ hne
          exact ⟨p, hle.trans_lt h1, h1, h2⟩
        · obtain ⟨p, h1, h2⟩ := exists_spot_between _ _ hn
          exact ⟨p, h1, hle.trans_lt h1, h2⟩
      have hpb : p ∈ b.ranges.spots := ⟨r, hr, h2, h3⟩
      have hp : p ∈ (Inner.lbs a).inside ∩ (Inner.lbs b).inside := ⟨Or.inr h1, Or.inl hpb⟩
      rw [← h] at hp
      exact hp.2 ⟨h1, lbs_disjoint wb p hpb⟩
    · intro h
      congr 1
      refine Set.ext fun p => ⟨And.left, fun hp => ⟨hp, ?_⟩⟩
      obtain ⟨_, hb⟩ := hp
      rintro ⟨h1, h2⟩
      rcases hb with ⟨r, hr, _, h3⟩ | hb
      · have := h r hr
        rw [noOverlap_iff_spot] at this
        exact absurd (h1.trans h3) this.not_gt
      · exact h2 hb
  · refine iff_of_true (if_neg hl) ?_
    cases a <;> cases b <;> first | trivial | exact absurd ⟨rfl, rfl⟩ hl

end Rangetools
