import Verif.Spec.Observe
import Verif.Proofs.Mirror

/-!
# Regions that are the same stay the same
-/

namespace Rangetools
variable {T : Type} [LinearOrder T]

theorem visible_spot {a : T} {k : Fin 5} : Visible (spot a k) ↔ (IsMin a → 1 < k) := by
  show ¬(IsMin a ∧ k ≤ 1) ↔ _
  rw [not_and, not_le]

theorem Visible.mono {p q : Spot T} (hp : Visible p) (h : p ≤ q) : Visible q := by
  induction p using Spot.ind with
  | h a j =>
  induction q using Spot.ind with
  | h b k =>
  rw [visible_spot] at hp ⊢
  rcases spot_le.mp h with h | ⟨rfl, h'⟩
  · exact fun hb => absurd h (not_lt_of_ge (hb h.le))
  · exact fun hb => (hp hb).trans_le h'

theorem Visible.near {p q : Spot T} (hp : Visible p) (h : Near p q) : Visible q := by
  induction p using Spot.ind with
  | h a j =>
  induction q using Spot.ind with
  | h b k =>
  rw [near_spot] at h
  rcases h with ⟨rfl, rfl⟩ | ⟨rfl, h⟩
  · exact hp
  · rw [visible_spot] at hp ⊢
    intro hb
    have := hp hb
    rcases h with ⟨rfl, _⟩ | ⟨rfl, rfl | rfl⟩
    · exact absurd this (by decide)
    · decide
    · decide

/-- Agreement of sets of spots. -/
def SameSet (A B : Set (Spot T)) : Prop := ∀ p, Visible p → (p ∈ A ↔ p ∈ B)

namespace SameSet
variable {A B A' B' : Set (Spot T)}

theorem refl (A : Set (Spot T)) : SameSet A A := fun _ _ => Iff.rfl
theorem symm (h : SameSet A B) : SameSet B A := fun p hp => (h p hp).symm
theorem trans {C : Set (Spot T)} (h : SameSet A B) (k : SameSet B C) : SameSet A C := fun p hp => (h p hp).trans (k p hp)

theorem union (h : SameSet A A') (k : SameSet B B') : SameSet (A ∪ B) (A' ∪ B') :=
  fun p hp => or_congr (h p hp) (k p hp)

theorem inter (h : SameSet A A') (k : SameSet B B') : SameSet (A ∩ B) (A' ∩ B') :=
  fun p hp => and_congr (h p hp) (k p hp)

theorem sdiff (h : SameSet A A') (k : SameSet B B') : SameSet (A \ B) (A' \ B') :=
  fun p hp => and_congr (h p hp) (not_congr (k p hp))

theorem exterior (h : SameSet A A') : SameSet (exterior A) (exterior A') := fun _ hp =>
  forall_congr' fun q => imp_congr_right fun hq => not_congr (h q (hp.near hq))

theorem tail (h : SameSet A A') : SameSet (tail A) (tail A') := fun _ hp =>
  forall_congr' fun q => imp_congr_right fun hq => h q (hp.mono hq)

end SameSet

namespace Region.Same
variable {a b a' b' : Region T}

theorem refl (a : Region T) : a.Same a := ⟨SameSet.refl _, SameSet.refl _, Or.inl rfl⟩

theorem ofSet {j k : Option Shape} {S S' : Set (Spot T)} (hs : SameSet S S')
    (h : j = k ∨ Bounded j ∧ Bounded k ∧ ∀ p, Visible p → p ∉ S) : (Region.ofSet j S).Same (.ofSet k S') :=
  ⟨hs, hs.exterior, h.imp_right fun h => ⟨h.1, h.2.1, fun p hp => ⟨h.2.2 p hp, fun q hq => h.2.2 q (hp.near hq)⟩⟩⟩

theorem symm (h : a.Same b) : b.Same a :=
  ⟨SameSet.symm h.inside, SameSet.symm h.outside, h.shape.imp Eq.symm fun k =>
    ⟨k.2.1, k.1, fun p hp => ⟨fun hb => (k.2.2 p hp).1 ((h.inside p hp).mpr hb), (h.outside p hp).mp (k.2.2 p hp).2⟩⟩⟩

theorem trans {c : Region T} (h : a.Same b) (k : b.Same c) : a.Same c := by
  refine ⟨SameSet.trans h.inside k.inside, SameSet.trans h.outside k.outside, ?_⟩
  rcases h.shape with e | e
  · rcases k.shape with f | f
    · exact Or.inl (e.trans f)
    · exact Or.inr ⟨e ▸ f.1, f.2.1, fun p hp => ⟨fun ha => (f.2.2 p hp).1 ((h.inside p hp).mp ha),
        (h.outside p hp).mpr (f.2.2 p hp).2⟩⟩
  · rcases k.shape with f | f
    · exact Or.inr ⟨e.1, f ▸ e.2.1, e.2.2⟩
    · exact Or.inr ⟨e.1, f.2.1, e.2.2⟩

theorem toSet (h : a.Same a') : a.toSet.Same a'.toSet := by
  obtain ⟨j, A, O⟩ := a
  obtain ⟨k, A', O'⟩ := a'
  obtain ⟨h1, h2, h3⟩ := h
  rcases h3 with rfl | ⟨⟨s, rfl⟩, ⟨s', rfl⟩, h3⟩
  · dsimp only [Region.toSet]
    cases j with
    | none => exact ⟨h1, h2, Or.inl rfl⟩
    | some k =>
      dsimp only
      split
      · exact ofSet h1 (Or.inl rfl)
      · exact ⟨h1, h2, Or.inl rfl⟩
  · exact ofSet h1 (Or.inl rfl)

theorem complement (h : a.Same a') : a.complement.Same a'.complement := by
  obtain ⟨j, A, O⟩ := a
  obtain ⟨k, A', O'⟩ := a'
  obtain ⟨h1, h2, h3⟩ := h
  refine ⟨h2, SameSet.exterior h2, Or.inl ?_⟩
  rcases h3 with rfl | ⟨⟨s, rfl⟩, ⟨s', rfl⟩, h3⟩
  · rfl
  · cases s <;> cases s' <;> rfl

theorem union (h : a.Same a') (k : b.Same b') : (a.union b).Same (a'.union b') := by
  obtain ⟨i, A, O⟩ := a
  obtain ⟨i', A', O'⟩ := a'
  obtain ⟨j, B, P⟩ := b
  obtain ⟨j', B', P'⟩ := b'
  obtain ⟨h1, h2, h3⟩ := h
  obtain ⟨k1, k2, k3⟩ := k
  dsimp only at h1 h2 h3 k1 k2 k3
  cases i with
  | none =>
    obtain rfl : i' = none := by
      rcases h3 with h3 | ⟨⟨_, h3⟩, -⟩
      · exact h3.symm
      · cases h3
    exact ⟨k1, k2, k3⟩
  | some s =>
  cases i' with
  | none =>
    exfalso
    rcases h3 with h3 | ⟨-, ⟨_, h3⟩, -⟩ <;> cases h3
  | some s' =>
  cases j with
  | none =>
    obtain rfl : j' = none := by
      rcases k3 with h3 | ⟨⟨_, h3⟩, -⟩
      · exact h3.symm
      · cases h3
    exact ⟨h1, h2, h3⟩
  | some u =>
  cases j' with
  | none =>
    exfalso
    rcases k3 with h3 | ⟨-, ⟨_, h3⟩, -⟩ <;> cases h3
  | some u' =>
  refine ofSet (SameSet.union h1 k1) (Or.inl ?_)
  rcases h3 with h3 | ⟨⟨_, h3⟩, ⟨_, h4⟩, -⟩ <;> rcases k3 with k3 | ⟨⟨_, k3⟩, ⟨_, k4⟩, -⟩
  · injection h3 with h3; injection k3 with k3; rw [h3, k3]
  · injection h3 with h3; injection k3 with k3; injection k4 with k4; subst h3 k3 k4; simp
  · injection h3 with h3; injection h4 with h4; injection k3 with k3; subst h3 h4 k3; simp
  · injection h3 with h3; injection h4 with h4; injection k3 with k3; injection k4 with k4; subst h3 h4 k3 k4; simp

theorem inter_left (h : a.Same a') (b : Region T) : (a.inter b).Same (a'.inter b) := by
  obtain ⟨i, A, O⟩ := a
  obtain ⟨i', A', O'⟩ := a'
  obtain ⟨j, B, P⟩ := b
  obtain ⟨h1, h2, h3⟩ := h
  dsimp only at h1 h2 h3
  dsimp only [Region.inter]
  rcases h3 with rfl | ⟨⟨s, rfl⟩, ⟨s', rfl⟩, h3⟩
  · split
    · exact ofSet (SameSet.sdiff (SameSet.inter h1 (.refl _)) (SameSet.sdiff (SameSet.tail h1) (.refl _))) (Or.inl rfl)
    · split
      · exact ofSet (SameSet.inter h1 (.refl _)) (Or.inl rfl)
      · exact ⟨SameSet.inter h1 (.refl _), SameSet.union h2 (.refl _), Or.inl rfl⟩
  · have hn : ∀ s, ¬(some (Shape.mk s true true) = some Shape.lbs ∧ j = some Shape.lbs) := by
      rintro s ⟨h, -⟩; cases h
    rw [if_neg (hn s), if_neg (hn s')]
    have hA : ∀ p, Visible p → p ∉ A ∩ B := fun p hp hq => (h3 p hp).1 hq.1
    have hA' : ∀ p, Visible p → p ∉ A' ∩ B := fun p hp hq => (h3 p hp).1 ((h1 p hp).mpr hq.1)
    have he : ∀ {S : Set (Spot T)}, (∀ p, Visible p → p ∉ S) → ∀ p, Visible p → p ∈ exterior S :=
      fun h p hp q hq => h q (hp.near hq)
    have hO : ∀ p, Visible p → p ∈ O ∪ P := fun p hp => Or.inl (h3 p hp).2
    have hO' : ∀ p, Visible p → p ∈ O' ∪ P := fun p hp => Or.inl ((h2 p hp).mp (h3 p hp).2)
    have hs : Shape.inter (some ⟨s, true, true⟩) j = Shape.inter (some ⟨s', true, true⟩) j ∨
        Bounded (Shape.inter (some ⟨s, true, true⟩) j) ∧ Bounded (Shape.inter (some ⟨s', true, true⟩) j) := by
      cases j with
      | none => exact Or.inl rfl
      | some k => exact Or.inr ⟨⟨_, rfl⟩, ⟨_, rfl⟩⟩
    have key : ∀ {k k' : Option Shape} {S S' Q Q' : Set (Spot T)}, (k = k' ∨ Bounded k ∧ Bounded k') →
        (∀ p, Visible p → p ∉ S) → (∀ p, Visible p → p ∉ S') → (∀ p, Visible p → p ∈ Q) → (∀ p, Visible p → p ∈ Q') →
        Region.Same ⟨k, S, Q⟩ ⟨k', S', Q'⟩ := fun h a b c d =>
      ⟨fun p hp => iff_of_false (a p hp) (b p hp), fun p hp => iff_of_true (c p hp) (d p hp),
        h.imp_right fun h => ⟨h.1, h.2, fun p hp => ⟨a p hp, c p hp⟩⟩⟩
    split <;> split
    · exact key hs hA hA' (he hA) (he hA')
    · exact key hs hA hA' (he hA) hO'
    · exact key hs hA hA' hO (he hA')
    · exact key hs hA hA' hO hO'

theorem inter_right (h : b.Same b') (a : Region T) : (a.inter b).Same (a.inter b') := by
  obtain ⟨i, B, O⟩ := b
  obtain ⟨i', B', O'⟩ := b'
  obtain ⟨j, A, P⟩ := a
  obtain ⟨h1, h2, h3⟩ := h
  dsimp only at h1 h2 h3
  dsimp only [Region.inter]
  rcases h3 with rfl | ⟨⟨s, rfl⟩, ⟨s', rfl⟩, h3⟩
  · split
    · exact ofSet (SameSet.sdiff (SameSet.inter (.refl _) h1) (SameSet.sdiff (.refl _) (SameSet.tail h1))) (Or.inl rfl)
    · split
      · exact ofSet (SameSet.inter (.refl _) h1) (Or.inl rfl)
      · exact ⟨SameSet.inter (.refl _) h1, SameSet.union (.refl _) h2, Or.inl rfl⟩
  · have hn : ∀ s, ¬(j = some Shape.lbs ∧ some (Shape.mk s true true) = some Shape.lbs) := by
      rintro s ⟨-, h⟩; cases h
    rw [if_neg (hn s), if_neg (hn s')]
    have hA : ∀ p, Visible p → p ∉ A ∩ B := fun p hp hq => (h3 p hp).1 hq.2
    have hA' : ∀ p, Visible p → p ∉ A ∩ B' := fun p hp hq => (h3 p hp).1 ((h1 p hp).mpr hq.2)
    have he : ∀ {S : Set (Spot T)}, (∀ p, Visible p → p ∉ S) → ∀ p, Visible p → p ∈ exterior S :=
      fun h p hp q hq => h q (hp.near hq)
    have hO : ∀ p, Visible p → p ∈ P ∪ O := fun p hp => Or.inr (h3 p hp).2
    have hO' : ∀ p, Visible p → p ∈ P ∪ O' := fun p hp => Or.inr ((h2 p hp).mp (h3 p hp).2)
    have hs : Shape.inter j (some ⟨s, true, true⟩) = Shape.inter j (some ⟨s', true, true⟩) ∨
        Bounded (Shape.inter j (some ⟨s, true, true⟩)) ∧ Bounded (Shape.inter j (some ⟨s', true, true⟩)) := by
      cases j with
      | none => exact Or.inl rfl
      | some k => exact Or.inr ⟨⟨k.set || s, by simp [Shape.inter]⟩, ⟨k.set || s', by simp [Shape.inter]⟩⟩
    have key : ∀ {k k' : Option Shape} {S S' Q Q' : Set (Spot T)}, (k = k' ∨ Bounded k ∧ Bounded k') →
        (∀ p, Visible p → p ∉ S) → (∀ p, Visible p → p ∉ S') → (∀ p, Visible p → p ∈ Q) → (∀ p, Visible p → p ∈ Q') →
        Region.Same ⟨k, S, Q⟩ ⟨k', S', Q'⟩ := fun h a b c d =>
      ⟨fun p hp => iff_of_false (a p hp) (b p hp), fun p hp => iff_of_true (c p hp) (d p hp),
        h.imp_right fun h => ⟨h.1, h.2, fun p hp => ⟨a p hp, c p hp⟩⟩⟩
    split <;> split
    · exact key hs hA hA' (he hA) (he hA')
    · exact key hs hA hA' (he hA) hO'
    · exact key hs hA hA' hO (he hA')
    · exact key hs hA hA' hO hO'

theorem inter (h : a.Same a') (k : b.Same b') : (a.inter b).Same (a'.inter b') :=
  (h.inter_left b).trans (k.inter_right a')

end Region.Same

/-! ### Contexts on regions -/

/-- A context as a function of regions. -/
def Ctx.region (r : Region T) : Ctx T → Region T
  | .hole => r
  | .leaf a => a.toInner.region
  | .toInner c => c.region r
  | .toSet c => (c.region r).toSet
  | .union c d => (c.region r).union (d.region r)
  | .inter c d => (c.region r).inter (d.region r)
  | .complement c => (c.region r).complement

theorem Ctx.fill_region (c : Ctx T) (a : Any T) : (c.fill (.leaf a)).region = c.region a.toInner.region := by
  induction c with
  | hole => rfl
  | leaf => rfl
  | toInner c ih => exact ih
  | toSet c ih => exact congrArg Region.toSet ih
  | complement c ih => exact congrArg Region.complement ih
  | union c d ih ih' => exact congrArg₂ Region.union ih ih'
  | inter c d ih ih' => exact congrArg₂ Region.inter ih ih'

theorem Ctx.region_same (c : Ctx T) {a b : Region T} (h : a.Same b) : (c.region a).Same (c.region b) := by
  induction c with
  | hole => exact h
  | leaf => exact .refl _
  | toInner c ih => exact ih
  | toSet c ih => exact ih.toSet
  | complement c ih => exact ih.complement
  | union c d ih ih' => exact ih.union ih'
  | inter c d ih ih' => exact ih.inter ih'

omit [LinearOrder T] in
theorem Ctx.fill_allLeaves (c : Ctx T) {P : Any T → Prop} {a : Any T} (h : c.AllLeaves P) (ha : P a) :
    (c.fill (.leaf a)).AllLeaves P := by
  induction c with
  | hole => exact ha
  | leaf => exact h
  | toInner c ih => exact ih h
  | toSet c ih => exact ih h
  | complement c ih => exact ih h
  | union c d ih ih' => exact ⟨ih h.1, ih' h.2⟩
  | inter c d ih ih' => exact ⟨ih h.1, ih' h.2⟩

end Rangetools
