import Mathlib.Order.Lattice
import Mathlib.Order.MinMax
import Mathlib.Data.Set.Basic
import Mathlib.Data.Set.Insert
import Mathlib.Order.BooleanAlgebra.Set

/-!
# Lists of intervals and their probes

An interval is a pair of points of a linear order.  A *probe* at `x` asks whether the set covers
the neighbourhood just after `x`, just before `x`, or both sides of `x` within a single piece.
-/

namespace Rangetools.Iv

variable {α : Type} [LinearOrder α]

/-- Which side of a point is asked about. -/
inductive Side
  | before
  | at
  | after
  deriving DecidableEq

/-- The probes answered "yes" by one interval. -/
def sem1 (p : α × α) : Set (α × Side) := fun q =>
  match q.2 with
  | .after => p.1 ≤ q.1 ∧ q.1 < p.2
  | .at => p.1 < q.1 ∧ q.1 < p.2
  | .before => p.1 < q.1 ∧ q.1 ≤ p.2

/-- The probes answered "yes" by some interval of a list. -/
def sem (L : List (α × α)) : Set (α × Side) := fun q => ∃ p ∈ L, q ∈ sem1 p

theorem mem_after {p : α × α} {x : α} : (x, Side.after) ∈ sem1 p ↔ p.1 ≤ x ∧ x < p.2 := Iff.rfl
theorem mem_at {p : α × α} {x : α} : (x, Side.at) ∈ sem1 p ↔ p.1 < x ∧ x < p.2 := Iff.rfl
theorem mem_before {p : α × α} {x : α} : (x, Side.before) ∈ sem1 p ↔ p.1 < x ∧ x ≤ p.2 := Iff.rfl

theorem mem_sem {L : List (α × α)} {q : α × Side} : q ∈ sem L ↔ ∃ p ∈ L, q ∈ sem1 p := Iff.rfl

@[simp] theorem sem_nil : sem ([] : List (α × α)) = ∅ := by
  ext q; simp [mem_sem]

@[simp] theorem sem_cons (p : α × α) (L : List (α × α)) : sem (p :: L) = sem1 p ∪ sem L := by
  ext q; simp [mem_sem, Set.mem_union]

@[simp] theorem sem_append (L M : List (α × α)) : sem (L ++ M) = sem L ∪ sem M := by
  ext q
  simp only [mem_sem, List.mem_append, Set.mem_union]
  constructor
  · rintro ⟨p, h | h, hq⟩
    · exact Or.inl ⟨p, h, hq⟩
    · exact Or.inr ⟨p, h, hq⟩
  · rintro (⟨p, h, hq⟩ | ⟨p, h, hq⟩)
    · exact ⟨p, Or.inl h, hq⟩
    · exact ⟨p, Or.inr h, hq⟩

theorem sem1_empty {p : α × α} (h : p.2 ≤ p.1) : sem1 p = ∅ := by
  ext ⟨x, s⟩
  rw [Set.mem_empty_iff_false, iff_false]
  cases s
  · rw [mem_before]; rintro ⟨h1, h2⟩; exact absurd (h1.trans_le h2) h.not_gt
  · rw [mem_at]; rintro ⟨h1, h2⟩; exact absurd (h1.trans h2) h.not_gt
  · rw [mem_after]; rintro ⟨h1, h2⟩; exact absurd (h1.trans_lt h2) h.not_gt

theorem sem1_inter (p q : α × α) : sem1 p ∩ sem1 q = sem1 (max p.1 q.1, min p.2 q.2) := by
  ext ⟨x, s⟩
  rw [Set.mem_inter_iff]
  cases s
  · simp only [mem_before, max_lt_iff, le_min_iff]; tauto
  · simp only [mem_at, max_lt_iff, lt_min_iff]; tauto
  · simp only [mem_after, max_le_iff, lt_min_iff]; tauto

theorem sem1_merge {p q : α × α} (h : max p.1 q.1 < min p.2 q.2) :
    sem1 p ∪ sem1 q = sem1 (min p.1 q.1, max p.2 q.2) := by
  obtain ⟨p1, p2⟩ := p
  obtain ⟨q1, q2⟩ := q
  simp only [max_lt_iff, lt_min_iff] at h
  obtain ⟨⟨h1, h3⟩, h2, h4⟩ := h
  ext ⟨x, s⟩
  rw [Set.mem_union]
  cases s
  · simp only [mem_before, min_lt_iff, le_max_iff]
    constructor
    · rintro (⟨ha, hb⟩ | ⟨ha, hb⟩) <;> tauto
    · rintro ⟨ha | ha, hb | hb⟩
      · exact Or.inl ⟨ha, hb⟩
      · rcases le_or_gt x p2 with h5 | h5
        · exact Or.inl ⟨ha, h5⟩
        · exact Or.inr ⟨h3.trans h5, hb⟩
      · rcases le_or_gt x q2 with h5 | h5
        · exact Or.inr ⟨ha, h5⟩
        · exact Or.inl ⟨h2.trans h5, hb⟩
      · exact Or.inr ⟨ha, hb⟩
  · simp only [mem_at, min_lt_iff, lt_max_iff]
    constructor
    · rintro (⟨ha, hb⟩ | ⟨ha, hb⟩) <;> tauto
    · rintro ⟨ha | ha, hb | hb⟩
      · exact Or.inl ⟨ha, hb⟩
      · rcases lt_or_ge x p2 with h5 | h5
        · exact Or.inl ⟨ha, h5⟩
        · exact Or.inr ⟨h3.trans_le h5, hb⟩
      · rcases lt_or_ge x q2 with h5 | h5
        · exact Or.inr ⟨ha, h5⟩
        · exact Or.inl ⟨h2.trans_le h5, hb⟩
      · exact Or.inr ⟨ha, hb⟩
  · simp only [mem_after, min_le_iff, lt_max_iff]
    constructor
    · rintro (⟨ha, hb⟩ | ⟨ha, hb⟩) <;> tauto
    · rintro ⟨ha | ha, hb | hb⟩
      · exact Or.inl ⟨ha, hb⟩
      · rcases lt_or_ge x p2 with h5 | h5
        · exact Or.inl ⟨ha, h5⟩
        · exact Or.inr ⟨(h3.trans_le h5).le, hb⟩
      · rcases lt_or_ge x q2 with h5 | h5
        · exact Or.inr ⟨ha, h5⟩
        · exact Or.inl ⟨(h2.trans_le h5).le, hb⟩
      · exact Or.inr ⟨ha, hb⟩

/-- Non-empty, increasing, non-overlapping pieces. -/
def Canon (L : List (α × α)) : Prop :=
  (∀ p ∈ L, p.1 < p.2) ∧ L.Pairwise (fun p q => p.2 ≤ q.1)

@[simp] theorem canon_nil : Canon ([] : List (α × α)) := ⟨by simp, List.Pairwise.nil⟩

theorem canon_singleton {p : α × α} : Canon [p] ↔ p.1 < p.2 := by
  simp [Canon]

theorem canon_cons {p : α × α} {L : List (α × α)} :
    Canon (p :: L) ↔ p.1 < p.2 ∧ (∀ q ∈ L, p.2 ≤ q.1) ∧ Canon L := by
  simp only [Canon, List.mem_cons, forall_eq_or_imp, List.pairwise_cons]
  tauto

theorem canon_append {L M : List (α × α)} :
    Canon (L ++ M) ↔ Canon L ∧ Canon M ∧ ∀ p ∈ L, ∀ q ∈ M, p.2 ≤ q.1 := by
  simp only [Canon, List.mem_append, List.pairwise_append]
  constructor
  · rintro ⟨h1, h2, h3, h4⟩
    exact ⟨⟨fun p hp => h1 p (Or.inl hp), h2⟩, ⟨fun p hp => h1 p (Or.inr hp), h3⟩, h4⟩
  · rintro ⟨⟨h1, h2⟩, ⟨h3, h4⟩, h5⟩
    exact ⟨fun p hp => hp.elim (h1 p) (h3 p), h2, h4, h5⟩

theorem Canon.sublist {L M : List (α × α)} (h : Canon M) (hs : L.Sublist M) : Canon L :=
  ⟨fun p hp => h.1 p (hs.subset hp), h.2.sublist hs⟩

/-- Pieces of a canonical list do not share probes. -/
theorem sem_disjoint_of_le {p : α × α} {L : List (α × α)} (h : ∀ q ∈ L, p.2 ≤ q.1) :
    ∀ q, q ∈ sem1 p → q ∉ sem L := by
  rintro ⟨x, s⟩ hp ⟨r, hr, hx⟩
  have hle := h r hr
  cases s
  · rw [mem_before] at hp hx
    exact absurd (hx.1.trans_le hp.2) hle.not_gt
  · rw [mem_at] at hp hx
    exact absurd (hx.1.trans hp.2) hle.not_gt
  · rw [mem_after] at hp hx
    exact absurd (hx.1.trans_lt hp.2) hle.not_gt

theorem start_le_of_canon {a : α × α} {L : List (α × α)} (h : Canon (a :: L)) {x : α}
    (hx : (x, Side.after) ∈ sem (a :: L)) : a.1 ≤ x := by
  obtain ⟨p, hp, hx⟩ := hx
  rw [mem_after] at hx
  rw [canon_cons] at h
  rcases List.mem_cons.mp hp with rfl | hp
  · exact hx.1
  · exact (h.1.le.trans (h.2.1 p hp)).trans hx.1

theorem end_le_of_canon {a b : α × α} {L M : List (α × α)} (ha : Canon (a :: L))
    (h1 : a.1 = b.1) (h : sem (b :: M) ⊆ sem (a :: L)) : b.2 ≤ a.2 := by
  by_contra hlt
  rw [not_le] at hlt
  rw [canon_cons] at ha
  have hx : (a.2, Side.at) ∈ sem (b :: M) :=
    ⟨b, List.mem_cons_self, (mem_at).mpr ⟨h1 ▸ ha.1, hlt⟩⟩
  obtain ⟨p, hp, hx⟩ := h hx
  rw [mem_at] at hx
  rcases List.mem_cons.mp hp with rfl | hp
  · exact lt_irrefl _ hx.2
  · exact absurd hx.1 (ha.2.1 p hp).not_gt

/-- A canonical list is determined by its probes. -/
theorem canon_unique : ∀ {L M : List (α × α)}, Canon L → Canon M → sem L = sem M → L = M
  | [], [], _, _, _ => rfl
  | [], b :: M, _, hM, h => by
      rw [canon_cons] at hM
      have : (b.1, Side.after) ∈ sem (b :: M) :=
        ⟨b, List.mem_cons_self, mem_after.mpr ⟨le_rfl, hM.1⟩⟩
      rw [← h] at this
      simp at this
  | a :: L, [], hL, _, h => by
      rw [canon_cons] at hL
      have : (a.1, Side.after) ∈ sem (a :: L) :=
        ⟨a, List.mem_cons_self, mem_after.mpr ⟨le_rfl, hL.1⟩⟩
      rw [h] at this
      simp at this
  | a :: L, b :: M, hL, hM, h => by
      have hL' := canon_cons.mp hL
      have hM' := canon_cons.mp hM
      have h1 : a.1 = b.1 := by
        apply le_antisymm
        · apply start_le_of_canon hL
          rw [h]
          exact ⟨b, List.mem_cons_self, mem_after.mpr ⟨le_rfl, hM'.1⟩⟩
        · apply start_le_of_canon hM
          rw [← h]
          exact ⟨a, List.mem_cons_self, mem_after.mpr ⟨le_rfl, hL'.1⟩⟩
      have h2 : a.2 = b.2 :=
        le_antisymm (end_le_of_canon hM h1.symm h.subset) (end_le_of_canon hL h1 h.symm.subset)
      have hab : a = b := Prod.ext h1 h2
      subst hab
      have htail : sem L = sem M := by
        ext q
        have hq : q ∈ sem (a :: L) ↔ q ∈ sem (a :: M) := by rw [h]
        rw [sem_cons, sem_cons, Set.mem_union, Set.mem_union] at hq
        have d1 := sem_disjoint_of_le hL'.2.1 q
        have d2 := sem_disjoint_of_le hM'.2.1 q
        constructor
        · intro hqL
          rcases hq.mp (Or.inr hqL) with hc | hc
          · exact absurd hqL (d1 hc)
          · exact hc
        · intro hqM
          rcases hq.mpr (Or.inr hqM) with hc | hc
          · exact absurd hqM (d2 hc)
          · exact hc
      rw [canon_unique hL'.2.2 hM'.2.2 htail]

theorem sem_eq_eraseIdx_union (L : List (α × α)) (i : Nat) (h : i < L.length) :
    sem L = sem (L.eraseIdx i) ∪ sem1 L[i] := by
  induction L generalizing i with
  | nil => simp at h
  | cons a L ih =>
    cases i with
    | zero => simp [Set.union_comm]
    | succ i =>
      simp only [List.eraseIdx_cons_succ, sem_cons, List.getElem_cons_succ]
      rw [ih i (by simpa using h), Set.union_assoc]

end Rangetools.Iv
