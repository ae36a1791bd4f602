import Verif.Spec.Region
import Verif.Proofs.Laws

/-!
# Spots and probes

Every spot is a probe, and the spots a value covers are the probes it answers.
-/

namespace Rangetools
open Iv

variable {T : Type} [LinearOrder T]

omit [LinearOrder T] in
/-- The probe a spot stands for. -/
def probe (p : Spot T) : ECut T × Side :=
  match (ofLex p).2 with
  | 0 => (cut (ofLex p).1 false, .before)
  | 1 => (cut (ofLex p).1 false, .at)
  | 2 => (cut (ofLex p).1 false, .after)
  | 3 => (cut (ofLex p).1 true, .at)
  | 4 => (cut (ofLex p).1 true, .after)

/-- The two halves of `sem1`. -/
def Above (x : ECut T) (q : ECut T × Side) : Prop :=
  match q.2 with
  | .after => x ≤ q.1
  | _ => x < q.1

def Below (y : ECut T) (q : ECut T × Side) : Prop :=
  match q.2 with
  | .before => q.1 ≤ y
  | _ => q.1 < y

theorem mem_sem1_iff {p : ECut T × ECut T} {q : ECut T × Side} : q ∈ sem1 p ↔ Above p.1 q ∧ Below p.2 q := by
  rcases q with ⟨x, _ | _ | _⟩ <;> rfl

omit [LinearOrder T] in
theorem Spot.ind {P : Spot T → Prop} (h : ∀ a k, P (spot a k)) (p : Spot T) : P p := h (ofLex p).1 (ofLex p).2

theorem five (k : Fin 5) : k = 0 ∨ k = 1 ∨ k = 2 ∨ k = 3 ∨ k = 4 := by omega

theorem spot_lt {a b : T} {j k : Fin 5} : spot a j < spot b k ↔ a < b ∨ a = b ∧ j < k := by
  simp [spot, Prod.Lex.toLex_lt_toLex]

theorem spot_le {a b : T} {j k : Fin 5} : spot a j ≤ spot b k ↔ a < b ∨ a = b ∧ j ≤ k := by
  simp [spot, Prod.Lex.toLex_le_toLex]

omit [LinearOrder T] in
theorem spot_inj {a b : T} {j k : Fin 5} : spot a j = spot b k ↔ a = b ∧ j = k := by
  simp [spot]

theorem above_lo (b : LowerBound T) (p : Spot T) : Above (lo b) (probe p) ↔ b.spot < p := by
  induction p using Spot.ind with | _ a k
  rcases b with ⟨b | b⟩ <;> rcases five k with rfl | rfl | rfl | rfl | rfl <;>
    simp [Above, probe, spot, lo, LowerBound.spot, cut_lt, cut_le, Prod.Lex.toLex_lt_toLex]

theorem below_hi (b : UpperBound T) (p : Spot T) : Below (hi b) (probe p) ↔ p < b.spot := by
  induction p using Spot.ind with | _ a k
  rcases b with ⟨b | b⟩ <;> rcases five k with rfl | rfl | rfl | rfl | rfl <;>
    simp [Below, probe, spot, hi, UpperBound.spot, cut_lt, cut_le, Prod.Lex.toLex_lt_toLex]

/-- `hi` and `lo` are both cuts; the other two combinations. -/
theorem below_lo (b : LowerBound T) (p : Spot T) : Below (lo b) (probe p) ↔ p < b.spot := by
  induction p using Spot.ind with | _ a k
  rcases b with ⟨b | b⟩ <;> rcases five k with rfl | rfl | rfl | rfl | rfl <;>
    simp [Below, probe, spot, lo, LowerBound.spot, cut_lt, cut_le, Prod.Lex.toLex_lt_toLex]

theorem above_hi (b : UpperBound T) (p : Spot T) : Above (hi b) (probe p) ↔ b.spot < p := by
  induction p using Spot.ind with | _ a k
  rcases b with ⟨b | b⟩ <;> rcases five k with rfl | rfl | rfl | rfl | rfl <;>
    simp [Above, probe, spot, hi, UpperBound.spot, cut_lt, cut_le, Prod.Lex.toLex_lt_toLex]

theorem above_bot (p : Spot T) : Above ⊥ (probe p) := by
  induction p using Spot.ind with | _ a k
  rcases five k with rfl | rfl | rfl | rfl | rfl <;> simp [Above, probe, spot]

theorem below_top (p : Spot T) : Below ⊤ (probe p) := by
  induction p using Spot.ind with | _ a k
  rcases five k with rfl | rfl | rfl | rfl | rfl <;> simp [Below, probe, spot]

theorem BoundedRange.mem_spots (r : BoundedRange T) (p : Spot T) : p ∈ r.spots ↔ probe p ∈ sem1 r.iv := by
  rw [mem_sem1_iff, BoundedRange.iv, above_lo, below_hi]; rfl

theorem LowerBoundedRange.mem_spots (r : LowerBoundedRange T) (p : Spot T) :
    p ∈ r.spots ↔ probe p ∈ sem1 r.iv := by
  rw [mem_sem1_iff, LowerBoundedRange.iv, above_lo]
  exact ⟨fun h => ⟨h, below_top p⟩, And.left⟩

theorem UpperBoundedRange.mem_spots (r : UpperBoundedRange T) (p : Spot T) :
    p ∈ r.spots ↔ probe p ∈ sem1 r.iv := by
  rw [mem_sem1_iff, UpperBoundedRange.iv, below_hi]
  exact ⟨fun h => ⟨above_bot p, h⟩, And.right⟩

theorem BoundedSet.mem_spots (s : BoundedSet T) (p : Spot T) : p ∈ s.spots ↔ probe p ∈ sem s.ivs := by
  rw [BoundedSet.mem_sem_ivs]
  exact exists_congr fun r => and_congr_right fun _ => r.mem_spots p

theorem probe_full (p : Spot T) : probe p ∈ sem1 ((⊥, ⊤) : ECut T × ECut T) :=
  mem_sem1_iff.mpr ⟨above_bot p, below_top p⟩

/-- The spots a value covers are the probes it answers. -/
theorem Inner.mem_inside (i : Inner T) (p : Spot T) : p ∈ i.inside ↔ probe p ∈ sem i.ivs := by
  cases i with
  | br r => simpa [Inner.inside, Inner.ivs] using r.mem_spots p
  | bs s => exact s.mem_spots p
  | lbr r => simpa [Inner.inside, Inner.ivs] using r.mem_spots p
  | lbs s =>
    simp only [Inner.inside, Inner.ivs, LowerBoundedSet.ivs, sem_append, sem_cons, sem_nil, Set.union_empty,
      Set.mem_union, s.ranges.mem_spots, s.lowerBoundedRange.mem_spots]
  | ubr r => simpa [Inner.inside, Inner.ivs] using r.mem_spots p
  | ubs s =>
    simp only [Inner.inside, Inner.ivs, UpperBoundedSet.ivs, sem_cons,
      Set.mem_union, s.ranges.mem_spots, s.upperBoundedRange.mem_spots]
  | ur => simpa [Inner.inside, Inner.ivs] using probe_full p
  | us s =>
    cases s with
    | full => simpa [Inner.inside, Inner.ivs, UnboundedSet.ivs] using probe_full p
    | piecewise s =>
      simp only [Inner.inside, Inner.ivs, UnboundedSet.ivs, PiecewiseUnboundedSet.ivs, sem_append, sem_cons,
        sem_nil, Set.union_empty, Set.mem_union, s.ranges.mem_spots, s.lowerBoundedRange.mem_spots,
        s.upperBoundedRange.mem_spots, or_assoc]
  | er => simp [Inner.inside, Inner.ivs]

theorem mem_sem1_before_true {a : T} {p : ECut T × ECut T} :
    (cut a true, Side.before) ∈ sem1 p ↔ (cut a false, Side.after) ∈ sem1 p := by
  rw [mem_before, mem_after]
  obtain ⟨x, y⟩ := p
  have h : ∀ z : ECut T, z < cut a true ↔ z ≤ cut a false := by
    intro z
    rcases cases_ecut z with rfl | rfl | ⟨b, s, rfl⟩
    · simp
    · exact ⟨fun h => absurd h not_top_lt, fun h => absurd cut_lt_top h.not_gt⟩
    · cases s <;> simp [cut_lt, cut_le]
  refine and_congr (h x) ?_
  show cut a true ≤ y ↔ cut a false < y
  rw [← not_lt, h y, not_le]

/-- A cut covered is covered on both sides. -/
theorem mem_sem_sides {L : List (ECut T × ECut T)} {x : ECut T} (h : (x, Side.at) ∈ sem L) :
    (x, Side.before) ∈ sem L ∧ (x, Side.after) ∈ sem L := by
  obtain ⟨p, hp, h1, h2⟩ := h
  exact ⟨⟨p, hp, h1, h2.le⟩, ⟨p, hp, h1.le, h2⟩⟩

theorem mem_sem_before_true {L : List (ECut T × ECut T)} {a : T} :
    (cut a true, Side.before) ∈ sem L ↔ (cut a false, Side.after) ∈ sem L :=
  exists_congr fun _ => and_congr_right fun _ => mem_sem1_before_true

omit [LinearOrder T] in
theorem near_iff {a : T} {k : Fin 5} {P : Spot T → Prop} :
    (∀ q, Near (spot a k) q → P q) ↔ P (spot a k) ∧ (k = 1 → P (spot a 0) ∧ P (spot a 2)) ∧
      (k = 3 → P (spot a 2) ∧ P (spot a 4)) := by
  constructor
  · intro h
    exact ⟨h _ (Or.inl rfl), fun e => ⟨h _ (Or.inr ⟨rfl, Or.inl ⟨e, Or.inl rfl⟩⟩),
      h _ (Or.inr ⟨rfl, Or.inl ⟨e, Or.inr rfl⟩⟩)⟩, fun e => ⟨h _ (Or.inr ⟨rfl, Or.inr ⟨e, Or.inl rfl⟩⟩),
      h _ (Or.inr ⟨rfl, Or.inr ⟨e, Or.inr rfl⟩⟩)⟩⟩
  · rintro ⟨h0, h1, h2⟩ q
    induction q using Spot.ind with | _ b j
    rintro (h | ⟨e, ⟨h, rfl | rfl⟩ | ⟨h, rfl | rfl⟩⟩)
    · rwa [← h]
    · obtain rfl : a = b := e
      exact (h1 h).1
    · obtain rfl : a = b := e
      exact (h1 h).2
    · obtain rfl : a = b := e
      exact (h2 h).1
    · obtain rfl : a = b := e
      exact (h2 h).2

/-- The exterior in terms of probes. -/
theorem mem_exterior_iff {S : Set (Spot T)} {L : List (ECut T × ECut T)}
    (hS : ∀ p, p ∈ S ↔ probe p ∈ sem L) (p : Spot T) : p ∈ exterior S ↔ probe p ∈ csemOf (sem L) := by
  induction p using Spot.ind with | _ a k
  show (∀ q, _ → ¬ _) ↔ (_ ∧ _)
  rw [near_iff (P := fun q => q ∉ S)]
  rw [and_iff_right (probe_full _)]
  simp only [hS]
  rcases five k with rfl | rfl | rfl | rfl | rfl
  · simp [probe, spot]
  · simp only [probe, spot, ofLex_toLex]
    have := mem_sem_sides (L := L) (x := cut a false)
    simp
    tauto
  · simp [probe, spot]
  · simp only [probe, spot, ofLex_toLex]
    have := mem_sem_sides (L := L) (x := cut a true)
    rw [mem_sem_before_true] at this ⊢
    simp
    tauto
  · simp [probe, spot]

/-- The spots a complement covers are the probes the model's complement answers. -/
theorem Inner.mem_outside (i : Inner T) (hi : i.WF) (p : Spot T) : p ∈ i.outside ↔ probe p ∈ csem i.ivs := by
  have hset : ∀ (h : ∀ q ∈ i.ivs, q.1 < q.2), p ∈ exterior i.inside ↔ probe p ∈ csem i.ivs := fun h => by
    rw [csem_eq h]; exact mem_exterior_iff i.mem_inside p
  cases i with
  | br r =>
    simp only [Inner.ivs, csem_one, csem1, Set.mem_union, mem_sem1_iff, BoundedRange.iv, below_lo, above_hi,
      above_bot, below_top, true_and, and_true]
    rfl
  | bs s => exact hset hi.1
  | lbr r =>
    simp only [Inner.ivs, csem_one, csem1, Set.mem_union, mem_sem1_iff, LowerBoundedRange.iv, below_lo,
      above_bot, below_top, true_and, and_true]
    refine ⟨Or.inl, ?_⟩
    rintro (h | h)
    · exact h
    · exfalso
      revert h
      induction p using Spot.ind with | _ a k
      rcases five k with rfl | rfl | rfl | rfl | rfl <;> simp [Above, probe, spot, cut]
  | lbs s => exact hset hi.1
  | ubr r =>
    simp only [Inner.ivs, csem_one, csem1, Set.mem_union, mem_sem1_iff, UpperBoundedRange.iv, above_hi,
      above_bot, below_top, true_and, and_true]
    refine ⟨Or.inr, ?_⟩
    rintro (h | h)
    · exfalso
      revert h
      induction p using Spot.ind with | _ a k
      rcases five k with rfl | rfl | rfl | rfl | rfl <;> simp [Below, probe, spot, cut]
    · exact h
  | ubs s => exact hset hi.1
  | ur => exact hset (by simp [Inner.ivs])
  | us s => exact hset hi.1
  | er => exact hset (by simp [Inner.ivs])

theorem noOverlap_iff_spot (u : UpperBound T) (l : LowerBound T) : NoOverlap u l ↔ u.spot ≤ l.spot := by
  obtain ⟨u⟩ := u
  obtain ⟨l⟩ := l
  cases u <;> cases l <;>
    simp [NoOverlap, UpperBound.spot, LowerBound.spot, le_iff_lt_or_eq, spot_lt, spot_inj]

/-- In a normal `LowerBoundedSet` the half-line is the last stretch. -/
theorem tail_lbs {s : LowerBoundedSet T} (h : (Inner.lbs s).WF) :
    tail (Inner.lbs s).inside = s.lowerBoundedRange.spots := by
  ext p
  constructor
  · intro hp
    by_contra hn
    have hle : p ≤ s.lowerBoundedRange.start.spot := not_lt.mp hn
    rcases hp _ hle with h' | h'
    · obtain ⟨r, hr, h1, h2⟩ := h'
      have := ((Inner.normal_iff _).mpr h).2 r hr
      rw [noOverlap_iff_spot] at this
      exact absurd h2 this.not_gt
    · exact lt_irrefl s.lowerBoundedRange.start.spot h'
  · intro hp q hq
    exact Or.inr (lt_of_lt_of_le hp hq)

/-- The pieces of a normal `LowerBoundedSet` end before its half-line. -/
theorem lbs_disjoint {s : LowerBoundedSet T} (h : (Inner.lbs s).WF) (p : Spot T) (hp : p ∈ s.ranges.spots) :
    p ∉ s.lowerBoundedRange.spots := by
  obtain ⟨r, hr, _, h1⟩ := hp
  intro h2
  have := ((Inner.normal_iff _).mpr h).2 r hr
  rw [noOverlap_iff_spot] at this
  exact absurd (lt_trans h1 (lt_of_le_of_lt this h2)) (lt_irrefl p)

/-- Except for a `BoundedRange`, the complement covers the exterior. -/
theorem Inner.outside_eq {i : Inner T} (hi : i.WF) (hb : i.kind ≠ .br) : i.outside = exterior i.inside := by
  have h : ∀ q ∈ i.ivs, q.1 < q.2 := by
    cases i with
    | br r => exact absurd rfl hb
    | bs s => exact hi.1
    | lbs s => exact hi.1
    | ubs s => exact hi.1
    | us s => exact hi.1
    | lbr r => simp [Inner.ivs, LowerBoundedRange.iv]
    | ubr r => simp [Inner.ivs, UpperBoundedRange.iv]
    | ur => simp [Inner.ivs]
    | er => simp [Inner.ivs]
  ext p
  rw [i.mem_outside hi, csem_eq h, mem_exterior_iff i.mem_inside]

/-- The shape of a kind. -/
def Kind.shape : Kind → Option Shape
  | .br => some ⟨false, true, true⟩
  | .bs => some ⟨true, true, true⟩
  | .lbr => some ⟨false, true, false⟩
  | .lbs => some ⟨true, true, false⟩
  | .ubr => some ⟨false, false, true⟩
  | .ubs => some ⟨true, false, true⟩
  | .ur => some ⟨false, false, false⟩
  | .us => some ⟨true, false, false⟩
  | .er => none

omit [LinearOrder T] in
theorem Inner.shape_eq (i : Inner T) : i.shape = i.kind.shape := by cases i <;> rfl

theorem Kind.shape_inj {j k : Kind} (h : j.shape = k.shape) : j = k := by
  cases j <;> cases k <;> first | rfl | (exfalso; revert h; decide)

theorem Inner.region_ofSet {i : Inner T} {k : Option Shape} {S : Set (Spot T)} (hi : i.WF) (hb : i.kind ≠ .br)
    (hk : i.kind.shape = k) (hS : ∀ p, p ∈ S ↔ probe p ∈ sem i.ivs) : i.region = .ofSet k S := by
  have e : i.inside = S := by ext p; rw [i.mem_inside, hS]
  rw [Inner.region, Region.ofSet, i.shape_eq, hk, Inner.outside_eq hi hb, e]

theorem Inner.toSet_region (i : Inner T) (hi : i.WF) : i.toSet.toInner.region = i.region.toSet := by
  have hb : i.toSet.toInner.kind ≠ .br := by rw [Inner.toSet_kind]; cases i <;> simp [Inner.kind, setKind]
  have hS : ∀ p, p ∈ i.inside ↔ probe p ∈ sem i.toSet.toInner.ivs := fun p => by
    rw [i.mem_inside, Inner.toSet_sem]
  have := Inner.region_ofSet (Inner.toSet_WF hi) hb rfl hS
  cases i with
  | br r => exact this
  | bs s => exact this
  | lbr r => exact this
  | lbs s => exact this
  | ubr r => exact this
  | ubs s => exact this
  | ur => rfl
  | us s => rfl
  | er => rfl

omit [LinearOrder T] in
theorem Any.kind_ne_er {a : Any T} (h : a.isER = false) : a.toInner.kind ≠ .er := by
  cases a with
  | inner i => cases i <;> simp_all [Any.isER, Any.toInner, Inner.kind]
  | _ => simp [Any.toInner, Inner.kind]

omit [LinearOrder T] in
theorem Any.toInner_inner' (i : Inner T) : (Any.inner i).toInner = i := rfl

omit [LinearOrder T] in
theorem Region.union_eq {a b : Region T} {j k : Kind} (ha : a.shape = j.shape) (hb : b.shape = k.shape)
    (hj : j ≠ .er) (hk : k ≠ .er) :
    a.union b = .ofSet (unionKind (setKind j) (setKind k)).shape (a.inside ∪ b.inside) := by
  unfold Region.union
  rw [ha, hb]
  cases j <;> cases k <;> first | rfl | contradiction

theorem Any.union_region {a b c : Any T} (ha : a.toInner.WF) (hb : b.toInner.WF) (hc : a.union b = .ok c) :
    c.toInner.region = a.toInner.region.union b.toInner.region := by
  rcases Any.union_cases a b with ⟨h, hu⟩ | ⟨h, hu⟩ | ⟨ea, eb, d, hu, hd⟩
  · obtain rfl := Any.eq_of_isER h
    obtain rfl : c = b := by rw [hc] at hu; injection hu
    rfl
  · obtain rfl := Any.eq_of_isER h
    obtain rfl : c = a := by rw [hc] at hu; injection hu
    show _ = Region.union _ ⟨none, _, _⟩
    unfold Region.union
    split
    · next hs =>
      have : c.toInner.kind = .er := Kind.shape_inj (j := c.toInner.kind) (k := .er) (by rw [← Inner.shape_eq]; exact hs)
      have : c.toInner = .er := by revert this; cases c.toInner <;> simp [Inner.kind]
      rw [this]; rfl
    · rfl
    · simp_all
  · obtain rfl : c = .inner d.toInner := by rw [hc] at hu; injection hu
    obtain ⟨d', hd', h1, h2, h3⟩ := SetVal.union_comp a.toSet b.toSet
    obtain rfl : d = d' := by rw [hd] at hd'; injection hd'
    rw [Any.toSet_eq, Any.toSet_eq] at h1 h2 h3
    rw [Inner.toSet_sem, Inner.toSet_sem] at h1
    rw [Inner.toSet_kind, Inner.toSet_kind] at h3
    have hw := h2 (Inner.toSet_WF ha) (Inner.toSet_WF hb)
    have ka : a.toInner.kind ≠ .er := Any.kind_ne_er ea
    have kb : b.toInner.kind ≠ .er := Any.kind_ne_er eb
    rw [Region.union_eq a.toInner.shape_eq b.toInner.shape_eq ka kb]
    refine Inner.region_ofSet hw ?_ (by rw [Any.toInner_inner', h3]) fun p => ?_
    · rw [Any.toInner_inner', h3]
      revert ka kb
      cases a.toInner.kind <;> cases b.toInner.kind <;> simp [unionKind, setKind]
    · rw [Any.toInner_inner', h1]
      exact or_congr (a.toInner.mem_inside p) (b.toInner.mem_inside p)

theorem Any.complement_region {a : Any T} {c : Inner T} (ha : a.toInner.WF) (hc : a.complement = .ok c) :
    c.region = a.toInner.region.complement := by
  obtain ⟨c', hc', hs, hw, hk⟩ := Any.complement_comp a
  obtain rfl : c = c' := by rw [hc] at hc'; injection hc'
  have : a.toInner.region.complement =
      .ofSet (Shape.complement a.toInner.shape) a.toInner.outside := rfl
  rw [this]
  refine Inner.region_ofSet (hw trivial) ?_ ?_ fun p => ?_
  · rw [hk]; cases a.toInner <;> simp [Inner.kind, complKind]
  · rw [hk]; cases a.toInner <;> rfl
  · rw [hs, a.toInner.mem_outside ha]

theorem Region.inter_set {a b : Region T} {j k : Kind} (ha : a.shape = j.shape) (hb : b.shape = k.shape)
    (h1 : j.isSet = true ∨ k.isSet = true) (h2 : ¬ (j = .lbs ∧ k = .lbs)) :
    a.inter b = .ofSet (interKind j k).shape (a.inside ∩ b.inside) := by
  unfold Region.inter
  rw [ha, hb]
  cases j <;> cases k <;> first | rfl | (simp at h2; done) | simp [Kind.isSet] at h1

theorem LowerBound.max_spot_lt (a b : LowerBound T) (p : Spot T) :
    (a.max b).spot < p ↔ a.spot < p ∧ b.spot < p := by
  rw [← above_lo, ← above_lo, ← above_lo, lo_max]
  rcases probe p with ⟨x, _ | _ | _⟩ <;> simp [Above]

theorem LowerBound.lt_max_spot (a b : LowerBound T) (p : Spot T) :
    p < (a.max b).spot ↔ p < a.spot ∨ p < b.spot := by
  rw [← below_lo, ← below_lo, ← below_lo, lo_max]
  rcases probe p with ⟨x, _ | _ | _⟩ <;> simp [Below]

theorem UpperBound.lt_min_spot (a b : UpperBound T) (p : Spot T) :
    p < (a.min b).spot ↔ p < a.spot ∧ p < b.spot := by
  rw [← below_hi, ← below_hi, ← below_hi, hi_min]
  rcases probe p with ⟨x, _ | _ | _⟩ <;> simp [Below]

theorem UpperBound.min_spot_lt (a b : UpperBound T) (p : Spot T) :
    (a.min b).spot < p ↔ a.spot < p ∨ b.spot < p := by
  rw [← above_hi, ← above_hi, ← above_hi, hi_min]
  rcases probe p with ⟨x, _ | _ | _⟩ <;> simp [Above]

omit [LinearOrder T] in
theorem exterior_empty : exterior (∅ : Set (Spot T)) = Set.univ := by
  ext p
  exact ⟨fun _ => trivial, fun _ q _ => id⟩

omit [LinearOrder T] in
theorem exterior_univ : exterior (Set.univ : Set (Spot T)) = ∅ := by
  ext p
  rw [Set.mem_empty_iff_false, iff_false]
  exact fun h => h p (Or.inl rfl) trivial

theorem mem_outside_br {r : BoundedRange T} {p : Spot T} :
    p ∈ (Inner.br r).outside ↔ p < r.start.spot ∨ r.stop.spot < p := Iff.rfl
theorem mem_outside_lbr {r : LowerBoundedRange T} {p : Spot T} :
    p ∈ (Inner.lbr r).outside ↔ p < r.start.spot := Iff.rfl
theorem mem_outside_ubr {r : UpperBoundedRange T} {p : Spot T} :
    p ∈ (Inner.ubr r).outside ↔ r.stop.spot < p := Iff.rfl
theorem outside_ur : (Inner.ur : Inner T).outside = ∅ := exterior_univ
theorem outside_er : (Inner.er : Inner T).outside = Set.univ := exterior_empty
theorem mem_inside_br {r : BoundedRange T} {p : Spot T} :
    p ∈ (Inner.br r).inside ↔ r.start.spot < p ∧ p < r.stop.spot := Iff.rfl
theorem mem_inside_lbr {r : LowerBoundedRange T} {p : Spot T} :
    p ∈ (Inner.lbr r).inside ↔ r.start.spot < p := Iff.rfl
theorem mem_inside_ubr {r : UpperBoundedRange T} {p : Spot T} :
    p ∈ (Inner.ubr r).inside ↔ p < r.stop.spot := Iff.rfl
theorem inside_ur : (Inner.ur : Inner T).inside = Set.univ := rfl
theorem inside_er : (Inner.er : Inner T).inside = ∅ := rfl

omit [LinearOrder T] in
theorem Region.ext' {a b : Region T} (h1 : a.shape = b.shape) (h2 : ∀ p, p ∈ a.inside ↔ p ∈ b.inside)
    (h3 : ∀ p, p ∈ a.outside ↔ p ∈ b.outside) : a = b := by
  obtain ⟨_, _, _⟩ := a
  obtain ⟨_, _, _⟩ := b
  simp only [Region.mk.injEq]
  exact ⟨h1, Set.ext h2, Set.ext h3⟩

theorem Region.inter_range {a b : Region T} {j k : Kind} (ha : a.shape = j.shape) (hb : b.shape = k.shape)
    (h1 : j.isSet = false) (h2 : k.isSet = false) :
    a.inter b = ⟨(interKind j k).shape, a.inside ∩ b.inside, a.outside ∪ b.outside⟩ := by
  unfold Region.inter
  rw [ha, hb]
  cases j <;> cases k <;> first | rfl | (simp [Kind.isSet] at h1; done) | simp [Kind.isSet] at h2

/-- Intersection of two values neither of which is a set. -/
theorem Inner.inter_region_range {a b c : Inner T} (ha : a.kind.isSet = false) (hb : b.kind.isSet = false)
    (hc : a.inter b = .ok c) : c.region = a.region.inter b.region := by
  rw [Region.inter_range a.shape_eq b.shape_eq ha hb]
  cases a <;> cases b <;> first
    | (simp [Inner.kind, Kind.isSet] at ha; done)
    | (simp [Inner.kind, Kind.isSet] at hb; done)
    | skip
  all_goals
    simp only [Inner.inter, Res.ok.injEq] at hc
    subst hc
    refine Region.ext' rfl (fun p => ?_) fun p => ?_
  all_goals
    simp only [Inner.region, Set.mem_inter_iff, Set.mem_union, mem_outside_br, mem_outside_lbr,
      mem_outside_ubr, outside_ur, outside_er, mem_inside_br, mem_inside_lbr, mem_inside_ubr, inside_ur,
      inside_er, Set.mem_univ, Set.mem_empty_iff_false, BoundedRange.interBR, BoundedRange.interLBR,
      BoundedRange.interUBR, LowerBoundedRange.interBR, LowerBoundedRange.interLBR,
      LowerBoundedRange.interUBR, UpperBoundedRange.interBR, UpperBoundedRange.interLBR,
      UpperBoundedRange.interUBR, LowerBound.max_spot_lt, LowerBound.lt_max_spot, UpperBound.lt_min_spot,
      UpperBound.min_spot_lt]
    try tauto

theorem Any.inter_region {a b : Any T} {c : Inner T} (ha : a.toInner.WF) (hb : b.toInner.WF)
    (hc : a.inter b = .ok c) : c.region = a.toInner.region.inter b.toInner.region := by
  rw [Any.inter_eq hb] at hc
  generalize a.toInner = a at ha hc ⊢
  generalize b.toInner = b at hb hc ⊢
  obtain ⟨c', hc', hs, hw, hk⟩ := Inner.inter_comp a b
  obtain rfl : c = c' := by rw [hc] at hc'; injection hc'
  by_cases hl : a.kind = .lbs ∧ b.kind = .lbs
  · obtain ⟨ka, kb⟩ := hl
    cases a <;> simp [Inner.kind] at ka
    cases b <;> simp [Inner.kind] at kb
    next a b =>
    have e : (Inner.lbs a).region.inter (Inner.lbs b).region = .ofSet (some Shape.lbs)
      (((Inner.lbs a).inside ∩ (Inner.lbs b).inside) \
        (tail (Inner.lbs a).inside \ tail (Inner.lbs b).inside)) := if_pos ⟨rfl, rfl⟩
    rw [e, tail_lbs ha, tail_lbs hb]
    refine Inner.region_ofSet (hw ⟨ha, hb⟩) (by rw [hk]; simp [interKind, Inner.kind]) (by rw [hk]; rfl)
      fun p => ?_
    have ea : p ∈ (Inner.lbs a).inside ↔ p ∈ a.ranges.spots ∨ p ∈ a.lowerBoundedRange.spots := Iff.rfl
    have eb : p ∈ (Inner.lbs b).inside ↔ p ∈ b.ranges.spots ∨ p ∈ b.lowerBoundedRange.spots := Iff.rfl
    have ea' := (Inner.lbs a).mem_inside p
    have eb' := (Inner.lbs b).mem_inside p
    rw [hs]
    show _ ↔ probe p ∈ sem (Inner.lbs a).ivs ∩ sem1 b.lowerBoundedRange.iv ∪ sem a.ranges.ivs ∩ sem (Inner.lbs b).ivs
    rw [Set.mem_union, Set.mem_inter_iff, Set.mem_inter_iff, ← ea', ← eb', ← BoundedSet.mem_spots,
      ← LowerBoundedRange.mem_spots, Set.mem_sdiff, Set.mem_sdiff, Set.mem_inter_iff, ea, eb]
    have hd := lbs_disjoint ha p
    tauto
  · by_cases hset : a.kind.isSet = true ∨ b.kind.isSet = true
    · rw [Region.inter_set a.shape_eq b.shape_eq hset hl]
      refine Inner.region_ofSet (hw ⟨ha, hb⟩) ?_ (by rw [hk]) fun p => ?_
      · rw [hk]
        revert hset
        cases a.kind <;> cases b.kind <;> simp [Kind.isSet, interKind]
      · rw [hs, interSem_eq hl]
        exact and_congr (a.mem_inside p) (b.mem_inside p)
    · rw [not_or, Bool.not_eq_true, Bool.not_eq_true] at hset
      exact Inner.inter_region_range hset.1 hset.2 hc

theorem Inner.canon_of_ne_br {i : Inner T} (hi : i.WF) (hb : i.kind ≠ .br) : Canon i.ivs := by
  cases i with
  | br r => exact absurd rfl hb
  | bs s => exact hi
  | lbs s => exact hi
  | ubs s => exact hi
  | us s => exact hi
  | lbr r => exact canon_singleton.mpr (by simp [LowerBoundedRange.iv])
  | ubr r => exact canon_singleton.mpr (by simp [UpperBoundedRange.iv])
  | ur => exact canon_singleton.mpr (by simp)
  | er => exact canon_nil

theorem Inner.mem_bot_after (i : Inner T) : ((⊥ : ECut T), Side.after) ∈ sem i.ivs ↔
    i.kind = .ubr ∨ i.kind = .ubs ∨ i.kind = .ur ∨ i.kind = .us := by
  have hbs : ∀ s : BoundedSet T, ((⊥ : ECut T), Side.after) ∉ sem s.ivs := by
    intro s h
    rw [BoundedSet.mem_sem_ivs] at h
    obtain ⟨r, _, h1, _⟩ := h
    exact absurd h1 (bot_lt_lo r.start).not_ge
  cases i with
  | br r => simpa [Inner.ivs, Inner.kind, mem_after, BoundedRange.iv] using (bot_lt_lo r.start).ne'
  | bs s => simpa [Inner.ivs, Inner.kind] using hbs s
  | lbr r => simpa [Inner.ivs, Inner.kind, mem_after, LowerBoundedRange.iv] using (bot_lt_lo r.start).ne'
  | lbs s =>
    simpa [Inner.ivs, Inner.kind, LowerBoundedSet.ivs, mem_after, LowerBoundedRange.iv] using
      ⟨hbs s.ranges, (bot_lt_lo s.lowerBoundedRange.start).ne'⟩
  | ubr r => simp [Inner.ivs, Inner.kind, mem_after, UpperBoundedRange.iv]
  | ubs s => simp [Inner.ivs, Inner.kind, UpperBoundedSet.ivs, mem_after, UpperBoundedRange.iv]
  | ur => simp [Inner.ivs, Inner.kind, mem_after]
  | us s => cases s <;> simp [Inner.ivs, Inner.kind, UnboundedSet.ivs, PiecewiseUnboundedSet.ivs, mem_after, UpperBoundedRange.iv]
  | er => simp [Inner.ivs, Inner.kind]

theorem Inner.mem_top_before (i : Inner T) : ((⊤ : ECut T), Side.before) ∈ sem i.ivs ↔
    i.kind = .lbr ∨ i.kind = .lbs ∨ i.kind = .ur ∨ i.kind = .us := by
  have hbs : ∀ s : BoundedSet T, ((⊤ : ECut T), Side.before) ∉ sem s.ivs := by
    intro s h
    rw [BoundedSet.mem_sem_ivs] at h
    obtain ⟨r, _, _, h1⟩ := h
    exact absurd h1 (hi_lt_top r.stop).not_ge
  cases i with
  | br r => simpa [Inner.ivs, Inner.kind, mem_before, BoundedRange.iv] using (hi_lt_top r.stop).ne
  | bs s => simpa [Inner.ivs, Inner.kind] using hbs s
  | lbr r => simp [Inner.ivs, Inner.kind, mem_before, LowerBoundedRange.iv]
  | lbs s => simp [Inner.ivs, Inner.kind, LowerBoundedSet.ivs, mem_before, LowerBoundedRange.iv]
  | ubr r => simpa [Inner.ivs, Inner.kind, mem_before, UpperBoundedRange.iv] using (hi_lt_top r.stop).ne
  | ubs s =>
    simpa [Inner.ivs, Inner.kind, UpperBoundedSet.ivs, mem_before, UpperBoundedRange.iv] using
      ⟨(hi_lt_top s.upperBoundedRange.stop).ne, hbs s.ranges⟩
  | ur => simp [Inner.ivs, Inner.kind, mem_before]
  | us s => cases s <;> simp [Inner.ivs, Inner.kind, UnboundedSet.ivs, PiecewiseUnboundedSet.ivs, mem_before, LowerBoundedRange.iv]
  | er => simp [Inner.ivs, Inner.kind]

/-- The spots and the type determine the probes. -/
theorem Inner.sem_of_inside {a b : Inner T} (hk : a.kind = b.kind) (h : a.inside = b.inside) :
    sem a.ivs = sem b.ivs := by
  have hp : ∀ p, probe p ∈ sem a.ivs ↔ probe p ∈ sem b.ivs := fun p => by
    rw [← a.mem_inside, ← b.mem_inside, h]
  have key : ∀ (x y : Inner T), x.kind = y.kind → (∀ p, probe p ∈ sem x.ivs ↔ probe p ∈ sem y.ivs) →
      ∀ q, q ∈ sem x.ivs → q ∈ sem y.ivs := by
    rintro x y hk hp ⟨z, s⟩ hq
    rcases cases_ecut z with rfl | rfl | ⟨a, c, rfl⟩
    · cases s with
      | after => rw [Inner.mem_bot_after] at hq ⊢; rwa [← hk]
      | «at» => obtain ⟨p, _, h1, _⟩ := hq; exact absurd h1 not_lt_bot
      | before => obtain ⟨p, _, h1, _⟩ := hq; exact absurd h1 not_lt_bot
    · cases s with
      | after => obtain ⟨p, _, _, h1⟩ := hq; exact absurd h1 not_top_lt
      | «at» => obtain ⟨p, _, _, h1⟩ := hq; exact absurd h1 not_top_lt
      | before => rw [Inner.mem_top_before] at hq ⊢; rwa [← hk]
    · cases c <;> cases s
      · exact (hp (spot a 0)).mp hq
      · exact (hp (spot a 1)).mp hq
      · exact (hp (spot a 2)).mp hq
      · rw [mem_sem_before_true] at hq ⊢
        exact (hp (spot a 2)).mp hq
      · exact (hp (spot a 3)).mp hq
      · exact (hp (spot a 4)).mp hq
  ext q
  exact ⟨key a b hk hp q, key b a hk.symm (fun p => (hp p).symm) q⟩

/-- Normal values of the same region are equal, `BoundedRange`s apart. -/
theorem Inner.eq_of_region {a b : Inner T} (ha : a.WF) (hb : b.WF) (hn : a.kind ≠ .br)
    (h : a.region = b.region) : a = b := by
  simp only [Inner.region, Region.mk.injEq] at h
  have hk : a.kind = b.kind := Kind.shape_inj (by rw [← a.shape_eq, ← b.shape_eq, h.1])
  exact Inner.ivs_inj hk (canon_unique (Inner.canon_of_ne_br ha hn) (Inner.canon_of_ne_br hb (hk ▸ hn))
    (Inner.sem_of_inside hk h.2.1))

end Rangetools
