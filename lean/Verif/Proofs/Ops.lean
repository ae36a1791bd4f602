import Verif.Proofs.Sem

/-!
# Union, intersection and complement on interval lists
-/

namespace Rangetools
open Iv

variable {T : Type} [LinearOrder T]

/-! ### Clipping a bounded set -/

theorem clip_sem (s : BoundedSet T) (f : BoundedRange T → BoundedRange T) (c : ECut T × ECut T)
    (hf : ∀ r, sem1 (f r).iv = sem1 r.iv ∩ sem1 c) :
    sem (BoundedSet.retainNonEmpty ⟨s.ranges.map f⟩).ivs = sem s.ivs ∩ sem1 c := by
  rw [BoundedSet.retainNonEmpty_sem]
  ext q
  rw [Set.mem_inter_iff, BoundedSet.mem_sem_ivs, BoundedSet.mem_sem_ivs]
  simp only [List.mem_map, exists_exists_and_eq_and, hf, Set.mem_inter_iff]
  constructor
  · rintro ⟨r, hr, h1, h2⟩; exact ⟨⟨r, hr, h1⟩, h2⟩
  · rintro ⟨⟨r, hr, h1⟩, h2⟩; exact ⟨r, hr, h1, h2⟩

theorem clip_canon (s : BoundedSet T) (f : BoundedRange T → BoundedRange T)
    (h1 : ∀ r, lo r.start ≤ lo (f r).start) (h2 : ∀ r, hi (f r).stop ≤ hi r.stop)
    (h : Canon s.ivs) : Canon (BoundedSet.retainNonEmpty ⟨s.ranges.map f⟩).ivs := by
  constructor
  · intro p hp
    obtain ⟨r, hr, rfl⟩ := List.mem_map.mp hp
    have := (List.mem_filter.mp hr).2
    exact (BoundedRange.isEmpty_eq_false_iff r).mp (by simpa using this)
  · have h3 : ((s.ranges.map f).map BoundedRange.iv).Pairwise (fun p q => p.2 ≤ q.1) := by
      rw [List.map_map, List.pairwise_map]
      have := h.2
      rw [BoundedSet.ivs, List.pairwise_map] at this
      exact this.imp fun hpq => (h2 _).trans (hpq.trans (h1 _))
    exact h3.sublist (List.filter_sublist.map _)

theorem BoundedRange.sem1_interBR (a b : BoundedRange T) :
    sem1 (a.interBR b).iv = sem1 a.iv ∩ sem1 b.iv := by
  rw [sem1_inter]; simp [BoundedRange.interBR, BoundedRange.iv]

theorem BoundedRange.sem1_interLBR (a : BoundedRange T) (b : LowerBoundedRange T) :
    sem1 (a.interLBR b).iv = sem1 a.iv ∩ sem1 b.iv := by
  rw [sem1_inter]; simp [BoundedRange.interLBR, BoundedRange.iv, LowerBoundedRange.iv]

theorem BoundedRange.sem1_interUBR (a : BoundedRange T) (b : UpperBoundedRange T) :
    sem1 (a.interUBR b).iv = sem1 a.iv ∩ sem1 b.iv := by
  rw [sem1_inter]; simp [BoundedRange.interUBR, BoundedRange.iv, UpperBoundedRange.iv]

theorem LowerBoundedRange.sem1_interBR (a : LowerBoundedRange T) (b : BoundedRange T) :
    sem1 (a.interBR b).iv = sem1 a.iv ∩ sem1 b.iv := by
  rw [Set.inter_comm]; exact BoundedRange.sem1_interLBR b a

theorem LowerBoundedRange.sem1_interLBR (a b : LowerBoundedRange T) :
    sem1 (a.interLBR b).iv = sem1 a.iv ∩ sem1 b.iv := by
  rw [sem1_inter]; simp [LowerBoundedRange.interLBR, LowerBoundedRange.iv]

theorem LowerBoundedRange.sem1_interUBR (a : LowerBoundedRange T) (b : UpperBoundedRange T) :
    sem1 (a.interUBR b).iv = sem1 a.iv ∩ sem1 b.iv := by
  rw [sem1_inter]
  simp [LowerBoundedRange.interUBR, LowerBoundedRange.iv, BoundedRange.iv, UpperBoundedRange.iv]

theorem UpperBoundedRange.sem1_interBR (a : UpperBoundedRange T) (b : BoundedRange T) :
    sem1 (a.interBR b).iv = sem1 a.iv ∩ sem1 b.iv := by
  rw [Set.inter_comm]; exact BoundedRange.sem1_interUBR b a

theorem UpperBoundedRange.sem1_interLBR (a : UpperBoundedRange T) (b : LowerBoundedRange T) :
    sem1 (a.interLBR b).iv = sem1 a.iv ∩ sem1 b.iv := by
  rw [Set.inter_comm]; exact LowerBoundedRange.sem1_interUBR b a

theorem UpperBoundedRange.sem1_interUBR (a b : UpperBoundedRange T) :
    sem1 (a.interUBR b).iv = sem1 a.iv ∩ sem1 b.iv := by
  rw [sem1_inter]; simp [UpperBoundedRange.interUBR, UpperBoundedRange.iv]

theorem BoundedSet.interBR_sem (s : BoundedSet T) (r : BoundedRange T) :
    sem (s.interBR r).ivs = sem s.ivs ∩ sem1 r.iv :=
  clip_sem s _ _ fun a => BoundedRange.sem1_interBR a r

theorem BoundedSet.interLBR_sem (s : BoundedSet T) (r : LowerBoundedRange T) :
    sem (s.interLBR r).ivs = sem s.ivs ∩ sem1 r.iv :=
  clip_sem s _ _ fun a => BoundedRange.sem1_interLBR a r

theorem BoundedSet.interUBR_sem (s : BoundedSet T) (r : UpperBoundedRange T) :
    sem (s.interUBR r).ivs = sem s.ivs ∩ sem1 r.iv :=
  clip_sem s _ _ fun a => BoundedRange.sem1_interUBR a r

theorem BoundedSet.interBR_canon {s : BoundedSet T} (r : BoundedRange T) (h : Canon s.ivs) :
    Canon (s.interBR r).ivs :=
  clip_canon s _ (fun a => by simp [BoundedRange.interBR]) (fun a => by simp [BoundedRange.interBR])
    h

theorem BoundedSet.interLBR_canon {s : BoundedSet T} (r : LowerBoundedRange T) (h : Canon s.ivs) :
    Canon (s.interLBR r).ivs :=
  clip_canon s _ (fun a => by simp [BoundedRange.interLBR])
    (fun a => by simp [BoundedRange.interLBR]) h

theorem BoundedSet.interUBR_canon {s : BoundedSet T} (r : UpperBoundedRange T) (h : Canon s.ivs) :
    Canon (s.interUBR r).ivs :=
  clip_canon s _ (fun a => by simp [BoundedRange.interUBR])
    (fun a => by simp [BoundedRange.interUBR]) h

/-! ### Unions -/

/-- Proves an identity of finite unions and intersections by cases on the membership of a probe. -/
macro "probe_tauto" : tactic =>
  `(tactic| (ext q; simp only [Set.mem_union, Set.mem_inter_iff, sem_nil,
      Set.mem_empty_iff_false]; tauto))

theorem BoundedSet.unionBS_comp (a b : BoundedSet T) :
    Comp (a.unionBS b) (sem a.ivs ∪ sem b.ivs) (Canon a.ivs ∧ Canon b.ivs) :=
  (BoundedSet.addSet_comp a b).congr rfl And.left

theorem BoundedSet.unionLBS_comp (a : BoundedSet T) (b : LowerBoundedSet T) :
    Comp (a.unionLBS b) (sem a.ivs ∪ sem b.ivs) (Canon a.ivs ∧ Canon b.ivs) :=
  (LowerBoundedSet.addSet_comp b a).congr (Set.union_comm _ _) And.right

theorem BoundedSet.unionUBS_comp (a : BoundedSet T) (b : UpperBoundedSet T) :
    Comp (a.unionUBS b) (sem a.ivs ∪ sem b.ivs) (Canon a.ivs ∧ Canon b.ivs) :=
  (UpperBoundedSet.addSet_comp b a).congr (Set.union_comm _ _) And.right

theorem BoundedSet.unionUS_comp (a : BoundedSet T) (b : UnboundedSet T) :
    Comp (a.unionUS b) (sem a.ivs ∪ sem b.ivs) (Canon a.ivs ∧ Canon b.ivs) :=
  (UnboundedSet.addSet_comp b a).congr (Set.union_comm _ _) And.right

theorem LowerBoundedSet.unionBS_comp (a : LowerBoundedSet T) (b : BoundedSet T) :
    Comp (a.unionBS b) (sem a.ivs ∪ sem b.ivs) (Canon a.ivs) :=
  LowerBoundedSet.addSet_comp a b

theorem UpperBoundedSet.unionBS_comp (a : UpperBoundedSet T) (b : BoundedSet T) :
    Comp (a.unionBS b) (sem a.ivs ∪ sem b.ivs) (Canon a.ivs) :=
  UpperBoundedSet.addSet_comp a b

theorem UnboundedSet.unionBS_comp (a : UnboundedSet T) (b : BoundedSet T) :
    Comp (a.unionBS b) (sem a.ivs ∪ sem b.ivs) (Canon a.ivs) :=
  UnboundedSet.addSet_comp a b

theorem LowerBoundedSet.unionLBS_comp (a b : LowerBoundedSet T) :
    Comp (a.unionLBS b) (sem a.ivs ∪ sem b.ivs) (Canon a.ivs ∧ Canon b.ivs) := by
  refine Comp.bind (LowerBoundedSet.addLowerBoundedRange_comp a _) fun x _ hx hc => ?_
  refine (LowerBoundedSet.unionBS_comp x _).congr ?_ fun h => hc h.1
  have hx' : sem x.ivs = _ := hx
  rw [hx']; simp only [LowerBoundedSet.ivs, sem_append, sem_cons]
  probe_tauto

theorem UpperBoundedSet.unionUBS_comp (a b : UpperBoundedSet T) :
    Comp (a.unionUBS b) (sem a.ivs ∪ sem b.ivs) (Canon a.ivs ∧ Canon b.ivs) := by
  refine Comp.bind (UpperBoundedSet.addUpperBoundedRange_comp a _) fun x _ hx hc => ?_
  refine (UpperBoundedSet.unionBS_comp x _).congr ?_ fun h => hc h.1
  have hx' : sem x.ivs = _ := hx
  rw [hx']; simp only [UpperBoundedSet.ivs, sem_cons]
  probe_tauto

/-- The union of a lower and an upper bounded set is normalised whatever the operands are. -/
theorem LowerBoundedSet.unionUBS_comp (a : LowerBoundedSet T) (b : UpperBoundedSet T) :
    Comp (a.unionUBS b) (sem a.ivs ∪ sem b.ivs) True := by
  refine Comp.bind (UnboundedSet.unionBS_comp (UnboundedSet.new _ _) a.ranges) fun x _ hx hc => ?_
  refine (UnboundedSet.unionBS_comp x _).congr ?_ fun _ => hc (UnboundedSet.new_canon _ _)
  have hx' : sem x.ivs = _ := hx
  rw [hx', UnboundedSet.new_sem, UpperBoundedSet.ivs, LowerBoundedSet.ivs, sem_cons, sem_append,
    sem_cons]
  probe_tauto

theorem UpperBoundedSet.unionLBS_comp (a : UpperBoundedSet T) (b : LowerBoundedSet T) :
    Comp (a.unionLBS b) (sem a.ivs ∪ sem b.ivs) True :=
  (LowerBoundedSet.unionUBS_comp b a).congr (Set.union_comm _ _) id

theorem LowerBoundedSet.unionUS_comp (a : LowerBoundedSet T) (b : UnboundedSet T) :
    Comp (a.unionUS b) (sem a.ivs ∪ sem b.ivs) (Canon a.ivs ∧ Canon b.ivs) := by
  refine Comp.bind (UnboundedSet.addLowerBoundedRange_comp b _) fun x _ hx hc => ?_
  refine (UnboundedSet.unionBS_comp x _).congr ?_ fun h => hc h.2
  have hx' : sem x.ivs = _ := hx
  rw [hx', LowerBoundedSet.ivs, sem_append, sem_cons]
  probe_tauto

theorem UpperBoundedSet.unionUS_comp (a : UpperBoundedSet T) (b : UnboundedSet T) :
    Comp (a.unionUS b) (sem a.ivs ∪ sem b.ivs) (Canon a.ivs ∧ Canon b.ivs) := by
  refine Comp.bind (UnboundedSet.addUpperBoundedRange_comp b _) fun x _ hx hc => ?_
  refine (UnboundedSet.unionBS_comp x _).congr ?_ fun h => hc h.2
  have hx' : sem x.ivs = _ := hx
  rw [hx', UpperBoundedSet.ivs, sem_cons]
  probe_tauto

theorem UnboundedSet.unionLBS_comp (a : UnboundedSet T) (b : LowerBoundedSet T) :
    Comp (a.unionLBS b) (sem a.ivs ∪ sem b.ivs) (Canon a.ivs ∧ Canon b.ivs) :=
  (LowerBoundedSet.unionUS_comp b a).congr (Set.union_comm _ _) And.symm

theorem UnboundedSet.unionUBS_comp (a : UnboundedSet T) (b : UpperBoundedSet T) :
    Comp (a.unionUBS b) (sem a.ivs ∪ sem b.ivs) (Canon a.ivs ∧ Canon b.ivs) :=
  (UpperBoundedSet.unionUS_comp b a).congr (Set.union_comm _ _) And.symm

theorem UnboundedSet.unionUS_comp (a b : UnboundedSet T) :
    Comp (a.unionUS b) (sem a.ivs ∪ sem b.ivs) (Canon a.ivs ∧ Canon b.ivs) :=
  (UnboundedSet.addUnboundedSet_comp a b).congr rfl And.left

/-! ### Intersections -/

theorem BoundedSet.empty_sem : sem (BoundedSet.empty : BoundedSet T).ivs = ∅ := by
  simp [BoundedSet.empty, BoundedSet.ivs]

theorem BoundedSet.interBS_comp (a b : BoundedSet T) :
    Comp (a.interBS b) (sem a.ivs ∩ sem b.ivs) True := by
  refine (Comp.foldlM (g := fun r => sem1 r.iv ∩ sem b.ivs) (I := fun _ => True)
    (fun s r _ => ?_) a.ranges (fun _ _ => trivial) BoundedSet.empty).congr ?_ fun _ => canon_nil
  · refine (BoundedSet.addSet_comp s _).congr ?_ id
    rw [BoundedRange.interBS, BoundedSet.interBR_sem, Set.inter_comm]
    rfl
  · ext q
    have h : sem (HasIvs.ivs (BoundedSet.empty : BoundedSet T)) = ∅ := BoundedSet.empty_sem
    rw [h, Set.empty_union, Set.mem_inter_iff, BoundedSet.mem_sem_ivs (s := a)]
    show (∃ r ∈ a.ranges, q ∈ sem1 r.iv ∩ sem b.ivs) ↔ _
    simp only [Set.mem_inter_iff]
    constructor
    · rintro ⟨r, hr, h1, h2⟩; exact ⟨⟨r, hr, h1⟩, h2⟩
    · rintro ⟨⟨r, hr, h1⟩, h2⟩; exact ⟨r, hr, h1, h2⟩

theorem LowerBoundedSet.interBR_comp (a : LowerBoundedSet T) (b : BoundedRange T) :
    Comp (a.interBR b) (sem a.ivs ∩ sem1 b.iv) True := by
  refine (BoundedSet.addSet_comp _ _).congr ?_ fun _ => BoundedSet.ofBR_canon _
  rw [BoundedSet.ofBR_sem, BoundedSet.interBR_sem, LowerBoundedRange.sem1_interBR,
    LowerBoundedSet.ivs, sem_append, sem_cons]
  probe_tauto

theorem UpperBoundedSet.interBR_comp (a : UpperBoundedSet T) (b : BoundedRange T) :
    Comp (a.interBR b) (sem a.ivs ∩ sem1 b.iv) True := by
  refine (BoundedSet.addSet_comp _ _).congr ?_
    fun _ => BoundedSet.retainNonEmpty_canon (BoundedSet.ofBR_canon _)
  rw [BoundedSet.retainNonEmpty_sem, BoundedSet.ofBR_sem, BoundedSet.interBR_sem,
    UpperBoundedRange.sem1_interBR, UpperBoundedSet.ivs, sem_cons]
  probe_tauto

/-- The loop shared by `BoundedSet ∩ LowerBoundedSet` and `BoundedSet ∩ UpperBoundedSet`. -/
theorem interLoop_comp (a : BoundedSet T) (S : Set (ECut T × Side))
    (f : BoundedRange T → Res (BoundedSet T))
    (hf : ∀ r, Comp (f r) (S ∩ sem1 r.iv) True) (s0 : BoundedSet T)
    (h0 : sem s0.ivs ⊆ sem a.ivs ∩ S) :
    Comp (a.ranges.foldlM (fun set range => do set.addSet (← f range)) s0)
      (sem a.ivs ∩ S) (Canon s0.ivs) := by
  refine (Comp.foldlM (g := fun r => S ∩ sem1 r.iv) (I := fun _ => True)
    (fun s r _ => ?_) a.ranges (fun _ _ => trivial) s0).congr ?_ id
  · obtain ⟨x, hx1, hx2, -⟩ := hf r
    rw [hx1, Res.ok_bind]
    refine (BoundedSet.addSet_comp s x).congr ?_ id
    have hx' : sem x.ivs = _ := hx2
    rw [hx']
    rfl
  · ext q
    constructor
    · rintro (h | ⟨r, hr, h1, h2⟩)
      · exact h0 h
      · exact ⟨BoundedSet.mem_sem_ivs.mpr ⟨r, hr, h2⟩, h1⟩
    · rintro ⟨h1, h2⟩
      obtain ⟨r, hr, h3⟩ := BoundedSet.mem_sem_ivs.mp h1
      exact Or.inr ⟨r, hr, h2, h3⟩

theorem BoundedSet.interLBS_comp (a : BoundedSet T) (b : LowerBoundedSet T) :
    Comp (a.interLBS b) (sem a.ivs ∩ sem b.ivs) (Canon a.ivs) := by
  refine (interLoop_comp a (sem b.ivs) (fun r => r.interLBS b)
    (fun r => LowerBoundedSet.interBR_comp b r) (a.interLBR b.lowerBoundedRange) ?_).congr rfl
    (BoundedSet.interLBR_canon _)
  rw [BoundedSet.interLBR_sem]
  refine Set.inter_subset_inter_right _ ?_
  rw [LowerBoundedSet.ivs, sem_append, sem_cons]
  intro q hq
  exact Or.inr (Or.inl hq)

theorem BoundedSet.interUBS_comp (a : BoundedSet T) (b : UpperBoundedSet T) :
    Comp (a.interUBS b) (sem a.ivs ∩ sem b.ivs) (Canon a.ivs) := by
  refine (interLoop_comp a (sem b.ivs) (fun r => r.interUBS b)
    (fun r => UpperBoundedSet.interBR_comp b r) (a.interUBR b.upperBoundedRange) ?_).congr rfl
    (BoundedSet.interUBR_canon _)
  rw [BoundedSet.interUBR_sem]
  refine Set.inter_subset_inter_right _ ?_
  rw [UpperBoundedSet.ivs, sem_cons]
  intro q hq
  exact Or.inl hq

theorem LowerBoundedSet.interBS_comp (a : LowerBoundedSet T) (b : BoundedSet T) :
    Comp (a.interBS b) (sem a.ivs ∩ sem b.ivs) (Canon b.ivs) :=
  (BoundedSet.interLBS_comp b a).congr (Set.inter_comm _ _) id

theorem UpperBoundedSet.interBS_comp (a : UpperBoundedSet T) (b : BoundedSet T) :
    Comp (a.interBS b) (sem a.ivs ∩ sem b.ivs) (Canon b.ivs) :=
  (BoundedSet.interUBS_comp b a).congr (Set.inter_comm _ _) id

theorem LowerBoundedSet.interLBR_sem (a : LowerBoundedSet T) (b : LowerBoundedRange T) :
    sem (a.interLBR b).ivs = sem a.ivs ∩ sem1 b.iv := by
  rw [LowerBoundedSet.interLBR, LowerBoundedSet.ivs, LowerBoundedSet.ivs]
  simp only [sem_append, sem_cons, BoundedSet.interLBR_sem, LowerBoundedRange.sem1_interLBR]
  probe_tauto

theorem LowerBoundedSet.interLBR_canon {a : LowerBoundedSet T} (b : LowerBoundedRange T)
    (h : Canon a.ivs) : Canon (a.interLBR b).ivs := by
  obtain ⟨h1, h2, h3⟩ := canon_append.mp h
  refine canon_append.mpr ⟨BoundedSet.interLBR_canon b h1, canon_singleton.mpr (lo_lt_top _), ?_⟩
  intro p hp q hq
  rw [List.mem_singleton] at hq
  subst hq
  obtain ⟨r, hr, rfl⟩ := List.mem_map.mp hp
  obtain ⟨r', hr', rfl⟩ := List.mem_map.mp (List.mem_filter.mp hr).1
  have := h3 r'.iv (List.mem_map_of_mem hr') _ (List.mem_singleton.mpr rfl)
  simp only [BoundedRange.iv, LowerBoundedRange.iv] at this
  simp only [BoundedRange.iv, LowerBoundedRange.iv, BoundedRange.interLBR,
    LowerBoundedSet.interLBR, LowerBoundedRange.interLBR, lo_max]
  exact this.trans (le_max_left _ _)

/-- What `LowerBoundedSet ∩ LowerBoundedSet` really computes: the part of `a`'s half-line that meets
`b`'s bounded pieces is missing (intersection/lower_bounded_set.rs:47-61). -/
theorem LowerBoundedSet.interLBS_comp (a b : LowerBoundedSet T) :
    Comp (a.interLBS b)
      (sem a.ivs ∩ sem1 b.lowerBoundedRange.iv ∪ sem a.ranges.ivs ∩ sem b.ivs) (Canon a.ivs) := by
  obtain ⟨x, hx1, hx2, -⟩ := BoundedSet.interLBS_comp a.ranges b
  rw [LowerBoundedSet.interLBS]
  simp only [hx1, Res.ok_bind]
  refine (LowerBoundedSet.addSet_comp _ x).congr ?_ (LowerBoundedSet.interLBR_canon _)
  have hx' : sem x.ivs = _ := hx2
  rw [LowerBoundedSet.interLBR_sem, hx']

theorem LowerBoundedSet.interUBR_comp (a : LowerBoundedSet T) (b : UpperBoundedRange T) :
    Comp (a.interUBR b) (sem a.ivs ∩ sem1 b.iv) True := by
  rw [LowerBoundedSet.interUBR]
  refine Comp.bind (BoundedSet.addSet_comp _ _) fun x _ hx hc => ?_
  refine Comp.ok (C := True) ?_ fun _ => BoundedSet.retainNonEmpty_canon
    (hc (BoundedSet.retainNonEmpty_canon (BoundedSet.ofBR_canon _)))
  have hx' : sem x.ivs = _ := hx
  show sem x.retainNonEmpty.ivs = _
  rw [BoundedSet.retainNonEmpty_sem, hx', BoundedSet.retainNonEmpty_sem, BoundedSet.ofBR_sem,
    BoundedSet.interUBR_sem, LowerBoundedRange.sem1_interUBR, LowerBoundedSet.ivs, sem_append,
    sem_cons]
  probe_tauto

theorem LowerBoundedSet.interUBS_comp (a : LowerBoundedSet T) (b : UpperBoundedSet T) :
    Comp (a.interUBS b) (sem a.ivs ∩ sem b.ivs) True := by
  rw [LowerBoundedSet.interUBS]
  refine Comp.bind (LowerBoundedSet.interUBR_comp a b.upperBoundedRange) fun x _ hx hc => ?_
  obtain ⟨y, hy1, hy2, -⟩ := LowerBoundedSet.interBS_comp a b.ranges
  simp only [hy1, Res.ok_bind]
  refine Comp.bind (BoundedSet.addSet_comp _ _) fun z _ hz hc' => ?_
  refine Comp.ok (C := True) ?_ fun _ => BoundedSet.retainNonEmpty_canon
    (hc' (BoundedSet.retainNonEmpty_canon (hc trivial)))
  have hx' : sem x.ivs = _ := hx
  have hy' : sem y.ivs = _ := hy2
  have hz' : sem z.ivs = _ := hz
  show sem z.retainNonEmpty.ivs = _
  rw [BoundedSet.retainNonEmpty_sem, hz', BoundedSet.retainNonEmpty_sem, hx', hy',
    UpperBoundedSet.ivs, sem_cons]
  probe_tauto

theorem UpperBoundedSet.interLBR_comp (a : UpperBoundedSet T) (b : LowerBoundedRange T) :
    Comp (a.interLBR b) (sem a.ivs ∩ sem1 b.iv) True := by
  refine (BoundedSet.addSet_comp _ _).congr ?_
    fun _ => BoundedSet.retainNonEmpty_canon (BoundedSet.ofBR_canon _)
  rw [BoundedSet.retainNonEmpty_sem, BoundedSet.ofBR_sem, BoundedSet.interLBR_sem,
    UpperBoundedRange.sem1_interLBR, UpperBoundedSet.ivs, sem_cons]
  probe_tauto

theorem UpperBoundedSet.ofUBR_sem (r : UpperBoundedRange T) :
    sem (UpperBoundedSet.ofUBR r).ivs = sem1 r.iv := by
  simp [UpperBoundedSet.ofUBR, UpperBoundedSet.ivs, BoundedSet.empty, BoundedSet.ivs]

theorem LowerBoundedSet.ofLBR_sem (r : LowerBoundedRange T) :
    sem (LowerBoundedSet.ofLBR r).ivs = sem1 r.iv := by
  simp [LowerBoundedSet.ofLBR, LowerBoundedSet.ivs, BoundedSet.empty, BoundedSet.ivs]

theorem UpperBoundedSet.ofUBR_canon (r : UpperBoundedRange T) :
    Canon (UpperBoundedSet.ofUBR r).ivs := by
  simp [UpperBoundedSet.ofUBR, UpperBoundedSet.ivs, BoundedSet.empty, BoundedSet.ivs,
    canon_singleton, UpperBoundedRange.iv]

theorem LowerBoundedSet.ofLBR_canon (r : LowerBoundedRange T) :
    Canon (LowerBoundedSet.ofLBR r).ivs := by
  simp [LowerBoundedSet.ofLBR, LowerBoundedSet.ivs, BoundedSet.empty, BoundedSet.ivs,
    canon_singleton, LowerBoundedRange.iv]

theorem UpperBoundedSet.interUBR_comp (a : UpperBoundedSet T) (b : UpperBoundedRange T) :
    Comp (a.interUBR b) (sem a.ivs ∩ sem1 b.iv) True := by
  refine (UpperBoundedSet.addSet_comp _ _).congr ?_ fun _ => UpperBoundedSet.ofUBR_canon _
  rw [UpperBoundedSet.ofUBR_sem, BoundedSet.interUBR_sem, UpperBoundedRange.sem1_interUBR,
    UpperBoundedSet.ivs, sem_cons]
  probe_tauto

theorem UpperBoundedSet.interUBS_comp (a b : UpperBoundedSet T) :
    Comp (a.interUBS b) (sem a.ivs ∩ sem b.ivs) True := by
  rw [UpperBoundedSet.interUBS]
  refine Comp.bind (UpperBoundedSet.interUBR_comp a _) fun x _ hx hc => ?_
  obtain ⟨y, hy1, hy2, -⟩ := UpperBoundedSet.interBS_comp a b.ranges
  simp only [hy1, Res.ok_bind]
  refine (UpperBoundedSet.addSet_comp x y).congr ?_ hc
  have hx' : sem x.ivs = _ := hx
  have hy' : sem y.ivs = _ := hy2
  rw [hx', hy']; simp only [UpperBoundedSet.ivs, sem_cons]
  probe_tauto

theorem inter_full (L : List (ECut T × ECut T)) :
    sem L ∩ sem (UnboundedSet.ivs (.full : UnboundedSet T)) = sem L := by
  simp only [UnboundedSet.ivs, sem_cons, sem_nil, Set.union_empty]
  exact Set.inter_eq_left.mpr (sem_subset_full L)

theorem BoundedSet.interUS_comp (a : BoundedSet T) (b : UnboundedSet T) :
    Comp (a.interUS b) (sem a.ivs ∩ sem b.ivs) (Canon a.ivs) := by
  cases b with
  | full => exact Comp.ok (inter_full _).symm id
  | piecewise p =>
    simp only [BoundedSet.interUS]
    refine Comp.bind (BoundedSet.addSet_comp _ _) fun x _ hx hc => ?_
    obtain ⟨y, hy1, hy2, -⟩ := BoundedSet.interBS_comp a p.ranges
    simp only [hy1, Res.ok_bind]
    refine (BoundedSet.addSet_comp x y).congr ?_ fun h => hc (BoundedSet.interUBR_canon _ h)
    have hx' : sem x.ivs = _ := hx
    have hy' : sem y.ivs = _ := hy2
    rw [hx', hy', BoundedSet.interUBR_sem, BoundedSet.interLBR_sem, UnboundedSet.ivs,
      PiecewiseUnboundedSet.ivs, sem_cons, sem_append, sem_cons]
    probe_tauto

theorem LowerBoundedSet.interUS_comp (a : LowerBoundedSet T) (b : UnboundedSet T) :
    Comp (a.interUS b) (sem a.ivs ∩ sem b.ivs) (Canon a.ivs) := by
  cases b with
  | full => exact Comp.ok (inter_full _).symm id
  | piecewise p =>
    simp only [LowerBoundedSet.interUS]
    obtain ⟨z, hz1, hz2, -⟩ := LowerBoundedSet.interUBR_comp a p.upperBoundedRange
    simp only [hz1, Res.ok_bind]
    refine Comp.bind (LowerBoundedSet.addSet_comp _ _) fun x _ hx hc => ?_
    obtain ⟨y, hy1, hy2, -⟩ := LowerBoundedSet.interBS_comp a p.ranges
    simp only [hy1, Res.ok_bind]
    refine (LowerBoundedSet.addSet_comp x y).congr ?_
      fun h => hc (LowerBoundedSet.interLBR_canon _ h)
    have hx' : sem x.ivs = _ := hx
    have hy' : sem y.ivs = _ := hy2
    have hz' : sem z.ivs = _ := hz2
    rw [hx', hy', hz', LowerBoundedSet.interLBR_sem, UnboundedSet.ivs,
      PiecewiseUnboundedSet.ivs, sem_cons, sem_append, sem_cons]
    probe_tauto

theorem UpperBoundedSet.interUS_comp (a : UpperBoundedSet T) (b : UnboundedSet T) :
    Comp (a.interUS b) (sem a.ivs ∩ sem b.ivs) (Canon a.ivs) := by
  cases b with
  | full => exact Comp.ok (inter_full _).symm id
  | piecewise p =>
    simp only [UpperBoundedSet.interUS]
    refine Comp.bind (UpperBoundedSet.interUBR_comp a _) fun w _ hw hc => ?_
    obtain ⟨z, hz1, hz2, -⟩ := UpperBoundedSet.interLBR_comp a p.lowerBoundedRange
    simp only [hz1, Res.ok_bind]
    refine Comp.bind (UpperBoundedSet.addSet_comp _ _) fun x _ hx hc' => ?_
    obtain ⟨y, hy1, hy2, -⟩ := UpperBoundedSet.interBS_comp a p.ranges
    simp only [hy1, Res.ok_bind]
    refine (UpperBoundedSet.addSet_comp x y).congr ?_ fun h => hc' (hc trivial)
    have hw' : sem w.ivs = _ := hw
    have hx' : sem x.ivs = _ := hx
    have hy' : sem y.ivs = _ := hy2
    have hz' : sem z.ivs = _ := hz2
    rw [hx', hy', hz', hw', UnboundedSet.ivs,
      PiecewiseUnboundedSet.ivs, sem_cons, sem_append, sem_cons]
    probe_tauto

theorem UnboundedSet.interBR_comp (a : UnboundedSet T) (b : BoundedRange T) :
    Comp (a.interBR b) (sem a.ivs ∩ sem1 b.iv) True :=
  (BoundedSet.interUS_comp (BoundedSet.ofBR b) a).congr
    (by rw [BoundedSet.ofBR_sem, Set.inter_comm]) fun _ => BoundedSet.ofBR_canon _

theorem UnboundedSet.interBS_comp (a : UnboundedSet T) (b : BoundedSet T) :
    Comp (a.interBS b) (sem a.ivs ∩ sem b.ivs) (Canon b.ivs) :=
  (BoundedSet.interUS_comp b a).congr (Set.inter_comm _ _) id

theorem UnboundedSet.interLBR_comp (a : UnboundedSet T) (b : LowerBoundedRange T) :
    Comp (a.interLBR b) (sem a.ivs ∩ sem1 b.iv) True :=
  (LowerBoundedSet.interUS_comp (LowerBoundedSet.ofLBR b) a).congr
    (by rw [LowerBoundedSet.ofLBR_sem, Set.inter_comm]) fun _ => LowerBoundedSet.ofLBR_canon _

theorem UnboundedSet.interLBS_comp (a : UnboundedSet T) (b : LowerBoundedSet T) :
    Comp (a.interLBS b) (sem a.ivs ∩ sem b.ivs) (Canon b.ivs) :=
  (LowerBoundedSet.interUS_comp b a).congr (Set.inter_comm _ _) id

theorem UnboundedSet.interUBR_comp (a : UnboundedSet T) (b : UpperBoundedRange T) :
    Comp (a.interUBR b) (sem a.ivs ∩ sem1 b.iv) True :=
  (UpperBoundedSet.interUS_comp (UpperBoundedSet.ofUBR b) a).congr
    (by rw [UpperBoundedSet.ofUBR_sem, Set.inter_comm]) fun _ => UpperBoundedSet.ofUBR_canon _

theorem UnboundedSet.interUBS_comp (a : UnboundedSet T) (b : UpperBoundedSet T) :
    Comp (a.interUBS b) (sem a.ivs ∩ sem b.ivs) (Canon b.ivs) :=
  (UpperBoundedSet.interUS_comp b a).congr (Set.inter_comm _ _) id

theorem UnboundedSet.interUS_comp (a b : UnboundedSet T) :
    Comp (a.interUS b) (sem a.ivs ∩ sem b.ivs) (Canon a.ivs ∧ Canon b.ivs) := by
  cases a with
  | full =>
    simp only [UnboundedSet.interUS]
    exact Comp.ok (by rw [Set.inter_comm]; exact (inter_full _).symm) And.right
  | piecewise s =>
    cases b with
    | full => exact Comp.ok (inter_full _).symm And.left
    | piecewise p =>
      simp only [UnboundedSet.interUS]
      obtain ⟨x, hx1, hx2, -⟩ := UnboundedSet.interUBR_comp (.piecewise s) p.upperBoundedRange
      obtain ⟨y, hy1, hy2, -⟩ := UnboundedSet.interLBR_comp (.piecewise s) p.lowerBoundedRange
      obtain ⟨z, hz1, hz2, -⟩ := UnboundedSet.interBS_comp (.piecewise s) p.ranges
      obtain ⟨w, hw1, hw2, -⟩ := LowerBoundedSet.unionBS_comp y z
      simp only [hx1, hy1, hz1, hw1, Res.ok_bind]
      refine (UpperBoundedSet.unionLBS_comp x w).congr ?_ fun _ => trivial
      have hw' : sem w.ivs = _ := hw2
      have hx' : sem x.ivs = _ := hx2
      have hy' : sem y.ivs = _ := hy2
      have hz' : sem z.ivs = _ := hz2
      rw [hw', hx', hy', hz']
      simp only [UnboundedSet.ivs, PiecewiseUnboundedSet.ivs, sem_cons, sem_append]
      probe_tauto

/-! ### Complements -/

/-- The probes of the two half-lines outside an interval. -/
def csem1 (p : ECut T × ECut T) : Set (ECut T × Side) := sem1 (⊥, p.1) ∪ sem1 (p.2, ⊤)

theorem BoundedRange.complement_comp (r : BoundedRange T) :
    Comp r.complement (csem1 r.iv) True := by
  refine (UpperBoundedSet.unionLBS_comp _ _).congr ?_ id
  rw [UpperBoundedSet.ofUBR_sem, LowerBoundedSet.ofLBR_sem]
  simp [csem1, UpperBoundedRange.iv, LowerBoundedRange.iv, BoundedRange.iv]

omit [LinearOrder T] in
theorem LowerBoundedRange.complement_iv (r : LowerBoundedRange T) :
    r.complement.iv = (⊥, lo r.start) := by
  simp [LowerBoundedRange.complement, UpperBoundedRange.iv]

omit [LinearOrder T] in
theorem UpperBoundedRange.complement_iv (r : UpperBoundedRange T) :
    r.complement.iv = (hi r.stop, ⊤) := by
  simp [UpperBoundedRange.complement, LowerBoundedRange.iv]

/-- The probes of the complement of a list of intervals, piece by piece. -/
def csem (L : List (ECut T × ECut T)) : Set (ECut T × Side) :=
  {q | q ∈ sem1 ((⊥, ⊤) : ECut T × ECut T) ∧ ∀ p ∈ L, q ∈ csem1 p}

theorem csem_complement_loop {A : Type} [HasIvs A T] (inter : A → UnboundedSet T → Res A)
    (hinter : ∀ a u, Comp (inter a u) (sem (HasIvs.ivs a) ∩ sem u.ivs)
      (Canon (HasIvs.ivs a) ∧ Canon u.ivs))
    (l : List (BoundedRange T)) (a : A) :
    Comp (l.foldlM (fun acc range => do inter acc (← range.complement)) a)
      (sem (HasIvs.ivs a) ∩ {q | ∀ r ∈ l, q ∈ csem1 r.iv}) (Canon (HasIvs.ivs a)) := by
  refine Comp.foldlM_inter (g := fun r => csem1 r.iv) (I := fun _ => True)
    (fun s r _ => ?_) l (fun _ _ => trivial) a
  obtain ⟨x, hx1, hx2, hx3⟩ := BoundedRange.complement_comp r
  simp only [hx1, Res.ok_bind]
  refine (hinter s x).congr ?_ fun h => ⟨h, hx3 trivial⟩
  have hx' : sem x.ivs = _ := hx2
  rw [hx']

theorem BoundedSet.complement_comp (s : BoundedSet T) : Comp s.complement (csem s.ivs) True := by
  refine (csem_complement_loop UnboundedSet.interUS UnboundedSet.interUS_comp s.ranges .full).congr
    ?_ fun _ => by simp [HasIvs.ivs, UnboundedSet.ivs, canon_singleton]
  ext q
  simp [csem, HasIvs.ivs, UnboundedSet.ivs, BoundedSet.ivs]

theorem csem1_lbr (r : LowerBoundedRange T) : csem1 r.iv = sem1 (⊥, lo r.start) := by
  rw [csem1, LowerBoundedRange.iv, sem1_empty (p := (⊤, ⊤)) le_rfl, Set.union_empty]

theorem csem1_ubr (r : UpperBoundedRange T) : csem1 r.iv = sem1 (hi r.stop, ⊤) := by
  rw [csem1, UpperBoundedRange.iv, sem1_empty (p := (⊥, ⊥)) le_rfl, Set.empty_union]

theorem csem1_full : csem1 ((⊥, ⊤) : ECut T × ECut T) = ∅ := by
  rw [csem1, sem1_empty (p := (⊥, ⊥)) le_rfl, sem1_empty (p := (⊤, ⊤)) le_rfl, Set.union_empty]

theorem LowerBoundedSet.complement_comp (s : LowerBoundedSet T) :
    Comp s.complement (csem s.ivs) True := by
  refine (csem_complement_loop UpperBoundedSet.interUS
    (fun a u => (UpperBoundedSet.interUS_comp a u).congr rfl And.left) s.ranges.ranges _).congr
    ?_ fun _ => UpperBoundedSet.ofUBR_canon _
  have h : sem (HasIvs.ivs (UpperBoundedSet.ofUBR s.lowerBoundedRange.complement)) =
      csem1 s.lowerBoundedRange.iv := by
    rw [csem1_lbr, ← LowerBoundedRange.complement_iv]
    exact UpperBoundedSet.ofUBR_sem _
  rw [h]
  have hsub : csem1 s.lowerBoundedRange.iv ⊆ sem1 (⊥, ⊤) := by
    rw [csem1_lbr]; exact sem1_subset_full _
  ext q
  simp only [csem, LowerBoundedSet.ivs, BoundedSet.ivs, Set.mem_inter_iff, Set.mem_ofPred_eq,
    List.mem_append, List.mem_map, List.mem_singleton]
  constructor
  · rintro ⟨h1, h2⟩
    refine ⟨hsub h1, ?_⟩
    rintro p (⟨r, hr, rfl⟩ | rfl)
    · exact h2 r hr
    · exact h1
  · rintro ⟨_, h2⟩
    exact ⟨h2 _ (Or.inr rfl), fun r hr => h2 _ (Or.inl ⟨r, hr, rfl⟩)⟩

theorem UpperBoundedSet.complement_comp (s : UpperBoundedSet T) :
    Comp s.complement (csem s.ivs) True := by
  refine (csem_complement_loop LowerBoundedSet.interUS
    (fun a u => (LowerBoundedSet.interUS_comp a u).congr rfl And.left) s.ranges.ranges _).congr
    ?_ fun _ => LowerBoundedSet.ofLBR_canon _
  have h : sem (HasIvs.ivs (LowerBoundedSet.ofLBR s.upperBoundedRange.complement)) =
      csem1 s.upperBoundedRange.iv := by
    rw [csem1_ubr, ← UpperBoundedRange.complement_iv]
    exact LowerBoundedSet.ofLBR_sem _
  rw [h]
  have hsub : csem1 s.upperBoundedRange.iv ⊆ sem1 (⊥, ⊤) := by
    rw [csem1_ubr]; exact sem1_subset_full _
  ext q
  simp only [csem, UpperBoundedSet.ivs, BoundedSet.ivs, Set.mem_inter_iff, Set.mem_ofPred_eq,
    List.mem_cons, List.mem_map]
  constructor
  · rintro ⟨h1, h2⟩
    refine ⟨hsub h1, ?_⟩
    rintro p (rfl | ⟨r, hr, rfl⟩)
    · exact h1
    · exact h2 r hr
  · rintro ⟨_, h2⟩
    exact ⟨h2 _ (Or.inl rfl), fun r hr => h2 _ (Or.inr ⟨r, hr, rfl⟩)⟩

theorem UnboundedSet.complement_comp (s : UnboundedSet T) :
    Comp s.complement (csem s.ivs) True := by
  cases s with
  | full =>
    refine Comp.ok ?_ fun _ => canon_nil
    show sem (BoundedSet.empty : BoundedSet T).ivs = _
    rw [BoundedSet.empty_sem]
    ext q
    simp [csem, UnboundedSet.ivs, csem1_full]
  | piecewise p =>
    simp only [UnboundedSet.complement]
    refine (csem_complement_loop BoundedSet.interUS
      (fun a u => (BoundedSet.interUS_comp a u).congr rfl And.left) p.ranges.ranges _).congr
      ?_ fun _ => BoundedSet.ofBR_canon _
    have h : sem (HasIvs.ivs (BoundedSet.ofBR
        (p.lowerBoundedRange.complement.interLBR p.upperBoundedRange.complement))) =
        csem1 p.lowerBoundedRange.iv ∩ csem1 p.upperBoundedRange.iv := by
      rw [csem1_lbr, ← LowerBoundedRange.complement_iv, csem1_ubr,
        ← UpperBoundedRange.complement_iv, ← UpperBoundedRange.sem1_interLBR]
      exact BoundedSet.ofBR_sem _
    rw [h]
    have hsub : csem1 p.upperBoundedRange.iv ⊆ sem1 (⊥, ⊤) := by
      rw [csem1_ubr]; exact sem1_subset_full _
    ext q
    simp only [csem, UnboundedSet.ivs, PiecewiseUnboundedSet.ivs, BoundedSet.ivs,
      Set.mem_inter_iff, Set.mem_ofPred_eq, List.mem_cons, List.mem_append, List.mem_map,
      List.not_mem_nil, or_false]
    constructor
    · rintro ⟨⟨h1, h3⟩, h2⟩
      refine ⟨hsub h3, ?_⟩
      rintro p (rfl | ⟨r, hr, rfl⟩ | rfl)
      · exact h3
      · exact h2 r hr
      · exact h1
    · rintro ⟨_, h2⟩
      exact ⟨⟨h2 _ (Or.inr (Or.inr rfl)), h2 _ (Or.inl rfl)⟩,
        fun r hr => h2 _ (Or.inr (Or.inl ⟨r, hr, rfl⟩))⟩

end Rangetools
