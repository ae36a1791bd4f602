import Verif.Proofs.Ops

/-!
# The public operations on interval lists, for all type combinations
-/

namespace Rangetools
open Iv

variable {T : Type} [LinearOrder T]

/-- Interval list of a value of one of the nine crate types. -/
def Inner.ivs : Inner T → List (ECut T × ECut T)
  | .br r => [r.iv]
  | .bs s => s.ivs
  | .lbr r => [r.iv]
  | .lbs s => s.ivs
  | .ubr r => [r.iv]
  | .ubs s => s.ivs
  | .ur => [(⊥, ⊤)]
  | .us s => s.ivs
  | .er => []

/-- The type of an `Inner` value. -/
inductive Kind
  | br | bs | lbr | lbs | ubr | ubs | ur | us | er
  deriving DecidableEq, Repr

omit [LinearOrder T] in
/-- The type of an `Inner` value. -/
def Inner.kind : Inner T → Kind
  | .br _ => .br
  | .bs _ => .bs
  | .lbr _ => .lbr
  | .lbs _ => .lbs
  | .ubr _ => .ubr
  | .ubs _ => .ubs
  | .ur => .ur
  | .us _ => .us
  | .er => .er

/-- The private invariant on interval lists: sets are canonical, ranges are unrestricted. -/
def Inner.WF : Inner T → Prop
  | .bs s => Canon s.ivs
  | .lbs s => Canon s.ivs
  | .ubs s => Canon s.ivs
  | .us s => Canon s.ivs
  | _ => True

/-! ### Membership -/

theorem BoundedRange.contains_probe (r : BoundedRange T) (t : T) :
    r.contains t = true ↔ (cut t false, Side.after) ∈ sem1 r.iv := r.contains_iff t

theorem LowerBoundedRange.contains_probe (r : LowerBoundedRange T) (t : T) :
    r.contains t = true ↔ (cut t false, Side.after) ∈ sem1 r.iv := by
  rw [r.contains_iff t, mem_after]
  simp [LowerBoundedRange.iv]

theorem UpperBoundedRange.contains_probe (r : UpperBoundedRange T) (t : T) :
    r.contains t = true ↔ (cut t false, Side.after) ∈ sem1 r.iv := by
  rw [r.contains_iff t, mem_after]
  simp [UpperBoundedRange.iv]

theorem BoundedSet.contains_probe (s : BoundedSet T) (t : T) :
    s.contains t = true ↔ (cut t false, Side.after) ∈ sem s.ivs := by
  rw [BoundedSet.mem_sem_ivs, BoundedSet.contains, List.any_eq_true]
  simp only [BoundedRange.contains_probe]

theorem Inner.contains_probe (i : Inner T) (t : T) :
    i.contains t = true ↔ (cut t false, Side.after) ∈ sem i.ivs := by
  cases i with
  | br r => simpa [Inner.contains, Inner.ivs] using r.contains_probe t
  | bs s => exact s.contains_probe t
  | lbr r => simpa [Inner.contains, Inner.ivs] using r.contains_probe t
  | lbs s =>
    simp only [Inner.contains, Inner.ivs, LowerBoundedSet.contains, LowerBoundedSet.ivs,
      Bool.or_eq_true, s.ranges.contains_probe, s.lowerBoundedRange.contains_probe, sem_append,
      sem_cons, sem_nil, Set.union_empty, Set.mem_union]
    tauto
  | ubr r => simpa [Inner.contains, Inner.ivs] using r.contains_probe t
  | ubs s =>
    simp only [Inner.contains, Inner.ivs, UpperBoundedSet.contains, UpperBoundedSet.ivs,
      Bool.or_eq_true, s.ranges.contains_probe, s.upperBoundedRange.contains_probe,
      sem_cons, Set.mem_union]
  | ur => simp [Inner.contains, Inner.ivs, mem_after]
  | us s =>
    cases s with
    | full => simp [Inner.contains, UnboundedSet.contains, Inner.ivs, UnboundedSet.ivs, mem_after]
    | piecewise p =>
      simp only [Inner.contains, UnboundedSet.contains, PiecewiseUnboundedSet.contains, Inner.ivs,
        UnboundedSet.ivs, PiecewiseUnboundedSet.ivs, Bool.or_eq_true, p.ranges.contains_probe,
        p.lowerBoundedRange.contains_probe, p.upperBoundedRange.contains_probe, sem_append,
        sem_cons, sem_nil, Set.union_empty, Set.mem_union]
      tauto
  | er => simp [Inner.contains, Inner.ivs]

/-! ### Intersection -/

/-- The static output type of `intersection` (`type Output` of each impl). -/
def interKind : Kind → Kind → Kind
  | .er, _ => .er
  | _, .er => .er
  | .ur, k => k
  | k, .ur => k
  | .br, .br => .br
  | .br, .lbr => .br
  | .br, .ubr => .br
  | .lbr, .br => .br
  | .ubr, .br => .br
  | .br, _ => .bs
  | _, .br => .bs
  | .bs, _ => .bs
  | _, .bs => .bs
  | .lbr, .lbr => .lbr
  | .ubr, .ubr => .ubr
  | .lbr, .ubr => .br
  | .ubr, .lbr => .br
  | .lbr, .lbs => .lbs
  | .lbs, .lbr => .lbs
  | .lbs, .lbs => .lbs
  | .lbr, .us => .lbs
  | .lbs, .us => .lbs
  | .us, .lbr => .lbs
  | .us, .lbs => .lbs
  | .ubr, .ubs => .ubs
  | .ubs, .ubr => .ubs
  | .ubs, .ubs => .ubs
  | .ubr, .us => .ubs
  | .ubs, .us => .ubs
  | .us, .ubr => .ubs
  | .us, .ubs => .ubs
  | .us, .us => .us
  | .lbr, .ubs => .bs
  | .lbs, .ubr => .bs
  | .lbs, .ubs => .bs
  | .ubr, .lbs => .bs
  | .ubs, .lbr => .bs
  | .ubs, .lbs => .bs

/-- The probes of `a.inter b`: the intersection, except for two `LowerBoundedSet`s. -/
def interSem : Inner T → Inner T → Set (ECut T × Side)
  | .lbs a, .lbs b => sem a.ivs ∩ sem1 b.lowerBoundedRange.iv ∪ sem a.ranges.ivs ∩ sem b.ivs
  | a, b => sem a.ivs ∩ sem b.ivs

/-- What an operation that returns an `Inner` computes. -/
def IComp (x : Res (Inner T)) (S : Set (ECut T × Side)) (W : Prop) (k : Kind) : Prop :=
  ∃ c, x = .ok c ∧ sem c.ivs = S ∧ (W → c.WF) ∧ c.kind = k

theorem IComp.ok {c : Inner T} {S : Set (ECut T × Side)} {W : Prop} {k : Kind}
    (h : sem c.ivs = S) (hw : W → c.WF) (hk : c.kind = k) : IComp (.ok c) S W k :=
  ⟨c, rfl, h, hw, hk⟩

theorem IComp.bs {x : Res (BoundedSet T)} {S : Set (ECut T × Side)} {C W : Prop}
    (h : Comp x S C) (hw : W → C) : IComp (do return .bs (← x)) S W .bs := by
  obtain ⟨a, rfl, h1, h2⟩ := h
  exact ⟨.bs a, rfl, h1, fun w => h2 (hw w), rfl⟩

theorem IComp.lbs {x : Res (LowerBoundedSet T)} {S : Set (ECut T × Side)} {C W : Prop}
    (h : Comp x S C) (hw : W → C) : IComp (do return .lbs (← x)) S W .lbs := by
  obtain ⟨a, rfl, h1, h2⟩ := h
  exact ⟨.lbs a, rfl, h1, fun w => h2 (hw w), rfl⟩

theorem IComp.ubs {x : Res (UpperBoundedSet T)} {S : Set (ECut T × Side)} {C W : Prop}
    (h : Comp x S C) (hw : W → C) : IComp (do return .ubs (← x)) S W .ubs := by
  obtain ⟨a, rfl, h1, h2⟩ := h
  exact ⟨.ubs a, rfl, h1, fun w => h2 (hw w), rfl⟩

theorem IComp.us {x : Res (UnboundedSet T)} {S : Set (ECut T × Side)} {C W : Prop}
    (h : Comp x S C) (hw : W → C) : IComp (do return .us (← x)) S W .us := by
  obtain ⟨a, rfl, h1, h2⟩ := h
  exact ⟨.us a, rfl, h1, fun w => h2 (hw w), rfl⟩

theorem IComp.congr {x : Res (Inner T)} {S S' : Set (ECut T × Side)} {W W' : Prop} {k k' : Kind}
    (h : IComp x S W k) (hS : S = S') (hW : W' → W) (hk : k = k') : IComp x S' W' k' := by
  obtain ⟨c, h1, h2, h3, h4⟩ := h
  exact ⟨c, h1, h2.trans hS, fun w => h3 (hW w), h4.trans hk⟩

theorem inter_top_right (L : List (ECut T × ECut T)) : sem L ∩ sem [(⊥, ⊤)] = sem L :=
  inter_full L

theorem inter_top_left (L : List (ECut T × ECut T)) : sem [(⊥, ⊤)] ∩ sem L = sem L := by
  rw [Set.inter_comm]; exact inter_full L

theorem sem_one (p : ECut T × ECut T) : sem [p] = sem1 p := by simp

theorem Inner.inter_comp (a b : Inner T) :
    IComp (a.inter b) (interSem a b) (a.WF ∧ b.WF) (interKind a.kind b.kind) := by
  cases a with
  | er =>
    cases b <;> exact IComp.ok (by simp [Inner.ivs, interSem]) (fun _ => trivial) rfl
  | ur =>
    cases b <;> exact IComp.ok (inter_top_left _).symm (fun h => h.2) rfl
  | br a =>
    cases b with
    | br b => exact IComp.ok (by simp only [interSem, Inner.ivs, sem_one]; exact a.sem1_interBR b) (fun _ => trivial) rfl
    | bs b =>
      exact IComp.ok (by simp only [interSem, Inner.ivs, sem_one]; rw [Set.inter_comm]; exact b.interBR_sem a)
        (fun h => BoundedSet.interBR_canon _ h.2) rfl
    | lbr b => exact IComp.ok (by simp only [interSem, Inner.ivs, sem_one]; exact a.sem1_interLBR b) (fun _ => trivial) rfl
    | lbs b =>
      exact (IComp.bs (b.interBR_comp a) (fun _ => trivial)).congr
        (by simp only [interSem, Inner.ivs, sem_one]; rw [Set.inter_comm]) id rfl
    | ubr b => exact IComp.ok (by simp only [interSem, Inner.ivs, sem_one]; exact a.sem1_interUBR b) (fun _ => trivial) rfl
    | ubs b =>
      exact (IComp.bs (b.interBR_comp a) (fun _ => trivial)).congr
        (by simp only [interSem, Inner.ivs, sem_one]; rw [Set.inter_comm]) id rfl
    | ur => exact IComp.ok (inter_top_right _).symm (fun h => h.1) rfl
    | us b =>
      exact (IComp.bs (b.interBR_comp a) (fun _ => trivial)).congr
        (by simp only [interSem, Inner.ivs, sem_one]; rw [Set.inter_comm]) id rfl
    | er => exact IComp.ok (by simp [Inner.ivs, interSem]) (fun _ => trivial) rfl
  | bs a =>
    cases b with
    | br b =>
      exact IComp.ok (by simp only [interSem, Inner.ivs, sem_one]; exact a.interBR_sem b)
        (fun h => BoundedSet.interBR_canon _ h.1) rfl
    | bs b => exact IComp.bs (a.interBS_comp b) (fun _ => trivial)
    | lbr b =>
      exact IComp.ok (by simp only [interSem, Inner.ivs, sem_one]; exact a.interLBR_sem b)
        (fun h => BoundedSet.interLBR_canon _ h.1) rfl
    | lbs b => exact IComp.bs (a.interLBS_comp b) (fun h => h.1)
    | ubr b =>
      exact IComp.ok (by simp only [interSem, Inner.ivs, sem_one]; exact a.interUBR_sem b)
        (fun h => BoundedSet.interUBR_canon _ h.1) rfl
    | ubs b => exact IComp.bs (a.interUBS_comp b) (fun h => h.1)
    | ur => exact IComp.ok (inter_top_right _).symm (fun h => h.1) rfl
    | us b => exact IComp.bs (a.interUS_comp b) (fun h => h.1)
    | er => exact IComp.ok (by simp [Inner.ivs, interSem]) (fun _ => trivial) rfl
  | lbr a =>
    cases b with
    | br b => exact IComp.ok (by simp only [interSem, Inner.ivs, sem_one]; exact a.sem1_interBR b) (fun _ => trivial) rfl
    | bs b =>
      exact IComp.ok (by simp only [interSem, Inner.ivs, sem_one]; rw [Set.inter_comm]; exact b.interLBR_sem a)
        (fun h => BoundedSet.interLBR_canon _ h.2) rfl
    | lbr b => exact IComp.ok (by simp only [interSem, Inner.ivs, sem_one]; exact a.sem1_interLBR b) (fun _ => trivial) rfl
    | lbs b =>
      exact IComp.ok (by simp only [interSem, Inner.ivs, sem_one]; rw [Set.inter_comm]; exact b.interLBR_sem a)
        (fun h => LowerBoundedSet.interLBR_canon _ h.2) rfl
    | ubr b => exact IComp.ok (by simp only [interSem, Inner.ivs, sem_one]; exact a.sem1_interUBR b) (fun _ => trivial) rfl
    | ubs b =>
      exact (IComp.bs (b.interLBR_comp a) (fun _ => trivial)).congr
        (by simp only [interSem, Inner.ivs, sem_one]; rw [Set.inter_comm]) id rfl
    | ur => exact IComp.ok (inter_top_right _).symm (fun h => h.1) rfl
    | us b =>
      exact (IComp.lbs (b.interLBR_comp a) (fun _ => trivial)).congr
        (by simp only [interSem, Inner.ivs, sem_one]; rw [Set.inter_comm]) id rfl
    | er => exact IComp.ok (by simp [Inner.ivs, interSem]) (fun _ => trivial) rfl
  | lbs a =>
    cases b with
    | br b =>
      exact (IComp.bs (a.interBR_comp b) (fun _ => trivial)).congr
        (by simp only [interSem, Inner.ivs, sem_one]) id rfl
    | bs b => exact IComp.bs (a.interBS_comp b) (fun h => h.2)
    | lbr b =>
      exact IComp.ok (by simp only [interSem, Inner.ivs, sem_one]; exact a.interLBR_sem b)
        (fun h => LowerBoundedSet.interLBR_canon _ h.1) rfl
    | lbs b => exact IComp.lbs (a.interLBS_comp b) (fun h => h.1)
    | ubr b =>
      exact (IComp.bs (a.interUBR_comp b) (fun _ => trivial)).congr
        (by simp only [interSem, Inner.ivs, sem_one]) id rfl
    | ubs b => exact IComp.bs (a.interUBS_comp b) (fun _ => trivial)
    | ur => exact IComp.ok (inter_top_right _).symm (fun h => h.1) rfl
    | us b => exact IComp.lbs (a.interUS_comp b) (fun h => h.1)
    | er => exact IComp.ok (by simp [Inner.ivs, interSem]) (fun _ => trivial) rfl
  | ubr a =>
    cases b with
    | br b => exact IComp.ok (by simp only [interSem, Inner.ivs, sem_one]; exact a.sem1_interBR b) (fun _ => trivial) rfl
    | bs b =>
      exact IComp.ok (by simp only [interSem, Inner.ivs, sem_one]; rw [Set.inter_comm]; exact b.interUBR_sem a)
        (fun h => BoundedSet.interUBR_canon _ h.2) rfl
    | lbr b => exact IComp.ok (by simp only [interSem, Inner.ivs, sem_one]; exact a.sem1_interLBR b) (fun _ => trivial) rfl
    | lbs b =>
      exact (IComp.bs (b.interUBR_comp a) (fun _ => trivial)).congr
        (by simp only [interSem, Inner.ivs, sem_one]; rw [Set.inter_comm]) id rfl
    | ubr b => exact IComp.ok (by simp only [interSem, Inner.ivs, sem_one]; exact a.sem1_interUBR b) (fun _ => trivial) rfl
    | ubs b =>
      exact (IComp.ubs (b.interUBR_comp a) (fun _ => trivial)).congr
        (by simp only [interSem, Inner.ivs, sem_one]; rw [Set.inter_comm]) id rfl
    | ur => exact IComp.ok (inter_top_right _).symm (fun h => h.1) rfl
    | us b =>
      exact (IComp.ubs (b.interUBR_comp a) (fun _ => trivial)).congr
        (by simp only [interSem, Inner.ivs, sem_one]; rw [Set.inter_comm]) id rfl
    | er => exact IComp.ok (by simp [Inner.ivs, interSem]) (fun _ => trivial) rfl
  | ubs a =>
    cases b with
    | br b =>
      exact (IComp.bs (a.interBR_comp b) (fun _ => trivial)).congr
        (by simp only [interSem, Inner.ivs, sem_one]) id rfl
    | bs b => exact IComp.bs (a.interBS_comp b) (fun h => h.2)
    | lbr b =>
      exact (IComp.bs (a.interLBR_comp b) (fun _ => trivial)).congr
        (by simp only [interSem, Inner.ivs, sem_one]) id rfl
    | lbs b =>
      exact (IComp.bs (b.interUBS_comp a) (fun _ => trivial)).congr
        (by simp only [interSem, Inner.ivs]; rw [Set.inter_comm]) id rfl
    | ubr b =>
      exact (IComp.ubs (a.interUBR_comp b) (fun _ => trivial)).congr
        (by simp only [interSem, Inner.ivs, sem_one]) id rfl
    | ubs b => exact IComp.ubs (a.interUBS_comp b) (fun _ => trivial)
    | ur => exact IComp.ok (inter_top_right _).symm (fun h => h.1) rfl
    | us b => exact IComp.ubs (a.interUS_comp b) (fun h => h.1)
    | er => exact IComp.ok (by simp [Inner.ivs, interSem]) (fun _ => trivial) rfl
  | us a =>
    cases b with
    | br b =>
      exact (IComp.bs (a.interBR_comp b) (fun _ => trivial)).congr
        (by simp only [interSem, Inner.ivs, sem_one]) id rfl
    | bs b => exact IComp.bs (a.interBS_comp b) (fun h => h.2)
    | lbr b =>
      exact (IComp.lbs (a.interLBR_comp b) (fun _ => trivial)).congr
        (by simp only [interSem, Inner.ivs, sem_one]) id rfl
    | lbs b => exact IComp.lbs (a.interLBS_comp b) (fun h => h.2)
    | ubr b =>
      exact (IComp.ubs (a.interUBR_comp b) (fun _ => trivial)).congr
        (by simp only [interSem, Inner.ivs, sem_one]) id rfl
    | ubs b => exact IComp.ubs (a.interUBS_comp b) (fun h => h.2)
    | ur => exact IComp.ok (inter_top_right _).symm (fun h => h.1) rfl
    | us b => exact IComp.us (a.interUS_comp b) id
    | er => exact IComp.ok (by simp [Inner.ivs, interSem]) (fun _ => trivial) rfl

/-- Both operands are `LowerBoundedSet`s. -/
def BothLBS (a b : Inner T) : Prop := a.kind = .lbs ∧ b.kind = .lbs

instance (a b : Inner T) : Decidable (BothLBS a b) := by unfold BothLBS; infer_instance

theorem interSem_eq {a b : Inner T} (h : ¬ BothLBS a b) : interSem a b = sem a.ivs ∩ sem b.ivs := by
  cases a <;> cases b <;> first | rfl | exact absurd ⟨rfl, rfl⟩ h

theorem interSem_subset (a b : Inner T) : interSem a b ⊆ sem a.ivs ∩ sem b.ivs := by
  by_cases h : BothLBS a b
  · cases a with
    | lbs a =>
      cases b with
      | lbs b =>
        rintro q (⟨h1, h2⟩ | ⟨h1, h2⟩)
        · refine ⟨h1, ?_⟩
          simp only [Inner.ivs, LowerBoundedSet.ivs, sem_append, sem_cons, Set.mem_union]
          exact Or.inr (Or.inl h2)
        · refine ⟨?_, h2⟩
          simp only [Inner.ivs, LowerBoundedSet.ivs, sem_append, Set.mem_union]
          exact Or.inl h1
      | _ => exact absurd h.2 (by simp [Inner.kind])
    | _ => exact absurd h.1 (by simp [Inner.kind])
  · rw [interSem_eq h]

omit [LinearOrder T] in
theorem Any.toInner_std_not_set (a : Any T) (h : ∀ i, a ≠ .inner i) : a.toInner.kind = .br ∨
    a.toInner.kind = .lbr ∨ a.toInner.kind = .ubr ∨ a.toInner.kind = .ur := by
  cases a <;> simp_all [Any.toInner, Inner.kind]

theorem interKind_comm (j k : Kind) : interKind j k = interKind k j := by
  cases j <;> cases k <;> rfl

theorem interKind_assoc (i j k : Kind) :
    interKind (interKind i j) k = interKind i (interKind j k) := by
  cases i <;> cases j <;> cases k <;> rfl

theorem Inner.interFromStd_comp (a b : Inner T)
    (ha : a.kind = .br ∨ a.kind = .lbr ∨ a.kind = .ubr ∨ a.kind = .ur) :
    IComp (a.interFromStd b) (sem a.ivs ∩ sem b.ivs) (b.WF) (interKind a.kind b.kind) := by
  have hw : a.WF := by
    cases a <;> simp_all [Inner.kind, Inner.WF]
  have hn : ¬ BothLBS a b := by
    rintro ⟨h, _⟩; simp [h] at ha
  have hn' : ¬ BothLBS b a := by
    rintro ⟨_, h⟩; simp [h] at ha
  have h1 := (Inner.inter_comp a b).congr (interSem_eq hn) (fun h => ⟨hw, h⟩) rfl
  have h2 := (Inner.inter_comp b a).congr ((interSem_eq hn').trans (Set.inter_comm _ _))
    (fun h => ⟨h, hw⟩) (interKind_comm _ _)
  cases b with
  | er => exact IComp.ok (by simp [Inner.ivs]) (fun _ => trivial) (by rw [interKind_comm]; rfl)
  | br _ => exact h1
  | lbr _ => exact h1
  | ubr _ => exact h1
  | ur => exact h1
  | bs _ => exact h2
  | lbs _ => exact h2
  | ubs _ => exact h2
  | us _ => exact h2

theorem Any.inter_comp (a b : Any T) :
    IComp (a.inter b) (interSem a.toInner b.toInner) (a.toInner.WF ∧ b.toInner.WF)
      (interKind a.toInner.kind b.toInner.kind) := by
  have h0 : ∀ (i j : Inner T), (i.kind = .br ∨ i.kind = .lbr ∨ i.kind = .ubr ∨ i.kind = .ur) →
      sem i.ivs ∩ sem j.ivs = interSem i j := by
    intro i j hi
    refine (interSem_eq ?_).symm
    rintro ⟨h, _⟩; simp [h] at hi
  have hfrom : ∀ (i j : Inner T),
      IComp (match j with | .er => .ok .er | o => i.inter o) (interSem i j) (i.WF ∧ j.WF)
        (interKind i.kind j.kind) := by
    intro i j
    have := Inner.inter_comp i j
    cases j with
    | er => exact IComp.ok (by cases i <;> simp [Inner.ivs, interSem]) (fun _ => trivial)
              (by rw [interKind_comm]; rfl)
    | _ => exact this
  cases a with
  | inner i => exact Inner.inter_comp i b.toInner
  | rangeFrom r => exact hfrom _ _
  | rangeFull => exact hfrom _ _
  | range r =>
    exact (Inner.interFromStd_comp _ b.toInner (Or.inl rfl)).congr
      (h0 _ _ (Or.inl rfl)) And.right rfl
  | rangeInclusive r =>
    exact (Inner.interFromStd_comp _ b.toInner (Or.inl rfl)).congr
      (h0 _ _ (Or.inl rfl)) And.right rfl
  | rangeTo r =>
    exact (Inner.interFromStd_comp _ b.toInner (Or.inr (Or.inr (Or.inl rfl)))).congr
      (h0 _ _ (Or.inr (Or.inr (Or.inl rfl)))) And.right rfl
  | rangeToInclusive r =>
    exact (Inner.interFromStd_comp _ b.toInner (Or.inr (Or.inr (Or.inl rfl)))).congr
      (h0 _ _ (Or.inr (Or.inr (Or.inl rfl)))) And.right rfl

/-! ### Union -/

theorem Inner.toSet_sem (i : Inner T) : sem i.toSet.toInner.ivs = sem i.ivs := by
  cases i with
  | br r => simp only [Inner.toSet, SetVal.toInner, Inner.ivs, sem_one]; exact BoundedSet.ofBR_sem r
  | lbr r =>
    simp only [Inner.toSet, SetVal.toInner, Inner.ivs, sem_one]; exact LowerBoundedSet.ofLBR_sem r
  | ubr r =>
    simp only [Inner.toSet, SetVal.toInner, Inner.ivs, sem_one]; exact UpperBoundedSet.ofUBR_sem r
  | _ => rfl

theorem Inner.toSet_WF {i : Inner T} (h : i.WF) : i.toSet.toInner.WF := by
  cases i with
  | br r => exact BoundedSet.ofBR_canon r
  | lbr r => exact LowerBoundedSet.ofLBR_canon r
  | ubr r => exact UpperBoundedSet.ofUBR_canon r
  | _ => exact h

theorem Any.toSet_eq (a : Any T) : a.toSet = a.toInner.toSet := by
  cases a <;> rfl

/-- The type of the set of a value. -/
def setKind : Kind → Kind
  | .br => .bs
  | .lbr => .lbs
  | .ubr => .ubs
  | k => k

theorem Inner.toSet_kind (i : Inner T) : i.toSet.toInner.kind = setKind i.kind := by
  cases i <;> rfl

/-- The static output type of `union` on set types. -/
def unionKind : Kind → Kind → Kind
  | .er, k => k
  | k, .er => k
  | .ur, _ => .ur
  | _, .ur => .ur
  | .bs, k => k
  | k, .bs => k
  | .lbs, .lbs => .lbs
  | .ubs, .ubs => .ubs
  | _, _ => .us

theorem SetVal.union_comp (a b : SetVal T) :
    ∃ c : SetVal T, a.union b = .ok c ∧
      sem c.toInner.ivs = sem a.toInner.ivs ∪ sem b.toInner.ivs ∧
      (a.toInner.WF → b.toInner.WF → c.toInner.WF) ∧
      c.toInner.kind = unionKind a.toInner.kind b.toInner.kind := by
  have top : ∀ L : List (ECut T × ECut T), sem [(⊥, ⊤)] = sem L ∪ sem [(⊥, ⊤)] := by
    intro L
    rw [Set.union_comm]
    exact (sem_full_union _ (sem_subset_full L)).symm
  have top' : ∀ L : List (ECut T × ECut T), sem [(⊥, ⊤)] = sem [(⊥, ⊤)] ∪ sem L := fun L =>
    (sem_full_union _ (sem_subset_full L)).symm
  cases a with
  | er =>
    exact ⟨b, rfl, by simp [SetVal.toInner, Inner.ivs], fun _ h => h, by cases b <;> rfl⟩
  | ur => exact ⟨.ur, rfl, top' _, fun _ _ => trivial, by cases b <;> rfl⟩
  | bs a =>
    cases b with
    | ur => exact ⟨.ur, rfl, top _, fun _ _ => trivial, rfl⟩
    | er => exact ⟨.bs a, rfl, by simp [SetVal.toInner, Inner.ivs], fun h _ => h, rfl⟩
    | bs b =>
      obtain ⟨c, h1, h2, h3⟩ := a.unionBS_comp b
      exact ⟨.bs c, by simp [SetVal.union, h1], h2, fun ha hb => h3 ⟨ha, hb⟩, rfl⟩
    | lbs b =>
      obtain ⟨c, h1, h2, h3⟩ := a.unionLBS_comp b
      exact ⟨.lbs c, by simp [SetVal.union, h1], h2, fun ha hb => h3 ⟨ha, hb⟩, rfl⟩
    | ubs b =>
      obtain ⟨c, h1, h2, h3⟩ := a.unionUBS_comp b
      exact ⟨.ubs c, by simp [SetVal.union, h1], h2, fun ha hb => h3 ⟨ha, hb⟩, rfl⟩
    | us b =>
      obtain ⟨c, h1, h2, h3⟩ := a.unionUS_comp b
      exact ⟨.us c, by simp [SetVal.union, h1], h2, fun ha hb => h3 ⟨ha, hb⟩, rfl⟩
  | lbs a =>
    cases b with
    | ur => exact ⟨.ur, rfl, top _, fun _ _ => trivial, rfl⟩
    | er => exact ⟨.lbs a, rfl, by simp [SetVal.toInner, Inner.ivs], fun h _ => h, rfl⟩
    | bs b =>
      obtain ⟨c, h1, h2, h3⟩ := a.unionBS_comp b
      exact ⟨.lbs c, by simp [SetVal.union, h1], h2, fun ha _ => h3 ha, rfl⟩
    | lbs b =>
      obtain ⟨c, h1, h2, h3⟩ := a.unionLBS_comp b
      exact ⟨.lbs c, by simp [SetVal.union, h1], h2, fun ha hb => h3 ⟨ha, hb⟩, rfl⟩
    | ubs b =>
      obtain ⟨c, h1, h2, h3⟩ := a.unionUBS_comp b
      exact ⟨.us c, by simp [SetVal.union, h1], h2, fun _ _ => h3 trivial, rfl⟩
    | us b =>
      obtain ⟨c, h1, h2, h3⟩ := a.unionUS_comp b
      exact ⟨.us c, by simp [SetVal.union, h1], h2, fun ha hb => h3 ⟨ha, hb⟩, rfl⟩
  | ubs a =>
    cases b with
    | ur => exact ⟨.ur, rfl, top _, fun _ _ => trivial, rfl⟩
    | er => exact ⟨.ubs a, rfl, by simp [SetVal.toInner, Inner.ivs], fun h _ => h, rfl⟩
    | bs b =>
      obtain ⟨c, h1, h2, h3⟩ := a.unionBS_comp b
      exact ⟨.ubs c, by simp [SetVal.union, h1], h2, fun ha _ => h3 ha, rfl⟩
    | lbs b =>
      obtain ⟨c, h1, h2, h3⟩ := a.unionLBS_comp b
      exact ⟨.us c, by simp [SetVal.union, h1], h2, fun _ _ => h3 trivial, rfl⟩
    | ubs b =>
      obtain ⟨c, h1, h2, h3⟩ := a.unionUBS_comp b
      exact ⟨.ubs c, by simp [SetVal.union, h1], h2, fun ha hb => h3 ⟨ha, hb⟩, rfl⟩
    | us b =>
      obtain ⟨c, h1, h2, h3⟩ := a.unionUS_comp b
      exact ⟨.us c, by simp [SetVal.union, h1], h2, fun ha hb => h3 ⟨ha, hb⟩, rfl⟩
  | us a =>
    cases b with
    | ur => exact ⟨.ur, rfl, top _, fun _ _ => trivial, rfl⟩
    | er => exact ⟨.us a, rfl, by simp [SetVal.toInner, Inner.ivs], fun h _ => h, rfl⟩
    | bs b =>
      obtain ⟨c, h1, h2, h3⟩ := a.unionBS_comp b
      exact ⟨.us c, by simp [SetVal.union, h1], h2, fun ha _ => h3 ha, rfl⟩
    | lbs b =>
      obtain ⟨c, h1, h2, h3⟩ := a.unionLBS_comp b
      exact ⟨.us c, by simp [SetVal.union, h1], h2, fun ha hb => h3 ⟨ha, hb⟩, rfl⟩
    | ubs b =>
      obtain ⟨c, h1, h2, h3⟩ := a.unionUBS_comp b
      exact ⟨.us c, by simp [SetVal.union, h1], h2, fun ha hb => h3 ⟨ha, hb⟩, rfl⟩
    | us b =>
      obtain ⟨c, h1, h2, h3⟩ := a.unionUS_comp b
      exact ⟨.us c, by simp [SetVal.union, h1], h2, fun ha hb => h3 ⟨ha, hb⟩, rfl⟩

omit [LinearOrder T] in
/-- Is this the `EmptyRange`? -/
def Any.isER : Any T → Bool
  | .inner .er => true
  | _ => false

/-- The three ways a union comes about. -/
theorem Any.union_cases (a b : Any T) :
    (a.isER = true ∧ a.union b = .ok b) ∨
    (b.isER = true ∧ a.union b = .ok a) ∨
    (a.isER = false ∧ b.isER = false ∧
      ∃ c : SetVal T, a.union b = .ok (.inner c.toInner) ∧ a.toSet.union b.toSet = .ok c) := by
  by_cases ha : a.isER = true
  · left
    refine ⟨ha, ?_⟩
    cases a with
    | inner i => cases i <;> simp_all [Any.isER, Any.union]
    | _ => simp [Any.isER] at ha
  right
  by_cases hur : a = .inner .ur
  · subst hur
    by_cases hb : b.isER = true
    · left
      refine ⟨hb, rfl⟩
    · right
      refine ⟨rfl, by simpa using hb, .ur, rfl, rfl⟩
  by_cases hb : b.isER = true
  · left
    have hb' : b = .inner .er := by
      cases b with
      | inner i => cases i <;> simp_all [Any.isER]
      | _ => simp [Any.isER] at hb
    subst hb'
    refine ⟨rfl, ?_⟩
    cases a with
    | inner i => cases i <;> rfl
    | _ => rfl
  · right
    refine ⟨by simpa using ha, by simpa using hb, ?_⟩
    obtain ⟨c, hc, -⟩ := SetVal.union_comp a.toSet b.toSet
    refine ⟨c, ?_, hc⟩
    have hbs : b.toSet ≠ .er := by
      intro h
      cases b with
      | inner i => cases i <;> simp_all [Any.isER, Any.toSet, Any.toInner, Inner.toSet]
      | _ => simp [Any.toSet, Any.toInner, Inner.toSet] at h
    have has : a.toSet ≠ .er := by
      intro h
      cases a with
      | inner i => cases i <;> simp_all [Any.isER, Any.toSet, Any.toInner, Inner.toSet]
      | _ => simp [Any.toSet, Any.toInner, Inner.toSet] at h
    have key : (match b.toSet with
        | .ur => (.ok (.inner .ur) : Res (Any T))
        | .er => .ok a
        | o => do return .inner (← a.toSet.union o).toInner) = .ok (.inner c.toInner) := by
      cases hbt : b.toSet with
      | er => exact absurd hbt hbs
      | ur =>
        rw [hbt] at hc
        have : c = .ur := by
          cases hat : a.toSet <;> rw [hat] at hc <;> simp_all [SetVal.union]
        rw [this]
        rfl
      | _ =>
        rw [hbt] at hc
        simp [hc]
    cases a with
    | inner i => cases i <;> first | exact key | exact absurd rfl hur | (simp [Any.isER] at ha)
    | _ => exact key

omit [LinearOrder T] in
theorem Any.eq_of_isER {a : Any T} (h : a.isER = true) : a = .inner .er := by
  cases a with
  | inner i => cases i <;> simp_all [Any.isER]
  | _ => simp [Any.isER] at h

theorem Any.union_comp (a b : Any T) :
    ∃ c : Any T, a.union b = .ok c ∧
      sem c.toInner.ivs = sem a.toInner.ivs ∪ sem b.toInner.ivs ∧
      (a.toInner.WF → b.toInner.WF → c.toInner.WF) ∧
      (c = a ∨ c = b ∨ ∃ i, c = .inner i) := by
  rcases Any.union_cases a b with ⟨h, hu⟩ | ⟨h, hu⟩ | ⟨_, _, c, hu, hc⟩
  · refine ⟨b, hu, ?_, fun _ h => h, Or.inr (Or.inl rfl)⟩
    rw [Any.eq_of_isER h]; simp [Any.toInner, Inner.ivs]
  · refine ⟨a, hu, ?_, fun h _ => h, Or.inl rfl⟩
    rw [Any.eq_of_isER h]; simp [Any.toInner, Inner.ivs]
  · obtain ⟨c', hc', h1, h2, _⟩ := SetVal.union_comp a.toSet b.toSet
    obtain rfl : c = c' := by rw [hc] at hc'; injection hc'
    refine ⟨_, hu, ?_, ?_, Or.inr (Or.inr ⟨_, rfl⟩)⟩
    · show sem c.toInner.ivs = _
      rw [h1, Any.toSet_eq, Any.toSet_eq, Inner.toSet_sem, Inner.toSet_sem]
    · intro ha hb
      refine h2 ?_ ?_
      · rw [Any.toSet_eq]; exact Inner.toSet_WF ha
      · rw [Any.toSet_eq]; exact Inner.toSet_WF hb

/-! ### Complement -/

/-- The static output type of `complement`. -/
def complKind : Kind → Kind
  | .br => .us
  | .bs => .us
  | .lbr => .ubr
  | .lbs => .ubs
  | .ubr => .lbr
  | .ubs => .lbs
  | .ur => .er
  | .us => .bs
  | .er => .ur

theorem csem_one_of_subset {p : ECut T × ECut T} (h : csem1 p ⊆ sem1 (⊥, ⊤)) :
    csem [p] = csem1 p := by
  ext q
  simp only [csem, List.mem_singleton, forall_eq, Set.mem_ofPred_eq]
  exact ⟨And.right, fun hq => ⟨h hq, hq⟩⟩

theorem csem1_subset_full (p : ECut T × ECut T) : csem1 p ⊆ sem1 (⊥, ⊤) :=
  Set.union_subset (sem1_subset_full _) (sem1_subset_full _)

theorem csem_one (p : ECut T × ECut T) : csem [p] = csem1 p :=
  csem_one_of_subset (csem1_subset_full p)

theorem Inner.complement_comp (a : Inner T) :
    IComp a.complement (csem a.ivs) True (complKind a.kind) := by
  cases a with
  | br r => exact (IComp.us r.complement_comp id).congr (csem_one _).symm id rfl
  | bs s => exact IComp.us s.complement_comp id
  | lbr r =>
    refine IComp.ok ?_ (fun _ => trivial) rfl
    simp only [Inner.ivs, sem_one]
    rw [csem_one, csem1_lbr, LowerBoundedRange.complement_iv]
  | lbs s => exact IComp.ubs s.complement_comp id
  | ubr r =>
    refine IComp.ok ?_ (fun _ => trivial) rfl
    simp only [Inner.ivs, sem_one]
    rw [csem_one, csem1_ubr, UpperBoundedRange.complement_iv]
  | ubs s => exact IComp.lbs s.complement_comp id
  | ur =>
    refine IComp.ok ?_ (fun _ => trivial) rfl
    simp only [Inner.ivs, sem_nil]
    rw [csem_one, csem1_full]
  | us s => exact IComp.bs s.complement_comp id
  | er =>
    refine IComp.ok ?_ (fun _ => trivial) rfl
    ext q
    simp [Inner.ivs, csem]

theorem Any.complement_eq (a : Any T) : a.complement = a.toInner.complement := by
  cases a <;> rfl

theorem Any.complement_comp (a : Any T) :
    IComp a.complement (csem a.toInner.ivs) True (complKind a.toInner.kind) := by
  rw [Any.complement_eq]; exact Inner.complement_comp _

/-- Membership in a complement: exactly the elements not in any piece. -/
theorem mem_csem_after {L : List (ECut T × ECut T)} {t : T} :
    (cut t false, Side.after) ∈ csem L ↔ (cut t false, Side.after) ∉ sem L := by
  have h1 : ∀ p : ECut T × ECut T, (cut t false, Side.after) ∈ csem1 p ↔
      (cut t false, Side.after) ∉ sem1 p := by
    intro p
    rw [csem1, Set.mem_union, mem_after, mem_after, mem_after]
    simp only [bot_le, true_and, cut_lt_top, and_true]
    rw [not_and_or, not_le, not_lt]
  have h2 : (cut t false, Side.after) ∈ sem1 ((⊥, ⊤) : ECut T × ECut T) := by
    rw [mem_after]; exact ⟨bot_le, cut_lt_top⟩
  rw [mem_sem]
  show (_ ∧ ∀ p ∈ L, _) ↔ _
  push Not
  exact ⟨fun h p hp => (h1 p).mp (h.2 p hp), fun h => ⟨h2, fun p hp => (h1 p).mpr (h p hp)⟩⟩

end Rangetools
