import Verif.Proofs.Cut

/-!
# The interval list of every value, and the effect of the private mutators on it
-/

namespace Rangetools
open Iv

variable {T : Type} [LinearOrder T]

/-- Interval lists of the set types. -/
def BoundedSet.ivs (s : BoundedSet T) : List (ECut T × ECut T) := s.ranges.map BoundedRange.iv
def LowerBoundedRange.iv (r : LowerBoundedRange T) : ECut T × ECut T := (lo r.start, ⊤)
def UpperBoundedRange.iv (r : UpperBoundedRange T) : ECut T × ECut T := (⊥, hi r.stop)
def LowerBoundedSet.ivs (s : LowerBoundedSet T) : List (ECut T × ECut T) :=
  s.ranges.ivs ++ [s.lowerBoundedRange.iv]
def UpperBoundedSet.ivs (s : UpperBoundedSet T) : List (ECut T × ECut T) :=
  s.upperBoundedRange.iv :: s.ranges.ivs
def PiecewiseUnboundedSet.ivs (s : PiecewiseUnboundedSet T) : List (ECut T × ECut T) :=
  s.upperBoundedRange.iv :: (s.ranges.ivs ++ [s.lowerBoundedRange.iv])
def UnboundedSet.ivs : UnboundedSet T → List (ECut T × ECut T)
  | .full => [(⊥, ⊤)]
  | .piecewise p => p.ivs

/-- Types whose values have an interval list. -/
class HasIvs (A : Type) (T : outParam Type) where
  ivs : A → List (ECut T × ECut T)

instance : HasIvs (BoundedSet T) T := ⟨BoundedSet.ivs⟩
instance : HasIvs (LowerBoundedSet T) T := ⟨LowerBoundedSet.ivs⟩
instance : HasIvs (UpperBoundedSet T) T := ⟨UpperBoundedSet.ivs⟩
instance : HasIvs (PiecewiseUnboundedSet T) T := ⟨PiecewiseUnboundedSet.ivs⟩
instance : HasIvs (UnboundedSet T) T := ⟨UnboundedSet.ivs⟩

/-- `x` returns a value whose probes are exactly `S`, and which is canonical when `C` holds. -/
def Comp {A : Type} [HasIvs A T] (x : Res A) (S : Set (ECut T × Side)) (C : Prop) : Prop :=
  ∃ a, x = .ok a ∧ sem (HasIvs.ivs a) = S ∧ (C → Canon (HasIvs.ivs a))

section Comp
variable {A B : Type} [HasIvs A T] [HasIvs B T]

@[simp] theorem Res.ok_bind {α β : Type} (a : α) (f : α → Res β) : (Res.ok a >>= f) = f a := rfl
@[simp] theorem Res.pure_eq {α : Type} (a : α) : (pure a : Res α) = .ok a := rfl
@[simp] theorem Res.panic_bind {α β : Type} (m : String) (f : α → Res β) :
    ((Res.panic m : Res α) >>= f) = .panic m := rfl

theorem Comp.ok {a : A} {S : Set (ECut T × Side)} {C : Prop} (h : sem (HasIvs.ivs a) = S)
    (hc : C → Canon (HasIvs.ivs a)) : Comp (.ok a) S C := ⟨a, rfl, h, hc⟩

theorem Comp.bind {x : Res A} {f : A → Res B} {S S' : Set (ECut T × Side)} {C C' : Prop}
    (hx : Comp x S C)
    (hf : ∀ a, x = .ok a → sem (HasIvs.ivs a) = S → (C → Canon (HasIvs.ivs a)) → Comp (f a) S' C') :
    Comp (x >>= f) S' C' := by
  obtain ⟨a, ha, h1, h2⟩ := hx
  obtain ⟨b, hb, h3, h4⟩ := hf a ha h1 h2
  exact ⟨b, by rw [ha, Res.ok_bind, hb], h3, h4⟩

theorem Comp.congr {x : Res A} {S S' : Set (ECut T × Side)} {C C' : Prop} (hx : Comp x S C)
    (hS : S = S') (hC : C' → C) : Comp x S' C' := by
  obtain ⟨a, ha, h1, h2⟩ := hx
  exact ⟨a, ha, h1.trans hS, fun h => h2 (hC h)⟩

/-- A `for` loop that adds something on each round. -/
theorem Comp.foldlM {R : Type} {f : A → R → Res A} {g : R → Set (ECut T × Side)} {I : R → Prop}
    (hf : ∀ a r, I r → Comp (f a r) (sem (HasIvs.ivs a) ∪ g r) (Canon (HasIvs.ivs a)))
    (l : List R) (hl : ∀ r ∈ l, I r) (a : A) :
    Comp (l.foldlM f a) (sem (HasIvs.ivs a) ∪ {q | ∃ r ∈ l, q ∈ g r}) (Canon (HasIvs.ivs a)) := by
  induction l generalizing a with
  | nil =>
    refine Comp.ok ?_ id
    ext q; simp
  | cons r l ih =>
    rw [List.foldlM_cons]
    refine Comp.bind (hf a r (hl r List.mem_cons_self)) fun b _ hb hc => ?_
    refine (ih (fun r hr => hl r (List.mem_cons_of_mem _ hr)) b).congr ?_ hc
    rw [hb]
    ext q
    simp only [Set.mem_union, Set.mem_ofPred_eq, List.mem_cons, exists_eq_or_imp]
    tauto

/-- A `for` loop that intersects on each round. -/
theorem Comp.foldlM_inter {R : Type} {f : A → R → Res A} {g : R → Set (ECut T × Side)}
    {I : R → Prop}
    (hf : ∀ a r, I r → Comp (f a r) (sem (HasIvs.ivs a) ∩ g r) (Canon (HasIvs.ivs a)))
    (l : List R) (hl : ∀ r ∈ l, I r) (a : A) :
    Comp (l.foldlM f a) (sem (HasIvs.ivs a) ∩ {q | ∀ r ∈ l, q ∈ g r}) (Canon (HasIvs.ivs a)) := by
  induction l generalizing a with
  | nil =>
    refine Comp.ok ?_ id
    ext q; simp
  | cons r l ih =>
    rw [List.foldlM_cons]
    refine Comp.bind (hf a r (hl r List.mem_cons_self)) fun b _ hb hc => ?_
    refine (ih (fun r hr => hl r (List.mem_cons_of_mem _ hr)) b).congr ?_ hc
    rw [hb]
    ext q
    simp only [Set.mem_inter_iff, Set.mem_ofPred_eq, List.mem_cons, forall_eq_or_imp]
    tauto

end Comp

/-! ### BoundedSet -/

theorem BoundedRange.sem1_of_isEmpty {r : BoundedRange T} (h : r.isEmpty = true) :
    sem1 r.iv = ∅ := sem1_empty (r.isEmpty_iff.mp h)

theorem BoundedRange.intersectsBR_iff (a b : BoundedRange T) :
    a.intersectsBR b = true ↔ max (lo a.start) (lo b.start) < min (hi a.stop) (hi b.stop) := by
  rw [BoundedRange.intersectsBR, Bool.not_eq_true', BoundedRange.isEmpty_eq_false_iff]
  simp [BoundedRange.interBR]

theorem BoundedRange.combine_eq {a b : BoundedRange T} (h : b.intersectsBR a = true) :
    a.combine b = .ok ⟨a.start.min b.start, a.stop.max b.stop⟩ := by
  have h1 := (b.intersectsBR_iff a).mp h
  have h2 : a.isEmpty = false := by
    rw [BoundedRange.isEmpty_eq_false_iff]
    exact (le_max_right _ _).trans_lt (h1.trans_le (min_le_right _ _))
  have h3 : b.isEmpty = false := by
    rw [BoundedRange.isEmpty_eq_false_iff]
    exact (le_max_left _ _).trans_lt (h1.trans_le (min_le_left _ _))
  have h4 : a.intersectsBR b = true := by
    rw [BoundedRange.intersectsBR_iff, max_comm, min_comm]
    exact h1
  simp [BoundedRange.combine, h2, h3, h4, assert]

theorem BoundedRange.sem1_combine {a b : BoundedRange T} (h : b.intersectsBR a = true) :
    sem1 (BoundedRange.iv ⟨a.start.min b.start, a.stop.max b.stop⟩) = sem1 a.iv ∪ sem1 b.iv := by
  have h1 := (b.intersectsBR_iff a).mp h
  rw [max_comm, min_comm] at h1
  rw [sem1_merge (by simpa [BoundedRange.iv] using h1)]
  simp [BoundedRange.iv]

theorem vdInsert_eq {α : Type} (p : α → Bool) (l : List α) (a : α) :
    vdInsert l ((l.findIdx? p).getD l.length) a =
      .ok (l.takeWhile (fun x => !p x) ++ a :: l.dropWhile (fun x => !p x)) := by
  have hidx : (l.findIdx? p).getD l.length = (l.takeWhile (fun x => !p x)).length := by
    induction l with
    | nil => rfl
    | cons b l ih =>
      rw [List.findIdx?_cons]
      by_cases hb : p b = true
      · simp [hb]
      · simp only [hb, Bool.false_eq_true, if_false, List.length_cons, Bool.not_false,
          List.takeWhile_cons, if_true]
        rw [← ih]
        cases l.findIdx? p <;> simp
  have hle : (l.takeWhile (fun x => !p x)).length ≤ l.length :=
    (List.takeWhile_prefix _).length_le
  rw [hidx, vdInsert, if_pos hle]
  congr 2
  · exact (List.prefix_iff_eq_take.mp (List.takeWhile_prefix _)).symm
  · congr 1
    have h := List.drop_left (l₁ := l.takeWhile (fun x => !p x)) (l₂ := l.dropWhile (fun x => !p x))
    rwa [List.takeWhile_append_dropWhile] at h

theorem sem_takeWhile_cons_dropWhile (p : BoundedRange T → Bool) (l : List (BoundedRange T))
    (r : BoundedRange T) :
    sem ((l.takeWhile p ++ r :: l.dropWhile p).map BoundedRange.iv) =
      sem (l.map BoundedRange.iv) ∪ sem1 r.iv := by
  conv_rhs => rw [← List.takeWhile_append_dropWhile (p := p) (l := l)]
  simp only [List.map_append, List.map_cons, sem_append, sem_cons]
  rw [Set.union_assoc, Set.union_comm (sem1 _)]

omit [LinearOrder T] in
theorem eraseIdx_map_iv (l : List (BoundedRange T)) (i : Nat) :
    (l.map BoundedRange.iv).eraseIdx i = (l.eraseIdx i).map BoundedRange.iv := by
  induction l generalizing i with
  | nil => rfl
  | cons a l ih => cases i <;> simp [ih]

theorem canon_insert {l : List (BoundedRange T)} {r : BoundedRange T}
    (hl : Canon (l.map BoundedRange.iv)) (hr : lo r.start < hi r.stop)
    (hd : ∀ x ∈ l, ¬ x.intersectsBR r = true) :
    Canon ((l.takeWhile (fun x => !x.start.gt r.start) ++
      r :: l.dropWhile (fun x => !x.start.gt r.start)).map BoundedRange.iv) := by
  induction l with
  | nil => simpa [canon_singleton, BoundedRange.iv] using hr
  | cons x l ih =>
    rw [List.map_cons, canon_cons] at hl
    have hx := hd x List.mem_cons_self
    rw [BoundedRange.intersectsBR_iff, not_lt] at hx
    obtain ⟨hxne, hxl, hcl⟩ := hl
    simp only [BoundedRange.iv] at hxne
    by_cases hgt : x.start.gt r.start = true
    · -- r goes in front of x
      rw [List.takeWhile_cons_of_neg (by simp [hgt]), List.dropWhile_cons_of_neg (by simp [hgt])]
      rw [LowerBound.gt_iff] at hgt
      rw [max_eq_left hgt.le, min_le_iff] at hx
      have hx' : hi r.stop ≤ lo x.start := hx.resolve_left (not_le.mpr hxne)
      simp only [List.nil_append, List.map_cons]
      rw [canon_cons, canon_cons]
      refine ⟨hr, ?_, hxne, hxl, hcl⟩
      intro q hq
      rcases List.mem_cons.mp hq with rfl | hq
      · exact hx'
      · exact hx'.trans (hxne.le.trans (hxl q hq))
    · rw [List.takeWhile_cons_of_pos (by simp [hgt]), List.dropWhile_cons_of_pos (by simp [hgt])]
      rw [LowerBound.gt_iff, not_lt] at hgt
      rw [max_eq_right hgt, min_le_iff] at hx
      have hx' : hi x.stop ≤ lo r.start := hx.resolve_right (not_le.mpr hr)
      rw [List.cons_append, List.map_cons, canon_cons]
      refine ⟨hxne, ?_, ih hcl (fun y hy => hd y (List.mem_cons_of_mem _ hy))⟩
      intro q hq
      rw [List.map_append, List.map_cons, List.mem_append, List.mem_cons] at hq
      rcases hq with hq | rfl | hq
      · obtain ⟨y, hy, rfl⟩ := List.mem_map.mp hq
        exact hxl _ (List.mem_map_of_mem (List.takeWhile_subset _ hy))
      · exact hx'
      · obtain ⟨y, hy, rfl⟩ := List.mem_map.mp hq
        exact hxl _ (List.mem_map_of_mem ((List.dropWhile_sublist _).subset hy))

theorem BoundedSet.addRange_comp (s : BoundedSet T) (r : BoundedRange T) :
    Comp (s.addRange r) (sem s.ivs ∪ sem1 r.iv) (Canon s.ivs) := by
  induction hn : s.ranges.length using Nat.strong_induction_on generalizing s r with
  | _ n ih =>
    rw [BoundedSet.addRange]
    by_cases hr : r.isEmpty = true
    · simp only [hr, Bool.not_true, Bool.false_eq_true, if_false]
      refine Comp.ok ?_ id
      rw [BoundedRange.sem1_of_isEmpty hr, Set.union_empty]
      rfl
    · rw [if_pos (by simp [hr])]
      split
      · rename_i index hidx
        obtain ⟨hlt, hint, _⟩ := List.findIdx?_eq_some_iff_getElem.mp hidx
        have hget : vdIndex s.ranges index = .ok s.ranges[index] := by
          simp [vdIndex, unwrap, List.getElem?_eq_getElem hlt]
        rw [hget, Res.ok_bind, BoundedRange.combine_eq hint, Res.ok_bind]
        have hlen : (s.ranges.eraseIdx index).length < n := by
          rw [List.length_eraseIdx_of_lt hlt]; omega
        refine (ih _ hlen ⟨s.ranges.eraseIdx index⟩ _ rfl).congr ?_ ?_
        · rw [BoundedRange.sem1_combine hint]
          have h2 := sem_eq_eraseIdx_union s.ivs index (by simpa [BoundedSet.ivs] using hlt)
          rw [h2]
          simp only [BoundedSet.ivs, eraseIdx_map_iv, List.getElem_map]
          rw [Set.union_assoc, Set.union_comm (sem1 r.iv)]
        · intro hc
          refine hc.sublist ?_
          exact (List.eraseIdx_sublist _ _).map _
      · rename_i hnone
        simp only [vdInsert_eq]
        simp only [Res.ok_bind, Res.pure_eq]
        refine Comp.ok (sem_takeWhile_cons_dropWhile _ _ _) fun hc => ?_
        refine canon_insert hc ?_ ?_
        · exact (BoundedRange.isEmpty_eq_false_iff r).mp (by simpa using hr)
        · intro x hx
          have := List.findIdx?_eq_none_iff.mp hnone x hx
          simp [this]

theorem BoundedSet.mem_sem_ivs {s : BoundedSet T} {q : ECut T × Side} :
    q ∈ sem s.ivs ↔ ∃ r ∈ s.ranges, q ∈ sem1 r.iv := by
  simp [mem_sem, BoundedSet.ivs]

theorem BoundedSet.addSet_comp (s o : BoundedSet T) :
    Comp (s.addSet o) (sem s.ivs ∪ sem o.ivs) (Canon s.ivs) := by
  refine (Comp.foldlM (g := fun r => sem1 r.iv) (I := fun _ => True)
    (fun a r _ => BoundedSet.addRange_comp a r) o.ranges (fun _ _ => trivial) s).congr ?_ id
  ext q
  rw [Set.mem_union, Set.mem_union, BoundedSet.mem_sem_ivs (s := o)]
  rfl

theorem BoundedSet.ofBR_sem (r : BoundedRange T) : sem (BoundedSet.ofBR r).ivs = sem1 r.iv := by
  unfold BoundedSet.ofBR
  split
  · rename_i h
    rw [BoundedRange.sem1_of_isEmpty h]
    simp [BoundedSet.empty, BoundedSet.ivs]
  · simp [BoundedSet.ivs]

theorem BoundedSet.ofBR_canon (r : BoundedRange T) : Canon (BoundedSet.ofBR r).ivs := by
  unfold BoundedSet.ofBR
  split
  · exact canon_nil
  · rename_i h
    exact canon_singleton.mpr ((BoundedRange.isEmpty_eq_false_iff r).mp (by simpa using h))

theorem BoundedSet.retainNonEmpty_sem (s : BoundedSet T) :
    sem s.retainNonEmpty.ivs = sem s.ivs := by
  ext q
  rw [BoundedSet.mem_sem_ivs, BoundedSet.mem_sem_ivs]
  constructor
  · rintro ⟨r, hr, hq⟩
    exact ⟨r, (List.mem_filter.mp hr).1, hq⟩
  · rintro ⟨r, hr, hq⟩
    refine ⟨r, List.mem_filter.mpr ⟨hr, ?_⟩, hq⟩
    by_contra h
    have : r.isEmpty = true := by simpa using h
    rw [BoundedRange.sem1_of_isEmpty this] at hq
    exact hq

theorem BoundedSet.retainNonEmpty_canon {s : BoundedSet T} (h : Canon s.ivs) :
    Canon s.retainNonEmpty.ivs :=
  h.sublist (List.filter_sublist.map _)

theorem BoundedSet.isEmpty_iff (s : BoundedSet T) :
    s.isEmpty = true ↔ ∀ r ∈ s.ranges, r.isEmpty = true := by
  simp [BoundedSet.isEmpty]

theorem BoundedSet.isEmpty_of_canon {s : BoundedSet T} (h : Canon s.ivs) (he : s.isEmpty = true) :
    s.ranges = [] := by
  cases hs : s.ranges with
  | nil => rfl
  | cons r l =>
    have h1 := (BoundedSet.isEmpty_iff s).mp he r (by simp [hs])
    rw [BoundedRange.isEmpty_iff] at h1
    have h2 := h.1 r.iv (by simp [BoundedSet.ivs, hs])
    exact absurd h2 h1.not_gt

/-! ### LowerBoundedSet -/

theorem LowerBoundedSet.defragment_comp (s : LowerBoundedSet T) :
    Comp s.defragment (sem s.ivs) (Canon s.ranges.ivs) := by
  induction hn : s.ranges.ranges.length using Nat.strong_induction_on generalizing s with
  | _ n ih =>
    rw [LowerBoundedSet.defragment]
    by_cases he : s.ranges.isEmpty = true
    · simp only [he, Bool.not_true, Bool.false_eq_true, if_false]
      refine Comp.ok rfl fun hc => ?_
      have := BoundedSet.isEmpty_of_canon hc he
      show Canon s.ivs
      simp [LowerBoundedSet.ivs, BoundedSet.ivs, this, canon_singleton, LowerBoundedRange.iv]
    · rw [if_pos (by simp [he])]
      split
      · rename_i hnone
        rw [List.getLast?_eq_none_iff] at hnone
        exact absurd ((BoundedSet.isEmpty_iff _).mpr (by simp [hnone])) he
      · rename_i range hlast
        obtain ⟨init, hinit⟩ : ∃ init, s.ranges.ranges = init ++ [range] := by
          obtain ⟨l, hl⟩ := List.getLast?_eq_some_iff.mp hlast
          exact ⟨l, hl⟩
        have hivs : s.ranges.ivs = init.map BoundedRange.iv ++ [range.iv] := by
          simp [BoundedSet.ivs, hinit]
        split
        · rename_i hemp
          rw [BoundedRange.isEmpty_iff] at hemp
          simp only [BoundedRange.interLBR, lo_max, le_max_iff] at hemp
          refine Comp.ok rfl fun hc => ?_
          show Canon s.ivs
          rw [LowerBoundedSet.ivs, canon_append]
          refine ⟨hc, canon_singleton.mpr (lo_lt_top _), ?_⟩
          rw [hivs] at hc ⊢
          obtain ⟨_, hc2, hc3⟩ := canon_append.mp hc
          have hne : lo range.start < hi range.stop := canon_singleton.mp hc2
          have hle := hemp.resolve_left (not_le.mpr hne)
          intro p hp q hq
          rw [List.mem_singleton] at hq
          subst hq
          rcases List.mem_append.mp hp with hp | hp
          · exact ((hc3 p hp range.iv (by simp)).trans hne.le).trans hle
          · rw [List.mem_singleton] at hp
            subst hp
            exact hle
        · rename_i hemp
          rw [BoundedRange.isEmpty_iff, not_le] at hemp
          simp only [BoundedRange.interLBR, lo_max] at hemp
          have hdrop : s.ranges.ranges.dropLast = init := by simp [hinit]
          have hlen : init.length < n := by
            rw [← hn, hinit]; simp
          rw [hdrop]
          refine (ih _ hlen ⟨⟨init⟩, _⟩ rfl).congr ?_ ?_
          · have hm := sem1_merge (p := range.iv) (q := s.lowerBoundedRange.iv) (by
              simp only [BoundedRange.iv, LowerBoundedRange.iv]
              rw [min_eq_left le_top]
              exact hemp)
            have h3 : sem1 (LowerBoundedRange.iv
                ⟨s.lowerBoundedRange.start.min range.start⟩) =
                sem1 range.iv ∪ sem1 s.lowerBoundedRange.iv := by
              rw [hm]
              simp [LowerBoundedRange.iv, BoundedRange.iv, min_comm]
            simp only [LowerBoundedSet.ivs, hivs, sem_append, sem_cons, sem_nil,
              Set.union_empty, Set.union_assoc, h3]
            rfl
          · intro hc
            rw [hivs] at hc
            exact (canon_append.mp hc).1

theorem LowerBoundedSet.canon_ranges {s : LowerBoundedSet T} (h : Canon s.ivs) :
    Canon s.ranges.ivs := (canon_append.mp h).1

theorem LowerBoundedSet.addRange_comp (s : LowerBoundedSet T) (r : BoundedRange T) :
    Comp (s.addRange r) (sem s.ivs ∪ sem1 r.iv) (Canon s.ivs) := by
  refine Comp.bind (BoundedSet.addRange_comp s.ranges r) fun b _ hb hc => ?_
  refine (LowerBoundedSet.defragment_comp _).congr ?_ fun h => hc (LowerBoundedSet.canon_ranges h)
  have hb' : sem b.ivs = sem s.ranges.ivs ∪ sem1 r.iv := hb
  simp only [LowerBoundedSet.ivs, sem_append, hb', Set.union_assoc]
  rw [Set.union_comm (sem1 r.iv)]

theorem LowerBoundedSet.addLowerBoundedRange_comp (s : LowerBoundedSet T)
    (r : LowerBoundedRange T) :
    Comp (s.addLowerBoundedRange r) (sem s.ivs ∪ sem1 r.iv) (Canon s.ivs) := by
  refine (LowerBoundedSet.defragment_comp _).congr ?_
    fun h => LowerBoundedSet.canon_ranges (s := s) h
  have hm := sem1_merge (p := s.lowerBoundedRange.iv) (q := r.iv) (by
    simp [LowerBoundedRange.iv])
  simp only [LowerBoundedSet.ivs, sem_append, sem_cons, sem_nil, Set.union_empty, Set.union_assoc,
    hm]
  simp [LowerBoundedRange.iv]

theorem LowerBoundedSet.addSet_comp (s : LowerBoundedSet T) (o : BoundedSet T) :
    Comp (s.addSet o) (sem s.ivs ∪ sem o.ivs) (Canon s.ivs) := by
  refine (Comp.foldlM (g := fun r => sem1 r.iv) (I := fun _ => True)
    (fun a r _ => LowerBoundedSet.addRange_comp a r) o.ranges (fun _ _ => trivial) s).congr ?_ id
  ext q
  rw [Set.mem_union, Set.mem_union, BoundedSet.mem_sem_ivs (s := o)]
  rfl

/-! ### UpperBoundedSet -/

theorem UpperBoundedSet.defragment_comp (s : UpperBoundedSet T) :
    Comp s.defragment (sem s.ivs) (Canon s.ranges.ivs) := by
  induction hn : s.ranges.ranges.length using Nat.strong_induction_on generalizing s with
  | _ n ih =>
    rw [UpperBoundedSet.defragment]
    by_cases he : s.ranges.isEmpty = true
    · simp only [he, Bool.not_true, Bool.false_eq_true, if_false]
      refine Comp.ok rfl fun hc => ?_
      have := BoundedSet.isEmpty_of_canon hc he
      show Canon s.ivs
      simp [UpperBoundedSet.ivs, BoundedSet.ivs, this, canon_singleton, UpperBoundedRange.iv]
    · rw [if_pos (by simp [he])]
      split
      · rename_i hnone
        exact absurd ((BoundedSet.isEmpty_iff _).mpr (by simp [hnone])) he
      · rename_i range rest hcons
        have hivs : s.ranges.ivs = range.iv :: rest.map BoundedRange.iv := by
          simp [BoundedSet.ivs, hcons]
        split
        · rename_i hemp
          rw [BoundedRange.isEmpty_iff] at hemp
          simp only [BoundedRange.interUBR, hi_min, min_le_iff] at hemp
          refine Comp.ok rfl fun hc => ?_
          show Canon s.ivs
          rw [UpperBoundedSet.ivs, canon_cons]
          refine ⟨bot_lt_hi _, ?_, hc⟩
          rw [hivs] at hc ⊢
          obtain ⟨hc1, hc2, hc3⟩ := canon_cons.mp hc
          have hne : lo range.start < hi range.stop := hc1
          have hle := hemp.resolve_left (not_le.mpr hne)
          intro p hp
          rcases List.mem_cons.mp hp with rfl | hp
          · exact hle
          · exact hle.trans (hne.le.trans (hc2 p hp))
        · rename_i hemp
          rw [BoundedRange.isEmpty_iff, not_le] at hemp
          simp only [BoundedRange.interUBR, hi_min] at hemp
          have hlen : rest.length < n := by
            rw [← hn, hcons]; simp
          refine (ih _ hlen ⟨_, ⟨rest⟩⟩ rfl).congr ?_ ?_
          · have hm := sem1_merge (p := s.upperBoundedRange.iv) (q := range.iv) (by
              simp only [BoundedRange.iv, UpperBoundedRange.iv]
              rw [max_eq_right bot_le, min_comm]
              exact hemp)
            have h3 : sem1 (UpperBoundedRange.iv
                ⟨s.upperBoundedRange.stop.max range.stop⟩) =
                sem1 s.upperBoundedRange.iv ∪ sem1 range.iv := by
              rw [hm]
              simp [UpperBoundedRange.iv, BoundedRange.iv]
            simp only [UpperBoundedSet.ivs, hivs, sem_cons, ← Set.union_assoc, h3]
            rfl
          · intro hc
            rw [hivs] at hc
            exact (canon_cons.mp hc).2.2

theorem UpperBoundedSet.canon_ranges {s : UpperBoundedSet T} (h : Canon s.ivs) :
    Canon s.ranges.ivs := (canon_cons.mp h).2.2

theorem UpperBoundedSet.addRange_comp (s : UpperBoundedSet T) (r : BoundedRange T) :
    Comp (s.addRange r) (sem s.ivs ∪ sem1 r.iv) (Canon s.ivs) := by
  refine Comp.bind (BoundedSet.addRange_comp s.ranges r) fun b _ hb hc => ?_
  refine (UpperBoundedSet.defragment_comp _).congr ?_ fun h => hc (UpperBoundedSet.canon_ranges h)
  have hb' : sem b.ivs = sem s.ranges.ivs ∪ sem1 r.iv := hb
  simp only [UpperBoundedSet.ivs, sem_cons, hb', Set.union_assoc]

theorem UpperBoundedSet.addUpperBoundedRange_comp (s : UpperBoundedSet T)
    (r : UpperBoundedRange T) :
    Comp (s.addUpperBoundedRange r) (sem s.ivs ∪ sem1 r.iv) (Canon s.ivs) := by
  refine (UpperBoundedSet.defragment_comp _).congr ?_
    fun h => UpperBoundedSet.canon_ranges (s := s) h
  have hm := sem1_merge (p := s.upperBoundedRange.iv) (q := r.iv) (by
    simp [UpperBoundedRange.iv])
  simp only [UpperBoundedSet.ivs, sem_cons]
  rw [Set.union_right_comm, hm]
  simp [UpperBoundedRange.iv]

theorem UpperBoundedSet.addSet_comp (s : UpperBoundedSet T) (o : BoundedSet T) :
    Comp (s.addSet o) (sem s.ivs ∪ sem o.ivs) (Canon s.ivs) := by
  refine (Comp.foldlM (g := fun r => sem1 r.iv) (I := fun _ => True)
    (fun a r _ => UpperBoundedSet.addRange_comp a r) o.ranges (fun _ _ => trivial) s).congr ?_ id
  ext q
  rw [Set.mem_union, Set.mem_union, BoundedSet.mem_sem_ivs (s := o)]
  rfl

/-! ### UnboundedSet -/

theorem UpperBoundedRange.intersectsBR_iff (u : UpperBoundedRange T) (r : BoundedRange T) :
    u.intersectsBR r = true ↔ lo r.start < min (hi r.stop) (hi u.stop) := by
  rw [UpperBoundedRange.intersectsBR, Bool.not_eq_true', BoundedRange.isEmpty_eq_false_iff]
  simp [UpperBoundedRange.interBR, BoundedRange.interUBR]

theorem LowerBoundedRange.intersectsBR_iff (l : LowerBoundedRange T) (r : BoundedRange T) :
    l.intersectsBR r = true ↔ max (lo r.start) (lo l.start) < hi r.stop := by
  rw [LowerBoundedRange.intersectsBR, Bool.not_eq_true', BoundedRange.isEmpty_eq_false_iff]
  simp [LowerBoundedRange.interBR, BoundedRange.interLBR]

theorem UpperBoundedRange.intersectsLBR_iff (u : UpperBoundedRange T) (l : LowerBoundedRange T) :
    u.intersectsLBR l = true ↔ lo l.start < hi u.stop := by
  rw [UpperBoundedRange.intersectsLBR, Bool.not_eq_true', BoundedRange.isEmpty_eq_false_iff]
  simp [UpperBoundedRange.interLBR, LowerBoundedRange.interUBR]

/-- Outcome of `PiecewiseUnboundedSet.defragment`: same probes, and if the bounded pieces were
canonical then they still are and none of them meets a half-line. -/
theorem PiecewiseUnboundedSet.defragment_spec (s : PiecewiseUnboundedSet T) :
    ∃ p, s.defragment = .ok p ∧ sem p.ivs = sem s.ivs ∧
      (Canon s.ranges.ivs → Canon p.ranges.ivs ∧
        ∀ r ∈ p.ranges.ranges, ¬ p.upperBoundedRange.intersectsBR r = true ∧
          ¬ p.lowerBoundedRange.intersectsBR r = true) := by
  induction hn : s.ranges.ranges.length using Nat.strong_induction_on generalizing s with
  | _ n ih =>
    rw [PiecewiseUnboundedSet.defragment]
    split
    · rename_i index hidx
      obtain ⟨hlt, hint, _⟩ := List.findIdx?_eq_some_iff_getElem.mp hidx
      have hget : unwrap "called `Option::unwrap()` on a `None` value" s.ranges.ranges[index]? =
          .ok s.ranges.ranges[index] := by
        simp [unwrap, List.getElem?_eq_getElem hlt]
      rw [hget, Res.ok_bind]
      have hlen : (s.ranges.ranges.eraseIdx index).length < n := by
        rw [List.length_eraseIdx_of_lt hlt]; omega
      obtain ⟨p, hp1, hp2, hp3⟩ := ih _ hlen
        { s with
          ranges := ⟨s.ranges.ranges.eraseIdx index⟩
          upperBoundedRange := ⟨s.upperBoundedRange.stop.max s.ranges.ranges[index].stop⟩ } rfl
      refine ⟨p, hp1, ?_, fun hc => hp3 (hc.sublist ((List.eraseIdx_sublist _ _).map _))⟩
      rw [hp2]
      rw [UpperBoundedRange.intersectsBR_iff] at hint
      have hm := sem1_merge (p := s.upperBoundedRange.iv) (q := s.ranges.ranges[index].iv) (by
        simp only [BoundedRange.iv, UpperBoundedRange.iv]
        rw [max_eq_right bot_le, min_comm]
        exact hint)
      have h2 := sem_eq_eraseIdx_union s.ranges.ivs index (by simpa [BoundedSet.ivs] using hlt)
      simp only [PiecewiseUnboundedSet.ivs, sem_cons, sem_append, h2]
      simp only [BoundedSet.ivs, eraseIdx_map_iv, List.getElem_map] at *
      have h3 : sem1 (UpperBoundedRange.iv
          ⟨s.upperBoundedRange.stop.max s.ranges.ranges[index].stop⟩) =
          sem1 s.upperBoundedRange.iv ∪ sem1 s.ranges.ranges[index].iv := by
        rw [hm]
        simp [UpperBoundedRange.iv, BoundedRange.iv]
      rw [h3]
      ext q
      simp only [Set.mem_union]
      tauto
    · rename_i hnone
      split
      · rename_i index hidx
        obtain ⟨hlt, hint, _⟩ := List.findIdx?_eq_some_iff_getElem.mp hidx
        have hget : unwrap "called `Option::unwrap()` on a `None` value" s.ranges.ranges[index]? =
            .ok s.ranges.ranges[index] := by
          simp [unwrap, List.getElem?_eq_getElem hlt]
        rw [hget, Res.ok_bind]
        have hlen : (s.ranges.ranges.eraseIdx index).length < n := by
          rw [List.length_eraseIdx_of_lt hlt]; omega
        obtain ⟨p, hp1, hp2, hp3⟩ := ih _ hlen
          { s with
            ranges := ⟨s.ranges.ranges.eraseIdx index⟩
            lowerBoundedRange := ⟨s.lowerBoundedRange.start.min s.ranges.ranges[index].start⟩ } rfl
        refine ⟨p, hp1, ?_, fun hc => hp3 (hc.sublist ((List.eraseIdx_sublist _ _).map _))⟩
        rw [hp2]
        rw [LowerBoundedRange.intersectsBR_iff] at hint
        have hm := sem1_merge (p := s.lowerBoundedRange.iv) (q := s.ranges.ranges[index].iv) (by
          simp only [BoundedRange.iv, LowerBoundedRange.iv]
          rw [min_eq_right le_top, max_comm]
          exact hint)
        have h2 := sem_eq_eraseIdx_union s.ranges.ivs index (by simpa [BoundedSet.ivs] using hlt)
        simp only [PiecewiseUnboundedSet.ivs, sem_cons, sem_append, h2]
        simp only [BoundedSet.ivs, eraseIdx_map_iv, List.getElem_map] at *
        have h3 : sem1 (LowerBoundedRange.iv
            ⟨s.lowerBoundedRange.start.min s.ranges.ranges[index].start⟩) =
            sem1 s.lowerBoundedRange.iv ∪ sem1 s.ranges.ranges[index].iv := by
          rw [hm]
          simp [LowerBoundedRange.iv, BoundedRange.iv]
        rw [h3]
        ext q
        simp only [Set.mem_union, sem_nil, Set.mem_empty_iff_false]
        tauto
      · rename_i hnone'
        refine ⟨s, rfl, rfl, fun hc => ⟨hc, fun r hr => ⟨?_, ?_⟩⟩⟩
        · simp [List.findIdx?_eq_none_iff.mp hnone r hr]
        · simp [List.findIdx?_eq_none_iff.mp hnone' r hr]

/-- The bounded pieces of an unbounded set. -/
def UnboundedSet.pieces : UnboundedSet T → BoundedSet T
  | .full => BoundedSet.empty
  | .piecewise p => p.ranges

theorem sem_full_of_overlap {u : UpperBoundedRange T} {l : LowerBoundedRange T}
    (h : lo l.start < hi u.stop) : sem1 u.iv ∪ sem1 l.iv = sem1 (⊥, ⊤) := by
  rw [sem1_merge (by simpa [UpperBoundedRange.iv, LowerBoundedRange.iv] using h)]
  simp [UpperBoundedRange.iv, LowerBoundedRange.iv]

theorem sem1_subset_full (p : ECut T × ECut T) : sem1 p ⊆ sem1 (⊥, ⊤) := by
  rintro ⟨x, s⟩ h
  cases s
  · rw [mem_before] at *; exact ⟨bot_le.trans_lt h.1, le_top⟩
  · rw [mem_at] at *; exact ⟨bot_le.trans_lt h.1, h.2.trans_le le_top⟩
  · rw [mem_after] at *; exact ⟨bot_le, h.2.trans_le le_top⟩

theorem sem_subset_full (L : List (ECut T × ECut T)) : sem L ⊆ sem1 (⊥, ⊤) := by
  rintro q ⟨p, _, h⟩
  exact sem1_subset_full p h

theorem UnboundedSet.defragment_comp (s : UnboundedSet T) :
    Comp s.defragment (sem s.ivs) (Canon s.pieces.ivs) := by
  cases s with
  | full =>
    refine Comp.ok rfl fun _ => ?_
    simp [HasIvs.ivs, UnboundedSet.ivs, canon_singleton]
  | piecewise s =>
    obtain ⟨p, hp1, hp2, hp3⟩ := PiecewiseUnboundedSet.defragment_spec s
    simp only [UnboundedSet.defragment, UnboundedSet.mapPiecewise, hp1, Res.ok_bind, Res.pure_eq]
    split
    · rename_i hint
      rw [UpperBoundedRange.intersectsLBR_iff] at hint
      refine Comp.ok ?_ fun _ => by simp [HasIvs.ivs, UnboundedSet.ivs, canon_singleton]
      show sem [(⊥, ⊤)] = sem s.ivs
      rw [← hp2, PiecewiseUnboundedSet.ivs]
      have := sem_full_of_overlap hint
      apply Set.Subset.antisymm
      · rw [sem_cons, sem_nil, Set.union_empty, ← this]
        intro q hq
        simp only [sem_cons, sem_append, Set.mem_union] at *
        tauto
      · rw [sem_cons (⊥, ⊤), sem_nil, Set.union_empty]
        exact sem_subset_full _
    · rename_i hint
      rw [UpperBoundedRange.intersectsLBR_iff, not_lt] at hint
      refine Comp.ok hp2 fun hc => ?_
      obtain ⟨hc1, hc2⟩ := hp3 hc
      show Canon (_ :: (_ ++ _))
      rw [canon_cons, canon_append]
      refine ⟨bot_lt_hi _, ?_, hc1, canon_singleton.mpr (lo_lt_top _), ?_⟩
      · intro q hq
        rcases List.mem_append.mp hq with hq | hq
        · obtain ⟨r, hr, rfl⟩ := List.mem_map.mp hq
          have h1 := (hc2 r hr).1
          rw [UpperBoundedRange.intersectsBR_iff, not_lt, min_le_iff] at h1
          exact h1.resolve_left (not_le.mpr (hc1.1 _ hq))
        · rw [List.mem_singleton] at hq
          subst hq
          exact hint
      · intro q hq q' hq'
        rw [List.mem_singleton] at hq'
        subst hq'
        obtain ⟨r, hr, rfl⟩ := List.mem_map.mp hq
        have h1 := (hc2 r hr).2
        rw [LowerBoundedRange.intersectsBR_iff, not_lt, le_max_iff] at h1
        exact h1.resolve_left (not_le.mpr (hc1.1 _ hq))

theorem UnboundedSet.canon_pieces {s : UnboundedSet T} (h : Canon s.ivs) : Canon s.pieces.ivs := by
  cases s with
  | full => exact canon_nil
  | piecewise p => exact (canon_append.mp (canon_cons.mp h).2.2).1

theorem sem_full_union (S : Set (ECut T × Side)) (h : S ⊆ sem1 (⊥, ⊤)) :
    sem (UnboundedSet.ivs (.full : UnboundedSet T)) ∪ S = sem (UnboundedSet.ivs .full) := by
  simp only [UnboundedSet.ivs, sem_cons, sem_nil, Set.union_empty]
  exact Set.union_eq_left.mpr h

theorem UnboundedSet.addRange_comp (s : UnboundedSet T) (r : BoundedRange T) :
    Comp (s.addRange r) (sem s.ivs ∪ sem1 r.iv) (Canon s.ivs) := by
  cases s with
  | full =>
    exact (UnboundedSet.defragment_comp .full).congr
      (sem_full_union _ (sem1_subset_full _)).symm UnboundedSet.canon_pieces
  | piecewise p =>
    obtain ⟨b, hb1, hb2, hb3⟩ := BoundedSet.addRange_comp p.ranges r
    simp only [UnboundedSet.addRange, UnboundedSet.mapPiecewise, hb1, Res.ok_bind, Res.pure_eq]
    refine (UnboundedSet.defragment_comp _).congr ?_
      fun h => hb3 (UnboundedSet.canon_pieces h)
    have hb' : sem b.ivs = sem p.ranges.ivs ∪ sem1 r.iv := hb2
    simp only [UnboundedSet.ivs, PiecewiseUnboundedSet.ivs, sem_cons, sem_append, hb']
    ext q
    simp only [Set.mem_union]
    tauto

theorem UnboundedSet.addLowerBoundedRange_comp (s : UnboundedSet T) (r : LowerBoundedRange T) :
    Comp (s.addLowerBoundedRange r) (sem s.ivs ∪ sem1 r.iv) (Canon s.ivs) := by
  cases s with
  | full =>
    exact (UnboundedSet.defragment_comp .full).congr
      (sem_full_union _ (sem1_subset_full _)).symm UnboundedSet.canon_pieces
  | piecewise p =>
    simp only [UnboundedSet.addLowerBoundedRange, UnboundedSet.mapPiecewise, Res.ok_bind,
      Res.pure_eq]
    refine (UnboundedSet.defragment_comp _).congr ?_
      fun h => UnboundedSet.canon_pieces (s := .piecewise p) h
    have hm := sem1_merge (p := p.lowerBoundedRange.iv) (q := r.iv) (by
      simp [LowerBoundedRange.iv])
    have h3 : sem1 (LowerBoundedRange.iv ⟨p.lowerBoundedRange.start.min r.start⟩) =
        sem1 p.lowerBoundedRange.iv ∪ sem1 r.iv := by
      rw [hm]
      simp [LowerBoundedRange.iv]
    simp only [UnboundedSet.ivs, PiecewiseUnboundedSet.ivs, sem_cons, sem_append, h3]
    ext q
    simp only [Set.mem_union, sem_nil, Set.mem_empty_iff_false]
    tauto

theorem UnboundedSet.addUpperBoundedRange_comp (s : UnboundedSet T) (r : UpperBoundedRange T) :
    Comp (s.addUpperBoundedRange r) (sem s.ivs ∪ sem1 r.iv) (Canon s.ivs) := by
  cases s with
  | full =>
    exact (UnboundedSet.defragment_comp .full).congr
      (sem_full_union _ (sem1_subset_full _)).symm UnboundedSet.canon_pieces
  | piecewise p =>
    simp only [UnboundedSet.addUpperBoundedRange, UnboundedSet.mapPiecewise, Res.ok_bind,
      Res.pure_eq]
    refine (UnboundedSet.defragment_comp _).congr ?_
      fun h => UnboundedSet.canon_pieces (s := .piecewise p) h
    have hm := sem1_merge (p := p.upperBoundedRange.iv) (q := r.iv) (by
      simp [UpperBoundedRange.iv])
    have h3 : sem1 (UpperBoundedRange.iv ⟨p.upperBoundedRange.stop.max r.stop⟩) =
        sem1 p.upperBoundedRange.iv ∪ sem1 r.iv := by
      rw [hm]
      simp [UpperBoundedRange.iv]
    simp only [UnboundedSet.ivs, PiecewiseUnboundedSet.ivs, sem_cons, sem_append, h3]
    ext q
    simp only [Set.mem_union]
    tauto

theorem UnboundedSet.addSet_comp (s : UnboundedSet T) (o : BoundedSet T) :
    Comp (s.addSet o) (sem s.ivs ∪ sem o.ivs) (Canon s.ivs) := by
  refine (Comp.foldlM (g := fun r => sem1 r.iv) (I := fun _ => True)
    (fun a r _ => UnboundedSet.addRange_comp a r) o.ranges (fun _ _ => trivial) s).congr ?_ id
  ext q
  rw [Set.mem_union, Set.mem_union, BoundedSet.mem_sem_ivs (s := o)]
  rfl

theorem UnboundedSet.addUnboundedSet_comp (s o : UnboundedSet T) :
    Comp (s.addUnboundedSet o) (sem s.ivs ∪ sem o.ivs) (Canon s.ivs) := by
  cases o with
  | full =>
    refine Comp.ok ?_ fun _ => by simp [HasIvs.ivs, UnboundedSet.ivs, canon_singleton]
    show sem (UnboundedSet.ivs .full) = _
    rw [Set.union_comm, sem_full_union _ (sem_subset_full _)]
  | piecewise p =>
    refine Comp.bind (UnboundedSet.addLowerBoundedRange_comp s _) fun a _ ha hca => ?_
    refine Comp.bind (UnboundedSet.addUpperBoundedRange_comp a _) fun b _ hb hcb => ?_
    refine Comp.bind (UnboundedSet.addSet_comp b _) fun c _ hc hcc => ?_
    refine (UnboundedSet.defragment_comp c).congr ?_
      fun h => UnboundedSet.canon_pieces (hcc (hcb (hca h)))
    have ha' : sem a.ivs = _ := ha
    have hb' : sem b.ivs = _ := hb
    have hc' : sem c.ivs = _ := hc
    rw [hc', hb', ha']
    simp only [UnboundedSet.ivs, PiecewiseUnboundedSet.ivs, sem_cons, sem_append]
    ext q
    simp only [Set.mem_union, sem_nil, Set.mem_empty_iff_false]
    tauto

theorem UnboundedSet.new_sem (u : UpperBoundedRange T) (l : LowerBoundedRange T) :
    sem (UnboundedSet.new u l).ivs = sem1 u.iv ∪ sem1 l.iv := by
  unfold UnboundedSet.new
  split
  · simp [UnboundedSet.ivs, PiecewiseUnboundedSet.ivs, BoundedSet.ivs, BoundedSet.empty]
  · rename_i h
    rw [BoundedRange.isEmpty_iff, not_le] at h
    rw [sem_full_of_overlap h]
    simp [UnboundedSet.ivs]

theorem UnboundedSet.new_canon (u : UpperBoundedRange T) (l : LowerBoundedRange T) :
    Canon (UnboundedSet.new u l).ivs := by
  unfold UnboundedSet.new
  split
  · rename_i h
    rw [BoundedRange.isEmpty_iff] at h
    simp only [UnboundedSet.ivs, PiecewiseUnboundedSet.ivs, BoundedSet.ivs, BoundedSet.empty,
      List.map_nil, List.nil_append]
    rw [canon_cons, canon_singleton]
    refine ⟨bot_lt_hi _, ?_, lo_lt_top _⟩
    intro q hq
    rw [List.mem_singleton] at hq
    subst hq
    exact h
  · simp [UnboundedSet.ivs, canon_singleton]

end Rangetools
