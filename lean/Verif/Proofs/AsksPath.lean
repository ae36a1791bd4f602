import Verif.Proofs.AsksWp

/-!
# Programs that compare: results that some answers lead to
-/

namespace Rangetools
open Asks

namespace Asks
variable {T α β : Type}

/-- Some answers lead to a result in `Q`. -/
def Can (Q : α → Prop) : Asks T α → Prop
  | .done a => Q a
  | .panic _ => False
  | .test _ _ _ k => ∃ r, (k r).Can Q
  | .cmp _ _ k => ∃ r, (k (some r)).Can Q

theorem can_mono {Q Q' : α → Prop} {x : Asks T α} (h : x.Can Q) (hQ : ∀ a, Q a → Q' a) : x.Can Q' := by
  induction x with
  | done a => exact hQ a h
  | panic m => exact h
  | test q a b k ih => exact h.imp fun r hr => ih r hr
  | cmp a b k ih => exact h.imp fun r hr => ih _ hr

theorem can_seq {Q : α → Prop} {Q' : β → Prop} {x : Asks T α} {f : α → Asks T β} (h : x.Can Q)
    (hf : ∀ a, Q a → (f a).Can Q') : (x >>= f).Can Q' := by
  induction x with
  | done a => exact hf a h
  | panic m => exact h
  | test q a b k ih => exact h.imp fun r hr => ih r hr
  | cmp a b k ih => exact h.imp fun r hr => ih _ hr

/-- The answers can be given by a list. -/
theorem can_script {Q : α → Prop} {x : Asks T α} (h : x.Can Q) :
    ∃ s a, Q a ∧ (x.exec World.script s).1 = some (.ok a) := by
  induction x with
  | done a => exact ⟨[], a, h, rfl⟩
  | panic m => exact h.elim
  | test q a b k ih =>
    obtain ⟨r, hr⟩ := h
    obtain ⟨s, c, hc, hs⟩ := ih r hr
    exact ⟨(r, .eq) :: s, c, hc, by simpa [exec, World.script] using hs⟩
  | cmp a b k ih =>
    obtain ⟨r, hr⟩ := h
    obtain ⟨s, c, hc, hs⟩ := ih _ hr
    exact ⟨(false, r) :: s, c, hc, by simpa [exec, World.script] using hs⟩

theorem can_position {f : α → Asks T Bool} {l : List α} (hf : ∀ x ∈ l, (f x).Can (· = false)) :
    (position f l).Can (· = none) := by
  induction l with
  | nil => exact rfl
  | cons x xs ih =>
    refine can_seq (hf x List.mem_cons_self) fun r hr => ?_
    subst hr
    refine can_seq (ih fun x hx => hf x (List.mem_cons_of_mem _ hx)) fun o ho => ?_
    subst ho
    exact rfl

theorem can_all {f : α → Asks T Bool} {l : List α} (hf : ∀ x ∈ l, (f x).Can (· = true)) :
    (all f l).Can (· = true) := by
  induction l with
  | nil => exact rfl
  | cons x xs ih =>
    refine can_seq (hf x List.mem_cons_self) fun r hr => ?_
    subst hr
    exact ih fun x hx => hf x (List.mem_cons_of_mem _ hx)

theorem can_map {f : α → Asks T β} {l : List α} (hf : ∀ x ∈ l, (f x).Can fun _ => True) :
    (map f l).Can (·.length = l.length) := by
  induction l with
  | nil => exact rfl
  | cons x xs ih =>
    refine can_seq (hf x List.mem_cons_self) fun r _ => ?_
    refine can_seq (ih fun x hx => hf x (List.mem_cons_of_mem _ hx)) fun o ho => ?_
    exact congrArg (· + 1) ho

theorem can_filter {f : α → Asks T Bool} {l : List α} (hf : ∀ x ∈ l, (f x).Can (· = true)) :
    (filter f l).Can (· = l) := by
  induction l with
  | nil => exact rfl
  | cons x xs ih =>
    refine can_seq (hf x List.mem_cons_self) fun r hr => ?_
    subst hr
    refine can_seq (ih fun x hx => hf x (List.mem_cons_of_mem _ hx)) fun o ho => ?_
    exact congrArg (x :: ·) ho

theorem can_fold {f : β → α → Asks T β} {l : List α} {I : Nat → β → Prop}
    (hf : ∀ i b, I i b → ∀ x ∈ l, (f b x).Can (I (i + 1))) {i : Nat} {b : β} (hb : I i b) :
    (fold f b l).Can (I (i + l.length)) := by
  induction l generalizing i b with
  | nil => exact hb
  | cons x xs ih =>
    refine can_seq (hf i b hb x List.mem_cons_self) fun b' hb' => ?_
    have := ih (fun i b hb x hx => hf i b hb x (List.mem_cons_of_mem _ hx)) hb'
    rwa [Nat.add_assoc, Nat.add_comm 1] at this

end Asks

variable {T : Type} {v : MaxVia}

theorem LowerBound.partialCmpA_can (a b : LowerBound T) (o : Ordering) : (a.partialCmpA b).Can (· = some o) := by
  rcases a with ⟨a | a⟩ <;> rcases b with ⟨b | b⟩
  · exact ⟨o, rfl⟩
  · exact ⟨false, o, rfl⟩
  · exact ⟨false, o, rfl⟩
  · exact ⟨o, rfl⟩

theorem UpperBound.partialCmpA_can (a b : UpperBound T) (o : Ordering) : (a.partialCmpA b).Can (· = some o) := by
  rcases a with ⟨a | a⟩ <;> rcases b with ⟨b | b⟩
  · exact ⟨o, rfl⟩
  · exact ⟨false, o, rfl⟩
  · exact ⟨false, o, rfl⟩
  · exact ⟨o, rfl⟩

theorem LowerBound.maxA_can (a b : LowerBound T) : (a.maxA v b).Can fun _ => True := by
  cases v
  · refine can_seq (can_seq (a.partialCmpA_can b .lt) (Q' := (· = .lt)) fun o ho => by subst ho; rfl) fun o ho => ?_
    subst ho; trivial
  · refine can_seq (can_seq (b.partialCmpA_can a .lt) (Q' := (· = true)) fun o ho => by subst ho; rfl) fun o ho => ?_
    subst ho; trivial

theorem LowerBound.minA_can (a b : LowerBound T) : (a.minA v b).Can fun _ => True := by
  cases v
  · refine can_seq (can_seq (a.partialCmpA_can b .lt) (Q' := (· = .lt)) fun o ho => by subst ho; rfl) fun o ho => ?_
    subst ho; trivial
  · refine can_seq (can_seq (b.partialCmpA_can a .lt) (Q' := (· = true)) fun o ho => by subst ho; rfl) fun o ho => ?_
    subst ho; trivial

theorem UpperBound.maxA_can (a b : UpperBound T) : (a.maxA v b).Can fun _ => True := by
  cases v
  · refine can_seq (can_seq (a.partialCmpA_can b .lt) (Q' := (· = .lt)) fun o ho => by subst ho; rfl) fun o ho => ?_
    subst ho; trivial
  · refine can_seq (can_seq (b.partialCmpA_can a .lt) (Q' := (· = true)) fun o ho => by subst ho; rfl) fun o ho => ?_
    subst ho; trivial

theorem UpperBound.minA_can (a b : UpperBound T) : (a.minA v b).Can fun _ => True := by
  cases v
  · refine can_seq (can_seq (a.partialCmpA_can b .lt) (Q' := (· = .lt)) fun o ho => by subst ho; rfl) fun o ho => ?_
    subst ho; trivial
  · refine can_seq (can_seq (b.partialCmpA_can a .lt) (Q' := (· = true)) fun o ho => by subst ho; rfl) fun o ho => ?_
    subst ho; trivial

theorem BoundedRange.isEmptyA_can (r : BoundedRange T) (x : Bool) : r.isEmptyA.Can (· = x) := by
  rcases r with ⟨⟨a | a⟩, ⟨b | b⟩⟩ <;> exact ⟨x, rfl⟩

theorem BoundedRange.interBRA_can (a b : BoundedRange T) : (a.interBRA v b).Can fun _ => True :=
  can_seq (LowerBound.maxA_can _ _) fun _ _ => can_seq (UpperBound.minA_can _ _) fun _ _ => trivial

theorem BoundedRange.interLBRA_can (a : BoundedRange T) (b) : (a.interLBRA v b).Can fun _ => True :=
  can_seq (LowerBound.maxA_can _ _) fun _ _ => trivial

theorem BoundedRange.interUBRA_can (a : BoundedRange T) (b) : (a.interUBRA v b).Can fun _ => True :=
  can_seq (UpperBound.minA_can _ _) fun _ _ => trivial

theorem BoundedRange.intersectsBRA_can (a b : BoundedRange T) : (a.intersectsBRA v b).Can (· = false) :=
  can_seq (a.interBRA_can b) fun c _ => can_seq (c.isEmptyA_can true) fun _ h => by subst h; rfl

theorem UpperBoundedRange.intersectsBRA_can (a : UpperBoundedRange T) (b) : (a.intersectsBRA v b).Can (· = false) :=
  can_seq (BoundedRange.interUBRA_can b a) fun c _ => can_seq (c.isEmptyA_can true) fun _ h => by subst h; rfl

theorem LowerBoundedRange.intersectsBRA_can (a : LowerBoundedRange T) (b) : (a.intersectsBRA v b).Can (· = false) :=
  can_seq (BoundedRange.interLBRA_can b a) fun c _ => can_seq (c.isEmptyA_can true) fun _ h => by subst h; rfl

theorem UpperBoundedRange.intersectsLBRA_can (a : UpperBoundedRange T) (b : LowerBoundedRange T) :
    (a.intersectsLBRA b).Can (· = false) :=
  can_seq (BoundedRange.isEmptyA_can _ true) fun _ h => by subst h; rfl

/-! ### Pieces that pile up -/

theorem BoundedSet.isEmptyA_can (s : BoundedSet T) : s.isEmptyA.Can (· = true) :=
  can_all fun x _ => x.isEmptyA_can true

theorem BoundedSet.ofBRA_can (r : BoundedRange T) : (ofBRA r).Can (·.ranges.length = 1) :=
  can_seq (r.isEmptyA_can false) fun _ h => by subst h; rfl

theorem BoundedSet.retainNonEmptyA_can (s : BoundedSet T) : s.retainNonEmptyA.Can (·.ranges.length = s.ranges.length) :=
  can_seq (can_filter fun x _ => can_seq (x.isEmptyA_can false) fun _ h => by subst h; rfl) fun _ h => by subst h; rfl

theorem BoundedSet.addRangeA_can (s : BoundedSet T) (r : BoundedRange T) :
    (s.addRangeA v r).Can (·.ranges.length = s.ranges.length + 1) := by
  rw [addRangeA]
  refine can_seq (r.isEmptyA_can false) fun b hb => ?_
  subst hb
  refine can_seq (can_position fun x _ => x.intersectsBRA_can r) fun o ho => ?_
  subst ho
  refine can_seq (can_position fun x _ => can_seq (x.start.partialCmpA_can r.start .lt) fun o ho => by subst ho; rfl)
    fun o ho => ?_
  subst ho
  simp [vdInsert, ofRes, Can, bind, Asks.bind, pure]

theorem BoundedSet.addSetA_can (s b : BoundedSet T) :
    (s.addSetA v b).Can (·.ranges.length = s.ranges.length + b.ranges.length) :=
  can_fold (I := fun i (x : BoundedSet T) => x.ranges.length = i)
    (fun _ b hb x _ => can_mono (b.addRangeA_can x) fun c hc => by rw [hc, hb]) rfl

theorem BoundedSet.interBRA_can (s : BoundedSet T) (r) : (s.interBRA v r).Can (·.ranges.length = s.ranges.length) :=
  can_seq (can_map fun x _ => x.interBRA_can r) fun l hl =>
    can_mono (BoundedSet.retainNonEmptyA_can ⟨l⟩) fun _ h => h.trans hl

theorem BoundedSet.interLBRA_can (s : BoundedSet T) (r) : (s.interLBRA v r).Can (·.ranges.length = s.ranges.length) :=
  can_seq (can_map fun x _ => x.interLBRA_can r) fun l hl =>
    can_mono (BoundedSet.retainNonEmptyA_can ⟨l⟩) fun _ h => h.trans hl

theorem BoundedSet.interUBRA_can (s : BoundedSet T) (r) : (s.interUBRA v r).Can (·.ranges.length = s.ranges.length) :=
  can_seq (can_map fun x _ => x.interUBRA_can r) fun l hl =>
    can_mono (BoundedSet.retainNonEmptyA_can ⟨l⟩) fun _ h => h.trans hl

theorem LowerBoundedSet.defragmentA_can (s : LowerBoundedSet T) : (s.defragmentA v).Can (· = s) := by
  rw [defragmentA]
  exact can_seq s.ranges.isEmptyA_can fun _ h => by subst h; rfl

theorem UpperBoundedSet.defragmentA_can (s : UpperBoundedSet T) : (s.defragmentA v).Can (· = s) := by
  rw [defragmentA]
  exact can_seq s.ranges.isEmptyA_can fun _ h => by subst h; rfl

theorem LowerBoundedSet.addSetA_can (s : LowerBoundedSet T) (b : BoundedSet T) :
    (s.addSetA v b).Can (·.ranges.ranges.length = s.ranges.ranges.length + b.ranges.length) :=
  can_fold (I := fun i (x : LowerBoundedSet T) => x.ranges.ranges.length = i)
    (fun _ _ hb x _ => can_seq (BoundedSet.addRangeA_can _ x) fun _ hc =>
      can_mono (defragmentA_can _) fun _ hd => by rw [hd, hc, hb]) rfl

theorem UpperBoundedSet.addSetA_can (s : UpperBoundedSet T) (b : BoundedSet T) :
    (s.addSetA v b).Can (·.ranges.ranges.length = s.ranges.ranges.length + b.ranges.length) :=
  can_fold (I := fun i (x : UpperBoundedSet T) => x.ranges.ranges.length = i)
    (fun _ _ hb x _ => can_seq (BoundedSet.addRangeA_can _ x) fun _ hc =>
      can_mono (defragmentA_can _) fun _ hd => by rw [hd, hc, hb]) rfl

/-- A piecewise set with `k` bounded pieces. -/
def UnboundedSet.Pw (k : Nat) (s : UnboundedSet T) : Prop := ∃ p, s = .piecewise p ∧ p.ranges.ranges.length = k

theorem PiecewiseUnboundedSet.defragmentA_can (s : PiecewiseUnboundedSet T) : (s.defragmentA v).Can (· = s) := by
  rw [defragmentA]
  refine can_seq (can_position fun x _ => s.upperBoundedRange.intersectsBRA_can x) fun o ho => ?_
  subst ho
  refine can_seq (can_position fun x _ => s.lowerBoundedRange.intersectsBRA_can x) fun o ho => ?_
  subst ho
  rfl

theorem UnboundedSet.addSetA_can {k : Nat} {s : UnboundedSet T} (hs : s.Pw k) (b : BoundedSet T) :
    (s.addSetA v b).Can (·.Pw (k + b.ranges.length)) := by
  refine can_fold (I := fun i (x : UnboundedSet T) => x.Pw i) ?_ hs
  rintro i _ ⟨p, rfl, hp⟩ x _
  refine can_seq (can_seq (can_seq (BoundedSet.addRangeA_can p.ranges x)
    (Q' := fun q : PiecewiseUnboundedSet T => q.ranges.ranges.length = i + 1) fun c hc => hc.trans (by rw [hp]))
    (Q' := fun s : UnboundedSet T => s.Pw (i + 1)) fun q hq => ⟨q, rfl, hq⟩) fun s hs => ?_
  obtain ⟨q, rfl, hq⟩ := hs
  refine can_seq (can_seq q.defragmentA_can (Q' := (· = UnboundedSet.piecewise q)) fun c hc => by subst hc; rfl) fun s hs => ?_
  subst hs
  exact can_seq (UpperBoundedRange.intersectsLBRA_can _ _) fun b hb => by subst hb; exact ⟨q, rfl, hq⟩

theorem LowerBoundedSet.unionUBSA_can (s : LowerBoundedSet T) (t : UpperBoundedSet T) :
    (s.unionUBSA v t).Can (·.Pw (s.ranges.ranges.length + t.ranges.ranges.length)) := by
  refine can_seq (can_seq (BoundedRange.isEmptyA_can _ true) (Q' := fun s : UnboundedSet T => s.Pw 0)
    fun b hb => by subst hb; exact ⟨_, rfl, rfl⟩) fun a ha => ?_
  refine can_seq (UnboundedSet.addSetA_can ha s.ranges) fun b hb => ?_
  rw [Nat.zero_add] at hb
  exact UnboundedSet.addSetA_can hb t.ranges

theorem BoundedRange.complementA_can (r : BoundedRange T) : (r.complementA v).Can (·.Pw 0) :=
  LowerBoundedSet.unionUBSA_can (.ofLBR ⟨.ofBound r.stop.b.flipped⟩) (.ofUBR ⟨.ofBound r.start.b.flipped⟩)

theorem UpperBoundedSet.interLBRA_can (s : UpperBoundedSet T) (r) :
    (s.interLBRA v r).Can (·.ranges.length = s.ranges.ranges.length + 1) := by
  refine can_seq (BoundedSet.ofBRA_can _) fun a ha => ?_
  refine can_seq a.retainNonEmptyA_can fun b hb => ?_
  refine can_seq (s.ranges.interLBRA_can r) fun c hc => ?_
  exact can_mono (b.addSetA_can c) fun d hd => by omega

theorem LowerBoundedSet.interUBRA_can (s : LowerBoundedSet T) (r) :
    (s.interUBRA v r).Can (·.ranges.length = s.ranges.ranges.length + 1) := by
  refine can_seq (BoundedSet.ofBRA_can _) fun a ha => ?_
  refine can_seq a.retainNonEmptyA_can fun b hb => ?_
  refine can_seq (s.ranges.interUBRA_can r) fun c hc => ?_
  refine can_seq (b.addSetA_can c) fun d hd => ?_
  exact can_mono d.retainNonEmptyA_can fun e he => by omega

theorem UpperBoundedSet.interBRA_can (s : UpperBoundedSet T) (r) :
    (s.interBRA v r).Can (·.ranges.length = s.ranges.ranges.length + 1) := by
  refine can_seq (BoundedRange.interUBRA_can _ _) fun x _ => ?_
  refine can_seq (BoundedSet.ofBRA_can x) fun a ha => ?_
  refine can_seq a.retainNonEmptyA_can fun b hb => ?_
  refine can_seq (s.ranges.interBRA_can r) fun c hc => ?_
  exact can_mono (b.addSetA_can c) fun d hd => by omega

theorem LowerBoundedSet.interBRA_can (s : LowerBoundedSet T) (r) :
    (s.interBRA v r).Can (·.ranges.length = s.ranges.ranges.length + 1) := by
  refine can_seq (BoundedRange.interLBRA_can _ _) fun x _ => ?_
  refine can_seq (BoundedSet.ofBRA_can x) fun a ha => ?_
  refine can_seq (s.ranges.interBRA_can r) fun c hc => ?_
  exact can_mono (a.addSetA_can c) fun d hd => by omega

theorem BoundedSet.interLBSA_can (s : BoundedSet T) (t : LowerBoundedSet T) :
    (s.interLBSA v t).Can (·.ranges.length = s.ranges.length * (t.ranges.ranges.length + 2)) := by
  refine can_seq (s.interLBRA_can _) fun a ha => ?_
  refine can_mono (can_fold (I := fun i (b : BoundedSet T) =>
    b.ranges.length = s.ranges.length + i * (t.ranges.ranges.length + 1)) ?_ (i := 0) (by rw [ha]; omega)) fun d hd => ?_
  · intro i b hb x _
    refine can_seq (t.interBRA_can x) fun c hc => can_mono (b.addSetA_can c) fun d hd => ?_
    rw [hd, hb, hc]; ring
  · rw [hd]; ring

theorem BoundedSet.interUBSA_can (s : BoundedSet T) (t : UpperBoundedSet T) :
    (s.interUBSA v t).Can (·.ranges.length = s.ranges.length * (t.ranges.ranges.length + 2)) := by
  refine can_seq (s.interUBRA_can _) fun a ha => ?_
  refine can_mono (can_fold (I := fun i (b : BoundedSet T) =>
    b.ranges.length = s.ranges.length + i * (t.ranges.ranges.length + 1)) ?_ (i := 0) (by rw [ha]; omega)) fun d hd => ?_
  · intro i b hb x _
    refine can_seq (t.interBRA_can x) fun c hc => can_mono (b.addSetA_can c) fun d hd => ?_
    rw [hd, hb, hc]; ring
  · rw [hd]; ring

theorem BoundedSet.interBSA_can (s t : BoundedSet T) :
    (s.interBSA v t).Can (·.ranges.length = s.ranges.length * t.ranges.length) := by
  refine can_mono (can_fold (I := fun i (b : BoundedSet T) => b.ranges.length = i * t.ranges.length) ?_ (i := 0)
    (by simp [BoundedSet.empty])) fun d hd => by simpa using hd
  intro i b hb x _
  refine can_seq (t.interBRA_can x) fun c hc => can_mono (b.addSetA_can c) fun d hd => ?_
  rw [hd, hb, hc]; ring

theorem UpperBoundedSet.interUBRA_can (s : UpperBoundedSet T) (r) :
    (s.interUBRA v r).Can (·.ranges.ranges.length = s.ranges.ranges.length) := by
  refine can_seq (can_seq (UpperBound.minA_can _ _) (Q' := fun _ => True) fun _ _ => trivial) fun a _ => ?_
  refine can_seq (s.ranges.interUBRA_can r) fun c hc => ?_
  exact can_mono (addSetA_can (.ofUBR a) c) fun d hd => by rw [hd, hc]; simp [ofUBR, BoundedSet.empty]

theorem LowerBoundedSet.interLBRA_can (s : LowerBoundedSet T) (r) :
    (s.interLBRA v r).Can (·.ranges.ranges.length = s.ranges.ranges.length) := by
  refine can_seq (can_seq (LowerBound.maxA_can _ _) (Q' := fun _ => True) fun _ _ => trivial) fun a _ => ?_
  exact can_seq (s.ranges.interLBRA_can r) fun c hc => hc

theorem BoundedSet.interUSA_can (s : BoundedSet T) {k : Nat} {t : UnboundedSet T} (ht : t.Pw k) :
    (s.interUSA v t).Can (·.ranges.length = s.ranges.length * (k + 2)) := by
  obtain ⟨p, rfl, hp⟩ := ht
  refine can_seq (s.interUBRA_can p.upperBoundedRange) fun a ha => ?_
  refine can_seq (s.interLBRA_can p.lowerBoundedRange) fun b hb => ?_
  refine can_seq (a.addSetA_can b) fun c hc => ?_
  refine can_seq (s.interBSA_can p.ranges) fun d hd => ?_
  exact can_mono (c.addSetA_can d) fun e he => by rw [he, hc, ha, hb, hd, hp]; ring

theorem UpperBoundedSet.interUSA_can (s : UpperBoundedSet T) {k : Nat} {t : UnboundedSet T} (ht : t.Pw k) :
    (s.interUSA v t).Can
      (·.ranges.ranges.length = 2 * s.ranges.ranges.length + 1 + k * (s.ranges.ranges.length + 2)) := by
  obtain ⟨p, rfl, hp⟩ := ht
  refine can_seq (s.interUBRA_can p.upperBoundedRange) fun a ha => ?_
  refine can_seq (s.interLBRA_can p.lowerBoundedRange) fun b hb => ?_
  refine can_seq (a.addSetA_can b) fun c hc => ?_
  refine can_seq (p.ranges.interUBSA_can s) fun d hd => ?_
  exact can_mono (c.addSetA_can d) fun e he => by rw [he, hc, ha, hb, hd, hp]; ring

theorem LowerBoundedSet.interUSA_can (s : LowerBoundedSet T) {k : Nat} {t : UnboundedSet T} (ht : t.Pw k) :
    (s.interUSA v t).Can
      (·.ranges.ranges.length = 2 * s.ranges.ranges.length + 1 + k * (s.ranges.ranges.length + 2)) := by
  obtain ⟨p, rfl, hp⟩ := ht
  refine can_seq (s.interLBRA_can p.lowerBoundedRange) fun a ha => ?_
  refine can_seq (s.interUBRA_can p.upperBoundedRange) fun b hb => ?_
  refine can_seq (a.addSetA_can b) fun c hc => ?_
  refine can_seq (p.ranges.interLBSA_can s) fun d hd => ?_
  exact can_mono (c.addSetA_can d) fun e he => by rw [he, hc, ha, hb, hd, hp]; ring

theorem UnboundedSet.interUSA_can {k l : Nat} {s t : UnboundedSet T} (hs : s.Pw k) (ht : t.Pw l) :
    (s.interUSA v t).Can (·.Pw (k * l + 4 * k + 2 * l + 2)) := by
  obtain ⟨q, rfl, hq⟩ := ht
  have e : ∀ m : Nat, (UnboundedSet.interUSA v s (.piecewise q)).Can (·.Pw m) ↔ (do
      let a ← (UpperBoundedSet.ofUBR q.upperBoundedRange).interUSA v s
      let b ← (LowerBoundedSet.ofLBR q.lowerBoundedRange).interUSA v s
      let c ← q.ranges.interUSA v s
      (← b.addSetA v c).unionUBSA v a : Asks T (UnboundedSet T)).Can (·.Pw m) := by
    obtain ⟨p, rfl, hp⟩ := hs
    exact fun _ => Iff.rfl
  rw [e]
  refine can_seq (UpperBoundedSet.interUSA_can _ hs) fun a ha => ?_
  refine can_seq (LowerBoundedSet.interUSA_can _ hs) fun b hb => ?_
  refine can_seq (BoundedSet.interUSA_can _ hs) fun c hc => ?_
  refine can_seq (b.addSetA_can c) fun d hd => ?_
  refine can_mono (d.unionUBSA_can a) fun e he => ?_
  rw [hd, ha, hb, hc, hq] at he
  simp only [UpperBoundedSet.ofUBR, LowerBoundedSet.ofLBR, BoundedSet.empty, List.length_nil] at he
  have e : 2 * 0 + 1 + k * (0 + 2) + l * (k + 2) + (2 * 0 + 1 + k * (0 + 2)) = k * l + 4 * k + 2 * l + 2 := by ring
  rwa [e] at he

theorem BoundedSet.complementA_can (s : BoundedSet T) (h : s.ranges ≠ []) :
    (s.complementA v).Can (fun c => ∃ k, c.Pw k ∧ 3 * k + 2 = 2 * 4 ^ (s.ranges.length - 1)) := by
  have := can_fold (l := s.ranges) (I := fun i (b : UnboundedSet T) =>
      (i = 0 → b = .full) ∧ (i ≠ 0 → ∃ k, b.Pw k ∧ 3 * k + 2 = 2 * 4 ^ (i - 1)))
    (f := fun acc range => do acc.interUSA v (← range.complementA v)) (i := 0) (b := .full) ?_ ⟨by simp, by simp⟩
  · refine can_mono this fun c hc => ?_
    have := hc.2 (by simpa using h)
    simpa using this
  · intro i b hb x _
    refine can_seq x.complementA_can fun c hc => ?_
    rcases i with _ | i
    · rw [hb.1 rfl]
      exact ⟨by simp, fun _ => ⟨0, hc, by simp⟩⟩
    · obtain ⟨k, hk, hk2⟩ := hb.2 (by simp)
      refine can_mono (UnboundedSet.interUSA_can hk hc) fun d hd => ⟨by simp, fun _ => ⟨_, hd, ?_⟩⟩
      simp only [Nat.add_sub_cancel] at *
      rw [Nat.pow_succ]
      omega

theorem LowerBoundedSet.complementA_can (s : LowerBoundedSet T) :
    (s.complementA v).Can (·.ranges.ranges.length + 1 = 2 ^ s.ranges.ranges.length) := by
  refine can_mono (can_fold (l := s.ranges.ranges) (I := fun i (b : UpperBoundedSet T) => b.ranges.ranges.length + 1 = 2 ^ i)
    (f := fun acc range => do acc.interUSA v (← range.complementA v)) ?_ (i := 0) (by
      simp [UpperBoundedSet.ofUBR, BoundedSet.empty])) fun d hd => by simpa using hd
  intro i b hb x _
  refine can_seq x.complementA_can fun c hc => can_mono (b.interUSA_can hc) fun d hd => ?_
  rw [Nat.pow_succ]; omega

theorem UpperBoundedSet.complementA_can (s : UpperBoundedSet T) :
    (s.complementA v).Can (·.ranges.ranges.length + 1 = 2 ^ s.ranges.ranges.length) := by
  refine can_mono (can_fold (l := s.ranges.ranges) (I := fun i (b : LowerBoundedSet T) => b.ranges.ranges.length + 1 = 2 ^ i)
    (f := fun acc range => do acc.interUSA v (← range.complementA v)) ?_ (i := 0) (by
      simp [LowerBoundedSet.ofLBR, BoundedSet.empty])) fun d hd => by simpa using hd
  intro i b hb x _
  refine can_seq x.complementA_can fun c hc => can_mono (b.interUSA_can hc) fun d hd => ?_
  rw [Nat.pow_succ]; omega

theorem UnboundedSet.complementA_can (p : PiecewiseUnboundedSet T) :
    (UnboundedSet.complementA v (.piecewise p)).Can (·.ranges.length = 2 ^ p.ranges.ranges.length) := by
  refine can_seq (BoundedSet.ofBRA_can _) fun a ha => ?_
  refine can_mono (can_fold (l := p.ranges.ranges) (I := fun i (b : BoundedSet T) => b.ranges.length = 2 ^ i)
    (f := fun acc range => do acc.interUSA v (← range.complementA v)) ?_ (i := 0) (by rw [ha]; simp)) fun d hd => by simpa using hd
  intro i b hb x _
  refine can_seq x.complementA_can fun c hc => can_mono (b.interUSA_can hc) fun d hd => ?_
  rw [Nat.pow_succ]; omega

end Rangetools
