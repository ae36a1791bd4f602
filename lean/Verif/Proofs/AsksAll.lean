import Verif.Proofs.AsksWp

/-!
# The public operations on all fifteen types, whatever the comparisons answer
-/

namespace Rangetools
open Asks

section
variable {T : Type}

/-- Every endpoint is in `P`, by kind. -/
def Inner.EndsIn (P : T → Prop) : Inner T → Prop
  | .br r => r.EndsIn P
  | .bs s => s.EndsIn P
  | .lbr r => r.EndsIn P
  | .lbs s => s.EndsIn P
  | .ubr r => r.EndsIn P
  | .ubs s => s.EndsIn P
  | .us s => s.EndsIn P
  | .ur => True
  | .er => True

/-- The number of bounded pieces, by kind. -/
def Inner.len : Inner T → Nat
  | .br _ => 1
  | .bs s => s.ranges.length
  | .lbs s => s.ranges.ranges.length
  | .ubs s => s.ranges.ranges.length
  | .us s => s.len
  | _ => 0

/-- Every endpoint is in `P`, by kind. -/
def SetVal.EndsIn (P : T → Prop) (s : SetVal T) : Prop := s.toInner.EndsIn P

/-- The number of bounded pieces, by kind. -/
def SetVal.len (s : SetVal T) : Nat := s.toInner.len

theorem BoundedSet.endsIn_iff {P : T → Prop} {s : BoundedSet T} : s.EndsIn P ↔ ∀ x ∈ endpointsOf s.ranges, P x := by
  simp only [EndsIn, endpointsOf, List.mem_flatMap, BoundedRange.EndsIn, LowerBound.EndsIn, UpperBound.EndsIn]
  constructor
  · rintro h x ⟨r, hr, hx⟩
    rcases (by simpa using hx : x = r.start.b.value ∨ x = r.stop.b.value) with rfl | rfl
    · exact (h r hr).1
    · exact (h r hr).2
  · exact fun h r hr => ⟨h _ ⟨r, hr, by simp⟩, h _ ⟨r, hr, by simp⟩⟩

theorem Inner.endsIn_iff {P : T → Prop} {i : Inner T} : i.EndsIn P ↔ ∀ x ∈ i.endpoints, P x := by
  rcases i with r | s | r | s | r | s | _ | s | _
  · simp [EndsIn, endpoints, BoundedRange.EndsIn, LowerBound.EndsIn, UpperBound.EndsIn]
  · exact BoundedSet.endsIn_iff
  · simp [EndsIn, endpoints, LowerBoundedRange.EndsIn, LowerBound.EndsIn]
  · simp only [EndsIn, endpoints, LowerBoundedSet.EndsIn, BoundedSet.endsIn_iff, LowerBoundedRange.EndsIn, LowerBound.EndsIn,
      List.forall_mem_append, List.forall_mem_singleton]
  · simp [EndsIn, endpoints, UpperBoundedRange.EndsIn, UpperBound.EndsIn]
  · simp only [EndsIn, endpoints, UpperBoundedSet.EndsIn, BoundedSet.endsIn_iff, UpperBoundedRange.EndsIn, UpperBound.EndsIn,
      List.forall_mem_cons]
    exact and_comm
  · simp [EndsIn, endpoints]
  · rcases s with _ | p
    · simp [EndsIn, endpoints, UnboundedSet.EndsIn]
    · simp only [EndsIn, endpoints, UnboundedSet.EndsIn, PiecewiseUnboundedSet.EndsIn, BoundedSet.endsIn_iff,
        UpperBoundedRange.EndsIn, UpperBound.EndsIn, LowerBoundedRange.EndsIn, LowerBound.EndsIn,
        List.forall_mem_cons, List.forall_mem_append]
      tauto
  · simp [EndsIn, endpoints]

theorem Inner.len_eq (i : Inner T) : i.len = (Any.inner i).pieces := by
  rcases i with r | s | r | s | r | s | _ | s | _ <;> try rfl
  cases s <;> rfl

theorem Any.len_toInner (a : Any T) : a.toInner.len = a.pieces := by
  rcases a with r | r | r | r | r | _ | i <;> try rfl
  exact i.len_eq

theorem Any.endsIn_toInner {P : T → Prop} {a : Any T} : a.toInner.EndsIn P ↔ ∀ x ∈ a.endpoints, P x := by
  rcases a with r | r | r | r | r | _ | i
  · simp [endpoints, Inner.endsIn_iff, Inner.endpoints, toInner, BoundedRange.ofRange, LowerBound.included,
      UpperBound.excluded, Bound.value]
  · simp [endpoints, Inner.endsIn_iff, Inner.endpoints, toInner, BoundedRange.ofRangeInclusive, LowerBound.included,
      UpperBound.included, Bound.value]
  · simp [endpoints, Inner.endsIn_iff, Inner.endpoints, toInner, LowerBoundedRange.ofRangeFrom, LowerBound.included,
      Bound.value]
  · simp [endpoints, Inner.endsIn_iff, Inner.endpoints, toInner, UpperBoundedRange.ofRangeTo, UpperBound.excluded,
      Bound.value]
  · simp [endpoints, Inner.endsIn_iff, Inner.endpoints, toInner, UpperBoundedRange.ofRangeToInclusive,
      UpperBound.included, Bound.value]
  · simp [endpoints, toInner, Inner.EndsIn]
  · exact Inner.endsIn_iff

end

section
variable {T : Type} {R : Rules T} {v : MaxVia} {n : Nat}

/-! ### `contains` and `is_empty` -/

theorem BoundedRange.containsA_wp {r : BoundedRange T} {t : T} (h : r.EndsIn R.P) (ht : R.P t) :
    (r.containsA t).wp R (fun _ k => k ≤ n + 2) n := by
  rcases r with ⟨⟨a | a⟩, ⟨b | b⟩⟩ <;> exact ⟨⟨ht, h.1⟩, fun _ => ⟨⟨ht, h.2⟩, fun _ => le_rfl⟩⟩

theorem BoundedSet.containsA_wp {s : BoundedSet T} {t : T} (h : s.EndsIn R.P) (ht : R.P t) :
    (s.containsA t).wp R (fun _ k => k ≤ n + 2 * s.ranges.length) n :=
  wp_any fun x hx _ => BoundedRange.containsA_wp (h x hx) ht

theorem LowerBoundedRange.containsA_wp {r : LowerBoundedRange T} {t : T} (h : r.EndsIn R.P) (ht : R.P t) :
    (r.containsA t).wp R (fun _ k => k ≤ n + 1) n := by
  rcases r with ⟨⟨a | a⟩⟩ <;> exact ⟨⟨ht, h⟩, fun _ => le_rfl⟩

theorem UpperBoundedRange.containsA_wp {r : UpperBoundedRange T} {t : T} (h : r.EndsIn R.P) (ht : R.P t) :
    (r.containsA t).wp R (fun _ k => k ≤ n + 1) n := by
  rcases r with ⟨⟨a | a⟩⟩ <;> exact ⟨⟨ht, h⟩, fun _ => le_rfl⟩

theorem Inner.containsA_wp {i : Inner T} {t : T} (h : i.EndsIn R.P) (ht : R.P t) :
    (i.containsA t).wp R (fun _ k => k ≤ n + (2 * i.len + 2)) n := by
  rcases i with r | s | r | s | r | s | _ | s | _
  · exact wp_mono (BoundedRange.containsA_wp h ht) fun _ _ h => by simp only [len]; omega
  · exact wp_mono (BoundedSet.containsA_wp h ht) fun _ _ h => by simp only [len]; omega
  · exact wp_mono (LowerBoundedRange.containsA_wp h ht) fun _ _ h => by simp only [len]; omega
  · refine wp_seq (LowerBoundedRange.containsA_wp h.2 ht) fun b k hk => ?_
    cases b
    · exact wp_mono (BoundedSet.containsA_wp h.1 ht) fun _ _ h => by
        simp only [len]; omega
    · exact (by simp only [len]; omega : k ≤ n + (2 * (Inner.lbs s).len + 2))
  · exact wp_mono (UpperBoundedRange.containsA_wp h ht) fun _ _ h => by simp only [len]; omega
  · refine wp_seq (UpperBoundedRange.containsA_wp h.2 ht) fun b k hk => ?_
    cases b
    · exact wp_mono (BoundedSet.containsA_wp h.1 ht) fun _ _ h => by
        simp only [len]; omega
    · exact (by simp only [len]; omega : k ≤ n + (2 * (Inner.ubs s).len + 2))
  · exact Nat.le_add_right _ _
  · rcases s with _ | p
    · exact Nat.le_add_right _ _
    · refine wp_seq (UpperBoundedRange.containsA_wp h.2.2 ht) fun b k hk => ?_
      cases b
      · refine wp_seq (LowerBoundedRange.containsA_wp h.2.1 ht) fun b k hk => ?_
        cases b
        · exact wp_mono (BoundedSet.containsA_wp h.1 ht)
            fun _ _ h => by simp only [len, UnboundedSet.len]; omega
        · exact (by simp only [len, UnboundedSet.len]; omega : k ≤ n + (2 * (Inner.us (.piecewise p)).len + 2))
      · exact (by simp only [len, UnboundedSet.len]; omega : k ≤ n + (2 * (Inner.us (.piecewise p)).len + 2))
  · exact Nat.le_add_right _ _

theorem Any.containsA_wp {a : Any T} {t : T} (h : ∀ x ∈ a.endpoints, R.P x) (ht : R.P t) :
    (a.containsA t).wp R (fun _ k => k ≤ n + (2 * a.pieces + 2)) n := by
  rcases a with r | r | r | r | r | _ | i
  · simp only [endpoints, List.mem_cons, List.not_mem_nil, or_false, forall_eq_or_imp, forall_eq] at h
    refine ⟨⟨h.1, ht⟩, fun b => ?_⟩
    cases b
    · exact (by simp only [pieces]; omega : n + 1 ≤ n + (2 * (Any.range r).pieces + 2))
    · exact ⟨⟨ht, h.2⟩, fun _ => (by simp only [pieces]; omega : n + 1 + 1 ≤ n + (2 * (Any.range r).pieces + 2))⟩
  · simp only [endpoints, List.mem_cons, List.not_mem_nil, or_false, forall_eq_or_imp, forall_eq] at h
    refine ⟨⟨h.1, ht⟩, fun b => ?_⟩
    have e : n + 1 + 1 ≤ n + (2 * (Any.rangeInclusive r).pieces + 2) := by simp only [pieces]; omega
    cases b
    · exact (Nat.le_succ _).trans e
    · cases r.exhausted <;> exact ⟨⟨ht, h.2⟩, fun _ => e⟩
  · exact ⟨⟨h _ (by simp [endpoints]), ht⟩, fun _ => (by omega : n + 1 ≤ n + (2 * (Any.rangeFrom r).pieces + 2))⟩
  · exact ⟨⟨ht, h _ (by simp [endpoints])⟩, fun _ => (by omega : n + 1 ≤ n + (2 * (Any.rangeTo r).pieces + 2))⟩
  · exact ⟨⟨ht, h _ (by simp [endpoints])⟩, fun _ => (by omega : n + 1 ≤ n + (2 * (Any.rangeToInclusive r).pieces + 2))⟩
  · exact Nat.le_add_right _ _
  · rw [← Inner.len_eq] at *
    exact Inner.containsA_wp (Inner.endsIn_iff.mpr h) ht

theorem Inner.isEmptyA_wp {i : Inner T} (h : i.EndsIn R.P) :
    i.isEmptyA.wp R (fun _ k => k ≤ n + i.len) n := by
  rcases i with r | s | r | s | r | s | _ | s | _
  · exact BoundedRange.isEmptyA_wp h
  · exact wp_mono (BoundedSet.isEmptyA_wp h) fun _ _ h => h.2
  all_goals exact Nat.le_add_right _ _

theorem Any.isEmptyA_wp {a : Any T} (h : ∀ x ∈ a.endpoints, R.P x) :
    a.isEmptyA.wp R (fun _ k => k ≤ n + a.pieces) n := by
  rcases a with r | r | r | r | r | _ | i
  · simp only [endpoints, List.mem_cons, List.not_mem_nil, or_false, forall_eq_or_imp, forall_eq] at h
    exact ⟨h, fun _ => le_rfl⟩
  · simp only [endpoints, List.mem_cons, List.not_mem_nil, or_false, forall_eq_or_imp, forall_eq] at h
    exact ⟨h, fun _ => le_rfl⟩
  · exact Nat.le_add_right _ _
  · exact Nat.le_add_right _ _
  · exact Nat.le_add_right _ _
  · exact Nat.le_add_right _ _
  · rw [← Inner.len_eq] at *
    exact Inner.isEmptyA_wp (Inner.endsIn_iff.mpr h)

/-! ### `union` -/

theorem Inner.toSetA_wp {i : Inner T} (h : i.EndsIn R.P) :
    i.toSetA.wp R (fun s k => s.EndsIn R.P ∧ s.len ≤ i.len ∧ k ≤ n + 1) n := by
  have hb : BoundedSet.EndsIn R.P (BoundedSet.empty : BoundedSet T) := by simp [BoundedSet.EndsIn, BoundedSet.empty]
  rcases i with r | s | r | s | r | s | _ | s | _
  · exact wp_seq (BoundedSet.ofBRA_wp h) fun s k hk => hk
  · exact ⟨h, le_rfl, Nat.le_succ _⟩
  · exact ⟨⟨hb, h⟩, le_rfl, Nat.le_succ _⟩
  · exact ⟨h, le_rfl, Nat.le_succ _⟩
  · exact ⟨⟨hb, h⟩, le_rfl, Nat.le_succ _⟩
  · exact ⟨h, le_rfl, Nat.le_succ _⟩
  · exact ⟨trivial, le_rfl, Nat.le_succ _⟩
  · exact ⟨h, le_rfl, Nat.le_succ _⟩
  · exact ⟨trivial, le_rfl, Nat.le_succ _⟩

theorem SetVal.unionA_wp {A : Nat} {s t : SetVal T} (hs : s.EndsIn R.P) (ht : t.EndsIn R.P)
    (hA : 12 + 7 * (s.len + t.len) ≤ A) (hn : R.OkUpTo v (n + A * (3 * (s.len + t.len) + 5))) :
    (s.unionA v t).wp R (fun u k => u.EndsIn R.P ∧ u.len ≤ s.len + t.len ∧
      k ≤ n + A * (3 * (s.len + t.len) + 5)) n := by
  have key : ∀ c l, c ≤ 3 * (s.len + t.len) + 5 → n + A * c ≤ n + A * (3 * (s.len + t.len) + 5) ∧
      (∀ k, k + A * l ≤ n + A * c → k ≤ n + A * (3 * (s.len + t.len) + 5)) := by
    intro c l hc
    have := Nat.mul_le_mul_left A hc
    exact ⟨by omega, fun k hk => by omega⟩
  rcases s with s | s | s | s | _ | _ <;> rcases t with t | t | t | t | _ | _
  · exact wp_seq (BoundedSet.addSetA_wp (A := A) hs ht hA
      (hn.mono (key (s.ranges.length + 2 * t.ranges.length) 0 (by simp only [len, toInner, Inner.len]; omega)).1))
      fun u k hk => ⟨hk.1, hk.2.1, (key _ _ (by simp only [len, toInner, Inner.len]; omega)).2 k hk.2.2⟩
  · exact wp_seq (LowerBoundedSet.addSetA_wp (A := A) ht hs (by simp only [len, toInner, Inner.len] at hA; omega)
      (hn.mono (key _ 0 (by simp only [len, toInner, Inner.len]; omega)).1))
      fun u k hk => ⟨hk.1, by have := hk.2.1; simp only [len, toInner, Inner.len]; omega,
        (key _ _ (by simp only [len, toInner, Inner.len]; omega)).2 k hk.2.2⟩
  · exact wp_seq (UpperBoundedSet.addSetA_wp (A := A) ht hs (by simp only [len, toInner, Inner.len] at hA; omega)
      (hn.mono (key _ 0 (by simp only [len, toInner, Inner.len]; omega)).1))
      fun u k hk => ⟨hk.1, by have := hk.2.1; simp only [len, toInner, Inner.len]; omega,
        (key _ _ (by simp only [len, toInner, Inner.len]; omega)).2 k hk.2.2⟩
  · exact wp_seq (UnboundedSet.addSetA_wp (A := A) ht hs (by simp only [len, toInner, Inner.len] at hA; omega)
      (hn.mono (key _ 0 (by simp only [len, toInner, Inner.len]; omega)).1))
      fun u k hk => ⟨hk.1, by have := hk.2.1; simp only [len, toInner, Inner.len]; omega,
        (key _ _ (by simp only [len, toInner, Inner.len]; omega)).2 k hk.2.2⟩
  · exact ⟨trivial, Nat.zero_le _, Nat.le_add_right _ _⟩
  · exact ⟨hs, Nat.le_add_right _ _, Nat.le_add_right _ _⟩
  · exact wp_seq (LowerBoundedSet.addSetA_wp (A := A) hs ht (by simp only [len, toInner, Inner.len] at hA; omega)
      (hn.mono (key _ 0 (by simp only [len, toInner, Inner.len]; omega)).1))
      fun u k hk => ⟨hk.1, hk.2.1, (key _ _ (by simp only [len, toInner, Inner.len]; omega)).2 k hk.2.2⟩
  · exact wp_seq (LowerBoundedSet.unionLBSA_wp (A := A) hs ht (by simp only [len, toInner, Inner.len] at hA; omega)
      (hn.mono (key _ 0 (by simp only [len, toInner, Inner.len]; omega)).1))
      fun u k hk => ⟨hk.1, hk.2.1, (key _ _ (by simp only [len, toInner, Inner.len]; omega)).2 k hk.2.2⟩
  · exact wp_seq (LowerBoundedSet.unionUBSA_wp (A := A) hs ht (by simp only [len, toInner, Inner.len] at hA; omega)
      (hn.mono (key _ 0 (by simp only [len, toInner, Inner.len]; omega)).1))
      fun u k hk => ⟨hk.1, hk.2.1, (key _ _ (by simp only [len, toInner, Inner.len]; omega)).2 k hk.2.2⟩
  · exact wp_seq (LowerBoundedSet.unionUSA_wp (A := A) hs ht (by simp only [len, toInner, Inner.len] at hA; omega)
      (hn.mono (key _ 0 (by simp only [len, toInner, Inner.len]; omega)).1))
      fun u k hk => ⟨hk.1, hk.2.1, (key _ _ (by simp only [len, toInner, Inner.len]; omega)).2 k hk.2.2⟩
  · exact ⟨trivial, Nat.zero_le _, Nat.le_add_right _ _⟩
  · exact ⟨hs, Nat.le_add_right _ _, Nat.le_add_right _ _⟩
  · exact wp_seq (UpperBoundedSet.addSetA_wp (A := A) hs ht (by simp only [len, toInner, Inner.len] at hA; omega)
      (hn.mono (key _ 0 (by simp only [len, toInner, Inner.len]; omega)).1))
      fun u k hk => ⟨hk.1, hk.2.1, (key _ _ (by simp only [len, toInner, Inner.len]; omega)).2 k hk.2.2⟩
  · exact wp_seq (LowerBoundedSet.unionUBSA_wp (A := A) ht hs (by simp only [len, toInner, Inner.len] at hA; omega)
      (hn.mono (key _ 0 (by simp only [len, toInner, Inner.len]; omega)).1))
      fun u k hk => ⟨hk.1, by have := hk.2.1; simp only [len, toInner, Inner.len]; omega,
        (key _ _ (by simp only [len, toInner, Inner.len]; omega)).2 k hk.2.2⟩
  · exact wp_seq (UpperBoundedSet.unionUBSA_wp (A := A) hs ht (by simp only [len, toInner, Inner.len] at hA; omega)
      (hn.mono (key _ 0 (by simp only [len, toInner, Inner.len]; omega)).1))
      fun u k hk => ⟨hk.1, hk.2.1, (key _ _ (by simp only [len, toInner, Inner.len]; omega)).2 k hk.2.2⟩
  · exact wp_seq (UpperBoundedSet.unionUSA_wp (A := A) hs ht (by simp only [len, toInner, Inner.len] at hA; omega)
      (hn.mono (key _ 0 (by simp only [len, toInner, Inner.len]; omega)).1))
      fun u k hk => ⟨hk.1, hk.2.1, (key _ _ (by simp only [len, toInner, Inner.len]; omega)).2 k hk.2.2⟩
  · exact ⟨trivial, Nat.zero_le _, Nat.le_add_right _ _⟩
  · exact ⟨hs, Nat.le_add_right _ _, Nat.le_add_right _ _⟩
  · exact wp_seq (UnboundedSet.addSetA_wp (A := A) hs ht (by simp only [len, toInner, Inner.len] at hA; omega)
      (hn.mono (key _ 0 (by simp only [len, toInner, Inner.len]; omega)).1))
      fun u k hk => ⟨hk.1, hk.2.1, (key _ _ (by simp only [len, toInner, Inner.len]; omega)).2 k hk.2.2⟩
  · exact wp_seq (LowerBoundedSet.unionUSA_wp (A := A) ht hs (by simp only [len, toInner, Inner.len] at hA; omega)
      (hn.mono (key _ 0 (by simp only [len, toInner, Inner.len]; omega)).1))
      fun u k hk => ⟨hk.1, by have := hk.2.1; simp only [len, toInner, Inner.len]; omega,
        (key _ _ (by simp only [len, toInner, Inner.len]; omega)).2 k hk.2.2⟩
  · exact wp_seq (UpperBoundedSet.unionUSA_wp (A := A) ht hs (by simp only [len, toInner, Inner.len] at hA; omega)
      (hn.mono (key _ 0 (by simp only [len, toInner, Inner.len]; omega)).1))
      fun u k hk => ⟨hk.1, by have := hk.2.1; simp only [len, toInner, Inner.len]; omega,
        (key _ _ (by simp only [len, toInner, Inner.len]; omega)).2 k hk.2.2⟩
  · exact wp_seq (UnboundedSet.addUnboundedSetA_wp (A := A) hs ht (by simp only [len, toInner, Inner.len] at hA; omega)
      (hn.mono (key _ 0 (by simp only [len, toInner, Inner.len]; omega)).1))
      fun u k hk => ⟨hk.1, hk.2.1, (key _ _ (by simp only [len, toInner, Inner.len]; omega)).2 k hk.2.2⟩
  · exact ⟨trivial, Nat.zero_le _, Nat.le_add_right _ _⟩
  · exact ⟨hs, Nat.le_add_right _ _, Nat.le_add_right _ _⟩
  · exact ⟨trivial, Nat.zero_le _, Nat.le_add_right _ _⟩
  · exact ⟨trivial, Nat.zero_le _, Nat.le_add_right _ _⟩
  · exact ⟨trivial, Nat.zero_le _, Nat.le_add_right _ _⟩
  · exact ⟨trivial, Nat.zero_le _, Nat.le_add_right _ _⟩
  · exact ⟨trivial, Nat.zero_le _, Nat.le_add_right _ _⟩
  · exact ⟨trivial, Nat.zero_le _, Nat.le_add_right _ _⟩
  · exact ⟨ht, Nat.le_add_left _ _, Nat.le_add_right _ _⟩
  · exact ⟨ht, Nat.le_add_left _ _, Nat.le_add_right _ _⟩
  · exact ⟨ht, Nat.le_add_left _ _, Nat.le_add_right _ _⟩
  · exact ⟨ht, Nat.le_add_left _ _, Nat.le_add_right _ _⟩
  · exact ⟨ht, Nat.le_add_left _ _, Nat.le_add_right _ _⟩
  · exact ⟨ht, Nat.le_add_left _ _, Nat.le_add_right _ _⟩

/-- What is claimed of a union. -/
theorem Any.unionA_wp {a b : Any T} (ha : ∀ x ∈ a.endpoints, R.P x) (hb : ∀ x ∈ b.endpoints, R.P x)
    (hn : R.OkUpTo v (n + (7 * (a.pieces + b.pieces) + 12) * (3 * (a.pieces + b.pieces) + 6))) :
    (a.unionA v b).wp R (fun c k => (∀ x ∈ c.endpoints, R.P x) ∧ c.pieces ≤ a.pieces + b.pieces ∧
      k ≤ n + (7 * (a.pieces + b.pieces) + 12) * (3 * (a.pieces + b.pieces) + 6)) n := by
  have hs : (do
      let s ← a.toSetA
      let o ← b.toSetA
      return Any.inner (← s.unionA v o).toInner : Asks T (Any T)).wp R
        (fun c k => (∀ x ∈ c.endpoints, R.P x) ∧ c.pieces ≤ a.pieces + b.pieces ∧
          k ≤ n + (7 * (a.pieces + b.pieces) + 12) * (3 * (a.pieces + b.pieces) + 6)) n := by
    refine wp_seq (Inner.toSetA_wp (endsIn_toInner.mpr ha)) fun s k hk => ?_
    refine wp_seq (Inner.toSetA_wp (endsIn_toInner.mpr hb)) fun t j hj => ?_
    obtain ⟨h1, h2, h3⟩ := hk
    obtain ⟨g1, g2, g3⟩ := hj
    rw [len_toInner] at h2 g2
    have e : (7 * (a.pieces + b.pieces) + 12) * (3 * (s.len + t.len) + 5) + (7 * (a.pieces + b.pieces) + 12) ≤
        (7 * (a.pieces + b.pieces) + 12) * (3 * (a.pieces + b.pieces) + 6) := by
      have : 3 * (s.len + t.len) + 5 + 1 ≤ 3 * (a.pieces + b.pieces) + 6 := by omega
      have := Nat.mul_le_mul_left (7 * (a.pieces + b.pieces) + 12) this
      rwa [Nat.mul_add _ _ 1, Nat.mul_one] at this
    refine wp_seq (SetVal.unionA_wp (A := 7 * (a.pieces + b.pieces) + 12) h1 g1 (by omega) (hn.mono (by omega)))
      fun u i hi => ?_
    obtain ⟨i1, i2, i3⟩ := hi
    refine ⟨Inner.endsIn_iff.mp i1, ?_, by omega⟩
    rw [← Inner.len_eq]
    exact i2.trans (by omega)
  have hA : (∀ x ∈ a.endpoints, R.P x) ∧ a.pieces ≤ a.pieces + b.pieces ∧
      n ≤ n + (7 * (a.pieces + b.pieces) + 12) * (3 * (a.pieces + b.pieces) + 6) :=
    ⟨ha, Nat.le_add_right _ _, Nat.le_add_right _ _⟩
  have hB : (∀ x ∈ b.endpoints, R.P x) ∧ b.pieces ≤ a.pieces + b.pieces ∧
      n ≤ n + (7 * (a.pieces + b.pieces) + 12) * (3 * (a.pieces + b.pieces) + 6) :=
    ⟨hb, Nat.le_add_left _ _, Nat.le_add_right _ _⟩
  have hU : (∀ x ∈ (Any.inner (.ur : Inner T)).endpoints, R.P x) ∧ (Any.inner (.ur : Inner T)).pieces ≤ a.pieces + b.pieces ∧
      n ≤ n + (7 * (a.pieces + b.pieces) + 12) * (3 * (a.pieces + b.pieces) + 6) :=
    ⟨by simp [endpoints, Inner.endpoints], Nat.zero_le _, Nat.le_add_right _ _⟩
  rcases a with _ | _ | _ | _ | _ | _ | a
  case inner =>
    rcases a with _ | _ | _ | _ | _ | _ | _ | _ | _ <;> rcases b with _ | _ | _ | _ | _ | _ | b <;>
    (try rcases b with _ | _ | _ | _ | _ | _ | _ | _ | _) <;> first | exact hs | exact hA | exact hB
  all_goals
    rcases b with _ | _ | _ | _ | _ | _ | b <;>
    (try rcases b with _ | _ | _ | _ | _ | _ | _ | _ | _) <;> first | exact hs | exact hA | exact hB

/-! ### `intersection` and `complement` -/

section
variable (hok : ∀ n, R.Ok v n)
include hok

theorem Inner.interA_sat {a b : Inner T} (ha : a.EndsIn R.P) (hb : b.EndsIn R.P) :
    (a.interA v b).Sat R (fun c => c.EndsIn R.P ∧ c.len ≤ a.len * b.len + 4 * a.len + 4 * b.len + 2) := by
  have hbs : BoundedSet.EndsIn R.P (BoundedSet.empty : BoundedSet T) := by simp [BoundedSet.EndsIn, BoundedSet.empty]
  rcases a with a | a | a | a | a | a | _ | a | _
  · rcases b with b | b | b | b | b | b | _ | b | _
    · exact sat_seq (BoundedRange.interBRA_sat hok ha hb) fun u hu => sat_done ⟨hu, by simp only [len]; omega⟩
    · exact sat_seq (BoundedSet.interBRA_sat hok hb ha) fun u hu => sat_done ⟨hu.1, by have := hu.2; simp only [len] at *; try nlinarith⟩
    · exact sat_seq (BoundedRange.interLBRA_sat hok ha hb) fun u hu => sat_done ⟨hu, by simp only [len]; omega⟩
    · exact sat_seq (LowerBoundedSet.interBRA_sat hok hb ha) fun u hu => sat_done ⟨hu.1, by have := hu.2; simp only [len] at *; try nlinarith⟩
    · exact sat_seq (BoundedRange.interUBRA_sat hok ha hb) fun u hu => sat_done ⟨hu, by simp only [len]; omega⟩
    · exact sat_seq (UpperBoundedSet.interBRA_sat hok hb ha) fun u hu => sat_done ⟨hu.1, by have := hu.2; simp only [len] at *; try nlinarith⟩
    · exact sat_done ⟨ha, by simp only [len]; omega⟩
    · refine sat_seq (BoundedSet.ofBRA_sat ha) fun u hu => ?_
      exact sat_seq (BoundedSet.interUSA_sat hok hu.1 hb) fun w hw => sat_done ⟨hw.1, by
        have := hw.2; have := Nat.mul_le_mul_right (b.len + 2) hu.2; simp only [len] at *; omega⟩
    · exact sat_done ⟨trivial, by simp [len]⟩
  · rcases b with b | b | b | b | b | b | _ | b | _
    · exact sat_seq (BoundedSet.interBRA_sat hok ha hb) fun u hu => sat_done ⟨hu.1, by have := hu.2; simp only [len] at *; try nlinarith⟩
    · exact sat_seq (BoundedSet.interBSA_sat hok ha hb) fun u hu => sat_done ⟨hu.1, by have := hu.2; simp only [len] at *; try nlinarith⟩
    · exact sat_seq (BoundedSet.interLBRA_sat hok ha hb) fun u hu => sat_done ⟨hu.1, by have := hu.2; simp only [len] at *; try nlinarith⟩
    · exact sat_seq (BoundedSet.interLBSA_sat hok ha hb) fun u hu => sat_done ⟨hu.1, by have := hu.2; simp only [len] at *; try nlinarith⟩
    · exact sat_seq (BoundedSet.interUBRA_sat hok ha hb) fun u hu => sat_done ⟨hu.1, by have := hu.2; simp only [len] at *; try nlinarith⟩
    · exact sat_seq (BoundedSet.interUBSA_sat hok ha hb) fun u hu => sat_done ⟨hu.1, by have := hu.2; simp only [len] at *; try nlinarith⟩
    · exact sat_done ⟨ha, by simp only [len]; omega⟩
    · exact sat_seq (BoundedSet.interUSA_sat hok ha hb) fun u hu => sat_done ⟨hu.1, by have := hu.2; simp only [len] at *; try nlinarith⟩
    · exact sat_done ⟨trivial, by simp [len]⟩
  · rcases b with b | b | b | b | b | b | _ | b | _
    · exact sat_seq (BoundedRange.interLBRA_sat hok hb ha) fun u hu => sat_done ⟨hu, by simp only [len]; omega⟩
    · exact sat_seq (BoundedSet.interLBRA_sat hok hb ha) fun u hu => sat_done ⟨hu.1, by have := hu.2; simp only [len] at *; try nlinarith⟩
    · exact sat_seq (LowerBoundedRange.interLBRA_sat hok ha hb) fun u hu => sat_done ⟨hu, by simp only [len]; omega⟩
    · exact sat_seq (LowerBoundedSet.interLBRA_sat hok hb ha) fun u hu => sat_done ⟨hu.1, by have := hu.2; simp only [len] at *; try nlinarith⟩
    · exact sat_done ⟨⟨ha, hb⟩, by simp only [len]; omega⟩
    · exact sat_seq (UpperBoundedSet.interLBRA_sat hok hb ha) fun u hu => sat_done ⟨hu.1, by have := hu.2; simp only [len] at *; try nlinarith⟩
    · exact sat_done ⟨ha, by simp only [len]; omega⟩
    · exact sat_seq (LowerBoundedSet.interUSA_sat hok (s := .ofLBR a) ⟨hbs, ha⟩ hb) fun u hu => sat_done ⟨hu.1, by have := hu.2; simp only [len, LowerBoundedSet.ofLBR, BoundedSet.empty, List.length_nil] at *; try nlinarith⟩
    · exact sat_done ⟨trivial, by simp [len]⟩
  · rcases b with b | b | b | b | b | b | _ | b | _
    · exact sat_seq (LowerBoundedSet.interBRA_sat hok ha hb) fun u hu => sat_done ⟨hu.1, by have := hu.2; simp only [len] at *; try nlinarith⟩
    · exact sat_seq (BoundedSet.interLBSA_sat hok hb ha) fun u hu => sat_done ⟨hu.1, by have := hu.2; simp only [len] at *; try nlinarith⟩
    · exact sat_seq (LowerBoundedSet.interLBRA_sat hok ha hb) fun u hu => sat_done ⟨hu.1, by have := hu.2; simp only [len] at *; try nlinarith⟩
    · exact sat_seq (LowerBoundedSet.interLBSA_sat hok ha hb) fun u hu => sat_done ⟨hu.1, by have := hu.2; simp only [len] at *; try nlinarith⟩
    · exact sat_seq (LowerBoundedSet.interUBRA_sat hok ha hb) fun u hu => sat_done ⟨hu.1, by have := hu.2; simp only [len] at *; try nlinarith⟩
    · exact sat_seq (LowerBoundedSet.interUBSA_sat hok ha hb) fun u hu => sat_done ⟨hu.1, by have := hu.2; simp only [len] at *; try nlinarith⟩
    · exact sat_done ⟨ha, by simp only [len]; omega⟩
    · exact sat_seq (LowerBoundedSet.interUSA_sat hok ha hb) fun u hu => sat_done ⟨hu.1, by have := hu.2; simp only [len] at *; try nlinarith⟩
    · exact sat_done ⟨trivial, by simp [len]⟩
  · rcases b with b | b | b | b | b | b | _ | b | _
    · exact sat_seq (BoundedRange.interUBRA_sat hok hb ha) fun u hu => sat_done ⟨hu, by simp only [len]; omega⟩
    · exact sat_seq (BoundedSet.interUBRA_sat hok hb ha) fun u hu => sat_done ⟨hu.1, by have := hu.2; simp only [len] at *; try nlinarith⟩
    · exact sat_done ⟨⟨hb, ha⟩, by simp only [len]; omega⟩
    · exact sat_seq (LowerBoundedSet.interUBRA_sat hok hb ha) fun u hu => sat_done ⟨hu.1, by have := hu.2; simp only [len] at *; try nlinarith⟩
    · exact sat_seq (UpperBoundedRange.interUBRA_sat hok ha hb) fun u hu => sat_done ⟨hu, by simp only [len]; omega⟩
    · exact sat_seq (UpperBoundedSet.interUBRA_sat hok hb ha) fun u hu => sat_done ⟨hu.1, by have := hu.2; simp only [len] at *; try nlinarith⟩
    · exact sat_done ⟨ha, by simp only [len]; omega⟩
    · exact sat_seq (UpperBoundedSet.interUSA_sat hok (s := .ofUBR a) ⟨hbs, ha⟩ hb) fun u hu => sat_done ⟨hu.1, by have := hu.2; simp only [len, UpperBoundedSet.ofUBR, BoundedSet.empty, List.length_nil] at *; try nlinarith⟩
    · exact sat_done ⟨trivial, by simp [len]⟩
  · rcases b with b | b | b | b | b | b | _ | b | _
    · exact sat_seq (UpperBoundedSet.interBRA_sat hok ha hb) fun u hu => sat_done ⟨hu.1, by have := hu.2; simp only [len] at *; try nlinarith⟩
    · exact sat_seq (BoundedSet.interUBSA_sat hok hb ha) fun u hu => sat_done ⟨hu.1, by have := hu.2; simp only [len] at *; try nlinarith⟩
    · exact sat_seq (UpperBoundedSet.interLBRA_sat hok ha hb) fun u hu => sat_done ⟨hu.1, by have := hu.2; simp only [len] at *; try nlinarith⟩
    · exact sat_seq (LowerBoundedSet.interUBSA_sat hok hb ha) fun u hu => sat_done ⟨hu.1, by have := hu.2; simp only [len] at *; try nlinarith⟩
    · exact sat_seq (UpperBoundedSet.interUBRA_sat hok ha hb) fun u hu => sat_done ⟨hu.1, by have := hu.2; simp only [len] at *; try nlinarith⟩
    · exact sat_seq (UpperBoundedSet.interUBSA_sat hok ha hb) fun u hu => sat_done ⟨hu.1, by have := hu.2; simp only [len] at *; try nlinarith⟩
    · exact sat_done ⟨ha, by simp only [len]; omega⟩
    · exact sat_seq (UpperBoundedSet.interUSA_sat hok ha hb) fun u hu => sat_done ⟨hu.1, by have := hu.2; simp only [len] at *; try nlinarith⟩
    · exact sat_done ⟨trivial, by simp [len]⟩
  · rcases b with b | b | b | b | b | b | _ | b | _ <;> exact sat_done ⟨hb, by simp only [len]; omega⟩
  · rcases b with b | b | b | b | b | b | _ | b | _
    · refine sat_seq (BoundedSet.ofBRA_sat hb) fun u hu => ?_
      exact sat_seq (BoundedSet.interUSA_sat hok hu.1 ha) fun w hw => sat_done ⟨hw.1, by
        have := hw.2; have := Nat.mul_le_mul_right (a.len + 2) hu.2; simp only [len] at *; omega⟩
    · exact sat_seq (BoundedSet.interUSA_sat hok hb ha) fun u hu => sat_done ⟨hu.1, by have := hu.2; simp only [len] at *; try nlinarith⟩
    · exact sat_seq (LowerBoundedSet.interUSA_sat hok (s := .ofLBR b) ⟨hbs, hb⟩ ha) fun u hu => sat_done ⟨hu.1, by have := hu.2; simp only [len, LowerBoundedSet.ofLBR, BoundedSet.empty, List.length_nil] at *; try nlinarith⟩
    · exact sat_seq (LowerBoundedSet.interUSA_sat hok hb ha) fun u hu => sat_done ⟨hu.1, by have := hu.2; simp only [len] at *; try nlinarith⟩
    · exact sat_seq (UpperBoundedSet.interUSA_sat hok (s := .ofUBR b) ⟨hbs, hb⟩ ha) fun u hu => sat_done ⟨hu.1, by have := hu.2; simp only [len, UpperBoundedSet.ofUBR, BoundedSet.empty, List.length_nil] at *; try nlinarith⟩
    · exact sat_seq (UpperBoundedSet.interUSA_sat hok hb ha) fun u hu => sat_done ⟨hu.1, by have := hu.2; simp only [len] at *; try nlinarith⟩
    · exact sat_done ⟨ha, by simp only [len]; omega⟩
    · exact sat_seq (UnboundedSet.interUSA_sat hok ha hb) fun u hu => sat_done ⟨hu.1, by
        have := hu.2.2; simp only [len] at *; omega⟩
    · exact sat_done ⟨trivial, by simp [len]⟩
  · exact sat_done ⟨trivial, by simp [len]⟩

theorem Any.interA_sat {a b : Any T} (ha : ∀ x ∈ a.endpoints, R.P x) (hb : ∀ x ∈ b.endpoints, R.P x) :
    (a.interA v b).Sat R (fun c => (∀ x ∈ c.endpoints, R.P x) ∧
      (Any.inner c).pieces ≤ a.pieces * b.pieces + 4 * a.pieces + 4 * b.pieces + 2) := by
  rw [← endsIn_toInner] at ha hb
  have hE : Asks.Sat R (fun c => c.EndsIn R.P ∧ c.len ≤ a.toInner.len * b.toInner.len + 4 * a.toInner.len +
      4 * b.toInner.len + 2) (.done (.er : Inner T)) := sat_done ⟨trivial, Nat.zero_le _⟩
  have hi := Inner.interA_sat hok ha hb
  have hs : (a.toInner.interFromStdA v b.toInner).Sat R (fun c => c.EndsIn R.P ∧
      c.len ≤ a.toInner.len * b.toInner.len + 4 * a.toInner.len + 4 * b.toInner.len + 2) := by
    have hf : (b.toInner.interA v a.toInner).Sat R (fun c => c.EndsIn R.P ∧
        c.len ≤ a.toInner.len * b.toInner.len + 4 * a.toInner.len + 4 * b.toInner.len + 2) :=
      sat_mono (Inner.interA_sat hok hb ha) fun c hc => ⟨hc.1, by have := hc.2; rw [Nat.mul_comm] at this; omega⟩
    revert hi hf hE
    generalize b.toInner = j
    intro hE hi hf
    rcases j with _ | _ | _ | _ | _ | _ | _ | _ | _ <;> first | exact hi | exact hf
  have key : (a.interA v b).Sat R (fun c => c.EndsIn R.P ∧
      c.len ≤ a.toInner.len * b.toInner.len + 4 * a.toInner.len + 4 * b.toInner.len + 2) := by
    rcases a with r | r | r | r | r | _ | i
    · exact hs
    · exact hs
    · simp only [interA]
      revert hi hE
      generalize b.toInner = j
      intro hE hi
      rcases j with _ | _ | _ | _ | _ | _ | _ | _ | _ <;> exact hi
    · exact hs
    · exact hs
    · simp only [interA]
      revert hi hE
      generalize b.toInner = j
      intro hE hi
      rcases j with _ | _ | _ | _ | _ | _ | _ | _ | _ <;> exact hi
    · exact hi
  refine sat_mono key fun c hc => ⟨Inner.endsIn_iff.mp hc.1, ?_⟩
  rw [← Inner.len_eq, ← len_toInner, ← len_toInner]
  exact hc.2

theorem Any.disjointA_sat {a b : Any T} (ha : ∀ x ∈ a.endpoints, R.P x) (hb : ∀ x ∈ b.endpoints, R.P x) :
    (a.disjointA v b).Sat R (fun _ => True) := by
  refine sat_seq (interA_sat hok ha hb) fun c hc n => ?_
  exact wp_mono (Inner.isEmptyA_wp (Inner.endsIn_iff.mpr hc.1)) fun _ _ _ => trivial

theorem Any.intersectsA_sat {a b : Any T} (ha : ∀ x ∈ a.endpoints, R.P x) (hb : ∀ x ∈ b.endpoints, R.P x) :
    (a.intersectsA v b).Sat R (fun _ => True) :=
  sat_seq (disjointA_sat hok ha hb) fun _ _ => sat_done trivial

theorem Any.complementA_sat {a : Any T} (ha : ∀ x ∈ a.endpoints, R.P x) :
    (a.complementA v).Sat R (fun c => (∀ x ∈ c.endpoints, R.P x) ∧
      (Any.inner c).pieces ≤ 4 ^ a.pieces) := by
  have hs : ∀ i : Inner T, i.EndsIn R.P → (i.complementA v).Sat R (fun c => (∀ x ∈ c.endpoints, R.P x) ∧
      (Any.inner c).pieces ≤ 4 ^ i.len) := by
    intro i hi
    simp only [← Inner.endsIn_iff, ← Inner.len_eq]
    have h24 : ∀ k, 2 ^ k ≤ 4 ^ k := fun k => Nat.pow_le_pow_left (by omega) k
    rcases i with r | s | r | s | r | s | _ | s | _
    · exact sat_seq (BoundedRange.complementA_sat hok hi) fun u hu => sat_done ⟨hu.1, by simp [Inner.len, hu.2]⟩
    · refine sat_seq (BoundedSet.complementA_sat hok hi) fun u hu => sat_done ⟨hu.1, ?_⟩
      have := hu.2
      have h := Nat.pow_le_pow_right (n := 4) (by omega) (Nat.sub_le s.ranges.length 1)
      simp only [Inner.len]
      omega
    · exact sat_done ⟨LowerBound.EndsIn.flipped hi, by simp [Inner.len]⟩
    · refine sat_seq (LowerBoundedSet.complementA_sat hok hi) fun u hu => sat_done ⟨hu.1, ?_⟩
      have := hu.2
      have := h24 s.ranges.ranges.length
      simp only [Inner.len]
      omega
    · exact sat_done ⟨UpperBound.EndsIn.flipped hi, by simp [Inner.len]⟩
    · refine sat_seq (UpperBoundedSet.complementA_sat hok hi) fun u hu => sat_done ⟨hu.1, ?_⟩
      have := hu.2
      have := h24 s.ranges.ranges.length
      simp only [Inner.len]
      omega
    · exact sat_done ⟨trivial, by simp [Inner.len]⟩
    · refine sat_seq (UnboundedSet.complementA_sat hok hi) fun u hu => sat_done ⟨hu.1, ?_⟩
      have := hu.2
      have := h24 s.len
      simp only [Inner.len]
      omega
    · exact sat_done ⟨trivial, by simp [Inner.len]⟩
  rw [← endsIn_toInner] at ha
  rw [← len_toInner]
  rcases a with r | r | r | r | r | _ | i <;>
    exact hs _ ha

end
end
end Rangetools
