import Verif.Proofs.Asks
import Mathlib.Tactic.Ring
import Mathlib.Tactic.Linarith

/-!
# Programs that compare: what holds for every sequence of answers
-/

namespace Rangetools
open Asks

/-- What is asked of a program: it compares elements in `P` only, `partial_cmp` gives answers in `N` only, and a panic with a
message after so many comparisons is in `E`. -/
structure Rules (T : Type) where
  P : T → Prop
  N : Option Ordering → Prop
  E : String → Nat → Prop

/-- The two messages with which the set algebra may panic are allowed after `n` comparisons. -/
def Rules.Ok {T : Type} (R : Rules T) (v : MaxVia) (n : Nat) : Prop :=
  R.E "assertion failed: self.intersects(*other)" n ∧
  (v = .cmp → R.N none → R.E "called `Option::unwrap()` on a `None` value" n)

/-- The messages are allowed after at most `c` more comparisons. -/
def Rules.OkUpTo {T : Type} (R : Rules T) (v : MaxVia) (n : Nat) : Prop := ∀ k ≤ n, R.Ok v k

theorem Rules.OkUpTo.mono {T : Type} {R : Rules T} {v : MaxVia} {n k : Nat} (h : R.OkUpTo v n) (hk : k ≤ n) :
    R.OkUpTo v k := fun j hj => h j (hj.trans hk)

namespace Asks
variable {T α β γ : Type}

/-- Starting with `n` comparisons made, the program obeys the rules and `Q` holds of the result and the number of comparisons
made in the end, whatever the answers. -/
def wp (R : Rules T) (Q : α → Nat → Prop) : Asks T α → Nat → Prop
  | .done a, n => Q a n
  | .panic m, n => R.E m n
  | .test _ a b k, n => (R.P a ∧ R.P b) ∧ ∀ r, (k r).wp R Q (n + 1)
  | .cmp a b k, n => (R.P a ∧ R.P b) ∧ ∀ r, R.N r → (k r).wp R Q (n + 1)

variable {R : Rules T} {Q Q' : α → Nat → Prop}

theorem wp_mono {x : Asks T α} {n : Nat} (h : x.wp R Q n) (hQ : ∀ a n, Q a n → Q' a n) : x.wp R Q' n := by
  induction x generalizing n with
  | done a => exact hQ _ _ h
  | panic m => exact h
  | test q a b k ih => exact ⟨h.1, fun r => ih r (h.2 r)⟩
  | cmp a b k ih => exact ⟨h.1, fun r hr => ih r (h.2 r hr)⟩

/-- The count only goes up. -/
theorem wp_le {x : Asks T α} {n : Nat} (h : x.wp R Q n) : x.wp R (fun a k => Q a k ∧ n ≤ k) n := by
  suffices H : ∀ j ≤ n, x.wp R (fun a k => Q a k ∧ j ≤ k) n from H n le_rfl
  induction x generalizing n with
  | done a => exact fun j hj => ⟨h, hj⟩
  | panic m => exact fun _ _ => h
  | test q a b k ih => exact fun j hj => ⟨h.1, fun r => ih r (h.2 r) j (by omega)⟩
  | cmp a b k ih => exact fun j hj => ⟨h.1, fun r hr => ih r (h.2 r hr) j (by omega)⟩

theorem wp_bind {x : Asks T α} {f : α → Asks T β} {Q : β → Nat → Prop} {n : Nat} :
    (x >>= f).wp R Q n ↔ x.wp R (fun a k => (f a).wp R Q k) n := by
  induction x generalizing n with
  | done a => exact Iff.rfl
  | panic m => exact Iff.rfl
  | test q a b k ih => exact and_congr_right fun _ => forall_congr' fun r => ih r
  | cmp a b k ih => exact and_congr_right fun _ => forall_congr' fun r => forall_congr' fun _ => ih r

theorem wp_seq {x : Asks T α} {f : α → Asks T β} {Q' : β → Nat → Prop} {n : Nat} (h : x.wp R Q n)
    (hf : ∀ a k, Q a k → (f a).wp R Q' k) : (x >>= f).wp R Q' n :=
  wp_bind.mpr (wp_mono h hf)

/-- The outcome of a run obeys the rules. -/
theorem wp_exec {S : Type} {w : World S T} (hw : ∀ s a b r, (w.cmp s a b).1 = some r → R.N r) {x : Asks T α} {n : Nat}
    (h : x.wp R Q n) (s : S) :
    (∀ p ∈ (x.exec w s).2.1, R.P p.1 ∧ R.P p.2) ∧
    (∀ a, (x.exec w s).1 = some (.ok a) → Q a (n + (x.exec w s).2.1.length)) ∧
    (∀ m, (x.exec w s).1 = some (.panic m) → R.E m (n + (x.exec w s).2.1.length)) := by
  induction x generalizing n s with
  | done a => simp_all [exec, wp]
  | panic m => simp_all [exec, wp]
  | test q a b k ih =>
    simp only [exec]
    rcases hr : w.test s q a b with ⟨_ | r, s'⟩
    · simpa using h.1
    · obtain ⟨h1, h2, h3⟩ := ih r (h.2 r) s'
      refine ⟨?_, ?_, ?_⟩
      · intro p hp
        rcases List.mem_cons.mp hp with rfl | hp
        · exact h.1
        · exact h1 p hp
      · intro v hv
        have := h2 v hv
        simp only [List.length_cons]
        rwa [← Nat.add_assoc, Nat.add_right_comm]
      · intro v hv
        have := h3 v hv
        simp only [List.length_cons]
        rwa [← Nat.add_assoc, Nat.add_right_comm]
  | cmp a b k ih =>
    simp only [exec]
    have hN := hw s a b
    rcases hr : w.cmp s a b with ⟨_ | r, s'⟩
    · simpa using h.1
    · rw [hr] at hN
      obtain ⟨h1, h2, h3⟩ := ih r (h.2 r (hN r rfl)) s'
      refine ⟨?_, ?_, ?_⟩
      · intro p hp
        rcases List.mem_cons.mp hp with rfl | hp
        · exact h.1
        · exact h1 p hp
      · intro v hv
        have := h2 v hv
        simp only [List.length_cons]
        rwa [← Nat.add_assoc, Nat.add_right_comm]
      · intro v hv
        have := h3 v hv
        simp only [List.length_cons]
        rwa [← Nat.add_assoc, Nat.add_right_comm]

theorem wp_bound {B : Nat} (hN : ∃ r, R.N r) (hE : ∀ m n, R.E m n → n ≤ B) {x : Asks T α} {n : Nat}
    (h : x.wp R (fun _ k => k ≤ B) n) : n ≤ B := by
  obtain ⟨r, hr⟩ := hN
  induction x generalizing n with
  | done a => exact h
  | panic m => exact hE _ _ h
  | test q a b k ih => have := ih true (h.2 true); omega
  | cmp a b k ih => have := ih r (h.2 r hr); omega

/-- A bound on the comparisons holds also for runs in which a comparison panics. -/
theorem wp_exec_bound {S : Type} {w : World S T} {B : Nat} (hw : ∀ s a b r, (w.cmp s a b).1 = some r → R.N r)
    (hN : ∃ r, R.N r) (hE : ∀ m n, R.E m n → n ≤ B) {x : Asks T α} {n : Nat}
    (h : x.wp R (fun _ k => k ≤ B) n) (s : S) : n + (x.exec w s).2.1.length ≤ B := by
  induction x generalizing n s with
  | done a => simpa [exec, wp] using h
  | panic m => simpa [exec] using hE _ _ h
  | test q a b k ih =>
    simp only [exec]
    rcases hr : w.test s q a b with ⟨_ | r, s'⟩
    · exact wp_bound hN hE (h.2 true)
    · have := ih r (h.2 r) s'
      simp only [List.length_cons]
      rwa [← Nat.add_assoc, Nat.add_right_comm]
  | cmp a b k ih =>
    simp only [exec]
    have hN' := hw s a b
    rcases hr : w.cmp s a b with ⟨_ | r, s'⟩
    · obtain ⟨r, hr⟩ := hN
      exact wp_bound ⟨r, hr⟩ hE (h.2 r hr)
    · rw [hr] at hN'
      have := ih r (h.2 r (hN' r rfl)) s'
      simp only [List.length_cons]
      rwa [← Nat.add_assoc, Nat.add_right_comm]

/-! ### Loops -/

theorem wp_position {v : MaxVia} {f : α → Asks T Bool} {l : List α} {c n : Nat}
    (hf : ∀ x ∈ l, ∀ k, R.OkUpTo v (k + c) → (f x).wp R (fun _ j => j ≤ k + c) k)
    (hn : R.OkUpTo v (n + c * l.length)) : (position f l).wp R (fun _ j => j ≤ n + c * l.length) n := by
  induction l generalizing n with
  | nil => simp [position, wp]
  | cons x xs ih =>
    rw [List.length_cons, Nat.mul_add, Nat.mul_one] at *
    refine wp_seq (hf x List.mem_cons_self n (hn.mono (by omega))) fun r j hj => ?_
    cases r
    · refine wp_seq (ih (fun x hx => hf x (List.mem_cons_of_mem _ hx)) (hn.mono (by omega))) fun o k hk => ?_
      exact (by omega : k ≤ n + (c * xs.length + c))
    · exact (by omega : j ≤ n + (c * xs.length + c))

theorem wp_all {f : α → Asks T Bool} {l : List α} {c n : Nat}
    (hf : ∀ x ∈ l, ∀ k, (f x).wp R (fun _ j => j ≤ k + c) k) :
    (all f l).wp R (fun r j => (l = [] → r = true) ∧ j ≤ n + c * l.length) n := by
  induction l generalizing n with
  | nil => simp [all, wp]
  | cons x xs ih =>
    rw [List.length_cons, Nat.mul_add, Nat.mul_one] at *
    refine wp_seq (hf x List.mem_cons_self n) fun r j hj => ?_
    cases r
    · exact ⟨by simp, (by omega : j ≤ n + (c * xs.length + c))⟩
    · refine wp_mono (ih (fun x hx => hf x (List.mem_cons_of_mem _ hx))) fun o k hk => ?_
      exact ⟨by simp, by have := hk.2; omega⟩

theorem wp_any {f : α → Asks T Bool} {l : List α} {c n : Nat}
    (hf : ∀ x ∈ l, ∀ k, (f x).wp R (fun _ j => j ≤ k + c) k) : (any f l).wp R (fun _ j => j ≤ n + c * l.length) n := by
  induction l generalizing n with
  | nil => simp [any, wp]
  | cons x xs ih =>
    rw [List.length_cons, Nat.mul_add, Nat.mul_one] at *
    refine wp_seq (hf x List.mem_cons_self n) fun r j hj => ?_
    cases r
    · refine wp_mono (ih (fun x hx => hf x (List.mem_cons_of_mem _ hx))) fun o k hk => ?_
      omega
    · exact (by omega : j ≤ n + (c * xs.length + c))

theorem wp_map {v : MaxVia} {f : α → Asks T β} {l : List α} {c n : Nat} {F : β → Prop}
    (hf : ∀ x ∈ l, ∀ k, R.OkUpTo v (k + c) → (f x).wp R (fun y j => F y ∧ j ≤ k + c) k)
    (hn : R.OkUpTo v (n + c * l.length)) :
    (map f l).wp R (fun l' j => (∀ y ∈ l', F y) ∧ l'.length = l.length ∧ j ≤ n + c * l.length) n := by
  induction l generalizing n with
  | nil => simp [map, wp]
  | cons x xs ih =>
    rw [List.length_cons, Nat.mul_add, Nat.mul_one] at *
    refine wp_seq (hf x List.mem_cons_self n (hn.mono (by omega))) fun y j hj => ?_
    refine wp_seq (ih (fun x hx => hf x (List.mem_cons_of_mem _ hx)) (hn.mono (by omega))) fun o k hk => ?_
    refine ⟨?_, ?_, ?_⟩
    · intro z hz
      rcases List.mem_cons.mp hz with rfl | hz
      · exact hj.1
      · exact hk.1 z hz
    · simp [hk.2.1]
    · have := hk.2.2; have := hj.2; omega

theorem wp_filter {f : α → Asks T Bool} {l : List α} {c n : Nat}
    (hf : ∀ x ∈ l, ∀ k, (f x).wp R (fun _ j => j ≤ k + c) k) :
    (filter f l).wp R (fun l' j => l'.Sublist l ∧ j ≤ n + c * l.length) n := by
  induction l generalizing n with
  | nil => simp [filter, wp]
  | cons x xs ih =>
    rw [List.length_cons, Nat.mul_add, Nat.mul_one] at *
    refine wp_seq (hf x List.mem_cons_self n) fun r j hj => ?_
    cases r
    · refine wp_mono (ih (fun x hx => hf x (List.mem_cons_of_mem _ hx))) fun o k hk => ?_
      exact ⟨hk.1.cons _, by have := hk.2; omega⟩
    · refine wp_seq (ih (fun x hx => hf x (List.mem_cons_of_mem _ hx))) fun o k hk => ?_
      exact ⟨hk.1.cons_cons _, by have := hk.2; omega⟩

end Asks

/-! ### Where the endpoints lie -/

section
variable {T : Type} (P : T → Prop)

def LowerBound.EndsIn (b : LowerBound T) : Prop := P b.b.value
def UpperBound.EndsIn (b : UpperBound T) : Prop := P b.b.value
def BoundedRange.EndsIn (r : BoundedRange T) : Prop := r.start.EndsIn P ∧ r.stop.EndsIn P
def LowerBoundedRange.EndsIn (r : LowerBoundedRange T) : Prop := r.start.EndsIn P
def UpperBoundedRange.EndsIn (r : UpperBoundedRange T) : Prop := r.stop.EndsIn P
def BoundedSet.EndsIn (s : BoundedSet T) : Prop := ∀ r ∈ s.ranges, r.EndsIn P
def LowerBoundedSet.EndsIn (s : LowerBoundedSet T) : Prop := s.ranges.EndsIn P ∧ s.lowerBoundedRange.EndsIn P
def UpperBoundedSet.EndsIn (s : UpperBoundedSet T) : Prop := s.ranges.EndsIn P ∧ s.upperBoundedRange.EndsIn P
def PiecewiseUnboundedSet.EndsIn (s : PiecewiseUnboundedSet T) : Prop :=
  s.ranges.EndsIn P ∧ s.lowerBoundedRange.EndsIn P ∧ s.upperBoundedRange.EndsIn P
def UnboundedSet.EndsIn : UnboundedSet T → Prop
  | .full => True
  | .piecewise p => p.EndsIn P
def UnboundedSet.len : UnboundedSet T → Nat
  | .full => 0
  | .piecewise p => p.ranges.ranges.length

end

section
variable {T : Type} {R : Rules T} {v : MaxVia} {n : Nat}

theorem Bound.flipped_value (b : Bound T) : b.flipped.value = b.value := by cases b <;> rfl

theorem UpperBound.EndsIn.flipped {P : T → Prop} {b : UpperBound T} (h : b.EndsIn P) :
    (LowerBound.ofBound b.b.flipped).EndsIn P := by
  change P b.b.flipped.value
  rw [Bound.flipped_value]
  exact h

theorem LowerBound.EndsIn.flipped {P : T → Prop} {b : LowerBound T} (h : b.EndsIn P) :
    (UpperBound.ofBound b.b.flipped).EndsIn P := by
  change P b.b.flipped.value
  rw [Bound.flipped_value]
  exact h

theorem LowerBound.partialCmpA_wp {a b : LowerBound T} (ha : a.EndsIn R.P) (hb : b.EndsIn R.P) :
    (a.partialCmpA b).wp R (fun o k => (R.N none ∨ o ≠ none) ∧ k ≤ n + 2) n := by
  have key : ∀ r : Option Ordering, R.N r → (R.N none ∨ r ≠ none) := by
    intro r hr
    cases r
    · exact .inl hr
    · simp
  rcases a with ⟨a | a⟩ <;> rcases b with ⟨b | b⟩
  · exact ⟨⟨ha, hb⟩, fun r hr => ⟨key r hr, by omega⟩⟩
  · refine ⟨⟨ha, hb⟩, fun r => ?_⟩
    cases r
    · exact ⟨⟨ha, hb⟩, fun r hr => ⟨key r hr, by omega⟩⟩
    · exact ⟨by simp, by omega⟩
  · refine ⟨⟨ha, hb⟩, fun r => ?_⟩
    cases r
    · exact ⟨⟨ha, hb⟩, fun r hr => ⟨key r hr, by omega⟩⟩
    · exact ⟨by simp, by omega⟩
  · exact ⟨⟨ha, hb⟩, fun r hr => ⟨key r hr, by omega⟩⟩

theorem UpperBound.partialCmpA_wp {a b : UpperBound T} (ha : a.EndsIn R.P) (hb : b.EndsIn R.P) :
    (a.partialCmpA b).wp R (fun o k => (R.N none ∨ o ≠ none) ∧ k ≤ n + 2) n := by
  have key : ∀ r : Option Ordering, R.N r → (R.N none ∨ r ≠ none) := by
    intro r hr
    cases r
    · exact .inl hr
    · simp
  rcases a with ⟨a | a⟩ <;> rcases b with ⟨b | b⟩
  · exact ⟨⟨ha, hb⟩, fun r hr => ⟨key r hr, by omega⟩⟩
  · refine ⟨⟨ha, hb⟩, fun r => ?_⟩
    cases r
    · exact ⟨⟨ha, hb⟩, fun r hr => ⟨key r hr, by omega⟩⟩
    · exact ⟨by simp, by omega⟩
  · refine ⟨⟨ha, hb⟩, fun r => ?_⟩
    cases r
    · exact ⟨⟨ha, hb⟩, fun r hr => ⟨key r hr, by omega⟩⟩
    · exact ⟨by simp, by omega⟩
  · exact ⟨⟨ha, hb⟩, fun r hr => ⟨key r hr, by omega⟩⟩

theorem LowerBound.cmpA_wp {a b : LowerBound T} (ha : a.EndsIn R.P) (hb : b.EndsIn R.P) (hn : R.OkUpTo .cmp (n + 2)) :
    (a.cmpA b).wp R (fun _ k => k ≤ n + 2) n := by
  refine wp_seq (partialCmpA_wp ha hb) fun o k hk => ?_
  rcases o with _ | o
  · exact (hn k hk.2).2 rfl (hk.1.resolve_right (by simp))
  · exact hk.2

theorem UpperBound.cmpA_wp {a b : UpperBound T} (ha : a.EndsIn R.P) (hb : b.EndsIn R.P) (hn : R.OkUpTo .cmp (n + 2)) :
    (a.cmpA b).wp R (fun _ k => k ≤ n + 2) n := by
  refine wp_seq (partialCmpA_wp ha hb) fun o k hk => ?_
  rcases o with _ | o
  · exact (hn k hk.2).2 rfl (hk.1.resolve_right (by simp))
  · exact hk.2

theorem LowerBound.gtA_wp {a b : LowerBound T} (ha : a.EndsIn R.P) (hb : b.EndsIn R.P) :
    (a.gtA b).wp R (fun _ k => k ≤ n + 2) n :=
  wp_seq (partialCmpA_wp ha hb) fun _ _ hk => hk.2

theorem LowerBound.ltA_wp {a b : LowerBound T} (ha : a.EndsIn R.P) (hb : b.EndsIn R.P) :
    (a.ltA b).wp R (fun _ k => k ≤ n + 2) n :=
  wp_seq (partialCmpA_wp ha hb) fun _ _ hk => hk.2

theorem UpperBound.ltA_wp {a b : UpperBound T} (ha : a.EndsIn R.P) (hb : b.EndsIn R.P) :
    (a.ltA b).wp R (fun _ k => k ≤ n + 2) n :=
  wp_seq (partialCmpA_wp ha hb) fun _ _ hk => hk.2

theorem LowerBound.maxA_wp {a b : LowerBound T} (ha : a.EndsIn R.P) (hb : b.EndsIn R.P) (hn : R.OkUpTo v (n + 2)) :
    (a.maxA v b).wp R (fun c k => c.EndsIn R.P ∧ k ≤ n + 2) n := by
  cases v
  · refine wp_seq (cmpA_wp ha hb hn) fun o k hk => ?_
    cases o <;> first | exact ⟨ha, hk⟩ | exact ⟨hb, hk⟩
  · refine wp_seq (ltA_wp hb ha) fun o k hk => ?_
    cases o <;> first | exact ⟨ha, hk⟩ | exact ⟨hb, hk⟩

theorem LowerBound.minA_wp {a b : LowerBound T} (ha : a.EndsIn R.P) (hb : b.EndsIn R.P) (hn : R.OkUpTo v (n + 2)) :
    (a.minA v b).wp R (fun c k => c.EndsIn R.P ∧ k ≤ n + 2) n := by
  cases v
  · refine wp_seq (cmpA_wp ha hb hn) fun o k hk => ?_
    cases o <;> first | exact ⟨ha, hk⟩ | exact ⟨hb, hk⟩
  · refine wp_seq (ltA_wp hb ha) fun o k hk => ?_
    cases o <;> first | exact ⟨ha, hk⟩ | exact ⟨hb, hk⟩

theorem UpperBound.maxA_wp {a b : UpperBound T} (ha : a.EndsIn R.P) (hb : b.EndsIn R.P) (hn : R.OkUpTo v (n + 2)) :
    (a.maxA v b).wp R (fun c k => c.EndsIn R.P ∧ k ≤ n + 2) n := by
  cases v
  · refine wp_seq (cmpA_wp ha hb hn) fun o k hk => ?_
    cases o <;> first | exact ⟨ha, hk⟩ | exact ⟨hb, hk⟩
  · refine wp_seq (ltA_wp hb ha) fun o k hk => ?_
    cases o <;> first | exact ⟨ha, hk⟩ | exact ⟨hb, hk⟩

theorem UpperBound.minA_wp {a b : UpperBound T} (ha : a.EndsIn R.P) (hb : b.EndsIn R.P) (hn : R.OkUpTo v (n + 2)) :
    (a.minA v b).wp R (fun c k => c.EndsIn R.P ∧ k ≤ n + 2) n := by
  cases v
  · refine wp_seq (cmpA_wp ha hb hn) fun o k hk => ?_
    cases o <;> first | exact ⟨ha, hk⟩ | exact ⟨hb, hk⟩
  · refine wp_seq (ltA_wp hb ha) fun o k hk => ?_
    cases o <;> first | exact ⟨ha, hk⟩ | exact ⟨hb, hk⟩

/-! ### Ranges -/

theorem BoundedRange.isEmptyA_wp {r : BoundedRange T} (h : r.EndsIn R.P) : r.isEmptyA.wp R (fun _ k => k ≤ n + 1) n := by
  rcases r with ⟨⟨a | a⟩, ⟨b | b⟩⟩ <;> exact ⟨h, fun _ => le_rfl⟩

theorem BoundedRange.interBRA_wp {a b : BoundedRange T} (ha : a.EndsIn R.P) (hb : b.EndsIn R.P) (hn : R.OkUpTo v (n + 4)) :
    (a.interBRA v b).wp R (fun c k => c.EndsIn R.P ∧ k ≤ n + 4) n := by
  refine wp_seq (LowerBound.maxA_wp ha.1 hb.1 (hn.mono (by omega))) fun s k hk => ?_
  refine wp_seq (UpperBound.minA_wp ha.2 hb.2 (hn.mono (by omega))) fun e j hj => ?_
  exact ⟨⟨hk.1, hj.1⟩, by omega⟩

theorem BoundedRange.interLBRA_wp {a : BoundedRange T} {b} (ha : a.EndsIn R.P) (hb : b.EndsIn R.P)
    (hn : R.OkUpTo v (n + 2)) : (a.interLBRA v b).wp R (fun c k => c.EndsIn R.P ∧ k ≤ n + 2) n :=
  wp_seq (LowerBound.maxA_wp ha.1 hb hn) fun _ _ hk => ⟨⟨hk.1, ha.2⟩, hk.2⟩

theorem BoundedRange.interUBRA_wp {a : BoundedRange T} {b} (ha : a.EndsIn R.P) (hb : b.EndsIn R.P)
    (hn : R.OkUpTo v (n + 2)) : (a.interUBRA v b).wp R (fun c k => c.EndsIn R.P ∧ k ≤ n + 2) n :=
  wp_seq (UpperBound.minA_wp ha.2 hb hn) fun _ _ hk => ⟨⟨ha.1, hk.1⟩, hk.2⟩

theorem LowerBoundedRange.interLBRA_wp {a b : LowerBoundedRange T} (ha : a.EndsIn R.P) (hb : b.EndsIn R.P)
    (hn : R.OkUpTo v (n + 2)) : (a.interLBRA v b).wp R (fun c k => c.EndsIn R.P ∧ k ≤ n + 2) n :=
  wp_seq (LowerBound.maxA_wp ha hb hn) fun _ _ hk => ⟨hk.1, hk.2⟩

theorem UpperBoundedRange.interUBRA_wp {a b : UpperBoundedRange T} (ha : a.EndsIn R.P) (hb : b.EndsIn R.P)
    (hn : R.OkUpTo v (n + 2)) : (a.interUBRA v b).wp R (fun c k => c.EndsIn R.P ∧ k ≤ n + 2) n :=
  wp_seq (UpperBound.minA_wp ha hb hn) fun _ _ hk => ⟨hk.1, hk.2⟩

theorem BoundedRange.intersectsBRA_wp {a b : BoundedRange T} (ha : a.EndsIn R.P) (hb : b.EndsIn R.P)
    (hn : R.OkUpTo v (n + 5)) : (a.intersectsBRA v b).wp R (fun _ k => k ≤ n + 5) n := by
  refine wp_seq (interBRA_wp ha hb (hn.mono (by omega))) fun r k hk => ?_
  refine wp_seq (isEmptyA_wp hk.1) fun r j hj => ?_
  exact (by omega : j ≤ n + 5)

theorem UpperBoundedRange.intersectsBRA_wp {a : UpperBoundedRange T} {b : BoundedRange T} (ha : a.EndsIn R.P)
    (hb : b.EndsIn R.P) (hn : R.OkUpTo v (n + 3)) : (a.intersectsBRA v b).wp R (fun _ k => k ≤ n + 3) n := by
  refine wp_seq (BoundedRange.interUBRA_wp hb ha (hn.mono (by omega))) fun r k hk => ?_
  refine wp_seq (BoundedRange.isEmptyA_wp hk.1) fun r j hj => ?_
  exact (by omega : j ≤ n + 3)

theorem LowerBoundedRange.intersectsBRA_wp {a : LowerBoundedRange T} {b : BoundedRange T} (ha : a.EndsIn R.P)
    (hb : b.EndsIn R.P) (hn : R.OkUpTo v (n + 3)) : (a.intersectsBRA v b).wp R (fun _ k => k ≤ n + 3) n := by
  refine wp_seq (BoundedRange.interLBRA_wp hb ha (hn.mono (by omega))) fun r k hk => ?_
  refine wp_seq (BoundedRange.isEmptyA_wp hk.1) fun r j hj => ?_
  exact (by omega : j ≤ n + 3)

theorem UpperBoundedRange.intersectsLBRA_wp {a : UpperBoundedRange T} {b : LowerBoundedRange T} (ha : a.EndsIn R.P)
    (hb : b.EndsIn R.P) : (a.intersectsLBRA b).wp R (fun _ k => k ≤ n + 1) n :=
  wp_seq (BoundedRange.isEmptyA_wp ⟨hb, ha⟩) fun _ _ hj => hj

theorem BoundedRange.combineA_wp {a b : BoundedRange T} (ha : a.EndsIn R.P) (hb : b.EndsIn R.P)
    (hn : R.OkUpTo v (n + 11)) : (a.combineA v b).wp R (fun c k => c.EndsIn R.P ∧ k ≤ n + 11) n := by
  refine wp_seq (isEmptyA_wp hb) fun r k hk => ?_
  cases r
  · refine wp_seq (isEmptyA_wp ha) fun r j hj => ?_
    cases r
    · refine wp_seq (intersectsBRA_wp ha hb (hn.mono (by omega))) fun r i hi => ?_
      cases r
      · exact (hn i (by omega)).1
      · refine wp_seq (LowerBound.minA_wp ha.1 hb.1 (hn.mono (by omega))) fun s k hk => ?_
        refine wp_seq (UpperBound.maxA_wp ha.2 hb.2 (hn.mono (by omega))) fun e j hj => ?_
        exact ⟨⟨hk.1, hj.1⟩, by omega⟩
    · exact ⟨hb, by omega⟩
  · exact ⟨ha, by omega⟩

/-! ### Sets -/

theorem BoundedSet.isEmptyA_wp {s : BoundedSet T} (h : s.EndsIn R.P) :
    s.isEmptyA.wp R (fun r k => (s.ranges = [] → r = true) ∧ k ≤ n + s.ranges.length) n := by
  have := wp_all (R := R) (l := s.ranges) (c := 1) (n := n) (f := fun r => r.isEmptyA)
    (fun x hx k => BoundedRange.isEmptyA_wp (h x hx))
  simpa [isEmptyA] using this

theorem BoundedSet.ofBRA_wp {r : BoundedRange T} (h : r.EndsIn R.P) :
    (ofBRA r).wp R (fun s k => s.EndsIn R.P ∧ s.ranges.length ≤ 1 ∧ k ≤ n + 1) n := by
  refine wp_seq (BoundedRange.isEmptyA_wp h) fun r k hk => ?_
  cases r
  · exact ⟨by simpa [EndsIn] using h, by simp, hk⟩
  · exact ⟨by simp [EndsIn, empty], by simp [empty], hk⟩

theorem BoundedSet.retainNonEmptyA_wp {s : BoundedSet T} (h : s.EndsIn R.P) :
    s.retainNonEmptyA.wp R
      (fun s' k => s'.EndsIn R.P ∧ s'.ranges.length ≤ s.ranges.length ∧ k ≤ n + s.ranges.length) n := by
  refine wp_seq (wp_filter (c := 1) fun x hx k =>
    wp_seq (BoundedRange.isEmptyA_wp (h x hx)) fun _ _ hj => hj) fun l k hk => ?_
  exact ⟨fun r hr => h r (hk.1.subset hr), hk.1.length_le, by simpa using hk.2⟩

theorem BoundedSet.addRangeA_wp {A : Nat} {s : BoundedSet T} {r : BoundedRange T} (hs : s.EndsIn R.P) (hr : r.EndsIn R.P)
    (hA : 12 + 7 * s.ranges.length ≤ A) (hn : R.OkUpTo v (n + A * (s.ranges.length + 2))) :
    (s.addRangeA v r).wp R (fun s' k => s'.EndsIn R.P ∧ s'.ranges.length ≤ s.ranges.length + 1 ∧
      k + A * s'.ranges.length ≤ n + A * (s.ranges.length + 2)) n := by
  induction hl : s.ranges.length using Nat.strongRecOn generalizing s r n with
  | _ l ih =>
    subst hl
    rw [addRangeA]
    have hA2 : n + A ≤ n + A * (s.ranges.length + 2) := by
      rw [Nat.mul_add]; omega
    refine wp_seq (BoundedRange.isEmptyA_wp hr) fun b k hk => ?_
    cases b
    · have hpos := wp_position (R := R) (v := v) (n := k) (c := 5) (l := s.ranges)
        (f := fun range => range.intersectsBRA v r)
        (fun x hx j hj => BoundedRange.intersectsBRA_wp (hs x hx) hr hj) (hn.mono (by omega))
      refine wp_seq hpos fun o j hj => ?_
      rcases o with _ | i
      · have hpos2 := wp_position (R := R) (v := v) (n := j) (c := 2) (l := s.ranges)
          (f := fun range => range.start.gtA r.start)
          (fun x hx j hj => LowerBound.gtA_wp (hs x hx).1 hr.1) (hn.mono (by omega))
        refine wp_seq hpos2 fun o' j' hj' => ?_
        have hle : (o'.map Fin.val).getD s.ranges.length ≤ s.ranges.length := by
          rcases o' with _ | i'
          · exact le_rfl
          · exact i'.isLt.le
        simp only [vdInsert, hle, if_true, ofRes]
        refine ⟨?_, ?_, ?_⟩
        · intro x hx
          rcases List.mem_append.mp hx with hx | hx
          · exact hs x (List.mem_of_mem_take hx)
          · rcases List.mem_cons.mp hx with rfl | hx
            · exact hr
            · exact hs x (List.mem_of_mem_drop hx)
        · simp only [List.length_append, List.length_take, List.length_cons, List.length_drop]
          omega
        · simp only [List.length_append, List.length_take, List.length_cons, List.length_drop]
          have : min ((o'.map Fin.val).getD s.ranges.length) s.ranges.length +
              (s.ranges.length - (o'.map Fin.val).getD s.ranges.length + 1) = s.ranges.length + 1 := by omega
          rw [this, Nat.mul_add, Nat.mul_add]
          omega
      · have hi := i.isLt
        have hx : (vdIndex s.ranges i : Res _) = .ok s.ranges[i] := by
          simp [vdIndex, unwrap]
        simp only [hx]
        refine wp_seq (Q := fun y k' => y = s.ranges[i] ∧ k' = j) ⟨rfl, rfl⟩ fun y k' hy => ?_
        obtain ⟨rfl, rfl⟩ := hy
        refine wp_seq (BoundedRange.combineA_wp hr (hs _ (List.getElem_mem hi)) (hn.mono (by omega))) fun c k'' hc => ?_
        obtain ⟨l, hlen⟩ : ∃ l, s.ranges.length = l + 1 := ⟨s.ranges.length - 1, by omega⟩
        have he : (s.ranges.eraseIdx i).length = l := by rw [List.length_eraseIdx_of_lt hi]; omega
        rw [hlen] at hn hA2 hA hj
        have e1 : A * (l + 1 + 2) = A * (l + 2) + A := by ring
        refine wp_mono (ih l (by omega) (s := ⟨s.ranges.eraseIdx i⟩)
          (fun x hx => hs x ((List.eraseIdx_sublist _ _).subset hx)) hc.1 (by simp only [he]; omega)
          (by simp only [he]; exact hn.mono (by omega)) he) fun s' m hm => ?_
        refine ⟨hm.1, by omega, ?_⟩
        have := hm.2.2
        rw [hlen, e1]
        omega
    · refine ⟨hs, by omega, ?_⟩
      rw [Nat.mul_add]
      omega

theorem BoundedSet.addSetA_wp {A : Nat} {s b : BoundedSet T} (hs : s.EndsIn R.P) (hb : b.EndsIn R.P)
    (hA : 12 + 7 * (s.ranges.length + b.ranges.length) ≤ A)
    (hn : R.OkUpTo v (n + A * (s.ranges.length + 2 * b.ranges.length))) :
    (s.addSetA v b).wp R (fun s' k => s'.EndsIn R.P ∧ s'.ranges.length ≤ s.ranges.length + b.ranges.length ∧
      k + A * s'.ranges.length ≤ n + A * (s.ranges.length + 2 * b.ranges.length)) n := by
  obtain ⟨l⟩ := b
  simp only [addSetA] at *
  induction l generalizing s n with
  | nil => exact ⟨hs, by simp, by simp⟩
  | cons x xs ih =>
    simp only [List.length_cons] at hA hn ⊢
    have e : A * (s.ranges.length + 2 * (xs.length + 1)) = A * (s.ranges.length + 2) + A * (2 * xs.length) := by ring
    rw [e] at hn ⊢
    refine wp_seq (addRangeA_wp (A := A) hs (hb x List.mem_cons_self) (by omega) (hn.mono (by omega))) fun s' k hk => ?_
    obtain ⟨h1, h2, h3⟩ := hk
    have e' : A * (s'.ranges.length + 2 * xs.length) = A * s'.ranges.length + A * (2 * xs.length) := by ring
    refine wp_mono (ih h1 (fun y hy => hb y (List.mem_cons_of_mem _ hy)) (by omega) ?_) fun s'' j hj => ?_
    · rw [e']; exact hn.mono (by omega)
    · obtain ⟨g1, g2, g3⟩ := hj
      rw [e'] at g3
      exact ⟨g1, by omega, by omega⟩

theorem LowerBoundedSet.defragmentA_wp {A : Nat} {s : LowerBoundedSet T} (hs : s.EndsIn R.P)
    (hA : 12 + 7 * s.ranges.ranges.length ≤ A) (hn : R.OkUpTo v (n + A * (s.ranges.ranges.length + 1))) :
    (s.defragmentA v).wp R (fun s' k => s'.EndsIn R.P ∧ s'.ranges.ranges.length ≤ s.ranges.ranges.length ∧
      k + A * s'.ranges.ranges.length ≤ n + A * (s.ranges.ranges.length + 1)) n := by
  induction hl : s.ranges.ranges.length using Nat.strongRecOn generalizing s n with
  | _ l ih =>
    subst hl
    rw [defragmentA]
    have hA2 : n + A ≤ n + A * (s.ranges.ranges.length + 1) := by
      rw [Nat.mul_add]; omega
    refine wp_seq (BoundedSet.isEmptyA_wp hs.1) fun b k hk => ?_
    cases b
    · simp only [Bool.not_false, if_true]
      split
      · rename_i h
        have := hk.1 (by simpa using h)
        cases this
      · rename_i range h
        have hmem : range ∈ s.ranges.ranges := List.mem_of_getLast? h
        have hpos := List.length_pos_of_mem hmem
        refine wp_seq (BoundedRange.interLBRA_wp (hs.1 _ hmem) hs.2 (hn.mono (by omega))) fun r k1 h1 => ?_
        refine wp_seq (BoundedRange.isEmptyA_wp h1.1) fun b k2 h2 => ?_
        cases b
        · refine wp_seq (LowerBound.minA_wp hs.2 (hs.1 _ hmem).1 (hn.mono (by omega))) fun st k3 h3 => ?_
          obtain ⟨l, hlen⟩ : ∃ l, s.ranges.ranges.length = l + 1 := ⟨s.ranges.ranges.length - 1, by omega⟩
          have he : s.ranges.ranges.dropLast.length = l := by rw [List.length_dropLast]; omega
          rw [hlen] at hn hA2 hA hk
          have e1 : A * (l + 1 + 1) = A * (l + 1) + A := by ring
          refine wp_mono (ih l (by omega) (s := ⟨⟨s.ranges.ranges.dropLast⟩, ⟨st⟩⟩)
            ⟨fun x hx => hs.1 x ((List.dropLast_sublist _).subset hx), h3.1⟩ (by simp only [he]; omega)
            (by simp only [he]; exact hn.mono (by omega)) he) fun s' m hm => ?_
          refine ⟨hm.1, by omega, ?_⟩
          have := hm.2.2
          rw [hlen, e1]
          omega
        · refine ⟨hs, le_rfl, ?_⟩
          rw [Nat.mul_add]
          omega
    · refine ⟨hs, le_rfl, ?_⟩
      rw [Nat.mul_add]
      omega

theorem UpperBoundedSet.defragmentA_wp {A : Nat} {s : UpperBoundedSet T} (hs : s.EndsIn R.P)
    (hA : 12 + 7 * s.ranges.ranges.length ≤ A) (hn : R.OkUpTo v (n + A * (s.ranges.ranges.length + 1))) :
    (s.defragmentA v).wp R (fun s' k => s'.EndsIn R.P ∧ s'.ranges.ranges.length ≤ s.ranges.ranges.length ∧
      k + A * s'.ranges.ranges.length ≤ n + A * (s.ranges.ranges.length + 1)) n := by
  induction hl : s.ranges.ranges.length using Nat.strongRecOn generalizing s n with
  | _ l ih =>
    subst hl
    rw [defragmentA]
    have hA2 : n + A ≤ n + A * (s.ranges.ranges.length + 1) := by
      rw [Nat.mul_add]; omega
    refine wp_seq (BoundedSet.isEmptyA_wp hs.1) fun b k hk => ?_
    cases b
    · simp only [Bool.not_false, if_true]
      split
      · rename_i h
        have := hk.1 h
        cases this
      · rename_i range rest h
        have hmem : range ∈ s.ranges.ranges := by rw [h]; exact List.mem_cons_self
        refine wp_seq (BoundedRange.interUBRA_wp (hs.1 _ hmem) hs.2 (hn.mono (by omega))) fun r k1 h1 => ?_
        refine wp_seq (BoundedRange.isEmptyA_wp h1.1) fun b k2 h2 => ?_
        cases b
        · refine wp_seq (UpperBound.maxA_wp hs.2 (hs.1 _ hmem).2 (hn.mono (by omega))) fun st k3 h3 => ?_
          have hlen : s.ranges.ranges.length = rest.length + 1 := by rw [h]; rfl
          rw [hlen] at hn hA2 hA hk
          have e1 : A * (rest.length + 1 + 1) = A * (rest.length + 1) + A := by ring
          refine wp_mono (ih rest.length (by omega) (s := ⟨⟨st⟩, ⟨rest⟩⟩)
            ⟨fun x hx => hs.1 x (by rw [h]; exact List.mem_cons_of_mem _ hx), h3.1⟩ (by simp only; omega)
            (by exact hn.mono (by simp only; omega)) rfl) fun s' m hm => ?_
          refine ⟨hm.1, by omega, ?_⟩
          have := hm.2.2
          rw [hlen, e1]
          omega
        · refine ⟨hs, le_rfl, ?_⟩
          rw [Nat.mul_add]
          omega
    · refine ⟨hs, le_rfl, ?_⟩
      rw [Nat.mul_add]
      omega

theorem PiecewiseUnboundedSet.defragmentA_wp {A : Nat} {s : PiecewiseUnboundedSet T} (hs : s.EndsIn R.P)
    (hA : 12 + 7 * s.ranges.ranges.length ≤ A) (hn : R.OkUpTo v (n + A * (s.ranges.ranges.length + 1))) :
    (s.defragmentA v).wp R (fun s' k => s'.EndsIn R.P ∧ s'.ranges.ranges.length ≤ s.ranges.ranges.length ∧
      k + 1 + A * s'.ranges.ranges.length ≤ n + A * (s.ranges.ranges.length + 1)) n := by
  induction hl : s.ranges.ranges.length using Nat.strongRecOn generalizing s n with
  | _ l ih =>
    subst hl
    rw [defragmentA]
    have hA2 : n + A ≤ n + A * (s.ranges.ranges.length + 1) := by
      rw [Nat.mul_add]; omega
    have hstep : ∀ (i : Fin s.ranges.ranges.length) (u : UpperBoundedRange T) (lo : LowerBoundedRange T) (k : Nat),
        u.EndsIn R.P → lo.EndsIn R.P → k ≤ n + A →
        (defragmentA v ⟨u, ⟨s.ranges.ranges.eraseIdx i⟩, lo⟩).wp R
          (fun s' k => s'.EndsIn R.P ∧ s'.ranges.ranges.length ≤ s.ranges.ranges.length ∧
            k + 1 + A * s'.ranges.ranges.length ≤ n + A * (s.ranges.ranges.length + 1)) k := by
      intro i u lo k hu hlo hk
      have hi := i.isLt
      obtain ⟨l, hlen⟩ : ∃ l, s.ranges.ranges.length = l + 1 := ⟨s.ranges.ranges.length - 1, by omega⟩
      have he : (s.ranges.ranges.eraseIdx i).length = l := by rw [List.length_eraseIdx_of_lt hi]; omega
      rw [hlen] at hn hA2 hA
      have e1 : A * (l + 1 + 1) = A * (l + 1) + A := by ring
      refine wp_mono (ih l (by omega) (s := ⟨u, ⟨s.ranges.ranges.eraseIdx i⟩, lo⟩)
        ⟨fun x hx => hs.1 x ((List.eraseIdx_sublist _ _).subset hx), hlo, hu⟩ (by simp only [he]; omega)
        (by simp only [he]; exact hn.mono (by omega)) he) fun s' m hm => ?_
      refine ⟨hm.1, by omega, ?_⟩
      have := hm.2.2
      rw [hlen, e1]
      omega
    have hpos := wp_position (R := R) (v := v) (n := n) (c := 3) (l := s.ranges.ranges)
      (f := fun r => s.upperBoundedRange.intersectsBRA v r)
      (fun x hx j hj => UpperBoundedRange.intersectsBRA_wp hs.2.2 (hs.1 x hx) hj) (hn.mono (by omega))
    refine wp_seq hpos fun o k hk => ?_
    rcases o with _ | i
    · have hpos2 := wp_position (R := R) (v := v) (n := k) (c := 3) (l := s.ranges.ranges)
        (f := fun r => s.lowerBoundedRange.intersectsBRA v r)
        (fun x hx j hj => LowerBoundedRange.intersectsBRA_wp hs.2.1 (hs.1 x hx) hj) (hn.mono (by omega))
      refine wp_seq hpos2 fun o k1 hk1 => ?_
      rcases o with _ | i
      · refine ⟨hs, le_rfl, ?_⟩
        rw [Nat.mul_add]
        omega
      · have hx : (unwrap "called `Option::unwrap()` on a `None` value" s.ranges.ranges[i.val]? : Res _) =
            .ok s.ranges.ranges[i] := by simp [unwrap]
        simp only [hx]
        refine wp_seq (Q := fun y k' => y = s.ranges.ranges[i] ∧ k' = k1) ⟨rfl, rfl⟩ fun y k' hy => ?_
        obtain ⟨rfl, rfl⟩ := hy
        refine wp_seq (LowerBound.minA_wp hs.2.1 (hs.1 _ (List.getElem_mem i.isLt)).1 (hn.mono (by omega))) fun st k2 h2 => ?_
        exact hstep i _ _ _ hs.2.2 h2.1 (by omega)
    · have hx : (unwrap "called `Option::unwrap()` on a `None` value" s.ranges.ranges[i.val]? : Res _) =
          .ok s.ranges.ranges[i] := by simp [unwrap]
      simp only [hx]
      refine wp_seq (Q := fun y k' => y = s.ranges.ranges[i] ∧ k' = k) ⟨rfl, rfl⟩ fun y k' hy => ?_
      obtain ⟨rfl, rfl⟩ := hy
      refine wp_seq (UpperBound.maxA_wp hs.2.2 (hs.1 _ (List.getElem_mem i.isLt)).2 (hn.mono (by omega))) fun st k2 h2 => ?_
      exact hstep i _ _ _ h2.1 hs.2.1 (by omega)

theorem Asks.wp_foldAdd {α β : Type} {f : β → α → Asks T β} {l : List α} {b : β} {len : β → Nat} {I : β → Prop} {c A : Nat}
    (hf : ∀ b, I b → ∀ x ∈ l, ∀ n, 12 + 7 * (len b + 1) ≤ A → R.OkUpTo v (n + A * (len b + c)) →
      (f b x).wp R (fun b' k => I b' ∧ len b' ≤ len b + 1 ∧ k + A * len b' ≤ n + A * (len b + c)) n)
    (hb : I b) (hA : 12 + 7 * (len b + l.length) ≤ A) (hn : R.OkUpTo v (n + A * (len b + c * l.length))) :
    (fold f b l).wp R
      (fun b' k => I b' ∧ len b' ≤ len b + l.length ∧ k + A * len b' ≤ n + A * (len b + c * l.length)) n := by
  induction l generalizing b n with
  | nil => exact ⟨hb, by simp, by simp⟩
  | cons x xs ih =>
    simp only [List.length_cons] at hA hn ⊢
    have e : A * (len b + c * (xs.length + 1)) = A * (len b + c) + A * (c * xs.length) := by ring
    rw [e] at hn ⊢
    refine wp_seq (hf b hb x List.mem_cons_self n (by omega) (hn.mono (by omega))) fun s' k hk => ?_
    obtain ⟨h1, h2, h3⟩ := hk
    have e' : A * (len s' + c * xs.length) = A * len s' + A * (c * xs.length) := by ring
    refine wp_mono (ih (fun b hb y hy => hf b hb y (List.mem_cons_of_mem _ hy)) h1 (by omega) ?_) fun s'' j hj => ?_
    · rw [e']; exact hn.mono (by omega)
    · obtain ⟨g1, g2, g3⟩ := hj
      rw [e'] at g3
      exact ⟨g1, by omega, by omega⟩

theorem LowerBoundedSet.addRangeA_wp {A : Nat} {s : LowerBoundedSet T} {r : BoundedRange T} (hs : s.EndsIn R.P)
    (hr : r.EndsIn R.P) (hA : 12 + 7 * (s.ranges.ranges.length + 1) ≤ A)
    (hn : R.OkUpTo v (n + A * (s.ranges.ranges.length + 3))) :
    (s.addRangeA v r).wp R (fun s' k => s'.EndsIn R.P ∧ s'.ranges.ranges.length ≤ s.ranges.ranges.length + 1 ∧
      k + A * s'.ranges.ranges.length ≤ n + A * (s.ranges.ranges.length + 3)) n := by
  have e : A * (s.ranges.ranges.length + 3) = A * (s.ranges.ranges.length + 2) + A := by ring
  rw [e] at hn ⊢
  refine wp_seq (BoundedSet.addRangeA_wp (A := A) hs.1 hr (by omega) (hn.mono (by omega))) fun b k hk => ?_
  obtain ⟨h1, h2, h3⟩ := hk
  have e' : A * (b.ranges.length + 1) = A * b.ranges.length + A := by ring
  refine wp_mono (defragmentA_wp (A := A) (s := ⟨b, s.lowerBoundedRange⟩) ⟨h1, hs.2⟩ (by simp only; omega) ?_)
    fun s' j hj => ?_
  · simp only [e']; exact hn.mono (by omega)
  · obtain ⟨g1, g2, g3⟩ := hj
    simp only [e'] at g2 g3
    exact ⟨g1, by omega, by omega⟩

theorem LowerBoundedSet.addSetA_wp {A : Nat} {s : LowerBoundedSet T} {b : BoundedSet T} (hs : s.EndsIn R.P)
    (hb : b.EndsIn R.P) (hA : 12 + 7 * (s.ranges.ranges.length + b.ranges.length) ≤ A)
    (hn : R.OkUpTo v (n + A * (s.ranges.ranges.length + 3 * b.ranges.length))) :
    (s.addSetA v b).wp R
      (fun s' k => s'.EndsIn R.P ∧ s'.ranges.ranges.length ≤ s.ranges.ranges.length + b.ranges.length ∧
        k + A * s'.ranges.ranges.length ≤ n + A * (s.ranges.ranges.length + 3 * b.ranges.length)) n :=
  wp_foldAdd (f := fun s r => LowerBoundedSet.addRangeA v s r) (len := fun s => s.ranges.ranges.length)
    (I := EndsIn R.P)
    (fun _ hs r hr _ hA hn => addRangeA_wp hs (hb r hr) hA hn) hs hA hn

theorem LowerBoundedSet.addLowerBoundedRangeA_wp {A : Nat} {s : LowerBoundedSet T} {r : LowerBoundedRange T}
    (hs : s.EndsIn R.P) (hr : r.EndsIn R.P) (hA : 12 + 7 * s.ranges.ranges.length ≤ A)
    (hn : R.OkUpTo v (n + A * (s.ranges.ranges.length + 2))) :
    (s.addLowerBoundedRangeA v r).wp R (fun s' k => s'.EndsIn R.P ∧
      s'.ranges.ranges.length ≤ s.ranges.ranges.length ∧
      k + A * s'.ranges.ranges.length ≤ n + A * (s.ranges.ranges.length + 2)) n := by
  have e : A * (s.ranges.ranges.length + 2) = A * (s.ranges.ranges.length + 1) + A := by ring
  rw [e] at hn ⊢
  refine wp_seq (LowerBound.minA_wp hs.2 hr (hn.mono (by omega))) fun st k hk => ?_
  refine wp_mono (defragmentA_wp (A := A) (s := ⟨s.ranges, ⟨st⟩⟩) ⟨hs.1, hk.1⟩ hA (hn.mono (by simp only; omega)))
    fun s' j hj => ?_
  obtain ⟨g1, g2, g3⟩ := hj
  exact ⟨g1, g2, by simp only at g3; omega⟩

theorem UpperBoundedSet.addRangeA_wp {A : Nat} {s : UpperBoundedSet T} {r : BoundedRange T} (hs : s.EndsIn R.P)
    (hr : r.EndsIn R.P) (hA : 12 + 7 * (s.ranges.ranges.length + 1) ≤ A)
    (hn : R.OkUpTo v (n + A * (s.ranges.ranges.length + 3))) :
    (s.addRangeA v r).wp R (fun s' k => s'.EndsIn R.P ∧ s'.ranges.ranges.length ≤ s.ranges.ranges.length + 1 ∧
      k + A * s'.ranges.ranges.length ≤ n + A * (s.ranges.ranges.length + 3)) n := by
  have e : A * (s.ranges.ranges.length + 3) = A * (s.ranges.ranges.length + 2) + A := by ring
  rw [e] at hn ⊢
  refine wp_seq (BoundedSet.addRangeA_wp (A := A) hs.1 hr (by omega) (hn.mono (by omega))) fun b k hk => ?_
  obtain ⟨h1, h2, h3⟩ := hk
  have e' : A * (b.ranges.length + 1) = A * b.ranges.length + A := by ring
  refine wp_mono (defragmentA_wp (A := A) (s := ⟨s.upperBoundedRange, b⟩) ⟨h1, hs.2⟩ (by simp only; omega) ?_)
    fun s' j hj => ?_
  · simp only [e']; exact hn.mono (by omega)
  · obtain ⟨g1, g2, g3⟩ := hj
    simp only [e'] at g2 g3
    exact ⟨g1, by omega, by omega⟩

theorem UpperBoundedSet.addSetA_wp {A : Nat} {s : UpperBoundedSet T} {b : BoundedSet T} (hs : s.EndsIn R.P)
    (hb : b.EndsIn R.P) (hA : 12 + 7 * (s.ranges.ranges.length + b.ranges.length) ≤ A)
    (hn : R.OkUpTo v (n + A * (s.ranges.ranges.length + 3 * b.ranges.length))) :
    (s.addSetA v b).wp R
      (fun s' k => s'.EndsIn R.P ∧ s'.ranges.ranges.length ≤ s.ranges.ranges.length + b.ranges.length ∧
        k + A * s'.ranges.ranges.length ≤ n + A * (s.ranges.ranges.length + 3 * b.ranges.length)) n :=
  wp_foldAdd (f := fun s r => UpperBoundedSet.addRangeA v s r) (len := fun s => s.ranges.ranges.length)
    (I := EndsIn R.P)
    (fun _ hs r hr _ hA hn => addRangeA_wp hs (hb r hr) hA hn) hs hA hn

theorem UpperBoundedSet.addUpperBoundedRangeA_wp {A : Nat} {s : UpperBoundedSet T} {r : UpperBoundedRange T}
    (hs : s.EndsIn R.P) (hr : r.EndsIn R.P) (hA : 12 + 7 * s.ranges.ranges.length ≤ A)
    (hn : R.OkUpTo v (n + A * (s.ranges.ranges.length + 2))) :
    (s.addUpperBoundedRangeA v r).wp R (fun s' k => s'.EndsIn R.P ∧
      s'.ranges.ranges.length ≤ s.ranges.ranges.length ∧
      k + A * s'.ranges.ranges.length ≤ n + A * (s.ranges.ranges.length + 2)) n := by
  have e : A * (s.ranges.ranges.length + 2) = A * (s.ranges.ranges.length + 1) + A := by ring
  rw [e] at hn ⊢
  refine wp_seq (UpperBound.maxA_wp hs.2 hr (hn.mono (by omega))) fun st k hk => ?_
  refine wp_mono (defragmentA_wp (A := A) (s := ⟨⟨st⟩, s.ranges⟩) ⟨hs.1, hk.1⟩ hA (hn.mono (by simp only; omega)))
    fun s' j hj => ?_
  obtain ⟨g1, g2, g3⟩ := hj
  exact ⟨g1, g2, by simp only at g3; omega⟩

theorem UnboundedSet.newA_wp {u : UpperBoundedRange T} {l : LowerBoundedRange T} (hu : u.EndsIn R.P) (hl : l.EndsIn R.P) :
    (newA u l).wp R (fun s k => s.EndsIn R.P ∧ s.len = 0 ∧ k ≤ n + 1) n := by
  refine wp_seq (BoundedRange.isEmptyA_wp ⟨hl, hu⟩) fun b k hk => ?_
  cases b
  · exact ⟨trivial, rfl, hk⟩
  · exact ⟨⟨by simp [BoundedSet.EndsIn, BoundedSet.empty], hl, hu⟩, rfl, hk⟩

theorem UnboundedSet.defragmentA_wp {A : Nat} {s : UnboundedSet T} (hs : s.EndsIn R.P) (hA : 12 + 7 * s.len ≤ A)
    (hn : R.OkUpTo v (n + A * (s.len + 1))) :
    (s.defragmentA v).wp R (fun s' k => s'.EndsIn R.P ∧ s'.len ≤ s.len ∧ k + A * s'.len ≤ n + A * (s.len + 1)) n := by
  cases s with
  | full => exact ⟨trivial, le_rfl, by simp [len]⟩
  | piecewise p =>
    simp only [defragmentA, mapPiecewiseA]
    refine wp_seq (wp_seq (PiecewiseUnboundedSet.defragmentA_wp (A := A) hs hA hn)
      (Q' := fun q k => ∃ p', q = .piecewise p' ∧ p'.EndsIn R.P ∧
        p'.ranges.ranges.length ≤ p.ranges.ranges.length ∧
        k + 1 + A * p'.ranges.ranges.length ≤ n + A * (p.ranges.ranges.length + 1))
      fun p' k hk => ⟨p', rfl, hk⟩) fun q k hq => ?_
    obtain ⟨p', rfl, h1, h2, h3⟩ := hq
    refine wp_seq (UpperBoundedRange.intersectsLBRA_wp h1.2.2 h1.2.1) fun b j hj => ?_
    cases b
    · exact ⟨h1, h2, by simp only [len]; omega⟩
    · exact ⟨trivial, Nat.zero_le _, by simp only [len]; omega⟩

theorem UnboundedSet.addRangeA_wp {A : Nat} {s : UnboundedSet T} {r : BoundedRange T} (hs : s.EndsIn R.P)
    (hr : r.EndsIn R.P) (hA : 12 + 7 * (s.len + 1) ≤ A) (hn : R.OkUpTo v (n + A * (s.len + 3))) :
    (s.addRangeA v r).wp R (fun s' k => s'.EndsIn R.P ∧ s'.len ≤ s.len + 1 ∧
      k + A * s'.len ≤ n + A * (s.len + 3)) n := by
  have e : A * (s.len + 3) = A * (s.len + 2) + A := by ring
  rw [e] at hn ⊢
  refine wp_seq (Q := fun s' k => s'.EndsIn R.P ∧ s'.len ≤ s.len + 1 ∧ k + A * s'.len ≤ n + A * (s.len + 2)) ?_
    fun s' k hk => ?_
  · cases s with
    | full => exact ⟨trivial, by simp [len], by simp [len]⟩
    | piecewise p =>
      refine wp_seq (wp_seq (BoundedSet.addRangeA_wp (A := A) hs.1 hr (by simp only [len] at hA; omega)
          (hn.mono (by simp only [len]; omega)))
        (Q' := fun (q : PiecewiseUnboundedSet T) k => q.EndsIn R.P ∧
          q.ranges.ranges.length ≤ p.ranges.ranges.length + 1 ∧
          k + A * q.ranges.ranges.length ≤ n + A * (p.ranges.ranges.length + 2))
        fun b k hk => ⟨⟨hk.1, hs.2⟩, hk.2⟩) fun q k hk => hk
  · obtain ⟨h1, h2, h3⟩ := hk
    have e' : A * (s'.len + 1) = A * s'.len + A := by ring
    refine wp_mono (defragmentA_wp (A := A) h1 (by omega) (by rw [e']; exact hn.mono (by omega))) fun s'' j hj => ?_
    obtain ⟨g1, g2, g3⟩ := hj
    exact ⟨g1, by omega, by omega⟩

theorem UnboundedSet.addSetA_wp {A : Nat} {s : UnboundedSet T} {b : BoundedSet T} (hs : s.EndsIn R.P)
    (hb : b.EndsIn R.P) (hA : 12 + 7 * (s.len + b.ranges.length) ≤ A)
    (hn : R.OkUpTo v (n + A * (s.len + 3 * b.ranges.length))) :
    (s.addSetA v b).wp R (fun s' k => s'.EndsIn R.P ∧ s'.len ≤ s.len + b.ranges.length ∧
        k + A * s'.len ≤ n + A * (s.len + 3 * b.ranges.length)) n :=
  wp_foldAdd (f := fun s r => UnboundedSet.addRangeA v s r) (len := len) (I := EndsIn R.P)
    (fun _ hs r hr _ hA hn => addRangeA_wp hs (hb r hr) hA hn) hs hA hn

theorem UnboundedSet.addLowerBoundedRangeA_wp {A : Nat} {s : UnboundedSet T} {r : LowerBoundedRange T}
    (hs : s.EndsIn R.P) (hr : r.EndsIn R.P) (hA : 12 + 7 * s.len ≤ A) (hn : R.OkUpTo v (n + A * (s.len + 2))) :
    (s.addLowerBoundedRangeA v r).wp R (fun s' k => s'.EndsIn R.P ∧ s'.len ≤ s.len ∧
      k + A * s'.len ≤ n + A * (s.len + 2)) n := by
  have e : A * (s.len + 2) = A * (s.len + 1) + A := by ring
  rw [e] at hn ⊢
  refine wp_seq (Q := fun s' k => s'.EndsIn R.P ∧ s'.len = s.len ∧ k ≤ n + 2) ?_ fun s' k hk => ?_
  · cases s with
    | full => exact ⟨trivial, rfl, by omega⟩
    | piecewise p =>
      refine wp_seq (wp_seq (LowerBound.minA_wp hs.2.1 hr (hn.mono (by omega)))
        (Q' := fun (q : PiecewiseUnboundedSet T) k => q.EndsIn R.P ∧ q.ranges = p.ranges ∧ k ≤ n + 2)
        fun b k hk => ⟨⟨hs.1, hk.1, hs.2.2⟩, rfl, hk.2⟩) fun q k hk => ⟨hk.1, ?_, hk.2.2⟩
      simp [len, hk.2.1]
  · obtain ⟨h1, h2, h3⟩ := hk
    refine wp_mono (defragmentA_wp (A := A) h1 (by omega) (by rw [h2]; exact hn.mono (by omega))) fun s'' j hj => ?_
    obtain ⟨g1, g2, g3⟩ := hj
    rw [h2] at g2 g3
    exact ⟨g1, by omega, by omega⟩

theorem UnboundedSet.addUpperBoundedRangeA_wp {A : Nat} {s : UnboundedSet T} {r : UpperBoundedRange T}
    (hs : s.EndsIn R.P) (hr : r.EndsIn R.P) (hA : 12 + 7 * s.len ≤ A) (hn : R.OkUpTo v (n + A * (s.len + 2))) :
    (s.addUpperBoundedRangeA v r).wp R (fun s' k => s'.EndsIn R.P ∧ s'.len ≤ s.len ∧
      k + A * s'.len ≤ n + A * (s.len + 2)) n := by
  have e : A * (s.len + 2) = A * (s.len + 1) + A := by ring
  rw [e] at hn ⊢
  refine wp_seq (Q := fun s' k => s'.EndsIn R.P ∧ s'.len = s.len ∧ k ≤ n + 2) ?_ fun s' k hk => ?_
  · cases s with
    | full => exact ⟨trivial, rfl, by omega⟩
    | piecewise p =>
      refine wp_seq (wp_seq (UpperBound.maxA_wp hs.2.2 hr (hn.mono (by omega)))
        (Q' := fun (q : PiecewiseUnboundedSet T) k => q.EndsIn R.P ∧ q.ranges = p.ranges ∧ k ≤ n + 2)
        fun b k hk => ⟨⟨hs.1, hs.2.1, hk.1⟩, rfl, hk.2⟩) fun q k hk => ⟨hk.1, ?_, hk.2.2⟩
      simp [len, hk.2.1]
  · obtain ⟨h1, h2, h3⟩ := hk
    refine wp_mono (defragmentA_wp (A := A) h1 (by omega) (by rw [h2]; exact hn.mono (by omega))) fun s'' j hj => ?_
    obtain ⟨g1, g2, g3⟩ := hj
    rw [h2] at g2 g3
    exact ⟨g1, by omega, by omega⟩

theorem UnboundedSet.addUnboundedSetA_wp {A : Nat} {s t : UnboundedSet T} (hs : s.EndsIn R.P) (ht : t.EndsIn R.P)
    (hA : 12 + 7 * (s.len + t.len) ≤ A) (hn : R.OkUpTo v (n + A * (s.len + 3 * t.len + 5))) :
    (s.addUnboundedSetA v t).wp R (fun s' k => s'.EndsIn R.P ∧ s'.len ≤ s.len + t.len ∧
      k + A * s'.len ≤ n + A * (s.len + 3 * t.len + 5)) n := by
  cases t with
  | full => exact ⟨trivial, Nat.zero_le _, by simp [len]⟩
  | piecewise p =>
    have hp : (UnboundedSet.piecewise p).len = p.ranges.ranges.length := rfl
    rw [hp] at hA hn ⊢
    have e : A * (s.len + 3 * p.ranges.ranges.length + 5) =
      A * (s.len + 2) + A * 2 + A * (3 * p.ranges.ranges.length) + A := by ring
    rw [e] at hn ⊢
    refine wp_seq (addLowerBoundedRangeA_wp (A := A) hs ht.2.1 (by omega) (hn.mono (by omega))) fun s1 k1 h1 => ?_
    obtain ⟨a1, a2, a3⟩ := h1
    have e1 : A * (s1.len + 2) = A * s1.len + A * 2 := by ring
    refine wp_seq (addUpperBoundedRangeA_wp (A := A) a1 ht.2.2 (by omega) (hn.mono (by omega))) fun s2 k2 h2 => ?_
    obtain ⟨b1, b2, b3⟩ := h2
    have e2 : A * (s2.len + 3 * p.ranges.ranges.length) = A * s2.len + A * (3 * p.ranges.ranges.length) := by ring
    refine wp_seq (addSetA_wp (A := A) b1 ht.1 (by omega) (hn.mono (by omega))) fun s3 k3 h3 => ?_
    obtain ⟨c1, c2, c3⟩ := h3
    have e3 : A * (s3.len + 1) = A * s3.len + A := by ring
    refine wp_mono (defragmentA_wp (A := A) c1 (by omega) (hn.mono (by omega))) fun s4 k4 h4 => ?_
    obtain ⟨d1, d2, d3⟩ := h4
    exact ⟨d1, by omega, by omega⟩

theorem LowerBoundedSet.unionLBSA_wp {A : Nat} {s t : LowerBoundedSet T} (hs : s.EndsIn R.P) (ht : t.EndsIn R.P)
    (hA : 12 + 7 * (s.ranges.ranges.length + t.ranges.ranges.length) ≤ A)
    (hn : R.OkUpTo v (n + A * (s.ranges.ranges.length + 3 * t.ranges.ranges.length + 2))) :
    (s.unionLBSA v t).wp R
      (fun s' k => s'.EndsIn R.P ∧ s'.ranges.ranges.length ≤ s.ranges.ranges.length + t.ranges.ranges.length ∧
        k + A * s'.ranges.ranges.length ≤ n + A * (s.ranges.ranges.length + 3 * t.ranges.ranges.length + 2)) n := by
  have e : A * (s.ranges.ranges.length + 3 * t.ranges.ranges.length + 2) =
    A * (s.ranges.ranges.length + 2) + A * (3 * t.ranges.ranges.length) := by ring
  rw [e] at hn ⊢
  refine wp_seq (addLowerBoundedRangeA_wp (A := A) hs ht.2 (by omega) (hn.mono (by omega))) fun s1 k1 h1 => ?_
  obtain ⟨a1, a2, a3⟩ := h1
  have e1 : A * (s1.ranges.ranges.length + 3 * t.ranges.ranges.length) =
    A * s1.ranges.ranges.length + A * (3 * t.ranges.ranges.length) := by ring
  refine wp_mono (addSetA_wp (A := A) a1 ht.1 (by omega) (hn.mono (by omega))) fun s3 k3 h3 => ?_
  obtain ⟨c1, c2, c3⟩ := h3
  exact ⟨c1, by omega, by omega⟩

theorem UpperBoundedSet.unionUBSA_wp {A : Nat} {s t : UpperBoundedSet T} (hs : s.EndsIn R.P) (ht : t.EndsIn R.P)
    (hA : 12 + 7 * (s.ranges.ranges.length + t.ranges.ranges.length) ≤ A)
    (hn : R.OkUpTo v (n + A * (s.ranges.ranges.length + 3 * t.ranges.ranges.length + 2))) :
    (s.unionUBSA v t).wp R
      (fun s' k => s'.EndsIn R.P ∧ s'.ranges.ranges.length ≤ s.ranges.ranges.length + t.ranges.ranges.length ∧
        k + A * s'.ranges.ranges.length ≤ n + A * (s.ranges.ranges.length + 3 * t.ranges.ranges.length + 2)) n := by
  have e : A * (s.ranges.ranges.length + 3 * t.ranges.ranges.length + 2) =
    A * (s.ranges.ranges.length + 2) + A * (3 * t.ranges.ranges.length) := by ring
  rw [e] at hn ⊢
  refine wp_seq (addUpperBoundedRangeA_wp (A := A) hs ht.2 (by omega) (hn.mono (by omega))) fun s1 k1 h1 => ?_
  obtain ⟨a1, a2, a3⟩ := h1
  have e1 : A * (s1.ranges.ranges.length + 3 * t.ranges.ranges.length) =
    A * s1.ranges.ranges.length + A * (3 * t.ranges.ranges.length) := by ring
  refine wp_mono (addSetA_wp (A := A) a1 ht.1 (by omega) (hn.mono (by omega))) fun s3 k3 h3 => ?_
  obtain ⟨c1, c2, c3⟩ := h3
  exact ⟨c1, by omega, by omega⟩

theorem LowerBoundedSet.unionUBSA_wp {A : Nat} {s : LowerBoundedSet T} {t : UpperBoundedSet T} (hs : s.EndsIn R.P)
    (ht : t.EndsIn R.P) (hA : 12 + 7 * (s.ranges.ranges.length + t.ranges.ranges.length) ≤ A)
    (hn : R.OkUpTo v (n + A * (3 * s.ranges.ranges.length + 3 * t.ranges.ranges.length + 1))) :
    (s.unionUBSA v t).wp R
      (fun s' k => s'.EndsIn R.P ∧ s'.len ≤ s.ranges.ranges.length + t.ranges.ranges.length ∧
        k + A * s'.len ≤ n + A * (3 * s.ranges.ranges.length + 3 * t.ranges.ranges.length + 1)) n := by
  have e : A * (3 * s.ranges.ranges.length + 3 * t.ranges.ranges.length + 1) =
    A * (3 * s.ranges.ranges.length) + A * (3 * t.ranges.ranges.length) + A := by ring
  rw [e] at hn ⊢
  refine wp_seq (UnboundedSet.newA_wp ht.2 hs.2) fun s1 k1 h1 => ?_
  obtain ⟨a1, a2, a3⟩ := h1
  refine wp_seq (UnboundedSet.addSetA_wp (A := A) a1 hs.1 (by omega) (by
    rw [a2, Nat.zero_add]; exact hn.mono (by omega))) fun s2 k2 h2 => ?_
  obtain ⟨b1, b2, b3⟩ := h2
  rw [a2, Nat.zero_add] at b2 b3
  have e1 : A * (s2.len + 3 * t.ranges.ranges.length) = A * s2.len + A * (3 * t.ranges.ranges.length) := by ring
  refine wp_mono (UnboundedSet.addSetA_wp (A := A) b1 ht.1 (by omega) (hn.mono (by omega))) fun s3 k3 h3 => ?_
  obtain ⟨c1, c2, c3⟩ := h3
  exact ⟨c1, by omega, by omega⟩

theorem LowerBoundedSet.unionUSA_wp {A : Nat} {s : LowerBoundedSet T} {t : UnboundedSet T} (hs : s.EndsIn R.P)
    (ht : t.EndsIn R.P) (hA : 12 + 7 * (s.ranges.ranges.length + t.len) ≤ A)
    (hn : R.OkUpTo v (n + A * (t.len + 3 * s.ranges.ranges.length + 2))) :
    (s.unionUSA v t).wp R
      (fun s' k => s'.EndsIn R.P ∧ s'.len ≤ s.ranges.ranges.length + t.len ∧
        k + A * s'.len ≤ n + A * (t.len + 3 * s.ranges.ranges.length + 2)) n := by
  have e : A * (t.len + 3 * s.ranges.ranges.length + 2) = A * (t.len + 2) + A * (3 * s.ranges.ranges.length) := by ring
  rw [e] at hn ⊢
  refine wp_seq (UnboundedSet.addLowerBoundedRangeA_wp (A := A) ht hs.2 (by omega) (hn.mono (by omega))) fun s1 k1 h1 => ?_
  obtain ⟨a1, a2, a3⟩ := h1
  have e1 : A * (s1.len + 3 * s.ranges.ranges.length) = A * s1.len + A * (3 * s.ranges.ranges.length) := by ring
  refine wp_mono (UnboundedSet.addSetA_wp (A := A) a1 hs.1 (by omega) (hn.mono (by omega))) fun s3 k3 h3 => ?_
  obtain ⟨c1, c2, c3⟩ := h3
  exact ⟨c1, by omega, by omega⟩

theorem UpperBoundedSet.unionUSA_wp {A : Nat} {s : UpperBoundedSet T} {t : UnboundedSet T} (hs : s.EndsIn R.P)
    (ht : t.EndsIn R.P) (hA : 12 + 7 * (s.ranges.ranges.length + t.len) ≤ A)
    (hn : R.OkUpTo v (n + A * (t.len + 3 * s.ranges.ranges.length + 2))) :
    (s.unionUSA v t).wp R
      (fun s' k => s'.EndsIn R.P ∧ s'.len ≤ s.ranges.ranges.length + t.len ∧
        k + A * s'.len ≤ n + A * (t.len + 3 * s.ranges.ranges.length + 2)) n := by
  have e : A * (t.len + 3 * s.ranges.ranges.length + 2) = A * (t.len + 2) + A * (3 * s.ranges.ranges.length) := by ring
  rw [e] at hn ⊢
  refine wp_seq (UnboundedSet.addUpperBoundedRangeA_wp (A := A) ht hs.2 (by omega) (hn.mono (by omega))) fun s1 k1 h1 => ?_
  obtain ⟨a1, a2, a3⟩ := h1
  have e1 : A * (s1.len + 3 * s.ranges.ranges.length) = A * s1.len + A * (3 * s.ranges.ranges.length) := by ring
  refine wp_mono (UnboundedSet.addSetA_wp (A := A) a1 hs.1 (by omega) (hn.mono (by omega))) fun s3 k3 h3 => ?_
  obtain ⟨c1, c2, c3⟩ := h3
  exact ⟨c1, by omega, by omega⟩

/-! ### Intersection and complement: where the endpoints lie and how many pieces there are -/

/-- `Q` holds of the result, whatever the answers. -/
def Asks.Sat {α : Type} (R : Rules T) (Q : α → Prop) (x : Asks T α) : Prop := ∀ n, x.wp R (fun a _ => Q a) n

namespace Asks
variable {α β : Type}

theorem sat_done {Q : α → Prop} {a : α} (h : Q a) : Sat R Q (.done a) := fun _ => h

theorem sat_mono {Q Q' : α → Prop} {x : Asks T α} (h : x.Sat R Q) (hQ : ∀ a, Q a → Q' a) : x.Sat R Q' :=
  fun n => wp_mono (h n) fun a _ => hQ a

theorem sat_seq {Q : α → Prop} {Q' : β → Prop} {x : Asks T α} {f : α → Asks T β} (h : x.Sat R Q)
    (hf : ∀ a, Q a → (f a).Sat R Q') : (x >>= f).Sat R Q' :=
  fun n => wp_seq (h n) fun a k ha => hf a ha k

theorem sat_map {f : α → Asks T β} {l : List α} {F : β → Prop} (hf : ∀ x ∈ l, (f x).Sat R F) :
    (map f l).Sat R (fun l' => (∀ y ∈ l', F y) ∧ l'.length = l.length) := by
  induction l with
  | nil => exact sat_done (by simp)
  | cons x xs ih =>
    refine sat_seq (hf x List.mem_cons_self) fun y hy => ?_
    refine sat_seq (ih fun x hx => hf x (List.mem_cons_of_mem _ hx)) fun l hl => sat_done ?_
    simpa [hl.2] using ⟨hy, hl.1⟩

theorem sat_fold {f : β → α → Asks T β} {l : List α} {I : Nat → β → Prop}
    (hf : ∀ i b, I i b → ∀ x ∈ l, (f b x).Sat R (I (i + 1))) {i : Nat} {b : β} (hb : I i b) :
    (fold f b l).Sat R (I (i + l.length)) := by
  induction l generalizing i b with
  | nil => exact sat_done hb
  | cons x xs ih =>
    refine sat_seq (hf i b hb x List.mem_cons_self) fun b' hb' => ?_
    have := ih (fun i b hb x hx => hf i b hb x (List.mem_cons_of_mem _ hx)) hb'
    rwa [Nat.add_assoc, Nat.add_comm 1] at this

end Asks

section
variable (hok : ∀ n, R.Ok v n)
include hok

omit hok in
theorem BoundedSet.retainNonEmptyA_sat {s : BoundedSet T} (h : s.EndsIn R.P) :
    s.retainNonEmptyA.Sat R (fun s' => s'.EndsIn R.P ∧ s'.ranges.length ≤ s.ranges.length) :=
  fun n => wp_mono (retainNonEmptyA_wp (n := n) h) fun _ _ h => ⟨h.1, h.2.1⟩

theorem BoundedSet.addSetA_sat {s b : BoundedSet T} (hs : s.EndsIn R.P) (hb : b.EndsIn R.P) :
    (s.addSetA v b).Sat R (fun s' => s'.EndsIn R.P ∧ s'.ranges.length ≤ s.ranges.length + b.ranges.length) :=
  fun n => wp_mono (addSetA_wp (n := n) hs hb le_rfl fun _ _ => hok _) fun _ _ h => ⟨h.1, h.2.1⟩

theorem LowerBoundedSet.addSetA_sat {s : LowerBoundedSet T} {b : BoundedSet T} (hs : s.EndsIn R.P) (hb : b.EndsIn R.P) :
    (s.addSetA v b).Sat R
      (fun s' => s'.EndsIn R.P ∧ s'.ranges.ranges.length ≤ s.ranges.ranges.length + b.ranges.length) :=
  fun n => wp_mono (addSetA_wp (n := n) hs hb le_rfl fun _ _ => hok _) fun _ _ h => ⟨h.1, h.2.1⟩

theorem UpperBoundedSet.addSetA_sat {s : UpperBoundedSet T} {b : BoundedSet T} (hs : s.EndsIn R.P) (hb : b.EndsIn R.P) :
    (s.addSetA v b).Sat R
      (fun s' => s'.EndsIn R.P ∧ s'.ranges.ranges.length ≤ s.ranges.ranges.length + b.ranges.length) :=
  fun n => wp_mono (addSetA_wp (n := n) hs hb le_rfl fun _ _ => hok _) fun _ _ h => ⟨h.1, h.2.1⟩

theorem LowerBoundedSet.unionUBSA_sat {s : LowerBoundedSet T} {t : UpperBoundedSet T} (hs : s.EndsIn R.P)
    (ht : t.EndsIn R.P) : (s.unionUBSA v t).Sat R
      (fun s' => s'.EndsIn R.P ∧ s'.len ≤ s.ranges.ranges.length + t.ranges.ranges.length) :=
  fun n => wp_mono (unionUBSA_wp (n := n) hs ht le_rfl fun _ _ => hok _) fun _ _ h => ⟨h.1, h.2.1⟩

omit hok in
theorem BoundedSet.ofBRA_sat {r : BoundedRange T} (h : r.EndsIn R.P) :
    (ofBRA r).Sat R (fun s => s.EndsIn R.P ∧ s.ranges.length ≤ 1) :=
  fun n => wp_mono (ofBRA_wp (n := n) h) fun _ _ h => ⟨h.1, h.2.1⟩

theorem BoundedRange.interBRA_sat {a b : BoundedRange T} (ha : a.EndsIn R.P) (hb : b.EndsIn R.P) :
    (a.interBRA v b).Sat R (EndsIn R.P) :=
  fun n => wp_mono (interBRA_wp (n := n) ha hb fun _ _ => hok _) fun _ _ h => h.1

theorem BoundedRange.interLBRA_sat {a : BoundedRange T} {b} (ha : a.EndsIn R.P) (hb : b.EndsIn R.P) :
    (a.interLBRA v b).Sat R (EndsIn R.P) :=
  fun n => wp_mono (interLBRA_wp (n := n) ha hb fun _ _ => hok _) fun _ _ h => h.1

theorem BoundedRange.interUBRA_sat {a : BoundedRange T} {b} (ha : a.EndsIn R.P) (hb : b.EndsIn R.P) :
    (a.interUBRA v b).Sat R (EndsIn R.P) :=
  fun n => wp_mono (interUBRA_wp (n := n) ha hb fun _ _ => hok _) fun _ _ h => h.1

theorem LowerBoundedRange.interLBRA_sat {a b : LowerBoundedRange T} (ha : a.EndsIn R.P) (hb : b.EndsIn R.P) :
    (a.interLBRA v b).Sat R (EndsIn R.P) :=
  fun n => wp_mono (interLBRA_wp (n := n) ha hb fun _ _ => hok _) fun _ _ h => h.1

theorem UpperBoundedRange.interUBRA_sat {a b : UpperBoundedRange T} (ha : a.EndsIn R.P) (hb : b.EndsIn R.P) :
    (a.interUBRA v b).Sat R (EndsIn R.P) :=
  fun n => wp_mono (interUBRA_wp (n := n) ha hb fun _ _ => hok _) fun _ _ h => h.1

theorem BoundedSet.interBRA_sat {s : BoundedSet T} {r} (hs : s.EndsIn R.P) (hr : r.EndsIn R.P) :
    (s.interBRA v r).Sat R (fun s' => s'.EndsIn R.P ∧ s'.ranges.length ≤ s.ranges.length) := by
  refine sat_seq (sat_map fun x hx => BoundedRange.interBRA_sat hok (hs x hx) hr) fun l hl => ?_
  exact hl.2 ▸ retainNonEmptyA_sat (s := ⟨l⟩) hl.1

theorem BoundedSet.interLBRA_sat {s : BoundedSet T} {r} (hs : s.EndsIn R.P) (hr : r.EndsIn R.P) :
    (s.interLBRA v r).Sat R (fun s' => s'.EndsIn R.P ∧ s'.ranges.length ≤ s.ranges.length) := by
  refine sat_seq (sat_map fun x hx => BoundedRange.interLBRA_sat hok (hs x hx) hr) fun l hl => ?_
  exact hl.2 ▸ retainNonEmptyA_sat (s := ⟨l⟩) hl.1

theorem BoundedSet.interUBRA_sat {s : BoundedSet T} {r} (hs : s.EndsIn R.P) (hr : r.EndsIn R.P) :
    (s.interUBRA v r).Sat R (fun s' => s'.EndsIn R.P ∧ s'.ranges.length ≤ s.ranges.length) := by
  refine sat_seq (sat_map fun x hx => BoundedRange.interUBRA_sat hok (hs x hx) hr) fun l hl => ?_
  exact hl.2 ▸ retainNonEmptyA_sat (s := ⟨l⟩) hl.1

theorem BoundedSet.interBSA_sat {s t : BoundedSet T} (hs : s.EndsIn R.P) (ht : t.EndsIn R.P) :
    (s.interBSA v t).Sat R (fun s' => s'.EndsIn R.P ∧ s'.ranges.length ≤ s.ranges.length * t.ranges.length) := by
  have := sat_fold (R := R) (l := s.ranges) (I := fun i (b : BoundedSet T) => b.EndsIn R.P ∧ b.ranges.length ≤ i * t.ranges.length)
    (f := fun set range => do set.addSetA v (← t.interBRA v range)) (i := 0) (b := BoundedSet.empty) ?_
    ⟨by simp [EndsIn, empty], by simp [empty]⟩
  · simpa [interBSA] using this
  · intro i b hb x hx
    refine sat_seq (interBRA_sat hok ht (hs x hx)) fun c hc => ?_
    refine sat_mono (addSetA_sat hok hb.1 hc.1) fun d hd => ⟨hd.1, ?_⟩
    have := hb.2; have := hc.2; have := hd.2
    rw [Nat.add_mul]
    omega

theorem LowerBoundedSet.interBRA_sat {s : LowerBoundedSet T} {r} (hs : s.EndsIn R.P) (hr : r.EndsIn R.P) :
    (s.interBRA v r).Sat R (fun s' => s'.EndsIn R.P ∧ s'.ranges.length ≤ s.ranges.ranges.length + 1) := by
  refine sat_seq (BoundedRange.interLBRA_sat hok hr hs.2) fun a ha => ?_
  refine sat_seq (BoundedSet.ofBRA_sat ha) fun b hb => ?_
  refine sat_seq (BoundedSet.interBRA_sat hok hs.1 hr) fun c hc => ?_
  exact sat_mono (BoundedSet.addSetA_sat hok hb.1 hc.1) fun d hd => ⟨hd.1, by omega⟩

theorem UpperBoundedSet.interBRA_sat {s : UpperBoundedSet T} {r} (hs : s.EndsIn R.P) (hr : r.EndsIn R.P) :
    (s.interBRA v r).Sat R (fun s' => s'.EndsIn R.P ∧ s'.ranges.length ≤ s.ranges.ranges.length + 1) := by
  refine sat_seq (BoundedRange.interUBRA_sat hok hr hs.2) fun a ha => ?_
  refine sat_seq (BoundedSet.ofBRA_sat ha) fun b hb => ?_
  refine sat_seq (BoundedSet.retainNonEmptyA_sat hb.1) fun b' hb' => ?_
  refine sat_seq (BoundedSet.interBRA_sat hok hs.1 hr) fun c hc => ?_
  exact sat_mono (BoundedSet.addSetA_sat hok hb'.1 hc.1) fun d hd => ⟨hd.1, by omega⟩

theorem BoundedSet.interLBSA_sat {s : BoundedSet T} {t : LowerBoundedSet T} (hs : s.EndsIn R.P) (ht : t.EndsIn R.P) :
    (s.interLBSA v t).Sat R
      (fun s' => s'.EndsIn R.P ∧ s'.ranges.length ≤ s.ranges.length * (t.ranges.ranges.length + 2)) := by
  refine sat_seq (interLBRA_sat hok hs ht.2) fun a ha => ?_
  have := sat_fold (R := R) (l := s.ranges) (I := fun i (b : BoundedSet T) => b.EndsIn R.P ∧
      b.ranges.length ≤ s.ranges.length + i * (t.ranges.ranges.length + 1))
    (f := fun set range => do set.addSetA v (← t.interBRA v range)) (i := 0) (b := a) ?_ ⟨ha.1, by have := ha.2; omega⟩
  · refine sat_mono this fun d hd => ⟨hd.1, ?_⟩
    have e : s.ranges.length * (t.ranges.ranges.length + 2) =
      s.ranges.length + (0 + s.ranges.length) * (t.ranges.ranges.length + 1) := by ring
    rw [e]; exact hd.2
  · intro i b hb x hx
    refine sat_seq (LowerBoundedSet.interBRA_sat hok ht (hs x hx)) fun c hc => ?_
    refine sat_mono (addSetA_sat hok hb.1 hc.1) fun d hd => ⟨hd.1, ?_⟩
    have := hb.2; have := hc.2; have := hd.2
    rw [Nat.add_mul]
    omega

theorem BoundedSet.interUBSA_sat {s : BoundedSet T} {t : UpperBoundedSet T} (hs : s.EndsIn R.P) (ht : t.EndsIn R.P) :
    (s.interUBSA v t).Sat R
      (fun s' => s'.EndsIn R.P ∧ s'.ranges.length ≤ s.ranges.length * (t.ranges.ranges.length + 2)) := by
  refine sat_seq (interUBRA_sat hok hs ht.2) fun a ha => ?_
  have := sat_fold (R := R) (l := s.ranges) (I := fun i (b : BoundedSet T) => b.EndsIn R.P ∧
      b.ranges.length ≤ s.ranges.length + i * (t.ranges.ranges.length + 1))
    (f := fun set range => do set.addSetA v (← t.interBRA v range)) (i := 0) (b := a) ?_ ⟨ha.1, by have := ha.2; omega⟩
  · refine sat_mono this fun d hd => ⟨hd.1, ?_⟩
    have e : s.ranges.length * (t.ranges.ranges.length + 2) =
      s.ranges.length + (0 + s.ranges.length) * (t.ranges.ranges.length + 1) := by ring
    rw [e]; exact hd.2
  · intro i b hb x hx
    refine sat_seq (UpperBoundedSet.interBRA_sat hok ht (hs x hx)) fun c hc => ?_
    refine sat_mono (addSetA_sat hok hb.1 hc.1) fun d hd => ⟨hd.1, ?_⟩
    have := hb.2; have := hc.2; have := hd.2
    rw [Nat.add_mul]
    omega

theorem LowerBoundedSet.interLBRA_sat {s : LowerBoundedSet T} {r} (hs : s.EndsIn R.P) (hr : r.EndsIn R.P) :
    (s.interLBRA v r).Sat R (fun s' => s'.EndsIn R.P ∧ s'.ranges.ranges.length ≤ s.ranges.ranges.length) := by
  refine sat_seq (LowerBoundedRange.interLBRA_sat hok hs.2 hr) fun a ha => ?_
  refine sat_seq (BoundedSet.interLBRA_sat hok hs.1 hr) fun c hc => ?_
  exact sat_done ⟨⟨hc.1, ha⟩, hc.2⟩

theorem LowerBoundedSet.interLBSA_sat {s t : LowerBoundedSet T} (hs : s.EndsIn R.P) (ht : t.EndsIn R.P) :
    (s.interLBSA v t).Sat R (fun s' => s'.EndsIn R.P ∧
      s'.ranges.ranges.length ≤ s.ranges.ranges.length * (t.ranges.ranges.length + 3)) := by
  refine sat_seq (interLBRA_sat hok hs ht.2) fun a ha => ?_
  refine sat_seq (BoundedSet.interLBSA_sat hok hs.1 ht) fun c hc => ?_
  refine sat_mono (addSetA_sat hok ha.1 hc.1) fun d hd => ⟨hd.1, ?_⟩
  have e : s.ranges.ranges.length * (t.ranges.ranges.length + 3) =
    s.ranges.ranges.length + s.ranges.ranges.length * (t.ranges.ranges.length + 2) := by ring
  rw [e]
  omega

theorem LowerBoundedSet.interUBRA_sat {s : LowerBoundedSet T} {r} (hs : s.EndsIn R.P) (hr : r.EndsIn R.P) :
    (s.interUBRA v r).Sat R (fun s' => s'.EndsIn R.P ∧ s'.ranges.length ≤ s.ranges.ranges.length + 1) := by
  refine sat_seq (BoundedSet.ofBRA_sat ⟨hs.2, hr⟩) fun b hb => ?_
  refine sat_seq (BoundedSet.retainNonEmptyA_sat hb.1) fun b' hb' => ?_
  refine sat_seq (BoundedSet.interUBRA_sat hok hs.1 hr) fun c hc => ?_
  refine sat_seq (BoundedSet.addSetA_sat hok hb'.1 hc.1) fun d hd => ?_
  exact sat_mono (BoundedSet.retainNonEmptyA_sat hd.1) fun d hd => ⟨hd.1, by omega⟩

theorem LowerBoundedSet.interUBSA_sat {s : LowerBoundedSet T} {t : UpperBoundedSet T} (hs : s.EndsIn R.P)
    (ht : t.EndsIn R.P) : (s.interUBSA v t).Sat R (fun s' => s'.EndsIn R.P ∧
      s'.ranges.length ≤ s.ranges.ranges.length + 1 + t.ranges.ranges.length * (s.ranges.ranges.length + 2)) := by
  refine sat_seq (interUBRA_sat hok hs ht.2) fun b hb => ?_
  refine sat_seq (BoundedSet.retainNonEmptyA_sat hb.1) fun b' hb' => ?_
  refine sat_seq (BoundedSet.interLBSA_sat hok ht.1 hs) fun c hc => ?_
  refine sat_seq (BoundedSet.addSetA_sat hok hb'.1 hc.1) fun d hd => ?_
  exact sat_mono (BoundedSet.retainNonEmptyA_sat hd.1) fun d hd => ⟨hd.1, by omega⟩

theorem UpperBoundedSet.interLBRA_sat {s : UpperBoundedSet T} {r} (hs : s.EndsIn R.P) (hr : r.EndsIn R.P) :
    (s.interLBRA v r).Sat R (fun s' => s'.EndsIn R.P ∧ s'.ranges.length ≤ s.ranges.ranges.length + 1) := by
  refine sat_seq (BoundedSet.ofBRA_sat ⟨hr, hs.2⟩) fun b hb => ?_
  refine sat_seq (BoundedSet.retainNonEmptyA_sat hb.1) fun b' hb' => ?_
  refine sat_seq (BoundedSet.interLBRA_sat hok hs.1 hr) fun c hc => ?_
  exact sat_mono (BoundedSet.addSetA_sat hok hb'.1 hc.1) fun d hd => ⟨hd.1, by omega⟩

theorem UpperBoundedSet.interUBRA_sat {s : UpperBoundedSet T} {r} (hs : s.EndsIn R.P) (hr : r.EndsIn R.P) :
    (s.interUBRA v r).Sat R (fun s' => s'.EndsIn R.P ∧ s'.ranges.ranges.length ≤ s.ranges.ranges.length) := by
  refine sat_seq (UpperBoundedRange.interUBRA_sat hok hs.2 hr) fun a ha => ?_
  refine sat_seq (BoundedSet.interUBRA_sat hok hs.1 hr) fun c hc => ?_
  refine sat_mono (addSetA_sat hok (s := .ofUBR a) ⟨by simp [BoundedSet.EndsIn, ofUBR, BoundedSet.empty], ha⟩ hc.1)
    fun d hd => ⟨hd.1, ?_⟩
  have := hd.2
  simp only [ofUBR, BoundedSet.empty, List.length_nil] at this
  omega

theorem UpperBoundedSet.interUBSA_sat {s t : UpperBoundedSet T} (hs : s.EndsIn R.P) (ht : t.EndsIn R.P) :
    (s.interUBSA v t).Sat R (fun s' => s'.EndsIn R.P ∧
      s'.ranges.ranges.length ≤ s.ranges.ranges.length + t.ranges.ranges.length * (s.ranges.ranges.length + 2)) := by
  refine sat_seq (interUBRA_sat hok hs ht.2) fun a ha => ?_
  refine sat_seq (BoundedSet.interUBSA_sat hok ht.1 hs) fun c hc => ?_
  exact sat_mono (addSetA_sat hok ha.1 hc.1) fun d hd => ⟨hd.1, by omega⟩

theorem BoundedSet.interUSA_sat {s : BoundedSet T} {t : UnboundedSet T} (hs : s.EndsIn R.P) (ht : t.EndsIn R.P) :
    (s.interUSA v t).Sat R (fun s' => s'.EndsIn R.P ∧ s'.ranges.length ≤ s.ranges.length * (t.len + 2)) := by
  cases t with
  | full => exact sat_done ⟨hs, by simp only [UnboundedSet.len]; omega⟩
  | piecewise p =>
    refine sat_seq (interUBRA_sat hok hs ht.2.2) fun a ha => ?_
    refine sat_seq (interLBRA_sat hok hs ht.2.1) fun b hb => ?_
    refine sat_seq (addSetA_sat hok ha.1 hb.1) fun c hc => ?_
    refine sat_seq (interBSA_sat hok hs ht.1) fun d hd => ?_
    refine sat_mono (addSetA_sat hok hc.1 hd.1) fun e he => ⟨he.1, ?_⟩
    simp only [UnboundedSet.len, Nat.mul_add]
    omega

theorem LowerBoundedSet.interUSA_sat {s : LowerBoundedSet T} {t : UnboundedSet T} (hs : s.EndsIn R.P) (ht : t.EndsIn R.P) :
    (s.interUSA v t).Sat R (fun s' => s'.EndsIn R.P ∧
      s'.ranges.ranges.length ≤ 2 * s.ranges.ranges.length + 1 + t.len * (s.ranges.ranges.length + 2)) := by
  cases t with
  | full => exact sat_done ⟨hs, by simp only [UnboundedSet.len]; omega⟩
  | piecewise p =>
    refine sat_seq (interLBRA_sat hok hs ht.2.1) fun a ha => ?_
    refine sat_seq (interUBRA_sat hok hs ht.2.2) fun b hb => ?_
    refine sat_seq (addSetA_sat hok ha.1 hb.1) fun c hc => ?_
    refine sat_seq (BoundedSet.interLBSA_sat hok ht.1 hs) fun d hd => ?_
    refine sat_mono (addSetA_sat hok hc.1 hd.1) fun e he => ⟨he.1, ?_⟩
    simp only [UnboundedSet.len]
    omega

theorem UpperBoundedSet.interUSA_sat {s : UpperBoundedSet T} {t : UnboundedSet T} (hs : s.EndsIn R.P) (ht : t.EndsIn R.P) :
    (s.interUSA v t).Sat R (fun s' => s'.EndsIn R.P ∧
      s'.ranges.ranges.length ≤ 2 * s.ranges.ranges.length + 1 + t.len * (s.ranges.ranges.length + 2)) := by
  cases t with
  | full => exact sat_done ⟨hs, by simp only [UnboundedSet.len]; omega⟩
  | piecewise p =>
    refine sat_seq (interUBRA_sat hok hs ht.2.2) fun a ha => ?_
    refine sat_seq (interLBRA_sat hok hs ht.2.1) fun b hb => ?_
    refine sat_seq (addSetA_sat hok ha.1 hb.1) fun c hc => ?_
    refine sat_seq (BoundedSet.interUBSA_sat hok ht.1 hs) fun d hd => ?_
    refine sat_mono (addSetA_sat hok hc.1 hd.1) fun e he => ⟨he.1, ?_⟩
    simp only [UnboundedSet.len]
    omega

theorem UnboundedSet.interUSA_sat {s t : UnboundedSet T} (hs : s.EndsIn R.P) (ht : t.EndsIn R.P) :
    (s.interUSA v t).Sat R (fun s' => s'.EndsIn R.P ∧
      (s = .full → s' = t) ∧ s'.len ≤ s.len * t.len + 4 * s.len + 2 * t.len + 2) := by
  cases s with
  | full => exact sat_done ⟨ht, by simp, by omega⟩
  | piecewise p =>
    cases t with
    | full => exact sat_done ⟨hs, by simp, by omega⟩
    | piecewise q =>
      refine sat_seq (UpperBoundedSet.interUSA_sat hok (s := .ofUBR q.upperBoundedRange)
        ⟨by simp [BoundedSet.EndsIn, UpperBoundedSet.ofUBR, BoundedSet.empty], ht.2.2⟩ hs) fun a ha => ?_
      refine sat_seq (LowerBoundedSet.interUSA_sat hok (s := .ofLBR q.lowerBoundedRange)
        ⟨by simp [BoundedSet.EndsIn, LowerBoundedSet.ofLBR, BoundedSet.empty], ht.2.1⟩ hs) fun b hb => ?_
      refine sat_seq (BoundedSet.interUSA_sat hok ht.1 hs) fun c hc => ?_
      refine sat_seq (LowerBoundedSet.addSetA_sat hok hb.1 hc.1) fun d hd => ?_
      refine sat_mono (LowerBoundedSet.unionUBSA_sat hok hd.1 ha.1) fun e he => ⟨he.1, by simp, ?_⟩
      obtain ⟨_, ha⟩ := ha
      obtain ⟨_, hb⟩ := hb
      obtain ⟨_, hc⟩ := hc
      simp only [UpperBoundedSet.ofUBR, LowerBoundedSet.ofLBR, BoundedSet.empty, List.length_nil, UnboundedSet.len] at *
      have e1 : q.ranges.ranges.length * (p.ranges.ranges.length + 2) =
        p.ranges.ranges.length * q.ranges.ranges.length + 2 * q.ranges.ranges.length := by ring
      omega

theorem BoundedRange.complementA_sat {r : BoundedRange T} (hr : r.EndsIn R.P) :
    (r.complementA v).Sat R (fun s' => s'.EndsIn R.P ∧ s'.len = 0) := by
  refine sat_mono (LowerBoundedSet.unionUBSA_sat hok (s := .ofLBR ⟨.ofBound r.stop.b.flipped⟩)
    (t := .ofUBR ⟨.ofBound r.start.b.flipped⟩) ?_ ?_) fun s hs => ⟨hs.1, by simpa [LowerBoundedSet.ofLBR,
      UpperBoundedSet.ofUBR, BoundedSet.empty] using hs.2⟩
  · refine ⟨by simp [BoundedSet.EndsIn, LowerBoundedSet.ofLBR, BoundedSet.empty], ?_⟩
    exact UpperBound.EndsIn.flipped hr.2
  · refine ⟨by simp [BoundedSet.EndsIn, UpperBoundedSet.ofUBR, BoundedSet.empty], ?_⟩
    exact LowerBound.EndsIn.flipped hr.1

theorem BoundedSet.complementA_sat {s : BoundedSet T} (hs : s.EndsIn R.P) :
    (s.complementA v).Sat R (fun s' => s'.EndsIn R.P ∧ 3 * s'.len + 2 ≤ 2 * 4 ^ (s.ranges.length - 1)) := by
  have := sat_fold (R := R) (l := s.ranges) (I := fun i (b : UnboundedSet T) => b.EndsIn R.P ∧
      (i = 0 → b = .full) ∧ 3 * b.len + 2 ≤ 2 * 4 ^ (i - 1))
    (f := fun acc range => do acc.interUSA v (← range.complementA v)) (i := 0) (b := .full) ?_
    ⟨trivial, by simp, by simp [UnboundedSet.len]⟩
  · refine sat_mono this fun b hb => ⟨hb.1, ?_⟩
    simpa using hb.2.2
  · intro i b hb x hx
    refine sat_seq (BoundedRange.complementA_sat hok (hs x hx)) fun c hc => ?_
    refine sat_mono (UnboundedSet.interUSA_sat hok hb.1 hc.1) fun d hd => ⟨hd.1, by simp, ?_⟩
    obtain ⟨_, h1, h2⟩ := hd
    rcases i with _ | i
    · rw [h1 (hb.2.1 rfl), hc.2]; simp
    · rw [hc.2] at h2
      have := hb.2.2
      simp only [Nat.add_sub_cancel] at *
      rw [Nat.pow_succ]
      omega

theorem LowerBoundedSet.complementA_sat {s : LowerBoundedSet T} (hs : s.EndsIn R.P) :
    (s.complementA v).Sat R (fun s' => s'.EndsIn R.P ∧ s'.ranges.ranges.length + 1 ≤ 2 ^ s.ranges.ranges.length) := by
  have := sat_fold (R := R) (l := s.ranges.ranges) (I := fun i (b : UpperBoundedSet T) => b.EndsIn R.P ∧
      b.ranges.ranges.length + 1 ≤ 2 ^ i)
    (f := fun acc range => do acc.interUSA v (← range.complementA v)) (i := 0)
    (b := .ofUBR ⟨.ofBound s.lowerBoundedRange.start.b.flipped⟩) ?_ ⟨⟨?_, ?_⟩, ?_⟩
  · refine sat_mono this fun b hb => ⟨hb.1, ?_⟩
    simpa using hb.2
  · intro i b hb x hx
    refine sat_seq (BoundedRange.complementA_sat hok (hs.1 x hx)) fun c hc => ?_
    refine sat_mono (UpperBoundedSet.interUSA_sat hok hb.1 hc.1) fun d hd => ⟨hd.1, ?_⟩
    obtain ⟨_, h2⟩ := hd
    rw [hc.2] at h2
    have := hb.2
    rw [Nat.pow_succ]
    omega
  · simp [BoundedSet.EndsIn, UpperBoundedSet.ofUBR, BoundedSet.empty]
  · exact LowerBound.EndsIn.flipped hs.2
  · simp [UpperBoundedSet.ofUBR, BoundedSet.empty]

theorem UpperBoundedSet.complementA_sat {s : UpperBoundedSet T} (hs : s.EndsIn R.P) :
    (s.complementA v).Sat R (fun s' => s'.EndsIn R.P ∧ s'.ranges.ranges.length + 1 ≤ 2 ^ s.ranges.ranges.length) := by
  have := sat_fold (R := R) (l := s.ranges.ranges) (I := fun i (b : LowerBoundedSet T) => b.EndsIn R.P ∧
      b.ranges.ranges.length + 1 ≤ 2 ^ i)
    (f := fun acc range => do acc.interUSA v (← range.complementA v)) (i := 0)
    (b := .ofLBR ⟨.ofBound s.upperBoundedRange.stop.b.flipped⟩) ?_ ⟨⟨?_, ?_⟩, ?_⟩
  · refine sat_mono this fun b hb => ⟨hb.1, ?_⟩
    simpa using hb.2
  · intro i b hb x hx
    refine sat_seq (BoundedRange.complementA_sat hok (hs.1 x hx)) fun c hc => ?_
    refine sat_mono (LowerBoundedSet.interUSA_sat hok hb.1 hc.1) fun d hd => ⟨hd.1, ?_⟩
    obtain ⟨_, h2⟩ := hd
    rw [hc.2] at h2
    have := hb.2
    rw [Nat.pow_succ]
    omega
  · simp [BoundedSet.EndsIn, LowerBoundedSet.ofLBR, BoundedSet.empty]
  · exact UpperBound.EndsIn.flipped hs.2
  · simp [LowerBoundedSet.ofLBR, BoundedSet.empty]

theorem UnboundedSet.complementA_sat {s : UnboundedSet T} (hs : s.EndsIn R.P) :
    (s.complementA v).Sat R (fun s' => s'.EndsIn R.P ∧ s'.ranges.length ≤ 2 ^ s.len) := by
  cases s with
  | full => exact sat_done ⟨by simp [BoundedSet.EndsIn, BoundedSet.empty], by simp [BoundedSet.empty]⟩
  | piecewise p =>
    refine sat_seq (BoundedSet.ofBRA_sat ⟨?_, ?_⟩) fun a ha => ?_
    · exact UpperBound.EndsIn.flipped hs.2.2
    · exact LowerBound.EndsIn.flipped hs.2.1
    have := sat_fold (R := R) (l := p.ranges.ranges) (I := fun i (b : BoundedSet T) => b.EndsIn R.P ∧
        b.ranges.length ≤ 2 ^ i)
      (f := fun acc range => do acc.interUSA v (← range.complementA v)) (i := 0) (b := a) ?_ ⟨ha.1, ha.2⟩
    · refine sat_mono this fun b hb => ⟨hb.1, ?_⟩
      simpa [len] using hb.2
    · intro i b hb x hx
      refine sat_seq (BoundedRange.complementA_sat hok (hs.1 x hx)) fun c hc => ?_
      refine sat_mono (BoundedSet.interUSA_sat hok hb.1 hc.1) fun d hd => ⟨hd.1, ?_⟩
      obtain ⟨_, h2⟩ := hd
      rw [hc.2] at h2
      have := hb.2
      rw [Nat.pow_succ]
      omega

end
end
end Rangetools
