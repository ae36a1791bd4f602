import Verif.Proofs.AsksAll

/-!
# Programs that compare: how many comparisons an intersection makes
-/

namespace Rangetools
open Asks

namespace Asks
variable {T α β γ : Type} {A : Nat}

/-- With a budget of `n` comparisons: it is never exceeded, and `Q` holds of the result and what is left of the budget,
whatever the answers. -/
def within (Q : α → Nat → Prop) : Asks T α → Nat → Prop
  | .done a, n => Q a n
  | .panic _, _ => True
  | .test _ _ _ k, n => 1 ≤ n ∧ ∀ r, (k r).within Q (n - 1)
  | .cmp _ _ k, n => 1 ≤ n ∧ ∀ r, (k r).within Q (n - 1)

theorem within_mono {Q Q' : α → Nat → Prop} {x : Asks T α} {n : Nat} (h : x.within Q n) (hQ : ∀ a k, Q a k → Q' a k) :
    x.within Q' n := by
  induction x generalizing n with
  | done a => exact hQ _ _ h
  | panic m => trivial
  | test q a b k ih => exact ⟨h.1, fun r => ih r (h.2 r)⟩
  | cmp a b k ih => exact ⟨h.1, fun r => ih r (h.2 r)⟩

theorem within_seq {Q : α → Nat → Prop} {Q' : β → Nat → Prop} {x : Asks T α} {f : α → Asks T β} {n : Nat}
    (h : x.within Q n) (hf : ∀ a k, Q a k → (f a).within Q' k) : (x >>= f).within Q' n := by
  induction x generalizing n with
  | done a => exact hf _ _ h
  | panic m => trivial
  | test q a b k ih => exact ⟨h.1, fun r => ih r (h.2 r)⟩
  | cmp a b k ih => exact ⟨h.1, fun r => ih r (h.2 r)⟩

/-- What is added to the budget is left over. -/
theorem within_add {Q : α → Nat → Prop} {x : Asks T α} {n : Nat} (h : x.within Q n) (c : Nat) :
    x.within (fun a k => ∃ j, Q a j ∧ k = j + c) (n + c) := by
  induction x generalizing n with
  | done a => exact ⟨n, h, rfl⟩
  | panic m => trivial
  | test q a b k ih =>
    refine ⟨by have := h.1; omega, fun r => ?_⟩
    have := ih r (h.2 r)
    rwa [show n - 1 + c = n + c - 1 by have := h.1; omega] at this
  | cmp a b k ih =>
    refine ⟨by have := h.1; omega, fun r => ?_⟩
    have := ih r (h.2 r)
    rwa [show n - 1 + c = n + c - 1 by have := h.1; omega] at this

/-- No run makes more comparisons than the budget. -/
theorem within_exec {S : Type} {Q : α → Nat → Prop} {x : Asks T α} {n : Nat} (h : x.within Q n) (w : World S T) (s : S) :
    (x.exec w s).2.1.length ≤ n := by
  induction x generalizing n s with
  | done a => simp [exec]
  | panic m => simp [exec]
  | test q a b k ih =>
    obtain ⟨h1, h2⟩ := h
    simp only [exec]
    rcases w.test s q a b with ⟨_ | r, s'⟩
    · simpa using h1
    · exact (Nat.add_le_add_right (ih r (h2 r) s') 1).trans (by omega)
  | cmp a b k ih =>
    obtain ⟨h1, h2⟩ := h
    simp only [exec]
    rcases w.cmp s a b with ⟨_ | r, s'⟩
    · simpa using h1
    · exact (Nat.add_le_add_right (ih r (h2 r) s') 1).trans (by omega)

/-- The rules for counting: anything goes, up to `B` comparisons. -/
def upTo (T : Type) (B : Nat) : Rules T := ⟨fun _ => True, fun _ => True, fun _ n => n ≤ B⟩

theorem upTo_ok {B : Nat} {v : MaxVia} : (upTo T B).OkUpTo v B := fun _ hk => ⟨hk, fun _ _ => hk⟩

theorem within_of_wp {B : Nat} {Q : α → Nat → Prop} {x : Asks T α} {n : Nat} (h : x.wp (upTo T B) Q n)
    (hQ : ∀ a k, Q a k → k ≤ B) : x.within (fun a j => ∃ k, Q a k ∧ k + j = B) (B - n) := by
  have hb : ∀ {x : Asks T α} {n}, x.wp (upTo T B) Q n → n ≤ B := fun h =>
    wp_bound (R := upTo T B) ⟨none, trivial⟩ (fun _ _ h => h) (wp_mono h hQ)
  induction x generalizing n with
  | done a => exact ⟨n, h, by have := hQ _ _ h; omega⟩
  | panic m => trivial
  | test q a b k ih =>
    have h1 := hb (h.2 true)
    exact ⟨by omega, fun r => by have := ih r (h.2 r); rwa [show B - (n + 1) = B - n - 1 by omega] at this⟩
  | cmp a b k ih =>
    have h1 := hb (h.2 none trivial)
    exact ⟨by omega, fun r => by have := ih r (h.2 r trivial); rwa [show B - (n + 1) = B - n - 1 by omega] at this⟩

/-- The same, with the budget counted in units of `A` comparisons: from `u` units, at least `e` are left in the end, and `Q`
holds of the result and `e`. -/
def Costs (A : Nat) (Q : α → Nat → Prop) (u : Nat) (x : Asks T α) : Prop :=
  ∀ n, A * u ≤ n → x.within (fun a j => ∃ e, A * e ≤ j ∧ Q a e) n

theorem costs_done {Q : α → Nat → Prop} {a : α} {u : Nat} (h : Q a u) : (done a : Asks T α).Costs A Q u :=
  fun _ hn => ⟨u, hn, h⟩

theorem costs_mono {Q Q' : α → Nat → Prop} {x : Asks T α} {u : Nat} (h : x.Costs A Q u) (hQ : ∀ a e, Q a e → Q' a e) :
    x.Costs A Q' u :=
  fun n hn => within_mono (h n hn) fun a _ ⟨e, h1, h2⟩ => ⟨e, h1, hQ a e h2⟩

theorem costs_seq {Q : α → Nat → Prop} {Q' : β → Nat → Prop} {x : Asks T α} {f : α → Asks T β} {u : Nat}
    (h : x.Costs A Q u) (hf : ∀ a e, Q a e → (f a).Costs A Q' e) : (x >>= f).Costs A Q' u :=
  fun n hn => within_seq (h n hn) fun a k ⟨e, h1, h2⟩ => hf a e h2 k h1

/-- With `w` units where `u` are enough, `f` more are left over. -/
theorem costs_use {Q : α → Nat → Prop} {x : Asks T α} {u w : Nat} (h : x.Costs A Q u) (f : Nat) (hw : u + f ≤ w) :
    x.Costs A (fun a e => ∃ e', Q a e' ∧ e = e' + f) w := by
  intro n hn
  have h1 := Nat.mul_le_mul_left A hw
  rw [Nat.mul_add] at h1
  have := within_add (h (n - A * f) (by omega)) (A * f)
  rw [show n - A * f + A * f = n by omega] at this
  refine within_mono this ?_
  rintro a k ⟨j, ⟨e, h2, h3⟩, rfl⟩
  exact ⟨e + f, by rw [Nat.mul_add]; omega, e, h3, rfl⟩

/-- A program of at most `A` comparisons costs one unit. -/
theorem costs_one {R : α → Prop} {x : Asks T α} {B : Nat} (h : x.wp (upTo T B) (fun a k => R a ∧ k ≤ B) 0) (hB : B ≤ A) :
    x.Costs A (fun a e => R a ∧ e = 0) 1 := by
  intro n hn
  have := within_add (within_of_wp h fun _ _ h => h.2) (n - B)
  rw [show B - 0 + (n - B) = n by omega] at this
  refine within_mono this ?_
  rintro a k ⟨j, ⟨i, h1, _⟩, rfl⟩
  exact ⟨0, by simp, h1.1, rfl⟩

/-- A potential of `A` comparisons for each piece becomes one of a unit. -/
theorem costs_of_wp {R : α → Prop} {len : α → Nat} {x : Asks T α} {u : Nat}
    (h : x.wp (upTo T (A * u)) (fun a k => R a ∧ k + A * len a ≤ A * u) 0) :
    x.Costs A (fun a e => R a ∧ e = len a) u := by
  intro n hn
  have := within_add (within_of_wp h fun _ _ h => by omega) (n - A * u)
  rw [show A * u - 0 + (n - A * u) = n by omega] at this
  refine within_mono this ?_
  rintro a k ⟨j, ⟨i, h1, h2⟩, rfl⟩
  exact ⟨len a, by omega, h1.1, rfl⟩

/-- A loop whose steps need `c` units each. -/
theorem costs_fold {f : β → α → Asks T β} {l : List α} {I : Nat → β → Prop} {len : β → Nat} {c : Nat}
    (hf : ∀ i b, i < l.length → I i b → ∀ x ∈ l, (f b x).Costs A (fun b' e => I (i + 1) b' ∧ len b' ≤ e) (len b + c)) {b : β}
    (hb : I 0 b) : (fold f b l).Costs A (fun b' e => I l.length b' ∧ len b' ≤ e) (len b + l.length * c) := by
  suffices H : ∀ (m : List α) (i : Nat) (b : β), (∀ x ∈ m, x ∈ l) → i + m.length = l.length → I i b →
      (fold f b m).Costs A (fun b' e => I (i + m.length) b' ∧ len b' ≤ e) (len b + m.length * c) by
    have := H l 0 b (fun _ h => h) (by omega) hb
    rwa [Nat.zero_add] at this
  intro m
  induction m with
  | nil => exact fun i b _ _ h => costs_done ⟨h, by simp⟩
  | cons x xs ih =>
    intro i b hx hi hb
    simp only [List.length_cons] at hi
    have e : (xs.length + 1) * c = xs.length * c + c := by ring
    refine costs_seq (costs_use (hf i b (by omega) hb x (hx x (by simp))) (xs.length * c) ?_) ?_
    · simp only [List.length_cons]
      omega
    · rintro b' k ⟨k', ⟨h1, h2⟩, rfl⟩
      have h3 := ih (i + 1) b' (fun y hy => hx y (by simp [hy])) (by omega) h1
      have h4 := costs_use h3 (k' - len b') (w := k' + xs.length * c) (by omega)
      refine costs_mono h4 ?_
      rintro d e ⟨e', ⟨h5, h6⟩, rfl⟩
      simp only [List.length_cons]
      rw [show i + (xs.length + 1) = i + 1 + xs.length by omega]
      exact ⟨h5, by omega⟩

end Asks

section
variable {T : Type} {A B : Nat} {v : MaxVia}

theorem BoundedSet.endsIn_upTo (s : BoundedSet T) : s.EndsIn (upTo T B).P := fun _ _ => ⟨trivial, trivial⟩
theorem LowerBoundedSet.endsIn_upTo (s : LowerBoundedSet T) : s.EndsIn (upTo T B).P := ⟨s.ranges.endsIn_upTo, trivial⟩
theorem UpperBoundedSet.endsIn_upTo (s : UpperBoundedSet T) : s.EndsIn (upTo T B).P := ⟨s.ranges.endsIn_upTo, trivial⟩

/-! Every operation leaves one unit for each piece of its result. -/

theorem BoundedSet.addSetA_costs (s b : BoundedSet T) (hA : 12 + 7 * (s.ranges.length + b.ranges.length) ≤ A) :
    (s.addSetA v b).Costs A
      (fun s' e => s'.ranges.length ≤ s.ranges.length + b.ranges.length ∧ e = s'.ranges.length)
      (s.ranges.length + 2 * b.ranges.length) :=
  costs_of_wp (len := fun s' => s'.ranges.length) (wp_mono (addSetA_wp (n := 0) (v := v) s.endsIn_upTo b.endsIn_upTo hA (by
    rw [Nat.zero_add]; exact upTo_ok)) fun s' k h => ⟨h.2.1, by have := h.2.2; omega⟩)

theorem LowerBoundedSet.addSetA_costs (s : LowerBoundedSet T) (b : BoundedSet T)
    (hA : 12 + 7 * (s.ranges.ranges.length + b.ranges.length) ≤ A) :
    (s.addSetA v b).Costs A
      (fun s' e => s'.ranges.ranges.length ≤ s.ranges.ranges.length + b.ranges.length ∧ e = s'.ranges.ranges.length)
      (s.ranges.ranges.length + 3 * b.ranges.length) :=
  costs_of_wp (len := fun s' => s'.ranges.ranges.length) (wp_mono (addSetA_wp (n := 0) (v := v) s.endsIn_upTo b.endsIn_upTo hA
    (by rw [Nat.zero_add]; exact upTo_ok)) fun s' k h => ⟨h.2.1, by have := h.2.2; omega⟩)

theorem UpperBoundedSet.addSetA_costs (s : UpperBoundedSet T) (b : BoundedSet T)
    (hA : 12 + 7 * (s.ranges.ranges.length + b.ranges.length) ≤ A) :
    (s.addSetA v b).Costs A
      (fun s' e => s'.ranges.ranges.length ≤ s.ranges.ranges.length + b.ranges.length ∧ e = s'.ranges.ranges.length)
      (s.ranges.ranges.length + 3 * b.ranges.length) :=
  costs_of_wp (len := fun s' => s'.ranges.ranges.length) (wp_mono (addSetA_wp (n := 0) (v := v) s.endsIn_upTo b.endsIn_upTo hA
    (by rw [Nat.zero_add]; exact upTo_ok)) fun s' k h => ⟨h.2.1, by have := h.2.2; omega⟩)

theorem LowerBoundedSet.unionUBSA_costs (s : LowerBoundedSet T) (t : UpperBoundedSet T)
    (hA : 12 + 7 * (s.ranges.ranges.length + t.ranges.ranges.length) ≤ A) :
    (s.unionUBSA v t).Costs A
      (fun s' e => s'.len ≤ s.ranges.ranges.length + t.ranges.ranges.length ∧ e = s'.len)
      (3 * s.ranges.ranges.length + 3 * t.ranges.ranges.length + 1) :=
  costs_of_wp (len := fun s' => s'.len) (wp_mono (unionUBSA_wp (n := 0) (v := v) s.endsIn_upTo t.endsIn_upTo hA
    (by rw [Nat.zero_add]; exact upTo_ok)) fun s' k h => ⟨h.2.1, by have := h.2.2; omega⟩)

theorem BoundedSet.ofBRA_costs (r : BoundedRange T) (hA : 1 ≤ A) :
    (ofBRA r).Costs A (fun s e => s.ranges.length ≤ 1 ∧ s.ranges.length ≤ e) 2 := by
  refine costs_mono (costs_use (costs_one (B := 1) (R := fun s => s.ranges.length ≤ 1) (wp_mono
    (ofBRA_wp (n := 0) ⟨trivial, trivial⟩) fun s k h => ⟨h.2.1, by omega⟩) hA) 1 le_rfl) ?_
  rintro s e ⟨e', ⟨h1, rfl⟩, rfl⟩
  exact ⟨h1, by omega⟩

theorem BoundedSet.retainNonEmptyA_costs (s : BoundedSet T) (hA : s.ranges.length ≤ A) :
    s.retainNonEmptyA.Costs A (fun s' e => s'.ranges.length ≤ s.ranges.length ∧ s'.ranges.length ≤ e)
      (s.ranges.length + 1) := by
  refine costs_mono (costs_use (costs_one (B := s.ranges.length) (R := fun s' => s'.ranges.length ≤ s.ranges.length) (wp_mono
    (retainNonEmptyA_wp (n := 0) s.endsIn_upTo) fun s k h => ⟨h.2.1, by omega⟩) hA) s.ranges.length (by omega)) ?_
  rintro s e ⟨e', ⟨h1, rfl⟩, rfl⟩
  exact ⟨h1, by omega⟩

/-- A loop over the pieces and a `retain` after it. -/
theorem BoundedSet.mapRetain_costs {s : BoundedSet T} {f : BoundedRange T → Asks T (BoundedRange T)} {c : Nat}
    (hf : ∀ B x k, (upTo T B).OkUpTo v (k + c) → (f x).wp (upTo T B) (fun _ j => j ≤ k + c) k)
    (hA : (c + 1) * s.ranges.length ≤ A) :
    (do BoundedSet.retainNonEmptyA ⟨← Asks.map f s.ranges⟩ : Asks T (BoundedSet T)).Costs A
      (fun s' e => s'.ranges.length ≤ s.ranges.length ∧ s'.ranges.length ≤ e) (s.ranges.length + 1) := by
  have hc : (c + 1) * s.ranges.length = c * s.ranges.length + s.ranges.length := by ring
  refine costs_mono (costs_use (costs_one (B := (c + 1) * s.ranges.length)
    (R := fun s' => s'.ranges.length ≤ s.ranges.length) ?_ hA) s.ranges.length (by omega)) ?_
  · refine wp_seq (wp_map (v := v) (c := c) (F := fun _ => True) (fun x _ k hk => wp_mono (hf _ x k hk) fun _ _ h =>
      ⟨trivial, h⟩) (fun k hk => upTo_ok k (by omega))) fun l k hl => ?_
    refine wp_mono (retainNonEmptyA_wp (s := ⟨l⟩) (BoundedSet.endsIn_upTo _)) fun s' j hj => ⟨?_, ?_⟩
    · exact hj.2.1.trans_eq hl.2.1
    · have := hj.2.2
      simp only [hl.2.1] at this
      omega
  · rintro s e ⟨e', ⟨h1, rfl⟩, rfl⟩
    exact ⟨h1, by omega⟩

theorem BoundedSet.interBRA_costs (s : BoundedSet T) (r) (hA : 5 * s.ranges.length ≤ A) :
    (s.interBRA v r).Costs A (fun s' e => s'.ranges.length ≤ s.ranges.length ∧ s'.ranges.length ≤ e)
      (s.ranges.length + 1) :=
  mapRetain_costs (v := v) (c := 4) (fun _ _ _ hk => wp_mono (BoundedRange.interBRA_wp ⟨trivial, trivial⟩ ⟨trivial, trivial⟩ hk)
    fun _ _ h => h.2) hA

theorem BoundedSet.interLBRA_costs (s : BoundedSet T) (r) (hA : 3 * s.ranges.length ≤ A) :
    (s.interLBRA v r).Costs A (fun s' e => s'.ranges.length ≤ s.ranges.length ∧ s'.ranges.length ≤ e)
      (s.ranges.length + 1) :=
  mapRetain_costs (v := v) (c := 2) (fun _ _ _ hk => wp_mono (BoundedRange.interLBRA_wp ⟨trivial, trivial⟩ trivial hk)
    fun _ _ h => h.2) hA

theorem BoundedSet.interUBRA_costs (s : BoundedSet T) (r) (hA : 3 * s.ranges.length ≤ A) :
    (s.interUBRA v r).Costs A (fun s' e => s'.ranges.length ≤ s.ranges.length ∧ s'.ranges.length ≤ e)
      (s.ranges.length + 1) :=
  mapRetain_costs (v := v) (c := 2) (fun _ _ _ hk => wp_mono (BoundedRange.interUBRA_wp ⟨trivial, trivial⟩ trivial hk)
    fun _ _ h => h.2) hA

theorem BoundedSet.interBSA_costs (s t : BoundedSet T) (hA : 12 + 7 * (s.ranges.length * t.ranges.length) ≤ A)
    (hA' : 5 * t.ranges.length ≤ A) :
    (s.interBSA v t).Costs A
      (fun s' e => s'.ranges.length ≤ s.ranges.length * t.ranges.length ∧ s'.ranges.length ≤ e)
      (s.ranges.length * (2 * t.ranges.length + 1)) := by
  refine costs_mono (costs_fold (l := s.ranges) (I := fun i (b : BoundedSet T) => b.ranges.length ≤ i * t.ranges.length)
    (len := fun b => b.ranges.length) (c := 2 * t.ranges.length + 1) (b := BoundedSet.empty) ?_ (by simp [empty])) ?_ |> fun h => by
      simpa [interBSA, empty] using h
  · intro i b hi hb x _
    have h1 : (i + 1) * t.ranges.length ≤ s.ranges.length * t.ranges.length := Nat.mul_le_mul_right _ hi
    rw [Nat.add_mul, Nat.one_mul] at h1
    refine costs_seq (costs_use (t.interBRA_costs x hA') (b.ranges.length + t.ranges.length) (by omega)) ?_
    rintro c _ ⟨e, ⟨h2, h3⟩, rfl⟩
    refine costs_mono (costs_use (b.addSetA_costs c (by omega)) 0 (by omega)) ?_
    rintro d _ ⟨e, ⟨h4, rfl⟩, rfl⟩
    exact ⟨by rw [Nat.add_mul]; omega, by omega⟩
  · exact fun _ _ h => h

theorem LowerBoundedSet.interBRA_costs (s : LowerBoundedSet T) (r) (hA : 12 + 7 * (s.ranges.ranges.length + 1) ≤ A) :
    (s.interBRA v r).Costs A (fun s' e => s'.ranges.length ≤ s.ranges.ranges.length + 1 ∧ s'.ranges.length ≤ e)
      (2 * s.ranges.ranges.length + 4) := by
  refine costs_seq (costs_use (costs_one (B := 2) (R := fun _ => True) (wp_mono (BoundedRange.interLBRA_wp (n := 0)
    ⟨trivial, trivial⟩ trivial (by rw [Nat.zero_add]; exact upTo_ok)) fun _ _ h => ⟨trivial, by omega⟩) (by omega))
    (2 * s.ranges.ranges.length + 3) (by omega)) ?_
  rintro a _ ⟨e, ⟨-, rfl⟩, rfl⟩
  refine costs_seq (costs_use (BoundedSet.ofBRA_costs a (by omega)) (2 * s.ranges.ranges.length + 1) (by omega)) ?_
  rintro b _ ⟨e, ⟨h1, h2⟩, rfl⟩
  refine costs_seq (costs_use (s.ranges.interBRA_costs r (by omega)) (e + s.ranges.ranges.length) (by omega)) ?_
  rintro c _ ⟨e, ⟨h3, h4⟩, rfl⟩
  refine costs_mono (costs_use (b.addSetA_costs c (by omega)) 0 (by omega)) ?_
  rintro d _ ⟨e, ⟨h5, rfl⟩, rfl⟩
  exact ⟨by omega, by omega⟩

theorem UpperBoundedSet.interBRA_costs (s : UpperBoundedSet T) (r) (hA : 12 + 7 * (s.ranges.ranges.length + 1) ≤ A) :
    (s.interBRA v r).Costs A (fun s' e => s'.ranges.length ≤ s.ranges.ranges.length + 1 ∧ s'.ranges.length ≤ e)
      (2 * s.ranges.ranges.length + 5) := by
  refine costs_seq (costs_use (costs_one (B := 2) (R := fun _ => True) (wp_mono (BoundedRange.interUBRA_wp (n := 0)
    ⟨trivial, trivial⟩ trivial (by rw [Nat.zero_add]; exact upTo_ok)) fun _ _ h => ⟨trivial, by omega⟩) (by omega))
    (2 * s.ranges.ranges.length + 4) (by omega)) ?_
  rintro a _ ⟨e, ⟨-, rfl⟩, rfl⟩
  refine costs_seq (costs_use (BoundedSet.ofBRA_costs a (by omega)) (2 * s.ranges.ranges.length + 2) (by omega)) ?_
  rintro b _ ⟨e, ⟨h1, h2⟩, rfl⟩
  refine costs_seq (costs_use (b.retainNonEmptyA_costs (by omega)) (2 * s.ranges.ranges.length + 1) (by omega)) ?_
  rintro b' _ ⟨e, ⟨h1', h2'⟩, rfl⟩
  refine costs_seq (costs_use (s.ranges.interBRA_costs r (by omega)) (e + s.ranges.ranges.length) (by omega)) ?_
  rintro c _ ⟨e, ⟨h3, h4⟩, rfl⟩
  refine costs_mono (costs_use (b'.addSetA_costs c (by omega)) 0 (by omega)) ?_
  rintro d _ ⟨e, ⟨h5, rfl⟩, rfl⟩
  exact ⟨by omega, by omega⟩

theorem BoundedSet.interLBSA_costs (s : BoundedSet T) (t : LowerBoundedSet T)
    (hA : 12 + 7 * (s.ranges.length * (t.ranges.ranges.length + 2)) ≤ A) (hA' : 12 + 7 * (t.ranges.ranges.length + 1) ≤ A) :
    (s.interLBSA v t).Costs A
      (fun s' e => s'.ranges.length ≤ s.ranges.length * (t.ranges.ranges.length + 2) ∧ s'.ranges.length ≤ e)
      (s.ranges.length * (3 * t.ranges.ranges.length + 6) + 1) := by
  have h0 : s.ranges.length * (t.ranges.ranges.length + 2) =
    s.ranges.length * (t.ranges.ranges.length + 1) + s.ranges.length := by ring
  have h0' : s.ranges.length * (3 * t.ranges.ranges.length + 6) =
    s.ranges.length * (3 * t.ranges.ranges.length + 5) + s.ranges.length := by ring
  have h00 : s.ranges.length ≤ s.ranges.length * (t.ranges.ranges.length + 1) := Nat.le_mul_of_pos_right _ (by omega)
  refine costs_seq (costs_use (s.interLBRA_costs t.lowerBoundedRange (by omega))
    (s.ranges.length * (3 * t.ranges.ranges.length + 5)) (by omega)) ?_
  rintro a _ ⟨e, ⟨h1, h2⟩, rfl⟩
  refine costs_mono (costs_use (costs_fold (l := s.ranges)
    (I := fun i (b : BoundedSet T) => b.ranges.length ≤ s.ranges.length + i * (t.ranges.ranges.length + 1))
    (len := fun b => b.ranges.length) (c := 3 * t.ranges.ranges.length + 5) (b := a) ?_ (by omega)) 0 (by omega)) ?_
  · intro i b hi hb x _
    have h3 : (i + 1) * (t.ranges.ranges.length + 1) ≤ s.ranges.length * (t.ranges.ranges.length + 1) :=
      Nat.mul_le_mul_right _ hi
    rw [Nat.add_mul, Nat.one_mul] at h3
    refine costs_seq (costs_use (t.interBRA_costs x (by omega)) (b.ranges.length + t.ranges.ranges.length + 1) (by omega)) ?_
    rintro c _ ⟨e, ⟨h4, h5⟩, rfl⟩
    refine costs_mono (costs_use (b.addSetA_costs c (by omega)) 0 (by omega)) ?_
    rintro d _ ⟨e, ⟨h6, rfl⟩, rfl⟩
    exact ⟨by rw [Nat.add_mul]; omega, by omega⟩
  · rintro d _ ⟨e, ⟨h6, h7⟩, rfl⟩
    exact ⟨by omega, by omega⟩

theorem BoundedSet.interUBSA_costs (s : BoundedSet T) (t : UpperBoundedSet T)
    (hA : 12 + 7 * (s.ranges.length * (t.ranges.ranges.length + 2)) ≤ A) (hA' : 12 + 7 * (t.ranges.ranges.length + 1) ≤ A) :
    (s.interUBSA v t).Costs A
      (fun s' e => s'.ranges.length ≤ s.ranges.length * (t.ranges.ranges.length + 2) ∧ s'.ranges.length ≤ e)
      (s.ranges.length * (3 * t.ranges.ranges.length + 7) + 1) := by
  have h0 : s.ranges.length * (t.ranges.ranges.length + 2) =
    s.ranges.length * (t.ranges.ranges.length + 1) + s.ranges.length := by ring
  have h0' : s.ranges.length * (3 * t.ranges.ranges.length + 7) =
    s.ranges.length * (3 * t.ranges.ranges.length + 6) + s.ranges.length := by ring
  have h00 : s.ranges.length ≤ s.ranges.length * (t.ranges.ranges.length + 1) := Nat.le_mul_of_pos_right _ (by omega)
  refine costs_seq (costs_use (s.interUBRA_costs t.upperBoundedRange (by omega))
    (s.ranges.length * (3 * t.ranges.ranges.length + 6)) (by omega)) ?_
  rintro a _ ⟨e, ⟨h1, h2⟩, rfl⟩
  refine costs_mono (costs_use (costs_fold (l := s.ranges)
    (I := fun i (b : BoundedSet T) => b.ranges.length ≤ s.ranges.length + i * (t.ranges.ranges.length + 1))
    (len := fun b => b.ranges.length) (c := 3 * t.ranges.ranges.length + 6) (b := a) ?_ (by omega)) 0 (by omega)) ?_
  · intro i b hi hb x _
    have h3 : (i + 1) * (t.ranges.ranges.length + 1) ≤ s.ranges.length * (t.ranges.ranges.length + 1) :=
      Nat.mul_le_mul_right _ hi
    rw [Nat.add_mul, Nat.one_mul] at h3
    refine costs_seq (costs_use (t.interBRA_costs x (by omega)) (b.ranges.length + t.ranges.ranges.length + 1) (by omega)) ?_
    rintro c _ ⟨e, ⟨h4, h5⟩, rfl⟩
    refine costs_mono (costs_use (b.addSetA_costs c (by omega)) 0 (by omega)) ?_
    rintro d _ ⟨e, ⟨h6, rfl⟩, rfl⟩
    exact ⟨by rw [Nat.add_mul]; omega, by omega⟩
  · rintro d _ ⟨e, ⟨h6, h7⟩, rfl⟩
    exact ⟨by omega, by omega⟩

theorem LowerBoundedSet.interLBRA_costs (s : LowerBoundedSet T) (r) (hA : 12 + 7 * s.ranges.ranges.length ≤ A) :
    (s.interLBRA v r).Costs A
      (fun s' e => s'.ranges.ranges.length ≤ s.ranges.ranges.length ∧ s'.ranges.ranges.length ≤ e)
      (s.ranges.ranges.length + 2) := by
  refine costs_seq (costs_use (costs_one (B := 2) (R := fun _ => True) (wp_mono (LowerBoundedRange.interLBRA_wp (n := 0)
    trivial trivial (by rw [Nat.zero_add]; exact upTo_ok)) fun _ _ h => ⟨trivial, by omega⟩) (by omega))
    (s.ranges.ranges.length + 1) (by omega)) ?_
  rintro a _ ⟨e, ⟨-, rfl⟩, rfl⟩
  refine costs_seq (costs_use (s.ranges.interLBRA_costs r (by omega)) 0 (by omega)) ?_
  rintro c _ ⟨e, ⟨h3, h4⟩, rfl⟩
  exact costs_done ⟨h3, by omega⟩

theorem LowerBoundedSet.interLBSA_costs (s t : LowerBoundedSet T)
    (hA : 12 + 7 * (s.ranges.ranges.length * (t.ranges.ranges.length + 3)) ≤ A)
    (hA' : 12 + 7 * (t.ranges.ranges.length + 1) ≤ A) :
    (s.interLBSA v t).Costs A
      (fun s' e => s'.ranges.ranges.length ≤ s.ranges.ranges.length * (t.ranges.ranges.length + 3) ∧
        s'.ranges.ranges.length ≤ e)
      (s.ranges.ranges.length * (5 * t.ranges.ranges.length + 11) + 3) := by
  have h0 : s.ranges.ranges.length * (t.ranges.ranges.length + 3) =
    s.ranges.ranges.length * (t.ranges.ranges.length + 2) + s.ranges.ranges.length := by ring
  have h0' : s.ranges.ranges.length * (5 * t.ranges.ranges.length + 11) =
    s.ranges.ranges.length * (3 * t.ranges.ranges.length + 6) + 2 * (s.ranges.ranges.length * (t.ranges.ranges.length + 2)) +
      s.ranges.ranges.length := by ring
  refine costs_seq (costs_use (s.interLBRA_costs t.lowerBoundedRange (by omega))
    (s.ranges.ranges.length * (3 * t.ranges.ranges.length + 6) + 2 * (s.ranges.ranges.length * (t.ranges.ranges.length + 2)) +
      1) (by omega)) ?_
  rintro a _ ⟨e, ⟨h1, h2⟩, rfl⟩
  refine costs_seq (costs_use (s.ranges.interLBSA_costs t (by omega) (by omega))
    (e + 2 * (s.ranges.ranges.length * (t.ranges.ranges.length + 2))) (by omega)) ?_
  rintro c _ ⟨e, ⟨h3, h4⟩, rfl⟩
  refine costs_mono (costs_use (a.addSetA_costs c (by omega)) 0 (by omega)) ?_
  rintro d _ ⟨e, ⟨h5, rfl⟩, rfl⟩
  exact ⟨by omega, by omega⟩

theorem LowerBoundedSet.interUBRA_costs (s : LowerBoundedSet T) (r) (hA : 12 + 7 * (s.ranges.ranges.length + 1) ≤ A) :
    (s.interUBRA v r).Costs A (fun s' e => s'.ranges.length ≤ s.ranges.ranges.length + 1 ∧ s'.ranges.length ≤ e)
      (2 * s.ranges.ranges.length + 5) := by
  refine costs_seq (costs_use (BoundedSet.ofBRA_costs _ (by omega)) (2 * s.ranges.ranges.length + 3) (by omega)) ?_
  rintro b _ ⟨e, ⟨h1, h2⟩, rfl⟩
  refine costs_seq (costs_use (b.retainNonEmptyA_costs (by omega)) (2 * s.ranges.ranges.length + 2) (by omega)) ?_
  rintro b' _ ⟨e, ⟨h1', h2'⟩, rfl⟩
  refine costs_seq (costs_use (s.ranges.interUBRA_costs r (by omega)) (e + s.ranges.ranges.length + 1) (by omega)) ?_
  rintro c _ ⟨e, ⟨h3, h4⟩, rfl⟩
  refine costs_seq (costs_use (b'.addSetA_costs c (by omega)) 1 (by omega)) ?_
  rintro d _ ⟨e, ⟨h5, rfl⟩, rfl⟩
  refine costs_mono (costs_use (d.retainNonEmptyA_costs (by omega)) 0 (by omega)) ?_
  rintro d' _ ⟨e, ⟨h6, h7⟩, rfl⟩
  exact ⟨by omega, by omega⟩

theorem LowerBoundedSet.interUBSA_costs (s : LowerBoundedSet T) (t : UpperBoundedSet T)
    (hA : 12 + 7 * (s.ranges.ranges.length + 1 + t.ranges.ranges.length * (s.ranges.ranges.length + 2)) ≤ A) :
    (s.interUBSA v t).Costs A
      (fun s' e => s'.ranges.length ≤ s.ranges.ranges.length + 1 + t.ranges.ranges.length * (s.ranges.ranges.length + 2) ∧
        s'.ranges.length ≤ e)
      (2 * s.ranges.ranges.length + t.ranges.ranges.length * (4 * s.ranges.ranges.length + 8) + 8) := by
  have h0 : t.ranges.ranges.length * (4 * s.ranges.ranges.length + 8) =
    t.ranges.ranges.length * (3 * s.ranges.ranges.length + 6) + t.ranges.ranges.length * (s.ranges.ranges.length + 2) := by ring
  refine costs_seq (costs_use (s.interUBRA_costs t.upperBoundedRange (by omega))
    (t.ranges.ranges.length * (4 * s.ranges.ranges.length + 8) + 3) (by omega)) ?_
  rintro b _ ⟨e, ⟨h1, h2⟩, rfl⟩
  refine costs_seq (costs_use (b.retainNonEmptyA_costs (by omega))
    (t.ranges.ranges.length * (4 * s.ranges.ranges.length + 8) + 2) (by omega)) ?_
  rintro b' _ ⟨e, ⟨h1', h2'⟩, rfl⟩
  refine costs_seq (costs_use (t.ranges.interLBSA_costs s (by omega) (by omega))
    (e + t.ranges.ranges.length * (s.ranges.ranges.length + 2) + 1) (by omega)) ?_
  rintro c _ ⟨e, ⟨h3, h4⟩, rfl⟩
  refine costs_seq (costs_use (b'.addSetA_costs c (by omega)) 1 (by omega)) ?_
  rintro d _ ⟨e, ⟨h5, rfl⟩, rfl⟩
  refine costs_mono (costs_use (d.retainNonEmptyA_costs (by omega)) 0 (by omega)) ?_
  rintro d' _ ⟨e, ⟨h6, h7⟩, rfl⟩
  exact ⟨by omega, by omega⟩

theorem UpperBoundedSet.interLBRA_costs (s : UpperBoundedSet T) (r) (hA : 12 + 7 * (s.ranges.ranges.length + 1) ≤ A) :
    (s.interLBRA v r).Costs A (fun s' e => s'.ranges.length ≤ s.ranges.ranges.length + 1 ∧ s'.ranges.length ≤ e)
      (2 * s.ranges.ranges.length + 4) := by
  refine costs_seq (costs_use (BoundedSet.ofBRA_costs _ (by omega)) (2 * s.ranges.ranges.length + 2) (by omega)) ?_
  rintro b _ ⟨e, ⟨h1, h2⟩, rfl⟩
  refine costs_seq (costs_use (b.retainNonEmptyA_costs (by omega)) (2 * s.ranges.ranges.length + 1) (by omega)) ?_
  rintro b' _ ⟨e, ⟨h1', h2'⟩, rfl⟩
  refine costs_seq (costs_use (s.ranges.interLBRA_costs r (by omega)) (e + s.ranges.ranges.length) (by omega)) ?_
  rintro c _ ⟨e, ⟨h3, h4⟩, rfl⟩
  refine costs_mono (costs_use (b'.addSetA_costs c (by omega)) 0 (by omega)) ?_
  rintro d _ ⟨e, ⟨h5, rfl⟩, rfl⟩
  exact ⟨by omega, by omega⟩

theorem UpperBoundedSet.interUBRA_costs (s : UpperBoundedSet T) (r) (hA : 12 + 7 * s.ranges.ranges.length ≤ A) :
    (s.interUBRA v r).Costs A
      (fun s' e => s'.ranges.ranges.length ≤ s.ranges.ranges.length ∧ s'.ranges.ranges.length ≤ e)
      (3 * s.ranges.ranges.length + 2) := by
  refine costs_seq (costs_use (costs_one (B := 2) (R := fun _ => True) (wp_mono (UpperBoundedRange.interUBRA_wp (n := 0)
    trivial trivial (by rw [Nat.zero_add]; exact upTo_ok)) fun _ _ h => ⟨trivial, by omega⟩) (by omega))
    (3 * s.ranges.ranges.length + 1) (by omega)) ?_
  rintro a _ ⟨e, ⟨-, rfl⟩, rfl⟩
  refine costs_seq (costs_use (s.ranges.interUBRA_costs r (by omega)) (2 * s.ranges.ranges.length) (by omega)) ?_
  rintro c _ ⟨e, ⟨h3, h4⟩, rfl⟩
  have h0 : (UpperBoundedSet.ofUBR a).ranges.ranges.length = 0 := rfl
  refine costs_mono (costs_use ((UpperBoundedSet.ofUBR a).addSetA_costs c (by omega)) 0 (by omega)) ?_
  rintro d _ ⟨e, ⟨h5, rfl⟩, rfl⟩
  exact ⟨by omega, by omega⟩

theorem UpperBoundedSet.interUBSA_costs (s t : UpperBoundedSet T)
    (hA : 12 + 7 * (s.ranges.ranges.length + 1 + t.ranges.ranges.length * (s.ranges.ranges.length + 2)) ≤ A) :
    (s.interUBSA v t).Costs A
      (fun s' e => s'.ranges.ranges.length ≤
        s.ranges.ranges.length + t.ranges.ranges.length * (s.ranges.ranges.length + 2) ∧ s'.ranges.ranges.length ≤ e)
      (3 * s.ranges.ranges.length + t.ranges.ranges.length * (5 * s.ranges.ranges.length + 11) + 3) := by
  have h0 : t.ranges.ranges.length * (5 * s.ranges.ranges.length + 11) =
    t.ranges.ranges.length * (3 * s.ranges.ranges.length + 7) +
      2 * (t.ranges.ranges.length * (s.ranges.ranges.length + 2)) := by ring
  refine costs_seq (costs_use (s.interUBRA_costs t.upperBoundedRange (by omega))
    (t.ranges.ranges.length * (5 * s.ranges.ranges.length + 11) + 1) (by omega)) ?_
  rintro a _ ⟨e, ⟨h1, h2⟩, rfl⟩
  refine costs_seq (costs_use (t.ranges.interUBSA_costs s (by omega) (by omega))
    (e + 2 * (t.ranges.ranges.length * (s.ranges.ranges.length + 2))) (by omega)) ?_
  rintro c _ ⟨e, ⟨h3, h4⟩, rfl⟩
  refine costs_mono (costs_use (a.addSetA_costs c (by omega)) 0 (by omega)) ?_
  rintro d _ ⟨e, ⟨h5, rfl⟩, rfl⟩
  exact ⟨by omega, by omega⟩

theorem BoundedSet.interUSA_costs (s : BoundedSet T) (t : UnboundedSet T)
    (hA : 12 + 7 * (s.ranges.length * (t.len + 2)) ≤ A) (hA' : 12 + 7 * t.len ≤ A) :
    (s.interUSA v t).Costs A (fun s' e => s'.ranges.length ≤ s.ranges.length * (t.len + 2) ∧ s'.ranges.length ≤ e)
      (s.ranges.length * (3 * t.len + 4) + 2) := by
  have h0 : s.ranges.length * (t.len + 2) = s.ranges.length * t.len + 2 * s.ranges.length := by ring
  have h0' : s.ranges.length * (3 * t.len + 4) =
    s.ranges.length * (2 * t.len + 1) + s.ranges.length * t.len + 3 * s.ranges.length := by ring
  cases t with
  | full => exact costs_done ⟨by omega, by omega⟩
  | piecewise p =>
    have hp : (UnboundedSet.piecewise p).len = p.ranges.ranges.length := rfl
    simp only [hp] at *
    refine costs_seq (costs_use (s.interUBRA_costs p.upperBoundedRange (by omega))
      (s.ranges.length * (2 * p.ranges.ranges.length + 1) + s.ranges.length * p.ranges.ranges.length + 2 * s.ranges.length + 1)
      (by omega)) ?_
    rintro a _ ⟨e, ⟨h1, h2⟩, rfl⟩
    refine costs_seq (costs_use (s.interLBRA_costs p.lowerBoundedRange (by omega))
      (e + s.ranges.length * (2 * p.ranges.ranges.length + 1) + s.ranges.length * p.ranges.ranges.length + s.ranges.length)
      (by omega)) ?_
    rintro b _ ⟨e', ⟨h3, h4⟩, rfl⟩
    refine costs_seq (costs_use (a.addSetA_costs b (by omega))
      (s.ranges.length * (2 * p.ranges.ranges.length + 1) + s.ranges.length * p.ranges.ranges.length) (by omega)) ?_
    rintro c _ ⟨_, ⟨h5, rfl⟩, rfl⟩
    refine costs_seq (costs_use (s.interBSA_costs p.ranges (by omega) (by omega))
      (c.ranges.length + s.ranges.length * p.ranges.ranges.length) (by omega)) ?_
    rintro d _ ⟨_, ⟨h6, h7⟩, rfl⟩
    refine costs_mono (costs_use (c.addSetA_costs d (by omega)) 0 (by omega)) ?_
    rintro f _ ⟨_, ⟨h8, rfl⟩, rfl⟩
    exact ⟨by omega, by omega⟩

theorem LowerBoundedSet.interUSA_costs (s : LowerBoundedSet T) (t : UnboundedSet T)
    (hA : 12 + 7 * (2 * s.ranges.ranges.length + 1 + t.len * (s.ranges.ranges.length + 2)) ≤ A) :
    (s.interUSA v t).Costs A
      (fun s' e => s'.ranges.ranges.length ≤ 2 * s.ranges.ranges.length + 1 + t.len * (s.ranges.ranges.length + 2) ∧
        s'.ranges.ranges.length ≤ e)
      (5 * s.ranges.ranges.length + t.len * (5 * s.ranges.ranges.length + 10) + 10) := by
  have h0 : t.len * (5 * s.ranges.ranges.length + 10) =
    t.len * (3 * s.ranges.ranges.length + 6) + 2 * (t.len * (s.ranges.ranges.length + 2)) := by ring
  cases t with
  | full => exact costs_done ⟨by omega, by omega⟩
  | piecewise p =>
    have hp : (UnboundedSet.piecewise p).len = p.ranges.ranges.length := rfl
    simp only [hp] at *
    refine costs_seq (costs_use (s.interLBRA_costs p.lowerBoundedRange (by omega))
      (4 * s.ranges.ranges.length + p.ranges.ranges.length * (5 * s.ranges.ranges.length + 10) + 8) (by omega)) ?_
    rintro a _ ⟨e, ⟨h1, h2⟩, rfl⟩
    refine costs_seq (costs_use (s.interUBRA_costs p.upperBoundedRange (by omega))
      (e + 2 * (s.ranges.ranges.length + 1) + p.ranges.ranges.length * (5 * s.ranges.ranges.length + 10) + 1) (by omega)) ?_
    rintro b _ ⟨e', ⟨h3, h4⟩, rfl⟩
    refine costs_seq (costs_use (a.addSetA_costs b (by omega))
      (p.ranges.ranges.length * (5 * s.ranges.ranges.length + 10) + 1) (by omega)) ?_
    rintro c _ ⟨_, ⟨h5, rfl⟩, rfl⟩
    refine costs_seq (costs_use (p.ranges.interLBSA_costs s (by omega) (by omega))
      (c.ranges.ranges.length + 2 * (p.ranges.ranges.length * (s.ranges.ranges.length + 2))) (by omega)) ?_
    rintro d _ ⟨_, ⟨h6, h7⟩, rfl⟩
    refine costs_mono (costs_use (c.addSetA_costs d (by omega)) 0 (by omega)) ?_
    rintro f _ ⟨_, ⟨h8, rfl⟩, rfl⟩
    exact ⟨by omega, by omega⟩

theorem UpperBoundedSet.interUSA_costs (s : UpperBoundedSet T) (t : UnboundedSet T)
    (hA : 12 + 7 * (2 * s.ranges.ranges.length + 1 + t.len * (s.ranges.ranges.length + 2)) ≤ A) :
    (s.interUSA v t).Costs A
      (fun s' e => s'.ranges.ranges.length ≤ 2 * s.ranges.ranges.length + 1 + t.len * (s.ranges.ranges.length + 2) ∧
        s'.ranges.ranges.length ≤ e)
      (7 * s.ranges.ranges.length + t.len * (5 * s.ranges.ranges.length + 11) + 9) := by
  have h0 : t.len * (5 * s.ranges.ranges.length + 11) =
    t.len * (3 * s.ranges.ranges.length + 7) + 2 * (t.len * (s.ranges.ranges.length + 2)) := by ring
  cases t with
  | full => exact costs_done ⟨by omega, by omega⟩
  | piecewise p =>
    have hp : (UnboundedSet.piecewise p).len = p.ranges.ranges.length := rfl
    simp only [hp] at *
    refine costs_seq (costs_use (s.interUBRA_costs p.upperBoundedRange (by omega))
      (4 * s.ranges.ranges.length + p.ranges.ranges.length * (5 * s.ranges.ranges.length + 11) + 7) (by omega)) ?_
    rintro a _ ⟨e, ⟨h1, h2⟩, rfl⟩
    refine costs_seq (costs_use (s.interLBRA_costs p.lowerBoundedRange (by omega))
      (e + 2 * (s.ranges.ranges.length + 1) + p.ranges.ranges.length * (5 * s.ranges.ranges.length + 11) + 1) (by omega)) ?_
    rintro b _ ⟨e', ⟨h3, h4⟩, rfl⟩
    refine costs_seq (costs_use (a.addSetA_costs b (by omega))
      (p.ranges.ranges.length * (5 * s.ranges.ranges.length + 11) + 1) (by omega)) ?_
    rintro c _ ⟨_, ⟨h5, rfl⟩, rfl⟩
    refine costs_seq (costs_use (p.ranges.interUBSA_costs s (by omega) (by omega))
      (c.ranges.ranges.length + 2 * (p.ranges.ranges.length * (s.ranges.ranges.length + 2))) (by omega)) ?_
    rintro d _ ⟨_, ⟨h6, h7⟩, rfl⟩
    refine costs_mono (costs_use (c.addSetA_costs d (by omega)) 0 (by omega)) ?_
    rintro f _ ⟨_, ⟨h8, rfl⟩, rfl⟩
    exact ⟨by omega, by omega⟩

theorem UnboundedSet.interUSA_costs (s t : UnboundedSet T)
    (hA : 12 + 7 * (s.len * t.len + 4 * s.len + 2 * t.len + 2) ≤ A) :
    (s.interUSA v t).Costs A
      (fun s' e => s'.len ≤ s.len * t.len + 4 * s.len + 2 * t.len + 2 ∧ s'.len ≤ e)
      (7 * (s.len * t.len) + 29 * s.len + 12 * t.len + 26) := by
  cases s with
  | full => exact costs_done ⟨by omega, by omega⟩
  | piecewise p =>
    cases t with
    | full => exact costs_done ⟨by omega, by omega⟩
    | piecewise q =>
      have hp : (UnboundedSet.piecewise p).len = p.ranges.ranges.length := rfl
      have hq : (UnboundedSet.piecewise q).len = q.ranges.ranges.length := rfl
      simp only [hp, hq] at hA ⊢
      generalize hk : p.ranges.ranges.length = k at *
      generalize hl : q.ranges.ranges.length = l at *
      have e1 : l * (k + 2) = k * l + 2 * l := by ring
      have e2 : l * (3 * k + 4) = 3 * (k * l) + 4 * l := by ring
      have hU : (UpperBoundedSet.ofUBR q.upperBoundedRange).ranges.ranges.length = 0 := rfl
      have hL : (LowerBoundedSet.ofLBR q.lowerBoundedRange).ranges.ranges.length = 0 := rfl
      have ha := (UpperBoundedSet.ofUBR q.upperBoundedRange).interUSA_costs (v := v) (A := A) (.piecewise p)
        (by rw [hU, hp]; omega)
      have hb := (LowerBoundedSet.ofLBR q.lowerBoundedRange).interUSA_costs (v := v) (A := A) (.piecewise p)
        (by rw [hL, hp]; omega)
      have hc := q.ranges.interUSA_costs (v := v) (A := A) (.piecewise p) (by rw [hp, hl, e1]; omega) (by rw [hp]; omega)
      rw [hU, hp] at ha
      rw [hL, hp] at hb
      rw [hp, hl, e1, e2] at hc
      refine costs_seq (costs_use ha (7 * (k * l) + 18 * k + 12 * l + 17) (by omega)) ?_
      rintro a _ ⟨e, ⟨h1, h2⟩, rfl⟩
      refine costs_seq (costs_use hb (e + 7 * (k * l) + 8 * k + 12 * l + 7) (by omega)) ?_
      rintro b _ ⟨e', ⟨h3, h4⟩, rfl⟩
      refine costs_seq (costs_use hc (e + e' + 4 * (k * l) + 8 * k + 8 * l + 5) (by omega)) ?_
      rintro c _ ⟨e'', ⟨h5, h6⟩, rfl⟩
      refine costs_seq (costs_use (b.addSetA_costs c (by omega)) (e + 2 * (k * l) + 8 * k + 4 * l + 5) (by omega)) ?_
      rintro d _ ⟨_, ⟨h7, rfl⟩, rfl⟩
      refine costs_mono (costs_use (d.unionUBSA_costs a (by omega)) 0 (by omega)) ?_
      rintro f _ ⟨_, ⟨h8, rfl⟩, rfl⟩
      exact ⟨by omega, by omega⟩

theorem BoundedRange.interBRA_costs (r q : BoundedRange T) (hA : 4 ≤ A) :
    (r.interBRA v q).Costs A (fun _ _ => True) 1 :=
  costs_mono (costs_one (B := 4) (R := fun _ => True) (wp_mono (interBRA_wp (n := 0) ⟨trivial, trivial⟩ ⟨trivial, trivial⟩
    (by rw [Nat.zero_add]; exact upTo_ok)) fun _ _ h => ⟨trivial, by omega⟩) hA) fun _ _ _ => trivial

theorem BoundedRange.interLBRA_costs (r : BoundedRange T) (q) (hA : 2 ≤ A) :
    (r.interLBRA v q).Costs A (fun _ _ => True) 1 :=
  costs_mono (costs_one (B := 2) (R := fun _ => True) (wp_mono (interLBRA_wp (n := 0) ⟨trivial, trivial⟩ trivial
    (by rw [Nat.zero_add]; exact upTo_ok)) fun _ _ h => ⟨trivial, by omega⟩) hA) fun _ _ _ => trivial

theorem BoundedRange.interUBRA_costs (r : BoundedRange T) (q) (hA : 2 ≤ A) :
    (r.interUBRA v q).Costs A (fun _ _ => True) 1 :=
  costs_mono (costs_one (B := 2) (R := fun _ => True) (wp_mono (interUBRA_wp (n := 0) ⟨trivial, trivial⟩ trivial
    (by rw [Nat.zero_add]; exact upTo_ok)) fun _ _ h => ⟨trivial, by omega⟩) hA) fun _ _ _ => trivial

theorem LowerBoundedRange.interLBRA_costs (r : LowerBoundedRange T) (q) (hA : 2 ≤ A) :
    (r.interLBRA v q).Costs A (fun _ _ => True) 1 :=
  costs_mono (costs_one (B := 2) (R := fun _ => True) (wp_mono (interLBRA_wp (n := 0) trivial trivial
    (by rw [Nat.zero_add]; exact upTo_ok)) fun _ _ h => ⟨trivial, by omega⟩) hA) fun _ _ _ => trivial

theorem UpperBoundedRange.interUBRA_costs (r : UpperBoundedRange T) (q) (hA : 2 ≤ A) :
    (r.interUBRA v q).Costs A (fun _ _ => True) 1 :=
  costs_mono (costs_one (B := 2) (R := fun _ => True) (wp_mono (interUBRA_wp (n := 0) trivial trivial
    (by rw [Nat.zero_add]; exact upTo_ok)) fun _ _ h => ⟨trivial, by omega⟩) hA) fun _ _ _ => trivial

/-- Nothing but a constructor is left to do. -/
theorem costs_wrap {α β : Type} {Q : α → Nat → Prop} {Q' : β → Nat → Prop} {x : Asks T α} {f : α → β} {u w : Nat}
    (h : x.Costs A Q u) (hu : u ≤ w) (hQ : ∀ a e k, Q a e → e + (w - u) = k → Q' (f a) k) :
    (x >>= fun a => .done (f a)).Costs A Q' w :=
  costs_seq (costs_use h (w - u) (by omega)) fun a _ ⟨e', h1, h2⟩ => costs_done (hQ a e' _ h1 h2.symm)

theorem ofBR_us (r : BoundedRange T) (t : UnboundedSet T) {w B : Nat} (hA : 12 + 7 * (t.len + 2) ≤ A)
    (hw : 3 * t.len + 8 ≤ w) (hB : t.len + 2 ≤ B) :
    (do return .bs (← (← BoundedSet.ofBRA r).interUSA v t) : Asks T (Inner T)).Costs A (fun c e => c.len ≤ B ∧ c.len ≤ e) w := by
  refine costs_seq (costs_use (BoundedSet.ofBRA_costs r (by omega)) (3 * t.len + 6 + (w - (3 * t.len + 8))) (by omega)) ?_
  rintro s _ ⟨e, ⟨h1, h2⟩, rfl⟩
  have h3 := Nat.mul_le_mul_right (t.len + 2) h1
  have h4 := Nat.mul_le_mul_right (3 * t.len + 4) h1
  refine costs_wrap (s.interUSA_costs t (by omega) (by omega)) (by omega) ?_
  rintro u e' k ⟨h5, h6⟩ h7
  simp only [Inner.len]
  exact ⟨by omega, by omega⟩

set_option maxHeartbeats 2000000 in
theorem Inner.interA_costs (a b : Inner T)
    (hA : 12 + 7 * (a.len * b.len + 4 * a.len + 4 * b.len + 2) ≤ A) :
    (a.interA v b).Costs A
      (fun c e => c.len ≤ a.len * b.len + 4 * a.len + 4 * b.len + 2 ∧ c.len ≤ e)
      (7 * (a.len * b.len) + 29 * a.len + 29 * b.len + 26) := by
  rcases a with a | a | a | a | a | a | _ | a | _
  · rcases b with b | b | b | b | b | b | _ | b | _
    · exact costs_wrap (BoundedRange.interBRA_costs a b (by omega)) (by omega) fun u e k h1 h2 => ⟨by simp only [len]; omega, by simp only [len]; omega⟩
    · refine costs_wrap (BoundedSet.interBRA_costs b a (by simp only [len] at hA; nlinarith)) (by simp only [len]; nlinarith) ?_
      rintro u e k ⟨h1, h2⟩ h3
      simp only [len] at *
      exact ⟨by nlinarith, by nlinarith⟩
    · exact costs_wrap (BoundedRange.interLBRA_costs a b (by omega)) (by omega) fun u e k h1 h2 => ⟨by simp only [len]; omega, by simp only [len]; omega⟩
    · refine costs_wrap (LowerBoundedSet.interBRA_costs b a (by simp only [len] at hA; nlinarith)) (by simp only [len]; nlinarith) ?_
      rintro u e k ⟨h1, h2⟩ h3
      simp only [len] at *
      exact ⟨by nlinarith, by nlinarith⟩
    · exact costs_wrap (BoundedRange.interUBRA_costs a b (by omega)) (by omega) fun u e k h1 h2 => ⟨by simp only [len]; omega, by simp only [len]; omega⟩
    · refine costs_wrap (UpperBoundedSet.interBRA_costs b a (by simp only [len] at hA; nlinarith)) (by simp only [len]; nlinarith) ?_
      rintro u e k ⟨h1, h2⟩ h3
      simp only [len] at *
      exact ⟨by nlinarith, by nlinarith⟩
    · exact costs_done ⟨by simp only [len]; omega, by simp only [len]; omega⟩
    · exact ofBR_us a b (by simp only [len] at hA; nlinarith) (by simp only [len]; nlinarith) (by simp only [len]; nlinarith)
    · exact costs_done ⟨by simp [len], by simp [len]⟩
  · rcases b with b | b | b | b | b | b | _ | b | _
    · refine costs_wrap (BoundedSet.interBRA_costs a b (by simp only [len] at hA; nlinarith)) (by simp only [len]; nlinarith) ?_
      rintro u e k ⟨h1, h2⟩ h3
      simp only [len] at *
      exact ⟨by nlinarith, by nlinarith⟩
    · refine costs_wrap (BoundedSet.interBSA_costs a b (by simp only [len] at hA; nlinarith) (by simp only [len] at hA; nlinarith)) (by simp only [len]; nlinarith) ?_
      rintro u e k ⟨h1, h2⟩ h3
      simp only [len] at *
      exact ⟨by nlinarith, by nlinarith⟩
    · refine costs_wrap (BoundedSet.interLBRA_costs a b (by simp only [len] at hA; nlinarith)) (by simp only [len]; nlinarith) ?_
      rintro u e k ⟨h1, h2⟩ h3
      simp only [len] at *
      exact ⟨by nlinarith, by nlinarith⟩
    · refine costs_wrap (BoundedSet.interLBSA_costs a b (by simp only [len] at hA; nlinarith) (by simp only [len] at hA; nlinarith)) (by simp only [len]; nlinarith) ?_
      rintro u e k ⟨h1, h2⟩ h3
      simp only [len] at *
      exact ⟨by nlinarith, by nlinarith⟩
    · refine costs_wrap (BoundedSet.interUBRA_costs a b (by simp only [len] at hA; nlinarith)) (by simp only [len]; nlinarith) ?_
      rintro u e k ⟨h1, h2⟩ h3
      simp only [len] at *
      exact ⟨by nlinarith, by nlinarith⟩
    · refine costs_wrap (BoundedSet.interUBSA_costs a b (by simp only [len] at hA; nlinarith) (by simp only [len] at hA; nlinarith)) (by simp only [len]; nlinarith) ?_
      rintro u e k ⟨h1, h2⟩ h3
      simp only [len] at *
      exact ⟨by nlinarith, by nlinarith⟩
    · exact costs_done ⟨by simp only [len]; omega, by simp only [len]; omega⟩
    · refine costs_wrap (BoundedSet.interUSA_costs a b (by simp only [len] at hA; nlinarith) (by simp only [len] at hA; nlinarith)) (by simp only [len]; nlinarith) ?_
      rintro u e k ⟨h1, h2⟩ h3
      simp only [len] at *
      exact ⟨by nlinarith, by nlinarith⟩
    · exact costs_done ⟨by simp [len], by simp [len]⟩
  · rcases b with b | b | b | b | b | b | _ | b | _
    · exact costs_wrap (BoundedRange.interLBRA_costs b a (by omega)) (by omega) fun u e k h1 h2 => ⟨by simp only [len]; omega, by simp only [len]; omega⟩
    · refine costs_wrap (BoundedSet.interLBRA_costs b a (by simp only [len] at hA; nlinarith)) (by simp only [len]; nlinarith) ?_
      rintro u e k ⟨h1, h2⟩ h3
      simp only [len] at *
      exact ⟨by nlinarith, by nlinarith⟩
    · exact costs_wrap (LowerBoundedRange.interLBRA_costs a b (by omega)) (by omega) fun u e k h1 h2 => ⟨by simp only [len]; omega, by simp only [len]; omega⟩
    · refine costs_wrap (LowerBoundedSet.interLBRA_costs b a (by simp only [len] at hA; nlinarith)) (by simp only [len]; nlinarith) ?_
      rintro u e k ⟨h1, h2⟩ h3
      simp only [len] at *
      exact ⟨by nlinarith, by nlinarith⟩
    · exact costs_done ⟨by simp only [len]; omega, by simp only [len]; omega⟩
    · refine costs_wrap (UpperBoundedSet.interLBRA_costs b a (by simp only [len] at hA; nlinarith)) (by simp only [len]; nlinarith) ?_
      rintro u e k ⟨h1, h2⟩ h3
      simp only [len] at *
      exact ⟨by nlinarith, by nlinarith⟩
    · exact costs_done ⟨by simp only [len]; omega, by simp only [len]; omega⟩
    · refine costs_wrap ((LowerBoundedSet.ofLBR a).interUSA_costs b (by simp only [len, LowerBoundedSet.ofLBR, BoundedSet.empty, List.length_nil] at *; nlinarith)) (by simp only [len, LowerBoundedSet.ofLBR, BoundedSet.empty, List.length_nil]; nlinarith) ?_
      rintro u e k ⟨h1, h2⟩ h3
      simp only [len, LowerBoundedSet.ofLBR, BoundedSet.empty, List.length_nil] at *
      exact ⟨by nlinarith, by nlinarith⟩
    · exact costs_done ⟨by simp [len], by simp [len]⟩
  · rcases b with b | b | b | b | b | b | _ | b | _
    · refine costs_wrap (LowerBoundedSet.interBRA_costs a b (by simp only [len] at hA; nlinarith)) (by simp only [len]; nlinarith) ?_
      rintro u e k ⟨h1, h2⟩ h3
      simp only [len] at *
      exact ⟨by nlinarith, by nlinarith⟩
    · refine costs_wrap (BoundedSet.interLBSA_costs b a (by simp only [len] at hA; nlinarith) (by simp only [len] at hA; nlinarith)) (by simp only [len]; nlinarith) ?_
      rintro u e k ⟨h1, h2⟩ h3
      simp only [len] at *
      exact ⟨by nlinarith, by nlinarith⟩
    · refine costs_wrap (LowerBoundedSet.interLBRA_costs a b (by simp only [len] at hA; nlinarith)) (by simp only [len]; nlinarith) ?_
      rintro u e k ⟨h1, h2⟩ h3
      simp only [len] at *
      exact ⟨by nlinarith, by nlinarith⟩
    · refine costs_wrap (LowerBoundedSet.interLBSA_costs a b (by simp only [len] at hA; nlinarith) (by simp only [len] at hA; nlinarith)) (by simp only [len]; nlinarith) ?_
      rintro u e k ⟨h1, h2⟩ h3
      simp only [len] at *
      exact ⟨by nlinarith, by nlinarith⟩
    · refine costs_wrap (LowerBoundedSet.interUBRA_costs a b (by simp only [len] at hA; nlinarith)) (by simp only [len]; nlinarith) ?_
      rintro u e k ⟨h1, h2⟩ h3
      simp only [len] at *
      exact ⟨by nlinarith, by nlinarith⟩
    · refine costs_wrap (LowerBoundedSet.interUBSA_costs a b (by simp only [len] at hA; nlinarith)) (by simp only [len]; nlinarith) ?_
      rintro u e k ⟨h1, h2⟩ h3
      simp only [len] at *
      exact ⟨by nlinarith, by nlinarith⟩
    · exact costs_done ⟨by simp only [len]; omega, by simp only [len]; omega⟩
    · refine costs_wrap (LowerBoundedSet.interUSA_costs a b (by simp only [len] at hA; nlinarith)) (by simp only [len]; nlinarith) ?_
      rintro u e k ⟨h1, h2⟩ h3
      simp only [len] at *
      exact ⟨by nlinarith, by nlinarith⟩
    · exact costs_done ⟨by simp [len], by simp [len]⟩
  · rcases b with b | b | b | b | b | b | _ | b | _
    · exact costs_wrap (BoundedRange.interUBRA_costs b a (by omega)) (by omega) fun u e k h1 h2 => ⟨by simp only [len]; omega, by simp only [len]; omega⟩
    · refine costs_wrap (BoundedSet.interUBRA_costs b a (by simp only [len] at hA; nlinarith)) (by simp only [len]; nlinarith) ?_
      rintro u e k ⟨h1, h2⟩ h3
      simp only [len] at *
      exact ⟨by nlinarith, by nlinarith⟩
    · exact costs_done ⟨by simp only [len]; omega, by simp only [len]; omega⟩
    · refine costs_wrap (LowerBoundedSet.interUBRA_costs b a (by simp only [len] at hA; nlinarith)) (by simp only [len]; nlinarith) ?_
      rintro u e k ⟨h1, h2⟩ h3
      simp only [len] at *
      exact ⟨by nlinarith, by nlinarith⟩
    · exact costs_wrap (UpperBoundedRange.interUBRA_costs a b (by omega)) (by omega) fun u e k h1 h2 => ⟨by simp only [len]; omega, by simp only [len]; omega⟩
    · refine costs_wrap (UpperBoundedSet.interUBRA_costs b a (by simp only [len] at hA; nlinarith)) (by simp only [len]; nlinarith) ?_
      rintro u e k ⟨h1, h2⟩ h3
      simp only [len] at *
      exact ⟨by nlinarith, by nlinarith⟩
    · exact costs_done ⟨by simp only [len]; omega, by simp only [len]; omega⟩
    · refine costs_wrap ((UpperBoundedSet.ofUBR a).interUSA_costs b (by simp only [len, UpperBoundedSet.ofUBR, BoundedSet.empty, List.length_nil] at *; nlinarith)) (by simp only [len, UpperBoundedSet.ofUBR, BoundedSet.empty, List.length_nil]; nlinarith) ?_
      rintro u e k ⟨h1, h2⟩ h3
      simp only [len, UpperBoundedSet.ofUBR, BoundedSet.empty, List.length_nil] at *
      exact ⟨by nlinarith, by nlinarith⟩
    · exact costs_done ⟨by simp [len], by simp [len]⟩
  · rcases b with b | b | b | b | b | b | _ | b | _
    · refine costs_wrap (UpperBoundedSet.interBRA_costs a b (by simp only [len] at hA; nlinarith)) (by simp only [len]; nlinarith) ?_
      rintro u e k ⟨h1, h2⟩ h3
      simp only [len] at *
      exact ⟨by nlinarith, by nlinarith⟩
    · refine costs_wrap (BoundedSet.interUBSA_costs b a (by simp only [len] at hA; nlinarith) (by simp only [len] at hA; nlinarith)) (by simp only [len]; nlinarith) ?_
      rintro u e k ⟨h1, h2⟩ h3
      simp only [len] at *
      exact ⟨by nlinarith, by nlinarith⟩
    · refine costs_wrap (UpperBoundedSet.interLBRA_costs a b (by simp only [len] at hA; nlinarith)) (by simp only [len]; nlinarith) ?_
      rintro u e k ⟨h1, h2⟩ h3
      simp only [len] at *
      exact ⟨by nlinarith, by nlinarith⟩
    · refine costs_wrap (LowerBoundedSet.interUBSA_costs b a (by simp only [len] at hA; nlinarith)) (by simp only [len]; nlinarith) ?_
      rintro u e k ⟨h1, h2⟩ h3
      simp only [len] at *
      exact ⟨by nlinarith, by nlinarith⟩
    · refine costs_wrap (UpperBoundedSet.interUBRA_costs a b (by simp only [len] at hA; nlinarith)) (by simp only [len]; nlinarith) ?_
      rintro u e k ⟨h1, h2⟩ h3
      simp only [len] at *
      exact ⟨by nlinarith, by nlinarith⟩
    · refine costs_wrap (UpperBoundedSet.interUBSA_costs a b (by simp only [len] at hA; nlinarith)) (by simp only [len]; nlinarith) ?_
      rintro u e k ⟨h1, h2⟩ h3
      simp only [len] at *
      exact ⟨by nlinarith, by nlinarith⟩
    · exact costs_done ⟨by simp only [len]; omega, by simp only [len]; omega⟩
    · refine costs_wrap (UpperBoundedSet.interUSA_costs a b (by simp only [len] at hA; nlinarith)) (by simp only [len]; nlinarith) ?_
      rintro u e k ⟨h1, h2⟩ h3
      simp only [len] at *
      exact ⟨by nlinarith, by nlinarith⟩
    · exact costs_done ⟨by simp [len], by simp [len]⟩
  · rcases b with b | b | b | b | b | b | _ | b | _ <;> exact costs_done ⟨by simp only [len]; omega, by simp only [len]; omega⟩
  · rcases b with b | b | b | b | b | b | _ | b | _
    · exact ofBR_us b a (by simp only [len] at hA; nlinarith) (by simp only [len]; nlinarith) (by simp only [len]; nlinarith)
    · refine costs_wrap (BoundedSet.interUSA_costs b a (by simp only [len] at hA; nlinarith) (by simp only [len] at hA; nlinarith)) (by simp only [len]; nlinarith) ?_
      rintro u e k ⟨h1, h2⟩ h3
      simp only [len] at *
      exact ⟨by nlinarith, by nlinarith⟩
    · refine costs_wrap ((LowerBoundedSet.ofLBR b).interUSA_costs a (by simp only [len, LowerBoundedSet.ofLBR, BoundedSet.empty, List.length_nil] at *; nlinarith)) (by simp only [len, LowerBoundedSet.ofLBR, BoundedSet.empty, List.length_nil]; nlinarith) ?_
      rintro u e k ⟨h1, h2⟩ h3
      simp only [len, LowerBoundedSet.ofLBR, BoundedSet.empty, List.length_nil] at *
      exact ⟨by nlinarith, by nlinarith⟩
    · refine costs_wrap (LowerBoundedSet.interUSA_costs b a (by simp only [len] at hA; nlinarith)) (by simp only [len]; nlinarith) ?_
      rintro u e k ⟨h1, h2⟩ h3
      simp only [len] at *
      exact ⟨by nlinarith, by nlinarith⟩
    · refine costs_wrap ((UpperBoundedSet.ofUBR b).interUSA_costs a (by simp only [len, UpperBoundedSet.ofUBR, BoundedSet.empty, List.length_nil] at *; nlinarith)) (by simp only [len, UpperBoundedSet.ofUBR, BoundedSet.empty, List.length_nil]; nlinarith) ?_
      rintro u e k ⟨h1, h2⟩ h3
      simp only [len, UpperBoundedSet.ofUBR, BoundedSet.empty, List.length_nil] at *
      exact ⟨by nlinarith, by nlinarith⟩
    · refine costs_wrap (UpperBoundedSet.interUSA_costs b a (by simp only [len] at hA; nlinarith)) (by simp only [len]; nlinarith) ?_
      rintro u e k ⟨h1, h2⟩ h3
      simp only [len] at *
      exact ⟨by nlinarith, by nlinarith⟩
    · exact costs_done ⟨by simp only [len]; omega, by simp only [len]; omega⟩
    · refine costs_wrap (UnboundedSet.interUSA_costs a b (by simp only [len] at hA; nlinarith)) (by simp only [len]; nlinarith) ?_
      rintro u e k ⟨h1, h2⟩ h3
      simp only [len] at *
      exact ⟨by nlinarith, by nlinarith⟩
    · exact costs_done ⟨by simp [len], by simp [len]⟩
  · exact costs_done ⟨by simp [len], by simp [len]⟩

theorem Any.interA_costs (a b : Any T)
    (hA : 12 + 7 * (a.pieces * b.pieces + 4 * a.pieces + 4 * b.pieces + 2) ≤ A) :
    (a.interA v b).Costs A
      (fun c e => c.len ≤ a.pieces * b.pieces + 4 * a.pieces + 4 * b.pieces + 2 ∧ c.len ≤ e)
      (7 * (a.pieces * b.pieces) + 29 * a.pieces + 29 * b.pieces + 26) := by
  rw [← len_toInner, ← len_toInner] at *
  have hE : Asks.Costs A (fun (c : Inner T) e => c.len ≤ a.toInner.len * b.toInner.len + 4 * a.toInner.len +
      4 * b.toInner.len + 2 ∧ c.len ≤ e) (7 * (a.toInner.len * b.toInner.len) + 29 * a.toInner.len + 29 * b.toInner.len + 26)
      (.done .er : Asks T (Inner T)) := costs_done ⟨Nat.zero_le _, Nat.zero_le _⟩
  have hi := Inner.interA_costs (v := v) a.toInner b.toInner hA
  have hf := Inner.interA_costs (A := A) (v := v) b.toInner a.toInner (by rw [Nat.mul_comm b.toInner.len]; omega)
  rw [Nat.mul_comm b.toInner.len] at hf
  rw [show a.toInner.len * b.toInner.len + 4 * b.toInner.len + 4 * a.toInner.len + 2 =
    a.toInner.len * b.toInner.len + 4 * a.toInner.len + 4 * b.toInner.len + 2 by omega,
    show 7 * (a.toInner.len * b.toInner.len) + 29 * b.toInner.len + 29 * a.toInner.len + 26 =
    7 * (a.toInner.len * b.toInner.len) + 29 * a.toInner.len + 29 * b.toInner.len + 26 by omega] at hf
  have hs : (a.toInner.interFromStdA v b.toInner).Costs A
      (fun c e => c.len ≤ a.toInner.len * b.toInner.len + 4 * a.toInner.len + 4 * b.toInner.len + 2 ∧ c.len ≤ e)
      (7 * (a.toInner.len * b.toInner.len) + 29 * a.toInner.len + 29 * b.toInner.len + 26) := by
    clear hA
    revert hi hf hE
    generalize b.toInner = j
    intro hE hi hf
    rcases j with _ | _ | _ | _ | _ | _ | _ | _ | _ <;> first | exact hi | exact hf
  rcases a with r | r | r | r | r | _ | i
  · exact hs
  · exact hs
  · simp only [interA]
    clear hA hs hf
    revert hi hE
    generalize b.toInner = j
    intro hE hi
    rcases j with _ | _ | _ | _ | _ | _ | _ | _ | _ <;> exact hi
  · exact hs
  · exact hs
  · simp only [interA]
    clear hA hs hf
    revert hi hE
    generalize b.toInner = j
    intro hE hi
    rcases j with _ | _ | _ | _ | _ | _ | _ | _ | _ <;> exact hi
  · exact hi

theorem Inner.isEmptyA_costs (i : Inner T) (hA : 1 ≤ A) : (i.isEmptyA).Costs A (fun _ _ => True) i.len := by
  have h := Inner.isEmptyA_wp (R := upTo T i.len) (i := i) (n := 0) (Inner.endsIn_iff.mpr fun _ _ => trivial)
  rcases h0 : i.len with _ | k
  · intro n _
    rw [h0] at h
    have := within_add (within_of_wp h fun _ _ h => by omega) n
    rw [show 0 - 0 + n = n by omega] at this
    exact within_mono this fun _ _ _ => ⟨0, by simp, trivial⟩
  · intro n hn
    have h1 : i.len ≤ n := by
      have := Nat.mul_le_mul_right (k + 1) hA
      omega
    have := within_add (within_of_wp h fun _ _ h => by omega) (n - i.len)
    rw [show i.len - 0 + (n - i.len) = n by omega] at this
    exact within_mono this fun _ _ _ => ⟨0, by simp, trivial⟩

end
end Rangetools
