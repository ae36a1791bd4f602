import Verif.Proofs.AsksCost
import Verif.Proofs.AsksPath
import Verif.Props.Size

/-!
# Programs that compare: how many comparisons a complement makes when the answers are those of a linear order
-/

namespace Rangetools
open Asks

namespace Asks
variable {T α β : Type} [LinearOrder T] {A : Nat}

/-- The number of comparisons made when all answers are those of the linear order and none panics. -/
def cost : Asks T α → Nat
  | .done _ => 0
  | .panic _ => 0
  | .test q a b k => (k (pureTest q a b)).cost + 1
  | .cmp a b k => (k (elemPartialCmp a b)).cost + 1

theorem cost_within {Q : α → Nat → Prop} {x : Asks T α} {n : Nat} (h : x.within Q n) : x.cost ≤ n := by
  induction x generalizing n with
  | done a => exact Nat.zero_le _
  | panic m => exact Nat.zero_le _
  | test q a b k ih => have := ih _ (h.2 (pureTest q a b)); have := h.1; simp only [cost]; omega
  | cmp a b k ih => have := ih _ (h.2 (elemPartialCmp a b)); have := h.1; simp only [cost]; omega

theorem Costs.cost_le {Q : α → Nat → Prop} {x : Asks T α} {u : Nat} (h : x.Costs A Q u) : x.cost ≤ A * u :=
  cost_within (h _ le_rfl)

theorem cost_bind (x : Asks T α) (f : α → Asks T β) :
    (x >>= f).cost = x.cost + match x.run with | .ok a => (f a).cost | .panic _ => 0 := by
  induction x with
  | done a => simp only [cost, run_done, Nat.zero_add]; rfl
  | panic m => rfl
  | test q a b k ih => have := ih (pureTest q a b); simp only [cost, run_test]; rw [Nat.add_right_comm, ← this]; rfl
  | cmp a b k ih => have := ih (elemPartialCmp a b); simp only [cost, run_cmp]; rw [Nat.add_right_comm, ← this]; rfl

theorem cost_bind_ok {x : Asks T α} {f : α → Asks T β} {a : α} (h : x.run = .ok a) :
    (x >>= f).cost = x.cost + (f a).cost := by rw [cost_bind, h]

theorem cost_fold_snoc {f : β → α → Asks T β} {b c : β} {l : List α} {x : α} (h : (fold f b l).run = .ok c) :
    (fold f b (l ++ [x])).cost = (fold f b l).cost + (f c x).cost := by
  induction l generalizing b with
  | nil =>
    cases h
    simp only [List.nil_append, fold, Nat.zero_add, cost]
    rw [cost_bind]
    cases (f c x).run <;> rfl
  | cons y l ih =>
    simp only [fold, run_bind] at h
    rcases hy : (f b y).run with d | m
    · rw [hy] at h
      simp only [List.cons_append, fold]
      rw [cost_bind_ok hy, cost_bind_ok hy, ih h]
      omega
    · rw [hy] at h
      cases h

theorem cost_fold_le {f : β → α → Asks T β} {b : β} {l : List α} {C : Nat}
    (h : ∀ p x q, l = p ++ x :: q → ∃ c, (fold f b p).run = .ok c ∧ (f c x).cost ≤ C) :
    (fold f b l).cost ≤ l.length * C := by
  induction l using List.reverseRecOn with
  | nil => simp [fold, cost]
  | append_singleton l x ih =>
    obtain ⟨c, h1, h2⟩ := h l x [] rfl
    have := ih fun p y q e => h p y (q ++ [x]) (by rw [e]; simp)
    rw [cost_fold_snoc h1, List.length_append, List.length_singleton, Nat.add_mul]
    omega

variable {S : Type}

theorem exec_cost {w : World S T} (hw : w.Truthful) (x : Asks T α) (s : S) : (x.exec w s).2.1.length ≤ x.cost := by
  induction x generalizing s with
  | done a => simp [exec]
  | panic m => simp [exec]
  | test q a b k ih =>
    have h := hw.1 s q a b
    simp only [exec, cost]
    rcases hr : w.test s q a b with ⟨_ | r, s'⟩
    · simp
    · rw [hr] at h
      rcases h with h | h
      · cases h
      · cases h
        rw [Test.holds_eq]
        exact Nat.add_le_add_right (ih _ s') 1
  | cmp a b k ih =>
    have h := hw.2 s a b
    simp only [exec, cost]
    rcases hr : w.cmp s a b with ⟨_ | r, s'⟩
    · simp
    · rw [hr] at h
      rcases h with h | h
      · cases h
      · cases h
        exact Nat.add_le_add_right (ih _ s') 1

end Asks

section
variable {T : Type} [LinearOrder T] {m : MaxVia}

theorem BoundedRange.complementA_cost (r : BoundedRange T) :
    ∃ d, (r.complementA m).run = .ok d ∧ d.len = 0 ∧ (r.complementA m).cost ≤ 12 := by
  have hm := MaxAgrees.all (T := T) m
  have h := LowerBoundedSet.unionUBSA_costs (v := m) (A := 12) (LowerBoundedSet.ofLBR (⟨.ofBound r.stop.b.flipped⟩ : LowerBoundedRange T))
    (UpperBoundedSet.ofUBR ⟨.ofBound r.start.b.flipped⟩) (by simp [LowerBoundedSet.ofLBR, UpperBoundedSet.ofUBR, BoundedSet.empty])
  have h1 := h.cost_le
  obtain ⟨c, hc, hs⟩ := C68_complement (Any.inner (.br r))
  rw [r.complementA_run hm]
  simp only [Any.complement, Any.toInner, Inner.complement] at hc
  rcases hd : r.complement with d | e
  · rw [hd] at hc
    cases hc
    refine ⟨d, rfl, ?_, h1⟩
    rcases d with _ | p
    · rfl
    · simp only [Inner.size, Any.toInner] at hs; simp only [UnboundedSet.len]; omega
  · rw [hd] at hc
    cases hc

theorem BoundedSet.complementA_cost (s : BoundedSet T) :
    (s.complementA m).cost ≤
      s.ranges.length * ((28 * s.ranges.length + 26) * (29 * s.ranges.length + 26) + 12) := by
  have hm := MaxAgrees.all (T := T) m
  refine cost_fold_le fun p x q e => ?_
  obtain ⟨c, hc, hs⟩ := C68_complement (Any.inner (.bs ⟨p⟩))
  have hr := (⟨p⟩ : BoundedSet T).complementA_run hm
  simp only [Any.complement, Any.toInner, Inner.complement] at hc
  rcases hd : (⟨p⟩ : BoundedSet T).complement with c' | _
  · rw [hd] at hc hr
    cases hc
    refine ⟨c', hr, ?_⟩
    have hlen : c'.len ≤ s.ranges.length := by
      rw [e]
      rcases c' with _ | p'
      · exact Nat.zero_le _
      · simp only [Inner.size, Any.toInner, UnboundedSet.len, List.length_append, List.length_cons] at *; omega
    obtain ⟨d, h1, h2, h3⟩ := x.complementA_cost (m := m)
    rw [cost_bind_ok h1]
    have h4 := (c'.interUSA_costs (v := m) d (A := 12 + 7 * (4 * c'.len + 2)) (by rw [h2]; omega)).cost_le
    rw [h2] at h4
    have h5 := Nat.mul_le_mul (show 12 + 7 * (4 * c'.len + 2) ≤ 28 * s.ranges.length + 26 by omega)
      (show 7 * (c'.len * 0) + 29 * c'.len + 12 * 0 + 26 ≤ 29 * s.ranges.length + 26 by omega)
    omega
  · rw [hd] at hc
    cases hc

theorem LowerBoundedSet.complementA_cost (s : LowerBoundedSet T) :
    (s.complementA m).cost ≤
      s.ranges.ranges.length * ((28 * s.ranges.ranges.length + 26) * (29 * s.ranges.ranges.length + 26) + 12) := by
  have hm := MaxAgrees.all (T := T) m
  refine cost_fold_le fun p x q e => ?_
  obtain ⟨c, hc, hs⟩ := C68_complement (Any.inner (.lbs ⟨⟨p⟩, s.lowerBoundedRange⟩))
  have hr := (⟨⟨p⟩, s.lowerBoundedRange⟩ : LowerBoundedSet T).complementA_run hm
  simp only [Any.complement, Any.toInner, Inner.complement] at hc
  rcases hd : (⟨⟨p⟩, s.lowerBoundedRange⟩ : LowerBoundedSet T).complement with c' | _
  · rw [hd] at hc hr
    cases hc
    refine ⟨c', hr, ?_⟩
    have hlen : c'.ranges.ranges.length ≤ s.ranges.ranges.length := by
      rw [e]
      simp only [Inner.size, Any.toInner, List.length_append, List.length_cons] at *; omega
    obtain ⟨d, h1, h2, h3⟩ := x.complementA_cost (m := m)
    rw [cost_bind_ok h1]
    have h4 := (c'.interUSA_costs (v := m) d (A := 12 + 7 * (2 * c'.ranges.ranges.length + 1)) (by rw [h2]; omega)).cost_le
    rw [h2] at h4
    have h5 := Nat.mul_le_mul (show 12 + 7 * (2 * c'.ranges.ranges.length + 1) ≤ 28 * s.ranges.ranges.length + 26 by omega)
      (show 7 * c'.ranges.ranges.length + 0 * (5 * c'.ranges.ranges.length + 11) + 9 ≤ 29 * s.ranges.ranges.length + 26 by omega)
    omega
  · rw [hd] at hc
    cases hc

theorem UpperBoundedSet.complementA_cost (s : UpperBoundedSet T) :
    (s.complementA m).cost ≤
      s.ranges.ranges.length * ((28 * s.ranges.ranges.length + 26) * (29 * s.ranges.ranges.length + 26) + 12) := by
  have hm := MaxAgrees.all (T := T) m
  refine cost_fold_le fun p x q e => ?_
  obtain ⟨c, hc, hs⟩ := C68_complement (Any.inner (.ubs ⟨s.upperBoundedRange, ⟨p⟩⟩))
  have hr := (⟨s.upperBoundedRange, ⟨p⟩⟩ : UpperBoundedSet T).complementA_run hm
  simp only [Any.complement, Any.toInner, Inner.complement] at hc
  rcases hd : (⟨s.upperBoundedRange, ⟨p⟩⟩ : UpperBoundedSet T).complement with c' | _
  · rw [hd] at hc hr
    cases hc
    refine ⟨c', hr, ?_⟩
    have hlen : c'.ranges.ranges.length ≤ s.ranges.ranges.length := by
      rw [e]
      simp only [Inner.size, Any.toInner, List.length_append, List.length_cons] at *; omega
    obtain ⟨d, h1, h2, h3⟩ := x.complementA_cost (m := m)
    rw [cost_bind_ok h1]
    have h4 := (c'.interUSA_costs (v := m) d (A := 12 + 7 * (2 * c'.ranges.ranges.length + 1)) (by rw [h2]; omega)).cost_le
    rw [h2] at h4
    have h5 := Nat.mul_le_mul (show 12 + 7 * (2 * c'.ranges.ranges.length + 1) ≤ 28 * s.ranges.ranges.length + 26 by omega)
      (show 5 * c'.ranges.ranges.length + 0 * (5 * c'.ranges.ranges.length + 10) + 10 ≤ 29 * s.ranges.ranges.length + 26 by omega)
    omega
  · rw [hd] at hc
    cases hc

theorem UnboundedSet.complementA_cost (s : UnboundedSet T) :
    (s.complementA m).cost ≤ s.len * ((28 * s.len + 26) * (29 * s.len + 26) + 12) + 1 := by
  have hm := MaxAgrees.all (T := T) m
  rcases s with _ | ps
  · exact Nat.zero_le _
  have hl : (UnboundedSet.piecewise ps).len = ps.ranges.ranges.length := rfl
  rw [hl]
  simp only [complementA]
  rw [cost_bind_ok (BoundedSet.ofBRA_run _)]
  have h0 : ∀ r : BoundedRange T, (BoundedSet.ofBRA r).cost ≤ 1 := by
    intro r
    have := within_of_wp (wp_mono (BoundedSet.ofBRA_wp (R := upTo T 1) (n := 0) (r := r) ⟨trivial, trivial⟩) fun _ k h =>
      show k ≤ 1 by omega) fun _ _ h => h
    exact cost_within this
  refine (Nat.add_le_add (h0 _) ?_).trans (Nat.add_comm _ _).le
  refine cost_fold_le fun p x q e => ?_
  obtain ⟨c, hc, hs⟩ := C68_complement (Any.inner (.us (.piecewise ⟨ps.upperBoundedRange, ⟨p⟩, ps.lowerBoundedRange⟩)))
  have hr := (UnboundedSet.piecewise ⟨ps.upperBoundedRange, ⟨p⟩, ps.lowerBoundedRange⟩ : UnboundedSet T).complementA_run hm
  simp only [complementA, run_bind, BoundedSet.ofBRA_run, Res.bind_ok] at hr
  simp only [Any.complement, Any.toInner, Inner.complement] at hc
  rcases hd : (UnboundedSet.piecewise ⟨ps.upperBoundedRange, ⟨p⟩, ps.lowerBoundedRange⟩ : UnboundedSet T).complement with c' | _
  · rw [hd] at hc hr
    cases hc
    refine ⟨c', hr, ?_⟩
    have hlen : c'.ranges.length ≤ ps.ranges.ranges.length + 2 := by
      rw [e]
      simp only [Inner.size, Any.toInner, List.length_append, List.length_cons] at *; omega
    have hpos : 1 ≤ ps.ranges.ranges.length := by rw [e]; simp only [List.length_append, List.length_cons]; omega
    obtain ⟨d, h1, h2, h3⟩ := x.complementA_cost (m := m)
    rw [cost_bind_ok h1]
    have h4 := (c'.interUSA_costs (v := m) d (A := 12 + 7 * (2 * c'.ranges.length)) (by rw [h2]; omega) (by rw [h2]; omega)).cost_le
    rw [h2] at h4
    have h5 := Nat.mul_le_mul (show 12 + 7 * (2 * c'.ranges.length) ≤ 28 * ps.ranges.ranges.length + 26 by omega)
      (show c'.ranges.length * (3 * 0 + 4) + 2 ≤ 29 * ps.ranges.ranges.length + 26 by omega)
    omega
  · rw [hd] at hc
    cases hc

theorem Any.complementA_cost (a : Any T) :
    (a.complementA m).cost ≤ a.pieces * ((28 * a.pieces + 26) * (29 * a.pieces + 26) + 12) + 1 := by
  have wrap : ∀ {α β : Type} (x : Asks T α) (f : α → β), (x >>= fun a => .done (f a)).cost = x.cost := by
    intro α β x f
    rw [cost_bind]
    cases x.run <;> rfl
  have hs : ∀ i : Inner T, (i.complementA m).cost ≤ i.len * ((28 * i.len + 26) * (29 * i.len + 26) + 12) + 1 := by
    intro i
    rcases i with r | s | r | s | r | s | _ | s | _
    · obtain ⟨d, h1, h2, h3⟩ := r.complementA_cost (m := m)
      exact (wrap _ _).trans_le (h3.trans (by simp [Inner.len]))
    · exact (wrap _ _).trans_le (s.complementA_cost.trans (Nat.le_succ _))
    · exact Nat.zero_le _
    · exact (wrap _ _).trans_le (s.complementA_cost.trans (Nat.le_succ _))
    · exact Nat.zero_le _
    · exact (wrap _ _).trans_le (s.complementA_cost.trans (Nat.le_succ _))
    · exact Nat.zero_le _
    · exact (wrap _ _).trans_le s.complementA_cost
    · exact Nat.zero_le _
  rw [← len_toInner]
  rcases a with r | r | r | r | r | _ | i
  · exact hs (range r).toInner
  · exact hs (rangeInclusive r).toInner
  · exact hs (rangeFrom r).toInner
  · exact hs (rangeTo r).toInner
  · exact hs (rangeToInclusive r).toInner
  · exact Nat.zero_le _
  · exact hs i

end

/-! ### Long runs -/

namespace Asks
variable {T α β : Type}

/-- Some answers lead to a run of at least `n` comparisons. -/
def Long : Nat → Asks T α → Prop
  | n, .done _ => n = 0
  | n, .panic _ => n = 0
  | n, .test _ _ _ k => n = 0 ∨ ∃ r, (k r).Long (n - 1)
  | n, .cmp _ _ k => n = 0 ∨ ∃ r, (k (some r)).Long (n - 1)

theorem long_zero (x : Asks T α) : x.Long 0 := by
  cases x <;> simp [Long]

theorem long_anti {x : Asks T α} {n k : Nat} (h : x.Long n) (hk : k ≤ n) : x.Long k := by
  induction x generalizing n k with
  | done a => simp only [Long] at *; omega
  | panic m => simp only [Long] at *; omega
  | test q a b f ih =>
    rcases h with h | ⟨r, h⟩
    · exact .inl (by omega)
    · exact .inr ⟨r, ih r h (by omega)⟩
  | cmp a b f ih =>
    rcases h with h | ⟨r, h⟩
    · exact .inl (by omega)
    · exact .inr ⟨r, ih _ h (by omega)⟩

theorem long_left {x : Asks T α} {f : α → Asks T β} {n : Nat} (h : x.Long n) : (x >>= f).Long n := by
  induction x generalizing n with
  | done a => simp only [Long] at h; subst h; exact long_zero _
  | panic m => exact h
  | test q a b k ih => exact h.imp id fun ⟨r, h⟩ => ⟨r, ih r h⟩
  | cmp a b k ih => exact h.imp id fun ⟨r, h⟩ => ⟨r, ih _ h⟩

theorem long_right {Q : α → Prop} {x : Asks T α} {f : α → Asks T β} {n : Nat} (h : x.Can Q) (hf : ∀ a, Q a → (f a).Long n) :
    (x >>= f).Long n := by
  induction x with
  | done a => exact hf a h
  | panic m => exact h.elim
  | test q a b k ih =>
    obtain ⟨r, h⟩ := h
    exact .inr ⟨r, long_anti (ih r h) (by omega)⟩
  | cmp a b k ih =>
    obtain ⟨r, h⟩ := h
    exact .inr ⟨r, long_anti (ih _ h) (by omega)⟩

theorem long_script {x : Asks T α} {n : Nat} (h : x.Long n) : ∃ s, n ≤ (x.exec World.script s).2.1.length := by
  induction x generalizing n with
  | done a => exact ⟨[], by simp only [Long] at h; omega⟩
  | panic m => exact ⟨[], by simp only [Long] at h; omega⟩
  | test q a b k ih =>
    rcases h with h | ⟨r, h⟩
    · exact ⟨[], by omega⟩
    · obtain ⟨s, hs⟩ := ih r h
      exact ⟨(r, .eq) :: s, le_trans (by omega) (Nat.add_le_add_right hs 1)⟩
  | cmp a b k ih =>
    rcases h with h | ⟨r, h⟩
    · exact ⟨[], by omega⟩
    · obtain ⟨s, hs⟩ := ih _ h
      exact ⟨(false, r) :: s, le_trans (by omega) (Nat.add_le_add_right hs 1)⟩

theorem bind_bind {γ : Type} (x : Asks T α) (f : α → Asks T β) (g : β → Asks T γ) :
    (x >>= f >>= g) = x >>= fun a => f a >>= g := by
  induction x with
  | done a => rfl
  | panic m => rfl
  | test q a b k ih => exact congrArg (test q a b) (funext ih)
  | cmp a b k ih => exact congrArg (cmp a b) (funext ih)

theorem fold_snoc (f : β → α → Asks T β) (b : β) (l : List α) (x : α) :
    fold f b (l ++ [x]) = fold f b l >>= fun c => f c x >>= .done := by
  induction l generalizing b with
  | nil => rfl
  | cons y l ih =>
    simp only [List.cons_append, fold, ih]
    rw [bind_bind]

end Asks

section
variable {T : Type} {v : MaxVia}

theorem BoundedSet.retainNonEmptyA_long (s : BoundedSet T) : s.retainNonEmptyA.Long s.ranges.length := by
  refine long_left ?_
  generalize s.ranges = l
  induction l with
  | nil => exact rfl
  | cons x l ih =>
    simp only [Asks.filter, List.length_cons]
    rcases x with ⟨⟨a | a⟩, ⟨b | b⟩⟩ <;>
      exact .inr ⟨false, long_left (x := Asks.filter (fun r => do return !(← r.isEmptyA)) l) ih⟩

theorem BoundedSet.interUBRA_long (s : BoundedSet T) (r) : (s.interUBRA v r).Long s.ranges.length :=
  long_right (can_map fun x _ => x.interUBRA_can r) fun l hl => hl ▸ BoundedSet.retainNonEmptyA_long ⟨l⟩

theorem BoundedSet.interLBRA_long (s : BoundedSet T) (r) : (s.interLBRA v r).Long s.ranges.length :=
  long_right (can_map fun x _ => x.interLBRA_can r) fun l hl => hl ▸ BoundedSet.retainNonEmptyA_long ⟨l⟩

theorem BoundedSet.interUSA_long (s : BoundedSet T) {k : Nat} {t : UnboundedSet T} (ht : t.Pw k) :
    (s.interUSA v t).Long s.ranges.length := by
  obtain ⟨p, rfl, hp⟩ := ht
  exact long_left (s.interUBRA_long p.upperBoundedRange)

theorem UpperBoundedSet.interUSA_long (s : UpperBoundedSet T) {k : Nat} {t : UnboundedSet T} (ht : t.Pw k) :
    (s.interUSA v t).Long s.ranges.ranges.length := by
  obtain ⟨p, rfl, hp⟩ := ht
  refine long_left (long_right (can_seq (UpperBound.minA_can _ _) (Q' := fun _ => True) fun _ _ => trivial) fun a _ => ?_)
  exact long_left (s.ranges.interUBRA_long p.upperBoundedRange)

theorem LowerBoundedSet.interUSA_long (s : LowerBoundedSet T) {k : Nat} {t : UnboundedSet T} (ht : t.Pw k) :
    (s.interUSA v t).Long s.ranges.ranges.length := by
  obtain ⟨p, rfl, hp⟩ := ht
  refine long_left (long_right (can_seq (LowerBound.maxA_can _ _) (Q' := fun _ => True) fun _ _ => trivial) fun a _ => ?_)
  exact long_left (s.ranges.interLBRA_long p.lowerBoundedRange)

/-- An intersection with a set of `k` bounded pieces of a half-line. -/
theorem UpperBoundedSet.interUSA_long' (s : UpperBoundedSet T) {k : Nat} {t : UnboundedSet T} (ht : t.Pw k) :
    (s.interUSA v t).Long k := by
  obtain ⟨p, rfl, hp⟩ := ht
  refine long_right (s.interUBRA_can p.upperBoundedRange) fun a _ => ?_
  refine long_right (s.interLBRA_can p.lowerBoundedRange) fun b _ => ?_
  refine long_right (a.addSetA_can b) fun c _ => ?_
  exact hp ▸ long_left (long_left (p.ranges.interUBRA_long _))

theorem UnboundedSet.interUSA_long {k l : Nat} {s t : UnboundedSet T} (hs : s.Pw k) (ht : t.Pw l) :
    (s.interUSA v t).Long k := by
  obtain ⟨q, rfl, hq⟩ := ht
  obtain ⟨p, rfl, hp⟩ := hs
  exact long_left ((UpperBoundedSet.ofUBR q.upperBoundedRange).interUSA_long' ⟨p, rfl, hp⟩)

theorem LowerBoundedSet.complementA_long (s : LowerBoundedSet T) :
    (s.complementA v).Long (2 ^ (s.ranges.ranges.length - 1) - 1) := by
  rcases s with ⟨⟨l⟩, h⟩
  rcases List.eq_nil_or_concat' l with rfl | ⟨l, r, rfl⟩
  · exact long_zero _
  · have hc := LowerBoundedSet.complementA_can (v := v) ⟨⟨l⟩, h⟩
    simp only [complementA, fold_snoc, List.length_append, List.length_singleton, Nat.add_sub_cancel] at *
    refine long_right hc fun c h1 => long_left (long_right r.complementA_can fun d hd => ?_)
    exact (show 2 ^ l.length - 1 = c.ranges.ranges.length by omega) ▸ c.interUSA_long hd

theorem UpperBoundedSet.complementA_long (s : UpperBoundedSet T) :
    (s.complementA v).Long (2 ^ (s.ranges.ranges.length - 1) - 1) := by
  rcases s with ⟨h, ⟨l⟩⟩
  rcases List.eq_nil_or_concat' l with rfl | ⟨l, r, rfl⟩
  · exact long_zero _
  · have hc := UpperBoundedSet.complementA_can (v := v) ⟨h, ⟨l⟩⟩
    simp only [complementA, fold_snoc, List.length_append, List.length_singleton, Nat.add_sub_cancel] at *
    refine long_right hc fun c h1 => long_left (long_right r.complementA_can fun d hd => ?_)
    exact (show 2 ^ l.length - 1 = c.ranges.ranges.length by omega) ▸ c.interUSA_long hd

theorem BoundedSet.complementA_long (s : BoundedSet T) {k : Nat} (hk : 3 * k + 2 = 2 * 4 ^ (s.ranges.length - 2)) :
    (s.complementA v).Long k := by
  rcases s with ⟨l⟩
  rcases List.eq_nil_or_concat' l with rfl | ⟨l, r, rfl⟩
  · have : k = 0 := by simp at hk; omega
    subst this
    exact long_zero _
  · rcases l with _ | ⟨x, l⟩
    · have : k = 0 := by simp at hk; omega
      subst this
      exact long_zero _
    have hc := BoundedSet.complementA_can (v := v) ⟨x :: l⟩ (by simp)
    simp only [complementA, fold_snoc, List.length_append, List.length_cons, Nat.add_sub_cancel] at *
    refine long_right hc fun c h1 => long_left (long_right r.complementA_can fun d hd => ?_)
    obtain ⟨j, hj, h2⟩ := h1
    rw [List.length_nil, show l.length + 1 + (0 + 1) - 2 = l.length by omega] at hk
    exact (show k = j by omega) ▸ UnboundedSet.interUSA_long hj hd

theorem UnboundedSet.complementA_long (p : PiecewiseUnboundedSet T) (hp : p.ranges.ranges ≠ []) :
    (UnboundedSet.complementA v (.piecewise p)).Long (2 ^ (p.ranges.ranges.length - 1)) := by
  rcases p with ⟨u, ⟨l⟩, w⟩
  rcases List.eq_nil_or_concat' l with rfl | ⟨l, r, rfl⟩
  · exact (hp rfl).elim
  · simp only [complementA, fold_snoc, List.length_append, List.length_singleton, Nat.add_sub_cancel] at *
    refine long_right (BoundedSet.ofBRA_can _) fun a ha => ?_
    refine long_right (Q := fun c : BoundedSet T => c.ranges.length = 2 ^ l.length) ?_ fun c h1 =>
      long_left (long_right r.complementA_can fun d hd => h1 ▸ c.interUSA_long hd)
    refine can_mono (can_fold (l := l) (I := fun i (b : BoundedSet T) => b.ranges.length = 2 ^ i)
      (f := fun acc range => do acc.interUSA v (← range.complementA v)) ?_ (i := 0) (by rw [ha]; simp)) fun d hd => by simpa using hd
    intro i b hb x _
    refine can_seq x.complementA_can fun c hc => ?_
    exact can_mono (b.interUSA_can hc) fun d hd => by rw [hd, hb, Nat.pow_succ]

end
end Rangetools
