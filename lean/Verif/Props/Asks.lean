import Verif.Proofs.AsksAll
import Verif.Proofs.AsksPath
import Verif.Spec.Samples
import Verif.Props.Algebra

/-!
# C95 – C99: comparisons with side effects
-/

namespace Rangetools
open Samples
variable {S T : Type}

/-! ### C95 Comparisons that tell the truth -/

section
variable [LinearOrder T]

/-- C95, main statement.  Comparisons may log, count, lock or change anything, and may panic: as long as the answers they do
give are those of a linear order, every operation either ends with the panic of a comparison or with the result of the pure
model, to which the other properties apply.  This holds whichever way std computes `max` and `min`. -/
theorem C95_truthful (w : World S T) (hw : w.Truthful) (m : MaxVia) (s : S) (a b : Any T) (t : T) :
    (((a.containsA t).exec w s).1 = none ∨ ((a.containsA t).exec w s).1 = some (.ok (a.contains t))) ∧
    ((a.isEmptyA.exec w s).1 = none ∨ (a.isEmptyA.exec w s).1 = some (.ok a.isEmpty)) ∧
    ((a.toSetA.exec w s).1 = none ∨ (a.toSetA.exec w s).1 = some (.ok a.toSet)) ∧
    (((a.interA m b).exec w s).1 = none ∨ ((a.interA m b).exec w s).1 = some (a.inter b)) ∧
    (((a.disjointA m b).exec w s).1 = none ∨ ((a.disjointA m b).exec w s).1 = some (a.disjoint b)) ∧
    (((a.intersectsA m b).exec w s).1 = none ∨ ((a.intersectsA m b).exec w s).1 = some (a.intersects b)) ∧
    (((a.unionA m b).exec w s).1 = none ∨ ((a.unionA m b).exec w s).1 = some (a.union b)) ∧
    (((a.complementA m).exec w s).1 = none ∨ ((a.complementA m).exec w s).1 = some a.complement) := by
  have hm := MaxAgrees.all (T := T) m
  refine ⟨?_, ?_, ?_, ?_, ?_, ?_, ?_, ?_⟩
  · rw [← a.containsA_run t]; exact Asks.exec_truthful hw _ s
  · rw [← a.isEmptyA_run]; exact Asks.exec_truthful hw _ s
  · rw [← a.toSetA_run]; exact Asks.exec_truthful hw _ s
  · rw [← Any.interA_run hm a b]; exact Asks.exec_truthful hw _ s
  · rw [← Any.disjointA_run hm a b]; exact Asks.exec_truthful hw _ s
  · rw [← Any.intersectsA_run hm a b]; exact Asks.exec_truthful hw _ s
  · rw [← Any.unionA_run hm a b]; exact Asks.exec_truthful hw _ s
  · rw [← Any.complementA_run hm a]; exact Asks.exec_truthful hw _ s

/-- C95, when no comparison panics: exactly the results of the pure model. -/
theorem C95_returns (w : World S T) (hw : w.Truthful) (hr : w.Returns) (m : MaxVia) (s : S) (a b : Any T) (t : T) :
    ((a.containsA t).exec w s).1 = some (.ok (a.contains t)) ∧
    (a.isEmptyA.exec w s).1 = some (.ok a.isEmpty) ∧
    (a.toSetA.exec w s).1 = some (.ok a.toSet) ∧
    ((a.interA m b).exec w s).1 = some (a.inter b) ∧
    ((a.disjointA m b).exec w s).1 = some (a.disjoint b) ∧
    ((a.intersectsA m b).exec w s).1 = some (a.intersects b) ∧
    ((a.unionA m b).exec w s).1 = some (a.union b) ∧
    ((a.complementA m).exec w s).1 = some a.complement := by
  obtain ⟨h1, h2, h3, h4, h5, h6, h7, h8⟩ := C95_truthful w hw m s a b t
  exact ⟨h1.resolve_left (Asks.exec_returns hr _ s), h2.resolve_left (Asks.exec_returns hr _ s),
    h3.resolve_left (Asks.exec_returns hr _ s), h4.resolve_left (Asks.exec_returns hr _ s),
    h5.resolve_left (Asks.exec_returns hr _ s), h6.resolve_left (Asks.exec_returns hr _ s),
    h7.resolve_left (Asks.exec_returns hr _ s), h8.resolve_left (Asks.exec_returns hr _ s)⟩

/-- C95, as membership: a union computed with such comparisons, and searched with such comparisons, contains exactly the
elements of its operands. -/
theorem C95_union_contains (w : World S T) (hw : w.Truthful) (hr : w.Returns) (m : MaxVia) (s : S) (a b : Any T)
    (ha : a.Fresh) (hb : b.Fresh) :
    ∃ c, ((a.unionA m b).exec w s).1 = some (.ok c) ∧
      ∀ s t, ((c.containsA t).exec w s).1 = some (.ok (a.contains t || b.contains t)) := by
  obtain ⟨c, hc, ht⟩ := C01_union_contains a b ha hb
  refine ⟨c, ?_, fun s t => ?_⟩
  · rw [← hc, ← Any.unionA_run (MaxAgrees.all m) a b]; exact Asks.exec_lawful hw hr _ s
  · rw [← ht, ← c.containsA_run t]; exact Asks.exec_lawful hw hr _ s

/-- C95, as membership, for complements. -/
theorem C95_complement_contains (w : World S T) (hw : w.Truthful) (hr : w.Returns) (m : MaxVia) (s : S) (a : Any T)
    (ha : a.Fresh) :
    ∃ c, ((a.complementA m).exec w s).1 = some (.ok c) ∧
      ∀ s t, (((Any.inner c).containsA t).exec w s).1 = some (.ok (!a.contains t)) := by
  obtain ⟨c, hc, ht⟩ := C03_complement_contains a ha
  refine ⟨c, ?_, fun s t => ?_⟩
  · rw [← hc, ← Any.complementA_run (MaxAgrees.all m) a]; exact Asks.exec_lawful hw hr _ s
  · rw [← ht, ← Any.contains_inner, ← Any.containsA_run _ t]; exact Asks.exec_lawful hw hr _ s

end

/-- C95, without any law: with pure comparisons, and `max` and `min` computed by `cmp`, the call-level programs compute what the
functions of the model compute, whatever the instances answer. -/
theorem C95_instances [LE T] [LT T] [DecidableLE T] [DecidableLT T] [Ord T] [BEq T] (a b : Any T) (t : T) :
    ((a.containsA t).exec .ofInstances ()).1 = some (.ok (a.contains t)) ∧
    (a.isEmptyA.exec .ofInstances ()).1 = some (.ok a.isEmpty) ∧
    (a.toSetA.exec .ofInstances ()).1 = some (.ok a.toSet) ∧
    ((a.interA .cmp b).exec .ofInstances ()).1 = some (a.inter b) ∧
    ((a.disjointA .cmp b).exec .ofInstances ()).1 = some (a.disjoint b) ∧
    ((a.intersectsA .cmp b).exec .ofInstances ()).1 = some (a.intersects b) ∧
    ((a.unionA .cmp b).exec .ofInstances ()).1 = some (a.union b) ∧
    ((a.complementA .cmp).exec .ofInstances ()).1 = some a.complement := by
  have key : ∀ {α : Type} (x : Asks T α), (x.exec .ofInstances ()).1 = some x.run := by
    intro α x
    induction x with
    | done a => rfl
    | panic m => rfl
    | test q a b k ih => cases q <;> exact ih _
    | cmp a b k ih => exact ih _
  have hm := MaxAgrees.cmp (T := T)
  refine ⟨?_, ?_, ?_, ?_, ?_, ?_, ?_, ?_⟩
  · rw [← a.containsA_run t]; exact key _
  · rw [← a.isEmptyA_run]; exact key _
  · rw [← a.toSetA_run]; exact key _
  · rw [← Any.interA_run hm a b]; exact key _
  · rw [← Any.disjointA_run hm a b]; exact key _
  · rw [← Any.intersectsA_run hm a b]; exact key _
  · rw [← Any.unionA_run hm a b]; exact key _
  · rw [← Any.complementA_run hm a]; exact key _

/-- Comparisons of integers that count themselves and panic once `limit` of them were made. -/
def World.counting (limit : Nat) : World Nat Int where
  test s q a b := if s < limit then (some (q.holds a b), s + 1) else (none, s)
  cmp s a b := if s < limit then (some (some (compare a b)), s + 1) else (none, s)

example : (World.counting 5).Truthful := by
  constructor
  · intro s q a b; simp only [World.counting]; split <;> simp
  · intro s a b; simp only [World.counting]; split <;> simp

-- three comparisons are made: the third panics if only two are allowed, else the count is left behind
example : ((Any.intersectsA .lt (.range ⟨0, 5⟩) (.range ⟨3, 9⟩) : Asks Int Bool).exec (World.counting 2) 0).1 = none ∧
    ((Any.intersectsA .lt (.range ⟨0, 5⟩) (.range ⟨3, 9⟩) : Asks Int Bool).exec (World.counting 99) 0).1 = some (.ok true) ∧
    ((Any.intersectsA .lt (.range ⟨0, 5⟩) (.range ⟨3, 9⟩) : Asks Int Bool).exec (World.counting 99) 0).2.2 = 3 := by
  decide +kernel

/-! ### C96 Only the endpoints of the operands -/

open Asks in
/-- C96, main statement.  Whatever the comparisons answer, they only ever compare endpoints of the operands (and the element
looked up), and every endpoint of a result is an endpoint of an operand. -/
theorem C96_endpoints_only (w : World S T) (m : MaxVia) (s : S) (a b : Any T) (t : T) :
    (∀ p ∈ ((a.containsA t).exec w s).2.1, (p.1 = t ∨ p.1 ∈ a.endpoints) ∧ (p.2 = t ∨ p.2 ∈ a.endpoints)) ∧
    (∀ p ∈ (a.isEmptyA.exec w s).2.1, p.1 ∈ a.endpoints ∧ p.2 ∈ a.endpoints) ∧
    ((∀ p ∈ (a.toSetA.exec w s).2.1, p.1 ∈ a.endpoints ∧ p.2 ∈ a.endpoints) ∧
      ∀ c, (a.toSetA.exec w s).1 = some (.ok c) → c.toInner.endpoints ⊆ a.endpoints) ∧
    ((∀ p ∈ ((a.interA m b).exec w s).2.1, p.1 ∈ a.endpoints ++ b.endpoints ∧ p.2 ∈ a.endpoints ++ b.endpoints) ∧
      ∀ c, ((a.interA m b).exec w s).1 = some (.ok c) → c.endpoints ⊆ a.endpoints ++ b.endpoints) ∧
    (∀ p ∈ ((a.disjointA m b).exec w s).2.1, p.1 ∈ a.endpoints ++ b.endpoints ∧ p.2 ∈ a.endpoints ++ b.endpoints) ∧
    (∀ p ∈ ((a.intersectsA m b).exec w s).2.1, p.1 ∈ a.endpoints ++ b.endpoints ∧ p.2 ∈ a.endpoints ++ b.endpoints) ∧
    ((∀ p ∈ ((a.unionA m b).exec w s).2.1, p.1 ∈ a.endpoints ++ b.endpoints ∧ p.2 ∈ a.endpoints ++ b.endpoints) ∧
      ∀ c, ((a.unionA m b).exec w s).1 = some (.ok c) → c.endpoints ⊆ a.endpoints ++ b.endpoints) ∧
    ((∀ p ∈ ((a.complementA m).exec w s).2.1, p.1 ∈ a.endpoints ∧ p.2 ∈ a.endpoints) ∧
      ∀ c, ((a.complementA m).exec w s).1 = some (.ok c) → c.endpoints ⊆ a.endpoints) := by
  let R1 : Rules T := ⟨(· ∈ a.endpoints), fun _ => True, fun _ _ => True⟩
  let R2 : Rules T := ⟨(· ∈ a.endpoints ++ b.endpoints), fun _ => True, fun _ _ => True⟩
  let R3 : Rules T := ⟨fun x => x = t ∨ x ∈ a.endpoints, fun _ => True, fun _ _ => True⟩
  have hok1 : ∀ n, R1.Ok m n := fun _ => ⟨trivial, fun _ _ => trivial⟩
  have hok2 : ∀ n, R2.Ok m n := fun _ => ⟨trivial, fun _ _ => trivial⟩
  have ha : ∀ x ∈ a.endpoints, R2.P x := fun x hx => List.mem_append_left _ hx
  have hb : ∀ x ∈ b.endpoints, R2.P x := fun x hx => List.mem_append_right _ hx
  have ha1 : ∀ x ∈ a.endpoints, R1.P x := fun x hx => hx
  refine ⟨?_, ?_, ⟨?_, ?_⟩, ⟨?_, ?_⟩, ?_, ?_, ⟨?_, ?_⟩, ⟨?_, ?_⟩⟩
  · exact (wp_exec (R := R3) (fun _ _ _ _ _ => trivial)
      (Any.containsA_wp (n := 0) (fun x hx => .inr hx) (.inl rfl)) s).1
  · exact (wp_exec (R := R1) (fun _ _ _ _ _ => trivial) (Any.isEmptyA_wp (n := 0) ha1) s).1
  · exact (wp_exec (R := R1) (fun _ _ _ _ _ => trivial)
      (Inner.toSetA_wp (n := 0) (Any.endsIn_toInner.mpr ha1)) s).1
  · exact fun c hc => Inner.endsIn_iff.mp ((wp_exec (R := R1) (fun _ _ _ _ _ => trivial)
      (Inner.toSetA_wp (n := 0) (Any.endsIn_toInner.mpr ha1)) s).2.1 c hc).1
  · exact (wp_exec (R := R2) (fun _ _ _ _ _ => trivial) (Any.interA_sat hok2 ha hb 0) s).1
  · exact fun c hc => ((wp_exec (R := R2) (fun _ _ _ _ _ => trivial) (Any.interA_sat hok2 ha hb 0) s).2.1 c hc).1
  · exact (wp_exec (R := R2) (fun _ _ _ _ _ => trivial) (Any.disjointA_sat hok2 ha hb 0) s).1
  · exact (wp_exec (R := R2) (fun _ _ _ _ _ => trivial) (Any.intersectsA_sat hok2 ha hb 0) s).1
  · exact (wp_exec (R := R2) (fun _ _ _ _ _ => trivial) (Any.unionA_wp (n := 0) ha hb fun _ _ => hok2 _) s).1
  · exact fun c hc =>
      ((wp_exec (R := R2) (fun _ _ _ _ _ => trivial) (Any.unionA_wp (n := 0) ha hb fun _ _ => hok2 _) s).2.1 c hc).1
  · exact (wp_exec (R := R1) (fun _ _ _ _ _ => trivial) (Any.complementA_sat hok1 ha1 0) s).1
  · exact fun c hc => ((wp_exec (R := R1) (fun _ _ _ _ _ => trivial) (Any.complementA_sat hok1 ha1 0) s).2.1 c hc).1

-- scripted answers that contradict each other: the result is nonsense, but made of the operands' endpoints
example : ((Any.unionA .cmp (.range ⟨0, 5⟩) (.range ⟨3, 9⟩) : Asks Int (Any Int)).exec .script
      [(false, .eq), (false, .eq), (false, .eq), (false, .lt), (false, .lt), (true, .eq)]).1 =
        some (.ok (.inner (.bs ⟨[co 0 5, co 3 9]⟩))) ∧
    ((Any.unionA .cmp (.range ⟨0, 5⟩) (.range ⟨3, 9⟩) : Asks Int (Any Int)).exec .script
      [(false, .eq), (false, .eq), (false, .eq), (false, .lt), (false, .lt), (true, .eq)]).2.1 =
        [(0, 5), (3, 9), (3, 9), (0, 3), (5, 9), (3, 5), (0, 3)] := by decide +kernel

/-! ### C97 The only panics -/

open Asks in
/-- C97, main statement.  Whatever the comparisons answer, indexing, `insert`, `remove` and the other `unwrap`s never fail.
`contains`, `is_empty` and `to_set` do not panic at all, unless a comparison does. -/
theorem C97_panics (w : World S T) (m : MaxVia) (s : S) (a b : Any T) (t : T) (msg : String) :
    ((a.containsA t).exec w s).1 ≠ some (.panic msg) ∧
    (a.isEmptyA.exec w s).1 ≠ some (.panic msg) ∧
    (a.toSetA.exec w s).1 ≠ some (.panic msg) ∧
    (((a.interA m b).exec w s).1 = some (.panic msg) → w.MayPanic m msg) ∧
    (((a.disjointA m b).exec w s).1 = some (.panic msg) → w.MayPanic m msg) ∧
    (((a.intersectsA m b).exec w s).1 = some (.panic msg) → w.MayPanic m msg) ∧
    (((a.unionA m b).exec w s).1 = some (.panic msg) → w.MayPanic m msg) ∧
    (((a.complementA m).exec w s).1 = some (.panic msg) → w.MayPanic m msg) := by
  let R0 : Rules T := ⟨fun _ => True, fun _ => True, fun _ _ => False⟩
  let R : Rules T := ⟨fun _ => True, fun r => r = none → ¬ w.Total, fun x _ => w.MayPanic m x⟩
  have hok : ∀ n, R.Ok m n := fun _ => ⟨.inl rfl, fun h1 h2 => .inr ⟨rfl, h1, h2 rfl⟩⟩
  have hw : ∀ s a b r, (w.cmp s a b).1 = some r → R.N r := by
    rintro s a b r hr rfl ht
    exact ht s a b hr
  have ht : ∀ l : List T, ∀ x ∈ l, R.P x := fun _ _ _ => trivial
  have ht0 : ∀ l : List T, ∀ x ∈ l, R0.P x := fun _ _ _ => trivial
  refine ⟨fun h => ?_, fun h => ?_, fun h => ?_, fun h => ?_, fun h => ?_, fun h => ?_, fun h => ?_, fun h => ?_⟩
  · exact (wp_exec (R := R0) (fun _ _ _ _ _ => trivial) (Any.containsA_wp (n := 0) (ht0 _) trivial) s).2.2 msg h
  · exact (wp_exec (R := R0) (fun _ _ _ _ _ => trivial) (Any.isEmptyA_wp (n := 0) (ht0 _)) s).2.2 msg h
  · exact (wp_exec (R := R0) (fun _ _ _ _ _ => trivial)
      (Inner.toSetA_wp (n := 0) (Any.endsIn_toInner.mpr (ht0 _))) s).2.2 msg h
  · exact (wp_exec hw (Any.interA_sat hok (ht _) (ht _) 0) s).2.2 msg h
  · exact (wp_exec hw (Any.disjointA_sat hok (ht _) (ht _) 0) s).2.2 msg h
  · exact (wp_exec hw (Any.intersectsA_sat hok (ht _) (ht _) 0) s).2.2 msg h
  · exact (wp_exec hw (Any.unionA_wp (n := 0) (ht _) (ht _) fun _ _ => hok _) s).2.2 msg h
  · exact (wp_exec hw (Any.complementA_sat hok (ht _) 0) s).2.2 msg h

/-- C97: both panics happen.  A union asserts when the two answers about one pair differ; with a `partial_cmp` that says
`None` it unwraps `None`, unless `max` and `min` use `<`. -/
theorem C97_panics_occur :
    (∃ s, ((Any.unionA .lt (.range ⟨0, 5⟩) (.range ⟨3, 9⟩) : Asks Int (Any Int)).exec .script s).1 =
      some (.panic assertMessage)) ∧
    ((Any.unionA .cmp (.range ⟨0, 5⟩) (.range ⟨3, 9⟩) : Asks Int (Any Int)).exec .partial ()).1 =
      some (.panic unwrapMessage) ∧
    ((Any.unionA .lt (.range ⟨0, 5⟩) (.range ⟨3, 9⟩) : Asks Int (Any Int)).exec .partial ()).1 =
      some (.ok (.inner (.bs ⟨[co 3 5]⟩))) := by
  refine ⟨⟨[(false, .eq), (false, .eq), (false, .eq), (false, .eq), (false, .eq), (false, .eq), (false, .eq), (false, .eq),
    (false, .eq), (false, .eq), (true, .eq)], ?_⟩, ?_, ?_⟩ <;> decide +kernel

example : (World.script : World (List (Bool × Ordering)) Int).Total ∧ ¬ (World.partial : World Unit Int).Total :=
  ⟨fun _ _ _ h => by simp [World.script] at h, fun h => h () 0 0 rfl⟩

/-! ### C98 How many comparisons -/

open Asks in
/-- C98, main statement.  Whatever the comparisons answer, and also if one of them panics: `contains` makes at most `2n + 2`
comparisons on a value of `n` bounded pieces, `is_empty` at most `n`, `to_set` at most one, and `union` at most
`(7k + 12)(3k + 6)` where `k` is the number of bounded pieces of both operands.  The result of `union` has at most `k` pieces,
that of `intersection` at most `nm + 4n + 4m + 2`. -/
theorem C98_comparisons (w : World S T) (m : MaxVia) (s : S) (a b : Any T) (t : T) :
    ((a.containsA t).exec w s).2.1.length ≤ 2 * a.pieces + 2 ∧
    (a.isEmptyA.exec w s).2.1.length ≤ a.pieces ∧
    (a.toSetA.exec w s).2.1.length ≤ 1 ∧
    ((a.unionA m b).exec w s).2.1.length ≤ (7 * (a.pieces + b.pieces) + 12) * (3 * (a.pieces + b.pieces) + 6) ∧
    (∀ c, ((a.unionA m b).exec w s).1 = some (.ok c) → c.pieces ≤ a.pieces + b.pieces) ∧
    (∀ c, ((a.interA m b).exec w s).1 = some (.ok c) →
      (Any.inner c).pieces ≤ a.pieces * b.pieces + 4 * a.pieces + 4 * b.pieces + 2) := by
  let R : Nat → Rules T := fun B => ⟨fun _ => True, fun _ => True, fun _ n => n ≤ B⟩
  have hok : ∀ B n, n ≤ B → (R B).Ok m n := fun B n hn => ⟨hn, fun _ _ => hn⟩
  refine ⟨?_, ?_, ?_, ?_, ?_, ?_⟩
  · have := wp_exec_bound (R := R (0 + (2 * a.pieces + 2))) (w := w) (fun _ _ _ _ _ => trivial) ⟨none, trivial⟩
      (fun _ _ h => h) (Any.containsA_wp (a := a) (t := t) (n := 0) (fun _ _ => trivial) trivial) s
    omega
  · have := wp_exec_bound (R := R (0 + a.pieces)) (w := w) (fun _ _ _ _ _ => trivial) ⟨none, trivial⟩
      (fun _ _ h => h) (Any.isEmptyA_wp (a := a) (n := 0) fun _ _ => trivial) s
    omega
  · have := wp_exec_bound (R := R (0 + 1)) (w := w) (fun _ _ _ _ _ => trivial) ⟨none, trivial⟩
      (fun _ _ h => h) (wp_mono (Inner.toSetA_wp (i := a.toInner) (n := 0) (Any.endsIn_toInner.mpr fun _ _ => trivial))
        fun _ _ h => h.2.2) s
    rwa [Nat.zero_add, Nat.zero_add] at this
  · have := wp_exec_bound (R := R (0 + (7 * (a.pieces + b.pieces) + 12) * (3 * (a.pieces + b.pieces) + 6))) (w := w)
      (fun _ _ _ _ _ => trivial) ⟨none, trivial⟩ (fun _ _ h => h)
      (wp_mono (Any.unionA_wp (v := m) (a := a) (b := b) (n := 0) (fun _ _ => trivial) (fun _ _ => trivial) fun k hk =>
        hok _ k hk) fun _ _ h => h.2.2) s
    omega
  · intro c hc
    exact ((wp_exec (R := R (0 + (7 * (a.pieces + b.pieces) + 12) * (3 * (a.pieces + b.pieces) + 6))) (w := w)
      (fun _ _ _ _ _ => trivial) (Any.unionA_wp (v := m) (n := 0) (fun _ _ => trivial) (fun _ _ => trivial) fun k hk =>
        hok _ k hk) s).2.1 c hc).2.1
  · intro c hc
    let R' : Rules T := ⟨fun _ => True, fun _ => True, fun _ _ => True⟩
    exact ((wp_exec (R := R') (w := w) (fun _ _ _ _ _ => trivial)
      (Any.interA_sat (v := m) (fun _ => ⟨trivial, fun _ _ => trivial⟩) (fun _ _ => trivial) (fun _ _ => trivial) 0) s).2.1
        c hc).2

/-- C98: the bounds for `contains` and `is_empty` are reached, for every number of pieces. -/
theorem C98_attained (x t : T) (n : Nat) :
    (∃ s, (((Any.inner (.us (.piecewise ⟨⟨.included x⟩, ⟨List.replicate n ⟨.included x, .included x⟩⟩, ⟨.included x⟩⟩)) :
      Any T).containsA t).exec .script s).2.1.length = 2 * n + 2) ∧
    (∃ s, ((Any.inner (.bs ⟨List.replicate n ⟨.included x, .included x⟩⟩) : Any T).isEmptyA.exec .script s).2.1.length = n) := by
  constructor
  · refine ⟨(false, .eq) :: (false, .eq) :: (List.replicate n [(true, .eq), (false, .eq)]).flatten, ?_⟩
    have h : ∀ n, ((Asks.any (fun r => BoundedRange.containsA r t)
        (List.replicate n (⟨.included x, .included x⟩ : BoundedRange T))).exec World.script
        (List.replicate n [(true, .eq), (false, .eq)]).flatten).2.1.length = 2 * n := by
      intro n
      induction n with
      | zero => rfl
      | succ n ih => exact congrArg (· + 2) ih
    exact congrArg (· + 2) (h n)
  · refine ⟨List.replicate n (true, .eq), ?_⟩
    induction n with
    | zero => rfl
    | succ n ih => exact congrArg (· + 1) ih

-- the union of two ranges of `Int`, counted
example : ((Any.unionA .cmp (.range ⟨0, 5⟩) (.range ⟨3, 9⟩) : Asks Int (Any Int)).exec .ofInstances ()).2.1.length = 14 ∧
    (7 * (1 + 1) + 12) * (3 * (1 + 1) + 6) = 312 := by decide +kernel

/-! ### C99 Complements may grow exponentially -/

open Asks in
/-- C99, main statement.  The largest complements that any answers can lead to: `1 + 4 + … + 4^(n-2)` doubled for a
`BoundedSet` of `n` pieces, `2^n - 1` for a `LowerBoundedSet` or an `UpperBoundedSet`, `2^n` for an `UnboundedSet`. -/
theorem C99_complement_bound (w : World S T) (m : MaxVia) (st : S) :
    (∀ (s : BoundedSet T) c, ((s.complementA m).exec w st).1 = some (.ok c) →
      3 * (Any.inner (.us c)).pieces + 2 ≤ 2 * 4 ^ (s.ranges.length - 1)) ∧
    (∀ (s : LowerBoundedSet T) c, ((s.complementA m).exec w st).1 = some (.ok c) →
      c.ranges.ranges.length + 1 ≤ 2 ^ s.ranges.ranges.length) ∧
    (∀ (s : UpperBoundedSet T) c, ((s.complementA m).exec w st).1 = some (.ok c) →
      c.ranges.ranges.length + 1 ≤ 2 ^ s.ranges.ranges.length) ∧
    (∀ (s : UnboundedSet T) c, ((s.complementA m).exec w st).1 = some (.ok c) →
      c.ranges.length ≤ 2 ^ (Any.inner (.us s)).pieces) := by
  let R : Rules T := ⟨fun _ => True, fun _ => True, fun _ _ => True⟩
  have hok : ∀ n, R.Ok m n := fun _ => ⟨trivial, fun _ _ => trivial⟩
  have hw : ∀ s a b r, (w.cmp s a b).1 = some r → R.N r := fun _ _ _ _ _ => trivial
  have hB : ∀ s : BoundedSet T, s.EndsIn R.P := fun s => (Inner.endsIn_iff (i := .bs s)).mpr fun _ _ => trivial
  have hL : ∀ s : LowerBoundedSet T, s.EndsIn R.P := fun s => (Inner.endsIn_iff (i := .lbs s)).mpr fun _ _ => trivial
  have hU : ∀ s : UpperBoundedSet T, s.EndsIn R.P := fun s => (Inner.endsIn_iff (i := .ubs s)).mpr fun _ _ => trivial
  have hS : ∀ s : UnboundedSet T, s.EndsIn R.P := fun s => (Inner.endsIn_iff (i := .us s)).mpr fun _ _ => trivial
  refine ⟨fun s c h => ?_, fun s c h => ?_, fun s c h => ?_, fun s c h => ?_⟩
  · have := ((wp_exec hw (BoundedSet.complementA_sat hok (hB s) 0) st).2.1 c h).2
    rwa [show c.len = (Any.inner (.us c)).pieces from Inner.len_eq (i := .us c)] at this
  · exact ((wp_exec hw (LowerBoundedSet.complementA_sat hok (hL s) 0) st).2.1 c h).2
  · exact ((wp_exec hw (UpperBoundedSet.complementA_sat hok (hU s) 0) st).2.1 c h).2
  · have := ((wp_exec hw (UnboundedSet.complementA_sat hok (hS s) 0) st).2.1 c h).2
    rwa [show s.len = (Any.inner (.us s)).pieces from Inner.len_eq (i := .us s)] at this

open Asks in
/-- C99: each of these sizes is reached, from every set and whichever way `max` and `min` are computed, by suitable answers.
So the size of a complement is exponential in the worst case. -/
theorem C99_complement_attained (m : MaxVia) :
    (∀ s : BoundedSet T, ∃ st c, ((s.complementA m).exec .script st).1 = some (.ok c) ∧
      3 * (Any.inner (.us c)).pieces + 2 = 2 * 4 ^ (s.ranges.length - 1)) ∧
    (∀ s : LowerBoundedSet T, ∃ st c, ((s.complementA m).exec .script st).1 = some (.ok c) ∧
      c.ranges.ranges.length + 1 = 2 ^ s.ranges.ranges.length) ∧
    (∀ s : UpperBoundedSet T, ∃ st c, ((s.complementA m).exec .script st).1 = some (.ok c) ∧
      c.ranges.ranges.length + 1 = 2 ^ s.ranges.ranges.length) ∧
    (∀ p : PiecewiseUnboundedSet T, ∃ st c, (((UnboundedSet.piecewise p).complementA m).exec .script st).1 = some (.ok c) ∧
      c.ranges.length = 2 ^ p.ranges.ranges.length) := by
  refine ⟨fun s => ?_, fun s => ?_, fun s => ?_, fun p => ?_⟩
  · rcases s with ⟨_ | ⟨r, l⟩⟩
    · exact ⟨[], .full, rfl, rfl⟩
    · obtain ⟨st, c, ⟨k, ⟨p, rfl, hp⟩, hk⟩, h⟩ := can_script (BoundedSet.complementA_can (v := m) (s := ⟨r :: l⟩) (by simp))
      exact ⟨st, _, h, by rw [← hk, ← hp]; rfl⟩
  · obtain ⟨st, c, hc, h⟩ := can_script (LowerBoundedSet.complementA_can (v := m) s)
    exact ⟨st, c, h, hc⟩
  · obtain ⟨st, c, hc, h⟩ := can_script (UpperBoundedSet.complementA_can (v := m) s)
    exact ⟨st, c, h, hc⟩
  · obtain ⟨st, c, hc, h⟩ := can_script (UnboundedSet.complementA_can (v := m) p)
    exact ⟨st, c, h, hc⟩

-- two pieces: the order of `Int` leaves the one gap, other answers make two pieces
example : (((⟨[co 0 5, co 7 9]⟩ : BoundedSet Int).complementA .lt).exec .ofInstances ()).1 =
      some (.ok (.piecewise ⟨⟨.excluded 0⟩, ⟨[co 5 7]⟩, ⟨.included 9⟩⟩)) ∧
    ((((⟨[co 0 5, co 7 9]⟩ : BoundedSet Int).complementA .lt).exec .script
      ([true, true, true, false, false, false, false, true, true, true, false, false, false, false, true, true, false, true,
        true, true, true, true, false, false, true, true, true, true, true, false, true, true, true, true, true,
        true].map fun b => (b, .eq))).1.map fun r => r.bind fun c => .ok (Any.inner (.us c)).pieces) = some (.ok 2) := by
  decide +kernel

end Rangetools
