import Verif.Proofs.AsksLawful
import Verif.Proofs.AsksOrder
import Verif.Spec.Samples
import Verif.Props.Asks

/-!
# C100 – C103: how many comparisons, which, and in what order
-/

namespace Rangetools
open Samples Asks
variable {S T : Type}

/-! ### C100 Intersections -/

/-- C100, main statement.  Whatever the comparisons answer, and also if one of them panics: an intersection of values of `n`
and `m` bounded pieces makes at most `(7nm + 28n + 28m + 26)(7nm + 29n + 29m + 26)` comparisons, and so do `disjoint` and
`intersects`, which go on to ask whether the result is empty. -/
theorem C100_intersection_comparisons (w : World S T) (m : MaxVia) (s : S) (a b : Any T) :
    let B := (7 * (a.pieces * b.pieces) + 28 * a.pieces + 28 * b.pieces + 26) *
      (7 * (a.pieces * b.pieces) + 29 * a.pieces + 29 * b.pieces + 26)
    ((a.interA m b).exec w s).2.1.length ≤ B ∧
    ((a.disjointA m b).exec w s).2.1.length ≤ B ∧
    ((a.intersectsA m b).exec w s).2.1.length ≤ B := by
  have h1 := Any.interA_costs (v := m) (A := 7 * (a.pieces * b.pieces) + 28 * a.pieces + 28 * b.pieces + 26) a b (by omega)
  have h2 : (a.disjointA m b).Costs (7 * (a.pieces * b.pieces) + 28 * a.pieces + 28 * b.pieces + 26) (fun _ _ => True)
      (7 * (a.pieces * b.pieces) + 29 * a.pieces + 29 * b.pieces + 26) := by
    refine costs_seq h1 fun c e hc => ?_
    exact costs_mono (costs_use (c.isEmptyA_costs (by omega)) 0 hc.2) fun _ _ _ => trivial
  have h3 : (a.intersectsA m b).Costs (7 * (a.pieces * b.pieces) + 28 * a.pieces + 28 * b.pieces + 26) (fun _ _ => True)
      (7 * (a.pieces * b.pieces) + 29 * a.pieces + 29 * b.pieces + 26) :=
    costs_seq h2 fun _ _ _ => costs_done trivial
  exact ⟨within_exec (h1 _ le_rfl) w s, within_exec (h2 _ le_rfl) w s, within_exec (h3 _ le_rfl) w s⟩

-- two sets of two ranges each
example : ((Any.interA .lt (.inner (.bs ⟨[co 0 5, co 7 9]⟩)) (.inner (.bs ⟨[co 3 8, co 8 12]⟩)) : Asks Int (Inner Int)).exec
      .ofInstances ()).2.1.length = 27 ∧
    (7 * (2 * 2) + 28 * 2 + 28 * 2 + 26) * (7 * (2 * 2) + 29 * 2 + 29 * 2 + 26) = 28220 := by decide +kernel

/-! ### C101 Complements under a linear order -/

/-- C101, main statement.  When the answers are those of a linear order – whatever else the comparisons do, and also if one of
them panics – the complement of a value of `n` bounded pieces makes at most `n((28n + 26)(29n + 26) + 12) + 1` comparisons.
(C99: other answers can make the result exponentially large.) -/
theorem C101_complement_comparisons [LinearOrder T] (w : World S T) (hw : w.Truthful) (m : MaxVia) (s : S) (a : Any T) :
    ((a.complementA m).exec w s).2.1.length ≤
      a.pieces * ((28 * a.pieces + 26) * (29 * a.pieces + 26) + 12) + 1 :=
  (exec_cost hw _ s).trans a.complementA_cost

/-- C101: without the assumption the number of comparisons is exponential.  From every set, and whichever way `max` and `min` are
computed, some answers lead to that many. -/
theorem C101_only_lawful (m : MaxVia) :
    (∀ s : BoundedSet T, ∃ st, 2 * 4 ^ (s.ranges.length - 2) ≤ 3 * ((s.complementA m).exec .script st).2.1.length + 2) ∧
    (∀ s : LowerBoundedSet T, ∃ st, 2 ^ (s.ranges.ranges.length - 1) ≤ ((s.complementA m).exec .script st).2.1.length + 1) ∧
    (∀ s : UpperBoundedSet T, ∃ st, 2 ^ (s.ranges.ranges.length - 1) ≤ ((s.complementA m).exec .script st).2.1.length + 1) ∧
    (∀ p : PiecewiseUnboundedSet T, p.ranges.ranges ≠ [] → ∃ st,
      2 ^ (p.ranges.ranges.length - 1) ≤ (((UnboundedSet.piecewise p).complementA m).exec .script st).2.1.length) := by
  refine ⟨fun s => ?_, fun s => ?_, fun s => ?_, fun p hp => ?_⟩
  · have h : ∀ n, ∃ k, 3 * k + 2 = 2 * 4 ^ n := by
      intro n
      induction n with
      | zero => exact ⟨0, rfl⟩
      | succ n ih =>
        obtain ⟨k, hk⟩ := ih
        exact ⟨4 * k + 2, by rw [Nat.pow_succ]; omega⟩
    obtain ⟨k, hk⟩ := h (s.ranges.length - 2)
    obtain ⟨st, h1⟩ := long_script (s.complementA_long (v := m) hk)
    exact ⟨st, by omega⟩
  · obtain ⟨st, h1⟩ := long_script (s.complementA_long (v := m))
    exact ⟨st, by omega⟩
  · obtain ⟨st, h1⟩ := long_script (s.complementA_long (v := m))
    exact ⟨st, by omega⟩
  · exact long_script (UnboundedSet.complementA_long (v := m) p hp)

-- one, two and three ranges of `Int`: 1, 18 and 78 comparisons
example : (World.ofInstances : World Unit Int).Truthful ∧
    ([[co 0 5], [co 0 5, co 7 9], [co 0 5, co 7 9, co 11 12]].map fun l =>
      ((Any.complementA .lt (.inner (.bs ⟨l⟩)) : Asks Int (Inner Int)).exec .ofInstances ()).2.1.length) = [1, 18, 78] := by
  refine ⟨⟨fun s q a b => .inr ?_, fun s a b => .inr rfl⟩, ?_⟩
  · cases q <;> rfl
  · decide +kernel

/-! ### C102 The order of the questions -/

/-- C102, main statement.  Whatever the comparisons answer: `contains` compares the element with the ends of one piece after the
other – first with the half-line towards smaller elements, then with the other half-line, then with the bounded ranges in order
– and stops only after a whole piece, or when a comparison panics.  If the answer is `false` it has compared with all of them.
`is_empty` compares the two ends of one range after the other, and an answer `true` comes after all of them. -/
theorem C102_search_order (w : World S T) (s : S) (i : Inner T) (t : T) :
    ((i.containsA t).exec w s).2.1 <+: i.pieces.flatMap (Inner.probes t) ∧
    (((i.containsA t).exec w s).1 ≠ none → ∃ k,
      ((i.containsA t).exec w s).2.1 = (i.pieces.take k).flatMap (Inner.probes t) ∧
      (((i.containsA t).exec w s).1 = some (.ok false) → i.pieces.length ≤ k)) ∧
    (i.isEmptyA.exec w s).2.1 <+: i.widths ∧
    ((i.isEmptyA.exec w s).1 = some (.ok true) → (i.isEmptyA.exec w s).2.1 = i.widths) := by
  have hc : ((i.containsA t).exec w s).2.1 <+: i.pieces.flatMap (Inner.probes t) ∧
      (((i.containsA t).exec w s).1 ≠ none → ∃ k,
        ((i.containsA t).exec w s).2.1 = (i.pieces.take k).flatMap (Inner.probes t) ∧
        (((i.containsA t).exec w s).1 = some (.ok false) → i.pieces.length ≤ k)) := by
    rcases i.containsA_hunt t with ⟨h1, h2⟩ | h
    · rw [h1, h2]
      exact ⟨List.prefix_rfl, fun _ => ⟨0, rfl, fun _ => le_rfl⟩⟩
    · rw [h]
      exact hunt_exec (c := true) i.pieces (i.pieces_probes t) w s
  refine ⟨hc.1, hc.2, ?_⟩
  have nil : ∀ b : Bool, ((Asks.done b : Asks T Bool).exec w s).2.1 <+: [] ∧
      (((Asks.done b : Asks T Bool).exec w s).1 = some (.ok true) → ((Asks.done b : Asks T Bool).exec w s).2.1 = []) :=
    fun _ => ⟨List.prefix_rfl, fun _ => rfl⟩
  rcases i with r | b | _ | _ | _ | _ | _ | _ | _
  · rcases r.isEmptyA_probes S w s with ⟨h1, h2⟩ | ⟨b, h1, h2⟩
    · exact ⟨h2, fun h => by rw [show (Inner.br r).isEmptyA = r.isEmptyA from rfl, h1] at h; cases h⟩
    · exact ⟨h2 ▸ List.prefix_rfl, fun _ => h2⟩
  · have h := hunt_exec (c := false) (g := fun r : BoundedRange T => [(r.start.b.value, r.stop.b.value)]) b.ranges
      (fun r _ => r.isEmptyA_probes) w s
    rw [hunt_all] at h
    have e : ∀ l : List (BoundedRange T), l.flatMap (fun r => [(r.start.b.value, r.stop.b.value)]) =
        l.map fun r => (r.start.b.value, r.stop.b.value) := by
      intro l
      induction l with
      | nil => rfl
      | cons x l ih => simp [ih]
    simp only [e] at h
    refine ⟨h.1, fun ht => ?_⟩
    obtain ⟨k, h1, h2⟩ := h.2 (by
      rw [show Asks.all (fun r => r.isEmptyA) b.ranges = (Inner.bs b).isEmptyA from rfl, ht]; simp)
    rw [List.take_of_length_le (h2 ht)] at h1
    exact h1
  all_goals exact nil _

/-- C102, when the answers are those of a linear order and no comparison panics: the search stops with the first piece that
contains the element, and `is_empty` with the first range that is not empty. -/
theorem C102_search_stops [LinearOrder T] (w : World S T) (hw : w.Truthful) (hr : w.Returns) (s : S) (i : Inner T) (t : T) :
    ((i.containsA t).exec w s).2.1 = (upToFirst (fun x => x.contains t) i.pieces).flatMap (Inner.probes t) ∧
    (∀ b : BoundedSet T, (b.isEmptyA.exec w s).2.1 =
      (upToFirst (fun r => !r.isEmpty) b.ranges).map fun r => (r.start.b.value, r.stop.b.value)) := by
  constructor
  · rcases i.containsA_hunt t with ⟨h1, h2⟩ | h
    · rw [h1, h2]
      rfl
    · rw [h, hunt_truthful hw hr (p := fun x => x.contains t) (g := Inner.probes t) i.pieces
        (fun x hx => ⟨i.pieces_probes t x hx, x.pieces_run t⟩)]
      simp
  · intro b
    have h := hunt_truthful hw hr (c := false) (p := fun x => x.isEmpty)
      (g := fun r : BoundedRange T => [(r.start.b.value, r.stop.b.value)]) b.ranges
      (fun r _ => ⟨r.isEmptyA_probes, r.isEmptyA_run⟩) s
    rw [hunt_all] at h
    refine h.trans ?_
    have e : (fun r : BoundedRange T => r.isEmpty == false) = fun r => !r.isEmpty := by
      funext r
      cases r.isEmpty <;> rfl
    rw [e]
    generalize upToFirst (fun r : BoundedRange T => !r.isEmpty) b.ranges = l
    induction l with
    | nil => rfl
    | cons x l ih => simp [ih]

-- 8 is in the second range of the set: one comparison for the half-line, two for each of the two ranges
example : ((Any.containsA (.inner (.lbs ⟨⟨[co 0 5, co 7 9, co 11 12]⟩, ⟨.included 20⟩⟩)) 8 : Asks Int Bool).exec
      .ofInstances ()).2.1 = [(8, 20), (8, 0), (8, 5), (8, 7), (8, 9)] ∧
    upToFirst (fun x => x.contains 8) (Inner.lbs ⟨⟨[co 0 5, co 7 9, co 11 12]⟩, ⟨.included 20⟩⟩).pieces =
      [.lbr ⟨.included 20⟩, .br (co 0 5), .br (co 7 9)] := by decide +kernel

/-! ### C103 `disjoint` and `intersects` -/

/-- C103, main statement.  Whatever the comparisons do: `disjoint` makes the comparisons of `intersection` and then those of
`is_empty` on the result, and leaves the state they leave; a panic of either is its panic.  `intersects` does the same and
answers the opposite. -/
theorem C103_disjoint_intersects (w : World S T) (m : MaxVia) (s : S) (a b : Any T) :
    (∀ c l s', (a.interA m b).exec w s = (some (.ok c), l, s') →
      (a.disjointA m b).exec w s =
        ((c.isEmptyA.exec w s').1, l ++ (c.isEmptyA.exec w s').2.1, (c.isEmptyA.exec w s').2.2)) ∧
    (∀ e l s', (a.interA m b).exec w s = (some (.panic e), l, s') → (a.disjointA m b).exec w s = (some (.panic e), l, s')) ∧
    (∀ l s', (a.interA m b).exec w s = (none, l, s') → (a.disjointA m b).exec w s = (none, l, s')) ∧
    (a.intersectsA m b).exec w s =
      (((a.disjointA m b).exec w s).1.map fun r => r.bind fun x => .ok !x, ((a.disjointA m b).exec w s).2) := by
  refine ⟨fun c l s' h => ?_, fun e l s' h => ?_, fun l s' h => ?_, ?_⟩
  · simp only [Any.disjointA]
    rw [exec_bind, h]
  · simp only [Any.disjointA]
    rw [exec_bind, h]
  · simp only [Any.disjointA]
    rw [exec_bind, h]
  · simp only [Any.intersectsA]
    rw [exec_bind]
    rcases (a.disjointA m b).exec w s with ⟨_ | x | e, l, s'⟩
    · rfl
    · show (_, l ++ [], s') = _
      rw [List.append_nil]
      rfl
    · rfl

example : (Any.intersectsA .lt (.range ⟨0, 5⟩) (.range ⟨3, 9⟩) : Asks Int Bool).exec .ofInstances () =
    (some (.ok true), [(3, 0), (9, 5), (3, 5)], ()) := by decide +kernel

end Rangetools
