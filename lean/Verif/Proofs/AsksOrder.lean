import Verif.Proofs.Asks
import Verif.Spec.AsksOrder

/-!
# Programs that compare: the order of the questions
-/

namespace Rangetools
namespace Asks
variable {S T α β : Type}

theorem exec_bind (w : World S T) (x : Asks T α) (f : α → Asks T β) (s : S) :
    (x >>= f).exec w s =
      match x.exec w s with
      | (some (.ok a), l, s) => (((f a).exec w s).1, l ++ ((f a).exec w s).2.1, ((f a).exec w s).2.2)
      | (some (.panic m), l, s) => (some (.panic m), l, s)
      | (none, l, s) => (none, l, s) := by
  induction x generalizing s with
  | done a => rfl
  | panic m => rfl
  | test q a b k ih =>
    rcases h : w.test s q a b with ⟨_ | r, s'⟩
    · show (test q a b fun r => k r >>= f).exec w s = _
      simp only [exec, h]
    · show (test q a b fun r => k r >>= f).exec w s = _
      simp only [exec, h, ih r s']
      rcases (k r).exec w s' with ⟨_ | _ | _, l, s''⟩ <;> rfl
  | cmp a b k ih =>
    rcases h : w.cmp s a b with ⟨_ | r, s'⟩
    · show (cmp a b fun r => k r >>= f).exec w s = _
      simp only [exec, h]
    · show (cmp a b fun r => k r >>= f).exec w s = _
      simp only [exec, h, ih r s']
      rcases (k r).exec w s' with ⟨_ | _ | _, l, s''⟩ <;> rfl

/-- Reading a run of a program that starts with one comparison. -/
theorem exec_ask {w : World S T} (q a b) (k : Bool → Asks T α) (s : S) :
    (∃ s', (test q a b k).exec w s = (none, [(a, b)], s')) ∨
    (∃ r s', (w.test s q a b).1 = some r ∧ (test q a b k).exec w s =
      (((k r).exec w s').1, (a, b) :: ((k r).exec w s').2.1, ((k r).exec w s').2.2)) := by
  simp only [exec]
  rcases w.test s q a b with ⟨_ | r, s'⟩
  · exact .inl ⟨s', rfl⟩
  · exact .inr ⟨r, s', rfl, rfl⟩

/-- The questions of a part that answers `true` or `false`: `ps`, or a beginning of them if one panics. -/
def Probes (x : Asks T Bool) (ps : List (T × T)) : Prop :=
  ∀ (S : Type) (w : World S T) (s : S), ((x.exec w s).1 = none ∧ (x.exec w s).2.1 <+: ps) ∨
    (∃ b, (x.exec w s).1 = some (.ok b) ∧ (x.exec w s).2.1 = ps)

theorem probes_test (q : Test) (a b : T) : Probes (.test q a b .done) [(a, b)] := by
  intro S w s
  rcases exec_ask (w := w) q a b .done s with ⟨s', h⟩ | ⟨r, s', -, h⟩
  · exact .inl (by rw [h]; exact ⟨rfl, List.prefix_rfl⟩)
  · exact .inr ⟨r, by rw [h]; exact ⟨rfl, rfl⟩⟩

theorem probes_both (q q' : Test) (a b a' b' : T) :
    Probes (.test q a b fun r => .test q' a' b' fun r' => .done (r && r')) [(a, b), (a', b')] := by
  intro S w s
  rcases exec_ask (w := w) q a b (fun r => .test q' a' b' fun r' => .done (r && r')) s with ⟨s', h⟩ | ⟨r, s', -, h⟩
  · exact .inl (by rw [h]; exact ⟨rfl, ⟨[(a', b')], rfl⟩⟩)
  · rcases exec_ask (w := w) q' a' b' (fun r' => .done (r && r')) s' with ⟨s'', h'⟩ | ⟨r', s'', -, h'⟩
    · exact .inl (by rw [h, h']; exact ⟨rfl, List.prefix_rfl⟩)
    · exact .inr ⟨r && r', by rw [h, h']; exact ⟨rfl, rfl⟩⟩

/-- Parts asked one after the other until one answers `c`. -/
def hunt (c : Bool) : List (Asks T Bool) → Asks T Bool
  | [] => .done !c
  | x :: xs => x >>= fun b => if b = c then .done c else hunt c xs

theorem bind_done (x : Asks T α) : (x >>= fun a => .done a) = x := by
  induction x with
  | done a => rfl
  | panic m => rfl
  | test q a b k ih => exact congrArg (test q a b) (funext ih)
  | cmp a b k ih => exact congrArg (cmp a b) (funext ih)

theorem hunt_one (c : Bool) (x : Asks T Bool) : hunt c [x] = x := by
  conv => rhs; rw [← bind_done x]
  refine congrArg (x >>= ·) (funext fun b => ?_)
  cases b <;> cases c <;> rfl

theorem hunt_any (f : α → Asks T Bool) (l : List α) : hunt true (l.map f) = any f l := by
  induction l with
  | nil => rfl
  | cons x l ih => simp only [List.map_cons, hunt, any, ih]; rfl

theorem hunt_all (f : α → Asks T Bool) (l : List α) : hunt false (l.map f) = all f l := by
  induction l with
  | nil => rfl
  | cons x l ih =>
    simp only [List.map_cons, hunt, all, ih]
    refine congrArg (f x >>= ·) (funext fun b => ?_)
    cases b <;> rfl

/-- Whole parts in order, unless a comparison panics; if none answers `c`, all of them. -/
theorem hunt_exec {c : Bool} {f : α → Asks T Bool} {g : α → List (T × T)} (l : List α) (h : ∀ x ∈ l, Probes (f x) (g x))
    (w : World S T) (s : S) :
    ((hunt c (l.map f)).exec w s).2.1 <+: l.flatMap g ∧
    (((hunt c (l.map f)).exec w s).1 ≠ none →
      ∃ k, ((hunt c (l.map f)).exec w s).2.1 = (l.take k).flatMap g ∧
        (((hunt c (l.map f)).exec w s).1 = some (.ok !c) → l.length ≤ k)) := by
  induction l generalizing s with
  | nil => exact ⟨List.prefix_rfl, fun _ => ⟨0, rfl, fun _ => le_rfl⟩⟩
  | cons x l ih =>
    simp only [List.map_cons, hunt, List.flatMap_cons]
    rw [exec_bind]
    rcases hx : (f x).exec w s with ⟨o, lg, s'⟩
    rcases h x (by simp) S w s with ⟨h1, h2⟩ | ⟨b, h1, h2⟩ <;> rw [hx] at h1 h2 <;> simp only at h1 h2 <;> subst h1
    · refine ⟨h2.trans (List.prefix_append _ _), fun h3 => absurd rfl h3⟩
    · subst h2
      by_cases hb : b = c
      · simp only [hb, if_true]
        exact ⟨by simp [exec], fun _ => ⟨1, by simp [exec], fun h8 => by cases c <;> simp [exec] at h8⟩⟩
      · obtain ⟨h3, h4⟩ := ih (fun y hy => h y (by simp [hy])) s'
        simp only [hb, if_false]
        refine ⟨(List.prefix_append_right_inj _).mpr h3, fun h5 => ?_⟩
        obtain ⟨k, h6, h7⟩ := h4 h5
        exact ⟨k + 1, by rw [h6]; rfl, fun h8 => by have := h7 h8; simpa using this⟩

theorem hunt_truthful [LinearOrder T] {w : World S T} (hw : w.Truthful) (hr : w.Returns) {c : Bool} {f : α → Asks T Bool}
    {g : α → List (T × T)} {p : α → Bool} (l : List α) (h : ∀ x ∈ l, Probes (f x) (g x) ∧ (f x).run = .ok (p x)) (s : S) :
    ((hunt c (l.map f)).exec w s).2.1 = (upToFirst (fun x => p x == c) l).flatMap g := by
  induction l generalizing s with
  | nil => rfl
  | cons x l ih =>
    simp only [List.map_cons, hunt]
    rw [exec_bind]
    have he := (exec_truthful hw (f x) s).resolve_left (exec_returns hr (f x) s)
    rw [(h x (by simp)).2] at he
    have hp := (h x (by simp)).1 S w s
    rcases hx : (f x).exec w s with ⟨o, lg, s'⟩
    rw [hx] at he hp
    simp only at he
    subst he
    rcases hp with ⟨h1, -⟩ | ⟨b, -, h2⟩
    · cases h1
    · simp only at h2
      subst h2
      have hi := ih (fun y hy => h y (by simp [hy])) s'
      by_cases hpx : p x = c
      · simp [upToFirst, hpx, exec]
      · simp only [hpx, if_false, upToFirst, beq_iff_eq, List.flatMap_cons, hi]

end Asks

section
open Asks
variable {T : Type}

theorem BoundedRange.containsA_probes (r : BoundedRange T) (t : T) :
    Probes (r.containsA t) [(t, r.start.b.value), (t, r.stop.b.value)] := by
  rcases r with ⟨⟨a | a⟩, ⟨b | b⟩⟩ <;> exact probes_both _ _ _ _ _ _

theorem BoundedRange.isEmptyA_probes (r : BoundedRange T) :
    Probes r.isEmptyA [(r.start.b.value, r.stop.b.value)] := by
  rcases r with ⟨⟨a | a⟩, ⟨b | b⟩⟩ <;> exact probes_test _ _ _

theorem LowerBoundedRange.containsA_probes (r : LowerBoundedRange T) (t : T) :
    Probes (r.containsA t) [(t, r.start.b.value)] := by
  rcases r with ⟨⟨a | a⟩⟩ <;> exact probes_test _ _ _

theorem UpperBoundedRange.containsA_probes (r : UpperBoundedRange T) (t : T) :
    Probes (r.containsA t) [(t, r.stop.b.value)] := by
  rcases r with ⟨⟨a | a⟩⟩ <;> exact probes_test _ _ _

theorem Inner.pieces_probes (i : Inner T) (t : T) : ∀ x ∈ i.pieces, Probes (x.containsA t) (x.probes t) := by
  have hb : ∀ l : List (BoundedRange T), ∀ x ∈ l.map Inner.br, Probes (x.containsA t) (x.probes t) := by
    intro l x hx
    obtain ⟨r, -, rfl⟩ := List.mem_map.mp hx
    exact r.containsA_probes t
  rcases i with r | s | r | s | r | s | _ | (_ | p) | _
  · exact hb [r]
  · exact hb s.ranges
  · intro x hx
    cases List.mem_singleton.mp hx
    exact r.containsA_probes t
  · intro x hx
    rcases List.mem_cons.mp hx with rfl | hx
    · exact s.lowerBoundedRange.containsA_probes t
    · exact hb _ x hx
  · intro x hx
    cases List.mem_singleton.mp hx
    exact r.containsA_probes t
  · intro x hx
    rcases List.mem_cons.mp hx with rfl | hx
    · exact s.upperBoundedRange.containsA_probes t
    · exact hb _ x hx
  · simp [Inner.pieces]
  · simp [Inner.pieces]
  · intro x hx
    rcases List.mem_cons.mp hx with rfl | hx
    · exact p.upperBoundedRange.containsA_probes t
    · rcases List.mem_cons.mp hx with rfl | hx
      · exact p.lowerBoundedRange.containsA_probes t
      · exact hb _ x hx
  · simp [Inner.pieces]

theorem Inner.pieces_run [LinearOrder T] (i : Inner T) (t : T) : (i.containsA t).run = .ok (i.contains t) :=
  (Any.inner i).containsA_run t

/-- `contains` searches the pieces. -/
theorem Inner.containsA_hunt (i : Inner T) (t : T) :
    i.containsA t = .done true ∧ i.pieces = [] ∨ i.containsA t = hunt true (i.pieces.map fun x => x.containsA t) := by
  have hb : ∀ s : BoundedSet T, s.containsA t = hunt true ((s.ranges.map Inner.br).map fun x => x.containsA t) := by
    intro s
    rw [List.map_map]
    exact (hunt_any _ _).symm
  have hc : ∀ (x y : Asks T Bool), (do if ← x then return true else y : Asks T Bool) =
      (x >>= fun b => if b = true then .done true else y) := fun _ _ => rfl
  rcases i with r | s | r | s | r | s | _ | (_ | p) | _
  · exact .inr (hunt_one true _).symm
  · exact .inr (hb s)
  · exact .inr (hunt_one true _).symm
  · refine .inr ?_
    simp only [pieces, List.map_cons, hunt]
    rw [← hb]
    rfl
  · exact .inr (hunt_one true _).symm
  · refine .inr ?_
    simp only [pieces, List.map_cons, hunt]
    rw [← hb]
    rfl
  · exact .inl ⟨rfl, rfl⟩
  · exact .inl ⟨rfl, rfl⟩
  · refine .inr ?_
    simp only [pieces, List.map_cons, hunt]
    rw [← hb]
    rfl
  · exact .inr rfl

end
end Rangetools
