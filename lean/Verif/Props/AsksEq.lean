import Verif.Spec.AsksEq
import Verif.Model.Derive
import Verif.Proofs.AsksOrder
import Verif.Proofs.AsksLawful
import Verif.Spec.Samples

/-!
# C104: `==` when comparing elements has side effects
-/

namespace Rangetools
open Samples
variable {S T : Type}

/-! ### Reading side by side, as a program -/

/-- `World.eqAll` as a program. -/
def pairsA (same : Bool) : List (T × T) → Asks T Bool
  | [] => .done same
  | p :: ps => .test .eq p.1 p.2 fun r => if r then pairsA same ps else .done false

theorem pairsA_exec (w : World S T) (same : Bool) (ps : List (T × T)) (s : S) :
    (pairsA same ps).exec w s = w.eqAll same ps s := by
  induction ps generalizing s with
  | nil => rfl
  | cons p ps ih =>
    simp only [pairsA, Asks.exec, World.eqAll]
    rcases w.test s .eq p.1 p.2 with ⟨_ | _ | _, s'⟩
    · rfl
    · rfl
    · simp only [if_true, ih]

/-- The program that reads two lists side by side. -/
def readA (xs ys : List (Mark T)) : Asks T Bool := pairsA (sideBySide xs ys).2 (sideBySide xs ys).1

/-- `x` reads these beginnings of two lists. -/
def Reads (x : Asks T Bool) (xs ys : List (Mark T)) : Prop :=
  ∀ xs' ys', readA (xs ++ xs') (ys ++ ys') = (x >>= fun r => if r then readA xs' ys' else .done false)

theorem Reads.and {x y : Asks T Bool} {xs ys us vs : List (Mark T)} (hx : Reads x xs ys) (hy : Reads y us vs) :
    Reads (x >>= fun r => if r then y else .done false) (xs ++ us) (ys ++ vs) := by
  intro xs' ys'
  rw [List.append_assoc, List.append_assoc, hx, Asks.bind_bind]
  congr 1
  funext r
  cases r
  · rfl
  · exact hy xs' ys'

theorem Reads.all {x : Asks T Bool} {xs ys : List (Mark T)} (h : Reads x xs ys) : readA xs ys = x := by
  have := h [] []
  rw [List.append_nil, List.append_nil] at this
  rw [this]
  conv => rhs; rw [← Asks.bind_done x]
  congr 1
  funext r
  cases r <;> rfl

theorem reads_bound (a b : Bound T) : Reads (a.eqA b) [a.mark] [b.mark] := by
  intro xs' ys'
  cases a <;> cases b <;> rfl

theorem reads_variant {x : Asks T Bool} {xs ys : List (Mark T)} (n : Nat) (h : Reads x xs ys) :
    Reads x (.variant n :: xs) (.variant n :: ys) := by
  intro xs' ys'
  rw [← h xs' ys']
  simp [readA, sideBySide]

theorem reads_set (a b : BoundedSet T) : Reads (a.eqA b) a.marks b.marks := by
  obtain ⟨a⟩ := a
  obtain ⟨b⟩ := b
  simp only [BoundedSet.eqA, BoundedSet.marks, dequeEqA]
  by_cases hl : a.length = b.length
  · rw [if_pos (by simpa using hl)]
    have key : Reads (Asks.all (fun p => p.1.eqA p.2) (a.zip b)) (a.flatMap fun r => [r.start.b.mark, r.stop.b.mark])
        (b.flatMap fun r => [r.start.b.mark, r.stop.b.mark]) := by
      induction a generalizing b with
      | nil =>
        obtain rfl : b = [] := List.length_eq_zero_iff.1 hl.symm
        exact fun xs' ys' => rfl
      | cons r rs ih =>
        cases b with
        | nil => cases hl
        | cons q qs =>
          have h := ((reads_bound r.start.b q.start.b).and (reads_bound r.stop.b q.stop.b)).and
            (ih qs (by simpa using hl))
          exact h
    intro xs' ys'
    rw [← key xs' ys', hl]
    simp [readA, sideBySide]
  · rw [if_neg (by simpa using hl)]
    intro xs' ys'
    simp [readA, sideBySide, hl]
    rfl

theorem Inner.eqA_read (a b : Inner T) : a.eqA b = readA a.marks b.marks := by
  have hr : ∀ r q : BoundedRange T, Reads (r.eqA q) [r.start.b.mark, r.stop.b.mark] [q.start.b.mark, q.stop.b.mark] :=
    fun r q => (reads_bound r.start.b q.start.b).and (reads_bound r.stop.b q.stop.b)
  have hl : ∀ r q : LowerBoundedRange T, Reads (r.eqA q) [r.start.b.mark] [q.start.b.mark] :=
    fun r q => reads_bound r.start.b q.start.b
  have hu : ∀ r q : UpperBoundedRange T, Reads (r.eqA q) [r.stop.b.mark] [q.stop.b.mark] :=
    fun r q => reads_bound r.stop.b q.stop.b
  have hp : ∀ r q : PiecewiseUnboundedSet T, r.eqA q = readA (Inner.marks (.us (.piecewise r))) (Inner.marks (.us (.piecewise q))) := by
    intro r q
    refine (Reads.all (reads_variant 8 ?_)).symm
    exact (hu r.upperBoundedRange q.upperBoundedRange).and ((reads_set r.ranges q.ranges).and (hl r.lowerBoundedRange q.lowerBoundedRange))
  rcases a with a | a | a | a | a | a | _ | (_ | a) | _ <;> rcases b with b | b | b | b | b | b | _ | (_ | b) | _ <;>
    first
      | rfl
      | exact (Reads.all (reads_variant _ (hr a b))).symm
      | exact (Reads.all (reads_variant _ (hl a b))).symm
      | exact (Reads.all (reads_variant _ (hu a b))).symm
      | exact (Reads.all (reads_variant _ (reads_set a b))).symm
      | exact (Reads.all (reads_variant _ ((reads_set _ _).and (hl _ _)))).symm
      | exact (Reads.all (reads_variant _ ((hu _ _).and (reads_set _ _)))).symm
      | exact hp a b

/-- C104. Whatever the `==` of the elements does: the derived `==` compares, in the order in which the two values are written,
the elements at the same places with each other, until one comparison says no or panics, or the forms differ: types, variants,
numbers of ranges, or an included end beside an excluded one.  It leaves the state that these comparisons leave. -/
theorem C104_order (w : World S T) (s : S) (a b : Inner T) :
    (a.eqA b).exec w s = w.eqAll (sideBySide a.marks b.marks).2 (sideBySide a.marks b.marks).1 s := by
  rw [a.eqA_read, readA, pairsA_exec]

-- Two unions whose second ranges begin differently: the first range and that start are compared, the rest is not; and a set
-- with an included end beside one with an excluded end.
example :
    ((Inner.bs ⟨[co 0 3, co 5 9]⟩).eqA (.bs ⟨[co 0 3, co 6 9]⟩)).exec (World.ofEq (· == ·)) () =
      (some (.ok false), [(0, 0), (3, 3), (5, 6)], ()) ∧
    ((Inner.bs ⟨[co 0 3, co 5 9]⟩).eqA (.bs ⟨[co 0 3, cc 5 9]⟩)).exec (World.ofEq (· == ·)) () =
      (some (.ok false), [(0, 0), (3, 3), (5, 5)], ()) := by decide

-- The half-line of a `LowerBoundedSet` is compared last, that of an `UpperBoundedSet` first.
example :
    (lbs.eqA lbs).exec (World.ofEq (· == ·)) () = (some (.ok true), [(-5, -5), (-3, -3), (0, 0)], ()) ∧
    (ubs.eqA ubs).exec (World.ofEq (· == ·)) () = (some (.ok true), [(-7, -7), (2, 2), (4, 4)], ()) ∧
    (us.eqA us).exec (World.ofEq (· == ·)) () = (some (.ok true), [(-20, -20), (2, 2), (4, 4), (30, 30)], ()) := by decide

/-! ### What follows -/

theorem World.eqAll_log (w : World S T) (same : Bool) (ps : List (T × T)) (s : S) : (w.eqAll same ps s).2.1 <+: ps := by
  induction ps generalizing s with
  | nil => exact List.prefix_refl _
  | cons p ps ih =>
    simp only [World.eqAll]
    rcases w.test s .eq p.1 p.2 with ⟨_ | _ | _, s'⟩
    · exact ⟨ps, rfl⟩
    · exact ⟨ps, rfl⟩
    · simpa using ih s'

theorem World.eqAll_true (w : World S T) (same : Bool) (ps : List (T × T)) (s : S)
    (h : (w.eqAll same ps s).1 = some (.ok true)) : same = true ∧ (w.eqAll same ps s).2.1 = ps := by
  induction ps generalizing s with
  | nil => exact ⟨by simpa [World.eqAll] using h, rfl⟩
  | cons p ps ih =>
    simp only [World.eqAll] at h ⊢
    rcases hw : w.test s .eq p.1 p.2 with ⟨_ | _ | _, s'⟩ <;> simp only [hw] at h ⊢
    · cases h
    · simp at h
    · obtain ⟨h1, h2⟩ := ih s' h
      exact ⟨h1, by rw [h2]⟩

theorem World.eqAll_yes (w : World S T) (same : Bool) (ps : List (T × T)) (s : S)
    (h : ∀ p ∈ ps, ∀ s, (w.test s .eq p.1 p.2).1 = some true) :
    (w.eqAll same ps s).1 = some (.ok same) ∧ (w.eqAll same ps s).2.1 = ps := by
  induction ps generalizing s with
  | nil => exact ⟨rfl, rfl⟩
  | cons p ps ih =>
    have hp := h p (by simp) s
    simp only [World.eqAll]
    rcases hw : w.test s .eq p.1 p.2 with ⟨_ | _ | _, s'⟩ <;> rw [hw] at hp
    · cases hp
    · cases hp
    · obtain ⟨h1, h2⟩ := ih s' fun q hq => h q (by simp [hq])
      exact ⟨h1, congrArg (p :: ·) h2⟩

theorem sideBySide_fst (xs ys : List (Mark T)) :
    (sideBySide xs ys).1.map Prod.fst <+: markedEnds xs ∧ (sideBySide xs ys).1.map Prod.snd <+: markedEnds ys := by
  fun_induction sideBySide xs ys <;> simp_all [markedEnds]

theorem sideBySide_snd (xs ys : List (Mark T)) :
    (sideBySide xs ys).2 = true ↔ xs.map Mark.form = ys.map Mark.form := by
  induction xs generalizing ys with
  | nil => cases ys <;> simp [sideBySide]
  | cons x xs ih =>
    cases ys with
    | nil => cases x <;> simp [sideBySide]
    | cons y ys =>
      cases x <;> cases y <;> simp only [sideBySide, List.map_cons, Mark.form, List.cons.injEq, reduceCtorEq, false_and,
        Bool.false_eq_true, Mark.variant.injEq, Mark.len.injEq, Mark.ends.injEq, and_true] <;> split <;> simp_all

theorem sideBySide_all (xs ys : List (Mark T)) (h : (sideBySide xs ys).2 = true) :
    (sideBySide xs ys).1 = (markedEnds xs).zip (markedEnds ys) := by
  fun_induction sideBySide xs ys <;> simp_all [markedEnds]

/-- C104. The left sides of the comparisons are elements of the first value, in order and without leaving one out; the right
sides are elements of the second. -/
theorem C104_compared (w : World S T) (s : S) (a b : Inner T) :
    ((a.eqA b).exec w s).2.1.map Prod.fst <+: a.ends ∧ ((a.eqA b).exec w s).2.1.map Prod.snd <+: b.ends := by
  rw [C104_order]
  have h := w.eqAll_log (sideBySide a.marks b.marks).2 (sideBySide a.marks b.marks).1 s
  obtain ⟨h1, h2⟩ := sideBySide_fst a.marks b.marks
  exact ⟨(h.map _).trans h1, (h.map _).trans h2⟩

example : us.ends = [-20, 2, 4, 30] := by decide

/-- C104. If the answer is `true`, the values have the same form, and every element of one has been compared with the element at
the same place in the other. -/
theorem C104_true (w : World S T) (s : S) (a b : Inner T) (h : ((a.eqA b).exec w s).1 = some (.ok true)) :
    a.marks.map Mark.form = b.marks.map Mark.form ∧ ((a.eqA b).exec w s).2.1 = a.ends.zip b.ends ∧
    a.ends.length = b.ends.length := by
  rw [C104_order] at h ⊢
  obtain ⟨h1, h2⟩ := w.eqAll_true _ _ s h
  have h3 := (sideBySide_snd _ _).1 h1
  refine ⟨h3, by rw [h2, sideBySide_all _ _ h1]; rfl, ?_⟩
  have : ∀ xs : List (Mark T), (markedEnds xs).length = (markedEnds (xs.map Mark.form)).length := by
    intro xs
    induction xs with
    | nil => rfl
    | cons x xs ih => cases x <;> simp_all [markedEnds, Mark.form]
  rw [Inner.ends, Inner.ends, this, this, h3]

/-- C104. If every element of a value compares equal to itself, whatever happened before, the value is equal to itself, and each
element is compared with itself once, in order. -/
theorem C104_refl (w : World S T) (s : S) (a : Inner T) (h : ∀ t ∈ a.ends, ∀ s, (w.test s .eq t t).1 = some true) :
    ((a.eqA a).exec w s).1 = some (.ok true) ∧ ((a.eqA a).exec w s).2.1 = a.ends.map fun t => (t, t) := by
  have h1 : (sideBySide a.marks a.marks).2 = true := (sideBySide_snd _ _).2 rfl
  have h2 : (sideBySide a.marks a.marks).1 = a.ends.map fun t => (t, t) := by
    rw [sideBySide_all _ _ h1]
    show a.ends.zip a.ends = _
    generalize a.ends = l
    induction l <;> simp_all
  rw [C104_order, h1, h2]
  refine w.eqAll_yes _ _ s ?_
  intro p hp s
  obtain ⟨t, ht, rfl⟩ := List.mem_map.1 hp
  exact h t ht s

-- A world that counts its comparisons.
example : ∃ w : World Nat Int, (∀ t ∈ us.ends, ∀ s, (w.test s .eq t t).1 = some true) ∧
    ((us.eqA us).exec w 7).2.2 = 11 :=
  ⟨⟨fun s _ a b => (some (a == b), s + 1), fun s _ _ => (some none, s)⟩, by simp, by decide⟩

/-- C104. Two sets with different numbers of bounded ranges are told apart without comparing any of these: not a single
comparison is made of two `BoundedSet`s or two `LowerBoundedSet`s, and no more than one, of the half-lines, of two
`UpperBoundedSet`s or piecewise `UnboundedSet`s. -/
theorem C104_lengths (w : World S T) (s : S) (a b : BoundedSet T) (h : a.ranges.length ≠ b.ranges.length) :
    ((Inner.bs a).eqA (.bs b)).exec w s = (some (.ok false), [], s) ∧
    (∀ l m, ((Inner.lbs ⟨a, l⟩).eqA (.lbs ⟨b, m⟩)).exec w s = (some (.ok false), [], s)) ∧
    (∀ l m, (((Inner.ubs ⟨l, a⟩).eqA (.ubs ⟨m, b⟩)).exec w s).2.1.length ≤ 1 ∧
      (((Inner.ubs ⟨l, a⟩).eqA (.ubs ⟨m, b⟩)).exec w s).1 ≠ some (.ok true)) ∧
    (∀ l m l' m', (((Inner.us (.piecewise ⟨l, a, l'⟩)).eqA (.us (.piecewise ⟨m, b, m'⟩))).exec w s).2.1.length ≤ 1 ∧
      (((Inner.us (.piecewise ⟨l, a, l'⟩)).eqA (.us (.piecewise ⟨m, b, m'⟩))).exec w s).1 ≠ some (.ok true)) := by
  have hend : ∀ (l m : Bound T) xs ys, (sideBySide (l.mark :: (a.marks ++ xs)) (m.mark :: (b.marks ++ ys))).1.length ≤ 1 ∧
      (sideBySide (l.mark :: (a.marks ++ xs)) (m.mark :: (b.marks ++ ys))).2 = false := by
    intro l m xs ys
    cases l <;> cases m <;> simp [BoundedSet.marks, Bound.mark, sideBySide, h]
  have hone : ∀ x y : Inner T, (sideBySide x.marks y.marks).1.length ≤ 1 ∧ (sideBySide x.marks y.marks).2 = false →
      ((x.eqA y).exec w s).2.1.length ≤ 1 ∧ ((x.eqA y).exec w s).1 ≠ some (.ok true) := by
    intro x y ⟨h1, h2⟩
    rw [C104_order]
    refine ⟨(w.eqAll_log _ _ s).length_le.trans h1, fun h3 => ?_⟩
    rw [(w.eqAll_true _ _ s h3).1] at h2
    cases h2
  refine ⟨?_, fun l m => ?_, fun l m => hone _ _ ?_, fun l m l' m' => hone _ _ ?_⟩
  · rw [C104_order]
    simp [Inner.marks, BoundedSet.marks, sideBySide, h, World.eqAll]
  · rw [C104_order]
    simp [Inner.marks, BoundedSet.marks, sideBySide, h, World.eqAll]
  · have := hend l.stop.b m.stop.b [] []
    simpa [Inner.marks, sideBySide] using this
  · have := hend l.stop.b m.stop.b [l'.start.b.mark] [m'.start.b.mark]
    simpa [Inner.marks, sideBySide] using this

example : [co 0 3].length ≠ [co 0 3, co 5 9].length := by decide

/-! ### Without side effects -/

/-- The answer without side effects. -/
def Says (eq : T → T → Bool) (x : Asks T Bool) (v : Bool) : Prop := (x.exec (World.ofEq eq) ()).1 = some (.ok v)

theorem Says.and {eq : T → T → Bool} {x y : Asks T Bool} {u v : Bool} (hx : Says eq x u) (hy : Says eq y v) :
    Says eq (x >>= fun r => if r then y else .done false) (u && v) := by
  unfold Says at *
  rw [Asks.exec_bind]
  rcases h : x.exec (World.ofEq eq) () with ⟨o, l, _⟩
  rw [h] at hx
  simp only at hx
  subst hx
  cases u
  · rfl
  · exact hy

theorem says_bound (eq : T → T → Bool) (a b : Bound T) : Says eq (a.eqA b) (a.eqWith eq b) := by
  cases a <;> cases b <;> rfl

theorem says_set (eq : T → T → Bool) (a b : BoundedSet T) : Says eq (a.eqA b) (a.eqWith eq b) := by
  obtain ⟨a⟩ := a
  obtain ⟨b⟩ := b
  simp only [BoundedSet.eqA, BoundedSet.eqWith, dequeEqA, dequeEqWith]
  by_cases hl : a.length = b.length
  · rw [if_pos (by simpa using hl), beq_iff_eq.2 hl, Bool.true_and]
    clear hl
    induction a.zip b with
    | nil => rfl
    | cons p l ih =>
      exact ((says_bound eq p.1.start.b p.2.start.b).and (says_bound eq p.1.stop.b p.2.stop.b)).and ih
  · rw [if_neg (by simpa using hl), beq_eq_false_iff_ne.2 hl]
    rfl

/-- C104. If the `==` of the elements is a function without side effects, the answer is that of the derived `==` with this
function: there is always an answer, and what C59 says of it holds. -/
theorem C104_pure (eq : T → T → Bool) (a b : Inner T) : ((a.eqA b).exec (World.ofEq eq) ()).1 = some (.ok (a.eqWith eq b)) := by
  have hr : ∀ r q : BoundedRange T, Says eq (r.eqA q) (r.eqWith eq q) := fun r q => (says_bound eq _ _).and (says_bound eq _ _)
  have hl : ∀ r q : LowerBoundedRange T, Says eq (r.eqA q) (r.eqWith eq q) := fun r q => says_bound eq _ _
  have hu : ∀ r q : UpperBoundedRange T, Says eq (r.eqA q) (r.eqWith eq q) := fun r q => says_bound eq _ _
  have hs := says_set eq
  rcases a with a | a | a | a | a | a | _ | (_ | a) | _ <;> rcases b with b | b | b | b | b | b | _ | (_ | b) | _ <;>
    first
      | rfl
      | exact hr a b
      | exact hl a b
      | exact hu a b
      | exact hs a b
      | exact (hs _ _).and (hl _ _)
      | exact (hu _ _).and (hs _ _)
      | (show Says eq _ ((_ && _) && _)
         rw [Bool.and_assoc]
         exact (hu _ _).and ((hs _ _).and (hl _ _)))

example : lbs.eqWith (fun a b => a.natAbs == b.natAbs) (.lbs ⟨⟨[co 5 3]⟩, ci 0⟩) = true := by decide

end Rangetools
