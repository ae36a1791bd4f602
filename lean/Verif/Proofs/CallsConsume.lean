import Verif.Model.CallsConsume
import Verif.Proofs.Calls

/-!
# Lemmas on the methods that use up an iterator
-/

namespace Rangetools
variable {T : Type} {A : Answers T} {p : Platform}

open Calls

/-- `next`, call by call. -/
theorem BoundedRangeIter.path_next_calls {it : BoundedRangeIter T} {cs : List (StepCall T)}
    {r : Res (Option T) × BoundedRangeIter T} (h : Path A it.nextC cs r) :
    A.greater it.current it.last (.ok true) ∧ cs = [.greater it.current it.last] ∧ r = (.ok none, it) ∨
      (∃ m, r = (.panic m, it)) ∨
      A.greater it.current it.last (.ok false) ∧ cs = [.greater it.current it.last, .forward it.current 1] ∧
        ∃ c, A.forward it.current 1 (.ok c) ∧ r = (.ok (some it.current), ⟨c, it.last⟩) := by
  rw [nextC] at h
  obtain ⟨o, cs', h0, h, rfl⟩ := path_greater.1 h
  rcases o with (_ | _) | m
  · obtain ⟨o, cs', h1, h2, rfl⟩ := path_forward.1 h
    cases o with
    | ok c =>
      obtain ⟨rfl, rfl⟩ := path_done.1 h2
      exact Or.inr (Or.inr ⟨h0, rfl, c, h1, rfl⟩)
    | panic m =>
      obtain ⟨rfl, rfl⟩ := path_done.1 h2
      exact Or.inr (Or.inl ⟨m, rfl⟩)
  · obtain ⟨rfl, rfl⟩ := path_done.1 h
    exact Or.inl ⟨h0, rfl, rfl⟩
  · obtain ⟨rfl, rfl⟩ := path_done.1 h
    exact Or.inr (Or.inl ⟨m, rfl⟩)

/-- The loop of the provided `last`, if it returns. -/
theorem BoundedRangeIter.path_foldLast {fuel : Nat} {it : BoundedRangeIter T} {acc : Option T} {cs : List (StepCall T)}
    {r : Option T} (h : Path A (it.foldLastC fuel acc) cs (.ok (some r))) :
    ∃ vs w, (vs ++ [w]).head? = some it.current ∧ vs.length < fuel ∧
      (vs ++ [w]).IsChain (fun a b => A.forward a 1 (.ok b)) ∧ (∀ v ∈ vs, A.greater v it.last (.ok false)) ∧
      A.greater w it.last (.ok true) ∧
      cs = vs.flatMap (fun v => [.greater v it.last, .forward v 1]) ++ [.greater w it.last] ∧ r = vs.getLast?.or acc := by
  induction fuel generalizing it acc cs with
  | zero =>
    obtain ⟨-, e⟩ := path_done.1 h
    cases e
  | succ fuel ih =>
    rw [foldLastC, path_bind] at h
    obtain ⟨a, c1, c2, h1, h2, rfl⟩ := h
    obtain ⟨g, rfl, rfl⟩ | ⟨m, rfl⟩ | ⟨g, rfl, c, f, rfl⟩ := path_next_calls h1
    · obtain ⟨rfl, e⟩ := path_done.1 h2
      cases e
      exact ⟨[], it.current, rfl, Nat.succ_pos _, by simp, by simp, g, rfl, by simp⟩
    · obtain ⟨-, e⟩ := path_done.1 h2
      cases e
    · obtain ⟨vs, w, i1, i2, i3, i4, i5, rfl, rfl⟩ := ih h2
      refine ⟨it.current :: vs, w, rfl, by simpa using i2, ?_, by simpa using ⟨g, i4⟩, i5, rfl, ?_⟩
      · rw [List.cons_append, List.isChain_cons]
        refine ⟨fun y hy => ?_, i3⟩
        rw [i1] at hy
        cases hy
        exact f
      · cases vs with
        | nil => simp
        | cons v vs => simp [List.getLast?_eq_some_getLast]

/-- The loop that drops pieces of length 0, call by call. -/
theorem BoundedSetIter.path_popEmpty_calls {l : List (BoundedRangeIter T)} {cs : List (StepCall T)}
    {r : Res Unit × List (BoundedRangeIter T)} (h : Path A (popEmptyC p l) cs r) :
    ∃ pre, l = pre ++ r.2 ∧ cs = (pre ++ r.2.take 1).map (fun i => .between i.current i.last) ∧
      (∀ i ∈ pre, ∃ o, A.between i.current i.last o ∧ lenOf p o = .ok 0) ∧
      ∀ i is, r = (.ok (), i :: is) → ∃ o n, A.between i.current i.last o ∧ lenOf p o = .ok n ∧ n ≠ 0 := by
  induction l generalizing cs r with
  | nil =>
    obtain ⟨rfl, rfl⟩ := path_done.1 h
    exact ⟨[], by simp⟩
  | cons i is ih =>
    rw [popEmptyC, path_bind] at h
    obtain ⟨x, c1, c2, h1, h2, rfl⟩ := h
    obtain ⟨o, ho, rfl, rfl⟩ := BoundedRangeIter.path_len.1 h1
    cases hl : lenOf p o with
    | panic m =>
      rw [hl] at h2
      obtain ⟨rfl, rfl⟩ := path_done.1 h2
      exact ⟨[], by simp⟩
    | ok n =>
      rw [hl] at h2
      dsimp only at h2
      split at h2
      · rename_i hn
        obtain ⟨pre, i1, i2, i3, i4⟩ := ih h2
        refine ⟨i :: pre, by simp [← i1], by simp [i2], ?_, i4⟩
        rw [List.forall_mem_cons]
        exact ⟨⟨o, ho, by simpa [hl] using hn⟩, i3⟩
      · rename_i hn
        obtain ⟨rfl, rfl⟩ := path_done.1 h2
        refine ⟨[], by simp, by simp, by simp, fun j js e => ?_⟩
        obtain ⟨-, rfl, rfl⟩ : (True ∧ i = j ∧ is = js) := by simpa using e
        exact ⟨o, n, ho, hl, by simpa using hn⟩

/-- The lengths are asked for from the front. -/
theorem BoundedSetIter.path_sumLens_calls {l : List (BoundedRangeIter T)} {acc : Nat} {cs : List (StepCall T)} {r : Res Nat}
    (h : Path A (sumLensC p acc l) cs r) :
    (∃ k ≤ l.length, cs = (l.take k).map (fun i => .between i.current i.last)) ∧
      ∀ n, r = .ok n → cs = l.map (fun i => .between i.current i.last) ∧
        ∃ os : List (Option Nat), List.Forall₂ (fun i o => A.between i.current i.last (.ok o)) l os ∧
          n % p.usizeCount = (acc + (os.map fun o => o.elim 0 (· + 1)).sum) % p.usizeCount ∧
          (p.overflowChecks = true → n = acc + (os.map fun o => o.elim 0 (· + 1)).sum) := by
  have hadd : ∀ a b n, p.addUsize a b = .ok n → n % p.usizeCount = (a + b) % p.usizeCount ∧
      (p.overflowChecks = true → n = a + b) := by
    intro a b n h
    rw [Platform.addUsize] at h
    split at h
    · cases h; exact ⟨rfl, fun _ => rfl⟩
    · split at h
      · cases h
      · cases h; exact ⟨Nat.mod_mod _ _, fun h => absurd h ‹_›⟩
  induction l generalizing acc cs r with
  | nil =>
    obtain ⟨rfl, rfl⟩ := path_done.1 h
    exact ⟨⟨0, by simp⟩, fun n e => ⟨rfl, [], .nil, by cases e; simp, fun _ => by cases e; simp⟩⟩
  | cons i is ih =>
    rw [sumLensC, path_bind] at h
    obtain ⟨x, c1, c2, h1, h2, rfl⟩ := h
    obtain ⟨o, ho, rfl, rfl⟩ := BoundedRangeIter.path_len.1 h1
    cases hl : lenOf p o with
    | panic m =>
      rw [hl] at h2
      obtain ⟨rfl, rfl⟩ := path_done.1 h2
      exact ⟨⟨1, by simp⟩, fun n e => nomatch e⟩
    | ok n =>
      rw [hl] at h2
      dsimp only at h2
      cases ha : p.addUsize acc n with
      | panic m =>
        rw [ha] at h2
        obtain ⟨rfl, rfl⟩ := path_done.1 h2
        exact ⟨⟨1, by simp⟩, fun n e => nomatch e⟩
      | ok acc' =>
        rw [ha] at h2
        obtain ⟨⟨k, i1, i2⟩, i3⟩ := ih h2
        refine ⟨⟨k + 1, by simpa using i1, by simp [i2]⟩, fun q e => ?_⟩
        obtain ⟨rfl, os, j1, j2, j3⟩ := i3 q e
        obtain ⟨a1, a2⟩ := hadd _ _ _ ha
        obtain ⟨o, rfl, b1, b2⟩ : ∃ o', o = .ok o' ∧ n % p.usizeCount = (o'.elim 0 (· + 1)) % p.usizeCount ∧
            (p.overflowChecks = true → n = o'.elim 0 (· + 1)) := by
          rcases o with (_ | k) | m
          · cases hl; exact ⟨none, rfl, rfl, fun _ => rfl⟩
          · exact ⟨some k, rfl, hadd _ _ _ hl⟩
          · cases hl
        refine ⟨by simp, o :: os, .cons ho j1, ?_, fun hc => ?_⟩
        · rw [j2, List.map_cons, List.sum_cons, ← Nat.add_assoc, Nat.add_mod, a1, ← Nat.add_mod, Nat.add_mod (acc + n),
            Nat.add_mod acc, b1, ← Nat.add_mod acc, ← Nat.add_mod]
        · rw [j3 hc, a2 hc, b2 hc, List.map_cons, List.sum_cons, Nat.add_assoc]

end Rangetools
