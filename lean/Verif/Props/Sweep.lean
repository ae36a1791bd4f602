import Verif.Proofs.Sweep
import Verif.Props.Region

/-!
# C84: the results are those of the textbook algorithms
-/

namespace Rangetools
open Iv Samples
variable {T : Type} [LinearOrder T]

/-- The pieces of a value as intervals between cuts (see `Proofs/Cut.lean`), in order, without an empty one. -/
def Inner.cuts (i : Inner T) : List (ECut T × ECut T) := i.ivs.filter fun p => p.1 < p.2

theorem Inner.sem_cuts (i : Inner T) : sem i.cuts = sem i.ivs := by
  ext q
  constructor
  · rintro ⟨p, hp, hq⟩
    exact ⟨p, (List.mem_filter.mp hp).1, hq⟩
  · rintro ⟨p, hp, hq⟩
    refine ⟨p, List.mem_filter.mpr ⟨hp, ?_⟩, hq⟩
    by_contra h
    rw [decide_eq_true_eq, not_lt] at h
    rw [sem1_empty h] at hq
    exact hq

theorem Inner.cuts_eq {i : Inner T} (h : Canon i.ivs) : i.cuts = i.ivs :=
  List.filter_eq_self.mpr fun p hp => decide_eq_true (h.1 p hp)

theorem Inner.canon_cuts {i : Inner T} (h : i.WF) : Canon i.cuts := by
  by_cases hb : i.kind = .br
  · cases i <;> simp [Inner.kind] at hb
    rename_i r
    by_cases hr : r.iv.1 < r.iv.2
    · rw [show (Inner.br r).cuts = [r.iv] by simp [Inner.cuts, Inner.ivs, hr]]
      exact canon_singleton.mpr hr
    · rw [show (Inner.br r).cuts = [] by simpa [Inner.cuts, Inner.ivs] using hr]
      exact canon_nil
  · rw [Inner.cuts_eq (Inner.canon_of_ne_br h hb)]
    exact Inner.canon_of_ne_br h hb

/-- C84. The intervals determine the value, given its type; a `BoundedRange` only if it is not empty. -/
theorem C84_determines (a b : Inner T) (ha : a.Normal) (hb : b.Normal) (hk : a.kind = b.kind)
    (hne : ∀ r, a = .br r ∨ b = .br r → r.isEmpty = false) (h : a.cuts = b.cuts) : a = b := by
  have key : ∀ i : Inner T, i.Normal → (∀ r, i = .br r → r.isEmpty = false) → i.cuts = i.ivs := by
    intro i hi hr
    by_cases hk : i.kind = .br
    · cases i <;> simp [Inner.kind] at hk
      rename_i r
      have := r.isEmpty_eq_false_iff.mp (hr r rfl)
      exact Inner.cuts_eq (canon_singleton.mpr this)
    · exact Inner.cuts_eq (Inner.canon_of_ne_br ((Inner.normal_iff _).mp hi) hk)
  rw [key a ha fun r h => hne r (.inl h), key b hb fun r h => hne r (.inr h)] at h
  exact Inner.ivs_inj hk h

/-- C84. Union is merge and join. -/
theorem C84_union (a b : Any T) (ha : a.toInner.Normal) (hb : b.toInner.Normal) :
    ∃ c, a.union b = .ok c ∧ c.toInner.cuts = Sweep.union a.toInner.cuts b.toInner.cuts := by
  rw [Inner.normal_iff] at ha hb
  obtain ⟨c, hc, hs, hw, -⟩ := Any.union_comp a b
  obtain ⟨h1, h2⟩ := Sweep.union_spec (Inner.canon_cuts ha) (Inner.canon_cuts hb)
  refine ⟨c, hc, canon_unique (Inner.canon_cuts (hw ha hb)) h1 ?_⟩
  rw [h2, Inner.sem_cuts, Inner.sem_cuts, Inner.sem_cuts, hs]

/-- C84. Intersection is the walk along both lists if and only if the pair is lossless. -/
theorem C84_inter_iff (a b : Any T) (ha : a.toInner.Normal) (hb : b.toInner.Normal) :
    (∃ c, a.inter b = .ok c ∧ c.cuts = Sweep.inter a.toInner.cuts b.toInner.cuts) ↔ a.toInner.Lossless b.toInner := by
  have wa := (Inner.normal_iff _).mp ha
  have wb := (Inner.normal_iff _).mp hb
  obtain ⟨c, hc, hs, hw, -⟩ := Any.inter_comp a b
  obtain ⟨h1, h2, -⟩ := Sweep.inter_spec _ _ _ le_rfl (Inner.canon_cuts wa) (Inner.canon_cuts wb)
  rw [Inner.sem_cuts, Inner.sem_cuts] at h2
  constructor
  · rintro ⟨d, hd, h⟩
    obtain rfl : c = d := by rw [hc] at hd; injection hd
    refine lossless_of_interSem ha hb ?_
    rw [← hs, ← h2, ← h, Inner.sem_cuts]
  · intro h
    refine ⟨c, hc, canon_unique (Inner.canon_cuts (hw ⟨wa, wb⟩)) h1 ?_⟩
    rw [h2, Inner.sem_cuts, hs, interSem_of_lossless h]

/-- C84. Complement is the gaps, except for an empty `BoundedRange`. -/
theorem C84_complement (a : Any T) (ha : a.toInner.Normal) (hne : ∀ r, a.toInner = .br r → r.isEmpty = false) :
    ∃ c, a.complement = .ok c ∧ c.cuts = Sweep.gaps a.toInner.cuts := by
  have hcan : Canon a.toInner.ivs := by
    by_cases hk : a.toInner.kind = .br
    · cases hi : a.toInner <;> rw [hi] at hk <;> simp [Inner.kind] at hk
      rename_i r
      exact canon_singleton.mpr (r.isEmpty_eq_false_iff.mp (hne r hi))
    · exact Inner.canon_of_ne_br ((Inner.normal_iff _).mp ha) hk
  obtain ⟨c, hc, hs, hw, -⟩ := Any.complement_comp a
  obtain ⟨h1, h2⟩ := Sweep.gaps_spec _ hcan
  refine ⟨c, hc, canon_unique (Inner.canon_cuts (hw trivial)) ?_ ?_⟩
  · rw [Inner.cuts_eq hcan]; exact h1
  · rw [Inner.sem_cuts, hs, Inner.cuts_eq hcan, h2]

/-! ### Cases that meet the hypotheses -/

example : (Inner.bs ⟨[co 1 3, co 5 7]⟩).Normal ∧ lbs.Normal ∧ ubs.Normal ∧ lbs.Lossless ubs := by decide

/-- Overlapping intervals are joined, touching ones are kept apart. -/
example : Sweep.union [(1, 3), (5, 7)] [(2, 5), (8, 9)] = [(1, 5), (5, 7), (8, (9 : Int))] := by
  simp [Sweep.union, Sweep.fuse]

example : Sweep.inter [(1, 3), (5, 8)] [(2, 6), (7, 9)] = [(2, 3), (5, 6), (7, (8 : Int))] := by decide +kernel

example : Sweep.gaps [(1, 3), (3, 8)] = [(0, 1), (8, (10 : Fin 11))] := by decide +kernel

/-- The pair of C02 is not lossless, so by `C84_inter_iff` its intersection is not the textbook one. -/
example : lbs.Normal ∧ lbs'.Normal ∧ ¬lbs.Lossless lbs' := by decide

/-- Why `C84_complement` leaves out empty ranges: `5..3` is normal, and empty. -/
example : (Inner.br (co 5 3)).Normal ∧ (co 5 3).isEmpty = true := by decide

end Rangetools
