import Verif.Props.Algebra

/-!
# C73: the private invariant is exactly what programs can build
-/

namespace Rangetools
open Iv Samples
variable {T : Type} [LinearOrder T]

/-- A set with the members, pieces and type of a union of two reachable values is that union. -/
theorem Reachable.of_union {a b : Any T} {c : Inner T} (ha : Reachable a) (hb : Reachable b)
    (hea : a.isER = false) (heb : b.isER = false) (hc : c.WF)
    (hk : c.kind = unionKind (setKind a.toInner.kind) (setKind b.toInner.kind))
    (hs : sem c.ivs = sem a.toInner.ivs ∪ sem b.toInner.ivs) : Reachable (.inner c) := by
  obtain ⟨d, hd, sd, wd, kd⟩ := Any.union_spec (C06_reachable_normal ha) (C06_reachable_normal hb) hea heb
  obtain rfl : c = d.toInner := Inner.eq_of_sem' (hk.trans kd.symm) (by rw [hk, setKind_unionKind]) hc wd (hs.trans sd.symm)
  exact ha.union hb hd

theorem reachable_bs {l : List (BoundedRange T)} (h : Canon (l.map BoundedRange.iv)) :
    Reachable (.inner (.bs ⟨l⟩)) := by
  induction l with
  | nil => exact .boundedSetEmpty
  | cons r l ih =>
    refine .of_union (.boundedRange r) (ih (by rw [List.map_cons, canon_cons] at h; exact h.2.2)) rfl rfl h rfl ?_
    simp [Inner.ivs, Any.toInner_inner, BoundedSet.ivs]

/-- C73. The values a program can build through the public API are exactly those that satisfy the private
invariant. -/
theorem C73_reachable_iff_normal (a : Any T) : Reachable a ↔ a.toInner.Normal := by
  refine ⟨C06_reachable_normal, fun h => ?_⟩
  rw [Inner.normal_iff] at h
  cases a with
  | range r => exact .range r
  | rangeInclusive r => exact .rangeInclusive r
  | rangeFrom r => exact .rangeFrom r
  | rangeTo r => exact .rangeTo r
  | rangeToInclusive r => exact .rangeToInclusive r
  | rangeFull => exact .rangeFull
  | inner i =>
    rw [Any.toInner_inner] at h
    cases i with
    | br r => exact .boundedRange r
    | lbr r => exact .lowerBoundedRange r
    | ubr r => exact .upperBoundedRange r
    | ur => exact .unboundedRange
    | er => exact .emptyRange
    | bs s => exact reachable_bs h
    | lbs s =>
      have hb : Canon (s.ranges.ranges.map BoundedRange.iv) := (canon_append.mp h).1
      refine .of_union (reachable_bs hb) (.lowerBoundedRange s.lowerBoundedRange) rfl rfl h rfl ?_
      simp [Inner.ivs, Any.toInner_inner, BoundedSet.ivs, LowerBoundedSet.ivs]
    | ubs s =>
      have hb : Canon (s.ranges.ranges.map BoundedRange.iv) := (canon_cons.mp h).2.2
      refine .of_union (.upperBoundedRange s.upperBoundedRange) (reachable_bs hb) rfl rfl h rfl ?_
      simp [Inner.ivs, Any.toInner_inner, BoundedSet.ivs, UpperBoundedSet.ivs]
    | us s =>
      cases s with
      | full => exact .unboundedSetFull
      | piecewise p =>
        have hr : Canon (p.ranges.ivs ++ [p.lowerBoundedRange.iv]) := (canon_cons.mp h).2.2
        have hb : Canon (p.ranges.ranges.map BoundedRange.iv) := (canon_append.mp hr).1
        have hl : Reachable (.inner (.lbs ⟨p.ranges, p.lowerBoundedRange⟩)) := by
          refine .of_union (reachable_bs hb) (.lowerBoundedRange p.lowerBoundedRange) rfl rfl hr rfl ?_
          simp [Inner.ivs, Any.toInner_inner, BoundedSet.ivs, LowerBoundedSet.ivs]
        refine .of_union (.upperBoundedRange p.upperBoundedRange) hl rfl rfl h rfl ?_
        simp [Inner.ivs, Any.toInner_inner, LowerBoundedSet.ivs, UnboundedSet.ivs, PiecewiseUnboundedSet.ivs]

/-- Touching pieces, and a piece between two integers that contains none, are reachable. -/
example : Reachable (.inner (.us (.piecewise ⟨io 0, ⟨[co 0 3, co 3 5, ⟨.excluded 6, .excluded 7⟩]⟩, ci 7⟩))) ∧
    ¬ Reachable (.inner (.bs ⟨[co 3 5, co 0 3]⟩)) := by
  rw [C73_reachable_iff_normal, C73_reachable_iff_normal]; decide

end Rangetools
