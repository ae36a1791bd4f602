import Verif.Spec.Damage
import Verif.Spec.Samples
import Verif.Proofs.Damage
import Verif.Proofs.Laws

/-!
# C116: which operations repair sets that break the private invariant
-/

namespace Rangetools
open Iv

section Samples
open Samples

/-- pieces out of order -/
def bad : BoundedSet Int := ⟨[co 5 8, co 3 4]⟩

/-- a broken set of the type of the argument, if it is a set -/
def badOf : Inner Int → Inner Int
  | .bs _ => .bs bad
  | .lbs _ => .lbs ⟨bad, ci 20⟩
  | .ubs _ => .ubs ⟨io 0, bad⟩
  | .us _ => .us (.piecewise ⟨io 0, bad, ci 20⟩)
  | i => i

/-- a normal value of the type of the argument, far from the pieces of `bad` -/
def farOf : Inner Int → Inner Int
  | .br _ => .br (co 10 12)
  | .bs _ => .bs ⟨[co 10 12]⟩
  | .lbr _ => .lbr (ci 30)
  | .lbs _ => .lbs ⟨⟨[]⟩, ci 30⟩
  | .ubr _ => .ubr (io (-5))
  | .ubs _ => .ubs ⟨io (-5), ⟨[]⟩⟩
  | .us _ => .us (.piecewise ⟨io (-5), ⟨[]⟩, ci 30⟩)
  | .ur => .ur
  | .er => .er

/-- a normal value of the type of the argument that covers the pieces of `bad` -/
def coverOf : Inner Int → Inner Int
  | .br _ => .br (co 0 20)
  | .bs _ => .bs ⟨[co 0 20]⟩
  | .lbr _ => .lbr (ci 0)
  | .lbs _ => .lbs ⟨⟨[]⟩, ci 0⟩
  | .ubr _ => .ubr (io 20)
  | .ubs _ => .ubs ⟨io 20, ⟨[]⟩⟩
  | .us _ => .us .full
  | .ur => .ur
  | .er => .er

example : ¬ (Inner.bs bad).Normal := by decide
example : UnionKeepsLeft (.lbs ⟨bad, ci 20⟩) (.ubr (io 0)) = false := by decide
example : UnionKeepsRight (.lbs ⟨bad, ci 20⟩) (.ubr (io 0)) = false := by decide
example : InterKeepsLeft (.bs bad) lbs = false ∧ InterKeepsRight (.bs bad) lbs = false := by decide
end Samples

variable {T : Type} [LinearOrder T]

/-! ## Unions -/

theorem SetVal.union_normal (a b : SetVal T)
    (ha : UnionKeepsLeft a.toInner b.toInner = true → a.toInner.WF)
    (hb : UnionKeepsRight a.toInner b.toInner = true → b.toInner.WF) :
    ∃ c : SetVal T, a.union b = .ok c ∧ c.toInner.WF := by
  cases a with
  | er =>
    refine ⟨b, rfl, ?_⟩
    cases b <;> first | exact hb rfl | trivial
  | ur => exact ⟨.ur, rfl, trivial⟩
  | bs a =>
    cases b with
    | ur => exact ⟨.ur, rfl, trivial⟩
    | er => exact ⟨.bs a, rfl, ha rfl⟩
    | bs b =>
      obtain ⟨c, h1, -, h3⟩ := BoundedSet.addSet_comp a b
      exact ⟨.bs c, by simp [SetVal.union, BoundedSet.unionBS, h1], h3 (ha rfl)⟩
    | lbs b =>
      obtain ⟨c, h1, -, h3⟩ := LowerBoundedSet.addSet_comp b a
      refine ⟨.lbs c, ?_, h3 (hb rfl)⟩
      show (do return SetVal.lbs (← b.addSet a)) = _
      rw [h1]; rfl
    | ubs b =>
      obtain ⟨c, h1, -, h3⟩ := UpperBoundedSet.addSet_comp b a
      refine ⟨.ubs c, ?_, h3 (hb rfl)⟩
      show (do return SetVal.ubs (← b.addSet a)) = _
      rw [h1]; rfl
    | us b =>
      obtain ⟨c, h1, -, h3⟩ := UnboundedSet.addSet_comp b a
      refine ⟨.us c, ?_, h3 (hb rfl)⟩
      show (do return SetVal.us (← b.addSet a)) = _
      rw [h1]; rfl
  | lbs a =>
    cases b with
    | ur => exact ⟨.ur, rfl, trivial⟩
    | er => exact ⟨.lbs a, rfl, ha rfl⟩
    | bs b =>
      obtain ⟨c, h1, -, h3⟩ := a.unionBS_comp b
      exact ⟨.lbs c, by simp [SetVal.union, h1], h3 (ha rfl)⟩
    | lbs b =>
      obtain ⟨x, h1, -, h3⟩ := LowerBoundedSet.addLowerBoundedRange_comp a b.lowerBoundedRange
      obtain ⟨c, h4, -, h6⟩ := x.unionBS_comp b.ranges
      refine ⟨.lbs c, ?_, h6 (h3 (ha rfl))⟩
      have : a.unionLBS b = .ok c := by rw [LowerBoundedSet.unionLBS, h1, Res.ok_bind, h4]
      simp [SetVal.union, this]
    | ubs b =>
      obtain ⟨c, h1, -, h3⟩ := a.unionUBS_comp b
      exact ⟨.us c, by simp [SetVal.union, h1], h3 trivial⟩
    | us b =>
      obtain ⟨x, h1, -, h3⟩ := UnboundedSet.addLowerBoundedRange_comp b a.lowerBoundedRange
      obtain ⟨c, h4, -, h6⟩ := x.unionBS_comp a.ranges
      refine ⟨.us c, ?_, h6 (h3 (hb rfl))⟩
      have : a.unionUS b = .ok c := by rw [LowerBoundedSet.unionUS, h1, Res.ok_bind, h4]
      simp [SetVal.union, this]
  | ubs a =>
    cases b with
    | ur => exact ⟨.ur, rfl, trivial⟩
    | er => exact ⟨.ubs a, rfl, ha rfl⟩
    | bs b =>
      obtain ⟨c, h1, -, h3⟩ := a.unionBS_comp b
      exact ⟨.ubs c, by simp [SetVal.union, h1], h3 (ha rfl)⟩
    | lbs b =>
      obtain ⟨c, h1, -, h3⟩ := a.unionLBS_comp b
      exact ⟨.us c, by simp [SetVal.union, h1], h3 trivial⟩
    | ubs b =>
      obtain ⟨x, h1, -, h3⟩ := UpperBoundedSet.addUpperBoundedRange_comp a b.upperBoundedRange
      obtain ⟨c, h4, -, h6⟩ := x.unionBS_comp b.ranges
      refine ⟨.ubs c, ?_, h6 (h3 (ha rfl))⟩
      have : a.unionUBS b = .ok c := by rw [UpperBoundedSet.unionUBS, h1, Res.ok_bind, h4]
      simp [SetVal.union, this]
    | us b =>
      obtain ⟨x, h1, -, h3⟩ := UnboundedSet.addUpperBoundedRange_comp b a.upperBoundedRange
      obtain ⟨c, h4, -, h6⟩ := x.unionBS_comp a.ranges
      refine ⟨.us c, ?_, h6 (h3 (hb rfl))⟩
      have : a.unionUS b = .ok c := by rw [UpperBoundedSet.unionUS, h1, Res.ok_bind, h4]
      simp [SetVal.union, this]
  | us a =>
    cases b with
    | ur => exact ⟨.ur, rfl, trivial⟩
    | er => exact ⟨.us a, rfl, ha rfl⟩
    | bs b =>
      obtain ⟨c, h1, -, h3⟩ := a.unionBS_comp b
      exact ⟨.us c, by simp [SetVal.union, h1], h3 (ha rfl)⟩
    | lbs b =>
      obtain ⟨x, h1, -, h3⟩ := UnboundedSet.addLowerBoundedRange_comp a b.lowerBoundedRange
      obtain ⟨c, h4, -, h6⟩ := x.unionBS_comp b.ranges
      refine ⟨.us c, ?_, h6 (h3 (ha rfl))⟩
      have : a.unionLBS b = .ok c := by
        rw [UnboundedSet.unionLBS, LowerBoundedSet.unionUS, h1, Res.ok_bind, h4]
      simp [SetVal.union, this]
    | ubs b =>
      obtain ⟨x, h1, -, h3⟩ := UnboundedSet.addUpperBoundedRange_comp a b.upperBoundedRange
      obtain ⟨c, h4, -, h6⟩ := x.unionBS_comp b.ranges
      refine ⟨.us c, ?_, h6 (h3 (ha rfl))⟩
      have : a.unionUBS b = .ok c := by
        rw [UnboundedSet.unionUBS, UpperBoundedSet.unionUS, h1, Res.ok_bind, h4]
      simp [SetVal.union, this]
    | us b =>
      obtain ⟨c, h1, -, h3⟩ := UnboundedSet.addUnboundedSet_comp a b
      refine ⟨.us c, ?_, h3 (ha rfl)⟩
      show (do return SetVal.us (← a.addUnboundedSet b)) = _
      rw [h1]; rfl

/-- C116. A union is normal if the operands whose damage the table lets through are. -/
theorem C116_union (a b : Any T) (ha : UnionKeepsLeft a.toInner b.toInner = true → a.toInner.Normal)
    (hb : UnionKeepsRight a.toInner b.toInner = true → b.toInner.Normal) :
    ∃ c, a.union b = .ok c ∧ c.toInner.Normal := by
  simp only [Inner.normal_iff] at *
  rcases Any.union_cases a b with ⟨h, hu⟩ | ⟨h, hu⟩ | ⟨_, _, c, hu, hc⟩
  · refine ⟨b, hu, ?_⟩
    rw [Any.eq_of_isER h] at hb
    generalize b.toInner = j at hb
    cases j <;> first | exact hb rfl | trivial
  · refine ⟨a, hu, ?_⟩
    rw [Any.eq_of_isER h] at ha
    generalize a.toInner = i at ha
    cases i <;> first | exact ha rfl | trivial
  · obtain ⟨c', hc', hw⟩ := SetVal.union_normal a.toSet b.toSet (by
      rw [Any.toSet_eq, Any.toSet_eq]
      generalize a.toInner = i at ha
      generalize b.toInner = j at ha
      cases i with
      | br r => exact fun _ => BoundedSet.ofBR_canon r
      | lbr r => exact fun _ => LowerBoundedSet.ofLBR_canon r
      | ubr r => exact fun _ => UpperBoundedSet.ofUBR_canon r
      | _ => cases j <;> exact ha) (by
      rw [Any.toSet_eq, Any.toSet_eq]
      generalize a.toInner = i at hb
      generalize b.toInner = j at hb
      cases j with
      | br r => exact fun _ => BoundedSet.ofBR_canon r
      | lbr r => exact fun _ => LowerBoundedSet.ofLBR_canon r
      | ubr r => exact fun _ => UpperBoundedSet.ofUBR_canon r
      | _ => cases i <;> exact hb)
    obtain rfl : c = c' := by rw [hc] at hc'; injection hc'
    exact ⟨_, hu, hw⟩

example : ∃ c, (Any.inner (.lbs ⟨bad, Samples.ci 20⟩)).union (.inner (.ubs ⟨Samples.io 0, bad⟩)) = .ok c ∧
    c.toInner.Normal :=
  C116_union _ _ (fun h => absurd h (by decide)) (fun h => absurd h (by decide))

/-! ## Intersections -/

theorem UpperBoundedSet.interPiecewise_canon (a : UpperBoundedSet T) (p : PiecewiseUnboundedSet T) :
    ∃ c, a.interUS (.piecewise p) = .ok c ∧ Canon c.ivs := by
  simp only [UpperBoundedSet.interUS]
  obtain ⟨w, hw1, -, hw⟩ := UpperBoundedSet.interUBR_comp a p.upperBoundedRange
  obtain ⟨z, hz1, -, -⟩ := UpperBoundedSet.interLBR_comp a p.lowerBoundedRange
  obtain ⟨x, hx1, -, hx⟩ := UpperBoundedSet.addSet_comp w z
  obtain ⟨y, hy1, -, -⟩ := UpperBoundedSet.interBS_comp a p.ranges
  obtain ⟨c, hc1, -, hc⟩ := UpperBoundedSet.addSet_comp x y
  exact ⟨c, by simp only [hw1, hz1, hx1, hy1, hc1, Res.ok_bind], hc (hx (hw trivial))⟩

theorem UnboundedSet.interPiecewise_canon (s p : PiecewiseUnboundedSet T) :
    ∃ c, (UnboundedSet.piecewise s).interUS (.piecewise p) = .ok c ∧ Canon c.ivs := by
  simp only [UnboundedSet.interUS]
  obtain ⟨x, hx1, -, -⟩ := UnboundedSet.interUBR_comp (.piecewise s) p.upperBoundedRange
  obtain ⟨y, hy1, -, -⟩ := UnboundedSet.interLBR_comp (.piecewise s) p.lowerBoundedRange
  obtain ⟨z, hz1, -, -⟩ := UnboundedSet.interBS_comp (.piecewise s) p.ranges
  obtain ⟨w, hw1, -, -⟩ := LowerBoundedSet.unionBS_comp y z
  obtain ⟨c, hc1, -, hc⟩ := UpperBoundedSet.unionLBS_comp x w
  exact ⟨c, by simp only [hx1, hy1, hz1, hw1, hc1, Res.ok_bind], hc trivial⟩

/-- Whatever `IComp` says about normality. -/
theorem IComp.normal {x : Res (Inner T)} {S : Set (ECut T × Side)} {W : Prop} {k : Kind} (h : IComp x S W k)
    (hw : W) : ∃ c, x = .ok c ∧ c.WF := by
  obtain ⟨c, h1, -, h3, -⟩ := h
  exact ⟨c, h1, h3 hw⟩

theorem Inner.inter_normal (a b : Inner T) (ha : InterKeepsLeft a b = true → a.WF)
    (hb : InterKeepsRight a b = true → b.WF) : ∃ c, a.inter b = .ok c ∧ c.WF := by
  by_cases hW : a.WF ∧ b.WF
  · exact (Inner.inter_comp a b).normal hW
  cases a with
  | er => exact (Inner.inter_comp .er b).imp fun c h => ⟨h.1, by cases b <;> (cases h.1; trivial)⟩
  | ur =>
    cases b <;> first
      | exact absurd ⟨trivial, hb rfl⟩ hW
      | exact absurd ⟨trivial, trivial⟩ hW
  | br a =>
    cases b with
    | bs b => exact absurd ⟨trivial, hb rfl⟩ hW
    | lbs b => exact (IComp.bs (b.interBR_comp a) fun _ => trivial).normal trivial
    | ubs b => exact (IComp.bs (b.interBR_comp a) fun _ => trivial).normal trivial
    | us b => exact (IComp.bs (b.interBR_comp a) fun _ => trivial).normal trivial
    | _ => exact absurd ⟨trivial, trivial⟩ hW
  | lbr a =>
    cases b with
    | bs b => exact absurd ⟨trivial, hb rfl⟩ hW
    | lbs b => exact absurd ⟨trivial, hb rfl⟩ hW
    | ubs b => exact (IComp.bs (b.interLBR_comp a) fun _ => trivial).normal trivial
    | us b => exact (IComp.lbs (b.interLBR_comp a) fun _ => trivial).normal trivial
    | _ => exact absurd ⟨trivial, trivial⟩ hW
  | ubr a =>
    cases b with
    | bs b => exact absurd ⟨trivial, hb rfl⟩ hW
    | lbs b => exact (IComp.bs (b.interUBR_comp a) fun _ => trivial).normal trivial
    | ubs b => exact (IComp.ubs (b.interUBR_comp a) fun _ => trivial).normal trivial
    | us b => exact (IComp.ubs (b.interUBR_comp a) fun _ => trivial).normal trivial
    | _ => exact absurd ⟨trivial, trivial⟩ hW
  | bs a =>
    cases b with
    | br b => exact absurd ⟨ha rfl, trivial⟩ hW
    | lbr b => exact absurd ⟨ha rfl, trivial⟩ hW
    | ubr b => exact absurd ⟨ha rfl, trivial⟩ hW
    | ur => exact absurd ⟨ha rfl, trivial⟩ hW
    | bs b => exact (IComp.bs (a.interBS_comp b) fun _ => trivial).normal trivial
    | lbs b => exact (IComp.bs (a.interLBS_canon b) fun _ => trivial).normal trivial
    | ubs b => exact (IComp.bs (a.interUBS_canon b) fun _ => trivial).normal trivial
    | us b => exact (IComp.bs (a.interUS_comp b) fun h => h).normal (ha rfl)
    | er => exact ⟨.er, rfl, trivial⟩
  | lbs a =>
    cases b with
    | br b => exact (IComp.bs (a.interBR_comp b) fun _ => trivial).normal trivial
    | lbr b => exact absurd ⟨ha rfl, trivial⟩ hW
    | ubr b => exact (IComp.bs (a.interUBR_comp b) fun _ => trivial).normal trivial
    | ur => exact absurd ⟨ha rfl, trivial⟩ hW
    | bs b => exact (IComp.bs (b.interLBS_canon a) fun _ => trivial).normal trivial
    | lbs b => exact (IComp.lbs (a.interLBS_canon b) fun _ => trivial).normal trivial
    | ubs b => exact (IComp.bs (a.interUBS_comp b) fun _ => trivial).normal trivial
    | us b => exact (IComp.lbs (a.interUS_comp b) fun h => h).normal (ha rfl)
    | er => exact ⟨.er, rfl, trivial⟩
  | ubs a =>
    cases b with
    | br b => exact (IComp.bs (a.interBR_comp b) fun _ => trivial).normal trivial
    | lbr b => exact (IComp.bs (a.interLBR_comp b) fun _ => trivial).normal trivial
    | ubr b => exact (IComp.ubs (a.interUBR_comp b) fun _ => trivial).normal trivial
    | ur => exact absurd ⟨ha rfl, trivial⟩ hW
    | bs b => exact (IComp.bs (b.interUBS_canon a) fun _ => trivial).normal trivial
    | lbs b => exact (IComp.bs (b.interUBS_comp a) fun _ => trivial).normal trivial
    | ubs b => exact (IComp.ubs (a.interUBS_comp b) fun _ => trivial).normal trivial
    | us b => exact (IComp.ubs (a.interUS_comp b) fun h => h).normal (ha rfl)
    | er => exact ⟨.er, rfl, trivial⟩
  | us a =>
    cases b with
    | br b => exact (IComp.bs (a.interBR_comp b) fun _ => trivial).normal trivial
    | lbr b => exact (IComp.lbs (a.interLBR_comp b) fun _ => trivial).normal trivial
    | ubr b => exact (IComp.ubs (a.interUBR_comp b) fun _ => trivial).normal trivial
    | ur => exact absurd ⟨ha rfl, trivial⟩ hW
    | bs b => exact (IComp.bs (b.interUS_comp a) fun h => h).normal (hb rfl)
    | lbs b => exact (IComp.lbs (b.interUS_comp a) fun h => h).normal (hb rfl)
    | ubs b => exact (IComp.ubs (b.interUS_comp a) fun h => h).normal (hb rfl)
    | us b => exact absurd ⟨ha rfl, hb rfl⟩ hW
    | er => exact ⟨.er, rfl, trivial⟩

/-- C116. An intersection is normal if the operands whose damage the table lets through are.  In particular
the intersection of two sets neither of which is an `UnboundedSet` is always normal. -/
theorem C116_inter (a b : Any T) (ha : InterKeepsLeft a.toInner b.toInner = true → a.toInner.Normal)
    (hb : InterKeepsRight a.toInner b.toInner = true → b.toInner.Normal) :
    ∃ c, a.inter b = .ok c ∧ c.Normal := by
  simp only [Inner.normal_iff] at *
  have h := Inner.inter_normal a.toInner b.toInner ha hb
  have h' := Inner.inter_normal b.toInner a.toInner hb ha
  have hstd : ∃ c, a.toInner.interFromStd b.toInner = .ok c ∧ c.WF := by
    unfold Inner.interFromStd
    split <;> first | exact h | exact h' | exact ⟨.er, rfl, trivial⟩
  have hfrom : ∃ c, (match b.toInner with | .er => Res.ok .er | o => a.toInner.inter o) = Res.ok c ∧ c.WF := by
    split
    · exact ⟨.er, rfl, trivial⟩
    · exact h
  cases a with
  | inner i => exact h
  | rangeFrom r => exact hfrom
  | rangeFull => exact hfrom
  | _ => exact hstd

example : ∃ c, (Any.inner (.bs bad)).inter (.inner (.lbs ⟨bad, Samples.ci 0⟩)) = .ok c ∧ c.Normal :=
  C116_inter _ _ (fun h => absurd h (by decide)) (fun h => absurd h (by decide))

/-- C116. The entries for `UnboundedSet` come from its one value that is everything: with a second operand
that is not everything, the intersection of an `UnboundedSet` or an `UpperBoundedSet` with it is always
normal. -/
theorem C116_piecewise (s p : PiecewiseUnboundedSet T) (u : UpperBoundedSet T) :
    (∃ c, (Any.inner (.us (.piecewise s))).inter (.inner (.us (.piecewise p))) = .ok c ∧ c.Normal) ∧
    (∃ c, (Any.inner (.ubs u)).inter (.inner (.us (.piecewise p))) = .ok c ∧ c.Normal) ∧
    ∃ c, (Any.inner (.us (.piecewise p))).inter (.inner (.ubs u)) = .ok c ∧ c.Normal := by
  simp only [Inner.normal_iff]
  refine ⟨?_, ?_, ?_⟩
  · obtain ⟨c, h1, h2⟩ := UnboundedSet.interPiecewise_canon s p
    refine ⟨.us c, ?_, h2⟩
    show (do return Inner.us (← _)) = _
    rw [h1]; rfl
  · obtain ⟨c, h1, h2⟩ := u.interPiecewise_canon p
    refine ⟨.ubs c, ?_, h2⟩
    show (do return Inner.ubs (← _)) = _
    rw [h1]; rfl
  · obtain ⟨c, h1, h2⟩ := u.interPiecewise_canon p
    refine ⟨.ubs c, ?_, h2⟩
    show (do return Inner.ubs (← u.interUS (.piecewise p))) = _
    rw [h1]; rfl

/-- C116. Intersecting any set with itself repairs it: the result is normal, of the same type, and has the same
members.  (For two `LowerBoundedSet`s in general `intersection` loses members; it does not when they are the
same.) -/
theorem C116_self (s : Inner T) (hs : s.IsSet) :
    ∃ c, (Any.inner s).inter (.inner s) = .ok c ∧ c.Normal ∧ c.SameType s ∧ ∀ t, c.contains t = s.contains t := by
  obtain ⟨c, h1, h2, -, h4⟩ := Any.inter_comp (.inner s) (.inner s)
  refine ⟨c, h1, ?_, ?_, fun t => ?_⟩
  · have key : ∃ d, (Any.inner s).inter (.inner s) = .ok d ∧ d.Normal := by
      cases s with
      | us s =>
        cases s with
        | full => exact ⟨.us .full, rfl, trivial⟩
        | piecewise p => exact (C116_piecewise p p ⟨p.upperBoundedRange, p.ranges⟩).1
      | bs s => exact C116_inter (.inner (.bs s)) (.inner (.bs s)) nofun nofun
      | lbs s => exact C116_inter (.inner (.lbs s)) (.inner (.lbs s)) nofun nofun
      | ubs s => exact C116_inter (.inner (.ubs s)) (.inner (.ubs s)) nofun nofun
      | _ => exact hs.elim
    obtain ⟨d, h5, h6⟩ := key
    rw [h1] at h5
    cases h5
    exact h6
  · rw [Inner.sameType_iff, h4]
    cases s <;> first | exact hs.elim | rfl
  · rw [Bool.eq_iff_iff, Inner.contains_probe, Inner.contains_probe, h2]
    cases s with
    | lbs s =>
      simp only [interSem, Any.toInner, Inner.ivs, LowerBoundedSet.ivs, sem_append, sem_cons, sem_nil,
        Set.mem_union, Set.mem_inter_iff, Set.mem_empty_iff_false]
      tauto
    | _ => first | exact hs.elim | exact and_self_iff

example : (Inner.lbs ⟨bad, Samples.ci 4⟩).IsSet ∧ ¬ (Inner.lbs ⟨bad, Samples.ci 4⟩).Normal ∧
    (Any.inner (.lbs ⟨bad, Samples.ci 4⟩)).inter (.inner (.lbs ⟨bad, Samples.ci 4⟩)) =
      .ok (.lbs ⟨⟨[Samples.co 3 4]⟩, Samples.ci 4⟩) := by decide +kernel

/-! ## No entry can be left out -/

/-- The union of `a` and `b` exists and breaks the invariant. -/
def UnionBroken (a b : Inner Int) : Prop := ∃ c, (Any.inner a).union (.inner b) = .ok (.inner c) ∧ ¬ c.Normal

/-- The intersection of `a` and `b` exists and breaks the invariant. -/
def InterBroken (a b : Inner Int) : Prop := ∃ c, (Any.inner a).inter (.inner b) = .ok c ∧ ¬ c.Normal

theorem UnionBroken.of_check {a b : Inner Int}
    (h : (match (Any.inner a).union (.inner b) with
      | .ok (.inner c) => !decide c.Normal
      | _ => false) = true) : UnionBroken a b := by
  split at h
  · rename_i c hc
    exact ⟨c, hc, by simpa using h⟩
  · cases h

theorem InterBroken.of_check {a b : Inner Int}
    (h : (match (Any.inner a).inter (.inner b) with
      | .ok c => !decide c.Normal
      | _ => false) = true) : InterBroken a b := by
  split at h
  · rename_i c hc
    exact ⟨c, hc, by simpa using h⟩
  · cases h

/-- C116. A broken left operand can break a union with a normal right operand exactly for the types in
the table. -/
theorem C116_union_left_iff (a b : Inner Int) :
    UnionKeepsLeft a b = true ↔
      ∃ a' b', a'.SameType a ∧ b'.SameType b ∧ b'.Normal ∧ UnionBroken a' b' := by
  constructor
  · intro h
    refine ⟨badOf a, farOf b, ?_⟩
    cases a <;> cases b <;> first
      | (exfalso; revert h; simp [UnionKeepsLeft]; done)
      | (simp only [badOf, farOf]
         exact ⟨trivial, trivial, by decide, UnionBroken.of_check (by decide +kernel)⟩)
  · rintro ⟨a', b', h1, h2, h3, c, h4, h5⟩
    by_contra h
    have h6 : ¬ UnionKeepsLeft a' b' = true := by
      cases a' <;> cases a <;> first | exact h1.elim | skip
      all_goals cases b' <;> cases b <;> first | exact h2.elim | exact h
    obtain ⟨d, h7, h8⟩ := C116_union (.inner a') (.inner b') (fun h => absurd h h6) (fun _ => h3)
    rw [h4] at h7
    cases h7
    exact h5 h8

/-- C116. A broken right operand can break a union with a normal left operand exactly for the types in
the table. -/
theorem C116_union_right_iff (a b : Inner Int) :
    UnionKeepsRight a b = true ↔
      ∃ a' b', a'.SameType a ∧ b'.SameType b ∧ a'.Normal ∧ UnionBroken a' b' := by
  constructor
  · intro h
    refine ⟨farOf a, badOf b, ?_⟩
    cases a <;> cases b <;> first
      | (exfalso; revert h; simp [UnionKeepsRight]; done)
      | (simp only [badOf, farOf]
         exact ⟨trivial, trivial, by decide, UnionBroken.of_check (by decide +kernel)⟩)
  · rintro ⟨a', b', h1, h2, h3, c, h4, h5⟩
    by_contra h
    have h6 : ¬ UnionKeepsRight a' b' = true := by
      cases a' <;> cases a <;> first | exact h1.elim | skip
      all_goals cases b' <;> cases b <;> first | exact h2.elim | exact h
    obtain ⟨d, h7, h8⟩ := C116_union (.inner a') (.inner b') (fun _ => h3) (fun h => absurd h h6)
    rw [h4] at h7
    cases h7
    exact h5 h8

/-- C116. A broken left operand can break an intersection with a normal right operand exactly for the types in
the table. -/
theorem C116_inter_left_iff (a b : Inner Int) :
    InterKeepsLeft a b = true ↔
      ∃ a' b', a'.SameType a ∧ b'.SameType b ∧ b'.Normal ∧ InterBroken a' b' := by
  constructor
  · intro h
    refine ⟨badOf a, coverOf b, ?_⟩
    cases a <;> cases b <;> first
      | (exfalso; revert h; simp [InterKeepsLeft]; done)
      | (simp only [badOf, coverOf]
         exact ⟨trivial, trivial, by decide, InterBroken.of_check (by decide +kernel)⟩)
  · rintro ⟨a', b', h1, h2, h3, c, h4, h5⟩
    by_contra h
    have h6 : ¬ InterKeepsLeft a' b' = true := by
      cases a' <;> cases a <;> first | exact h1.elim | skip
      all_goals cases b' <;> cases b <;> first | exact h2.elim | exact h
    obtain ⟨d, h7, h8⟩ := C116_inter (.inner a') (.inner b') (fun h => absurd h h6) (fun _ => h3)
    rw [h4] at h7
    cases h7
    exact h5 h8

/-- C116. A broken right operand can break an intersection with a normal left operand exactly for the types in
the table. -/
theorem C116_inter_right_iff (a b : Inner Int) :
    InterKeepsRight a b = true ↔
      ∃ a' b', a'.SameType a ∧ b'.SameType b ∧ a'.Normal ∧ InterBroken a' b' := by
  constructor
  · intro h
    refine ⟨coverOf a, badOf b, ?_⟩
    cases a <;> cases b <;> first
      | (exfalso; revert h; simp [InterKeepsRight, InterKeepsLeft]; done)
      | (simp only [badOf, coverOf]
         exact ⟨trivial, trivial, by decide, InterBroken.of_check (by decide +kernel)⟩)
  · rintro ⟨a', b', h1, h2, h3, c, h4, h5⟩
    by_contra h
    have h6 : ¬ InterKeepsRight a' b' = true := by
      cases a' <;> cases a <;> first | exact h1.elim | skip
      all_goals cases b' <;> cases b <;> first | exact h2.elim | exact h
    obtain ⟨d, h7, h8⟩ := C116_inter (.inner a') (.inner b') (fun _ => h3) (fun h => absurd h h6)
    rw [h4] at h7
    cases h7
    exact h5 h8

example : UnionBroken (.bs bad) (.br (Samples.co 10 12)) ∧ InterBroken (.bs bad) (.br (Samples.co 0 20)) :=
  ⟨.of_check (by decide +kernel), .of_check (by decide +kernel)⟩

end Rangetools
