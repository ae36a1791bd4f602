import Verif.Spec.TExpr
import Verif.Props.Dispatch
import Verif.Props.Region

/-!
# C82: whole expressions at their types
-/

namespace Rangetools
open Samples

section
variable {T : Type} [LE T] [LT T] [DecidableLE T] [DecidableLT T] [Ord T] [BEq T]

/-- C82. Running a typed expression through the impls is running it through the dispatcher: the type computed by the
tables is the type of the result. -/
theorem C82_eval {a : Ty} (e : TExpr T a) : a.embed <$> e.eval = e.erase.eval := by
  induction e with
  | val a x => rfl
  | toInner e ih =>
    rw [TExpr.erase, Expr.eval, ← ih, TExpr.eval]
    cases e.eval with
    | panic m => rfl
    | ok x => exact congrArg Res.ok (C79_tools _ x).2.1
  | toSet e ih =>
    rw [TExpr.erase, Expr.eval, ← ih, TExpr.eval]
    cases e.eval with
    | panic m => rfl
    | ok x => exact congrArg Res.ok (C79_tools _ x).2.2
  | union e f ih ih' =>
    rw [TExpr.erase, Expr.eval, ← ih, ← ih', TExpr.eval]
    cases e.eval with
    | panic m => rfl
    | ok x =>
      cases f.eval with
      | panic m => rfl
      | ok y => exact C79_union _ _ x y
  | inter e f ih ih' =>
    rw [TExpr.erase, Expr.eval, ← ih, ← ih', TExpr.eval]
    cases e.eval with
    | panic m => rfl
    | ok x =>
      cases f.eval with
      | panic m => rfl
      | ok y => exact C79_inter _ _ x y
  | complement e ih =>
    rw [TExpr.erase, Expr.eval, ← ih, TExpr.eval]
    cases e.eval with
    | panic m => rfl
    | ok x => exact C79_complement _ x

end

variable {T : Type} [LinearOrder T]

/-- C82. No typed expression panics. -/
theorem C82_no_panic {a : Ty} (e : TExpr T a) : ∃ v, e.eval = .ok v ∧ e.erase.eval = .ok (a.embed v) := by
  obtain ⟨c, hc⟩ := C05_expr_no_panic e.erase
  have h := C82_eval e
  cases he : e.eval with
  | panic m => rw [he, hc] at h; cases h
  | ok v => exact ⟨v, rfl, by rw [← h, he]; rfl⟩

/-- C82. The members of a typed expression's value are the elements whose spot lies in its meaning (C77). -/
theorem C82_contains {a : Ty} (e : TExpr T a) (hn : e.erase.AllLeaves (fun a => a.toInner.Normal))
    (hf : e.erase.AllLeaves Any.Fresh) :
    ∃ v, e.eval = .ok v ∧ ∀ t, a.contains v t = true ↔ spot t 2 ∈ e.erase.region.inside := by
  obtain ⟨v, hv, hv'⟩ := C82_no_panic e
  obtain ⟨w, hw, hm⟩ := C77_contains e.erase hn hf
  obtain rfl : w = a.embed v := by rw [hw] at hv'; injection hv'
  exact ⟨v, hv, fun t => by rw [C79_contains, hm]⟩

/-- C82. Where no intersection loses anything they are the solutions of the Boolean formula. -/
theorem C82_denotes {a : Ty} (e : TExpr T a) (hf : e.erase.AllLeaves Any.Fresh) (hl : e.erase.LosslessInter) :
    ∃ v, e.eval = .ok v ∧ ∀ t, a.contains v t = e.erase.denotes t := by
  obtain ⟨v, hv, hv'⟩ := C82_no_panic e
  obtain ⟨w, hw, hm⟩ := C05_expr_contains_partial e.erase hf hl
  obtain rfl : w = a.embed v := by rw [hw] at hv'; injection hv'
  exact ⟨v, hv, fun t => by rw [C79_contains, hm]⟩

/-- C82. If the types show that no intersection is of two `LowerBoundedSet`s, nothing is lost. -/
theorem C82_safe {a : Ty} (e : TExpr T a) (hf : e.erase.AllLeaves Any.Fresh) (hs : e.Safe) :
    ∃ v, e.eval = .ok v ∧ ∀ t, a.contains v t = e.erase.denotes t := by
  refine C82_denotes e hf ?_
  clear hf
  induction e with
  | val a x => trivial
  | toInner e ih => exact ih hs
  | toSet e ih => exact ih hs
  | union e f ih ih' => exact ⟨ih hs.1, ih' hs.2⟩
  | complement e ih => exact ih hs
  | @inter a b e f ih ih' =>
    refine ⟨ih hs.1, ih' hs.2.1, fun x y hx hy => ?_⟩
    obtain ⟨v, -, hv⟩ := C82_no_panic e
    obtain ⟨w, -, hw⟩ := C82_no_panic f
    obtain rfl : x = a.embed v := by rw [hx] at hv; injection hv
    obtain rfl : y = b.embed w := by rw [hy] at hw; injection hw
    have hab := hs.2.2
    cases a <;> cases b <;> trivial

omit [LinearOrder T] in
theorem TExpr.meet_of {a b : Ty} (hab : ¬(a = .lbs ∧ b = .lbs)) (e : TExpr T a) (f : TExpr T b) :
    e.meet f = .inter e f := by
  cases a <;> cases b <;> first | rfl | exact absurd ⟨rfl, rfl⟩ hab

/-- C82. Rewriting those intersections with complements, which keeps the type and the formula, makes every
expression exact. -/
theorem C82_rewrite {a : Ty} (e : TExpr T a) (hf : e.erase.AllLeaves Any.Fresh) :
    ∃ v, e.rewrite.eval = .ok v ∧ ∀ t, a.contains v t = e.erase.denotes t := by
  have key : e.rewrite.Safe ∧ e.rewrite.erase.AllLeaves Any.Fresh ∧
      ∀ t, e.rewrite.erase.denotes t = e.erase.denotes t := by
    induction e with
    | val a x => exact ⟨trivial, hf, fun _ => rfl⟩
    | toInner e ih => exact ih hf
    | toSet e ih => exact ih hf
    | union e f ih ih' =>
      obtain ⟨h1, h2, h3⟩ := ih hf.1
      obtain ⟨k1, k2, k3⟩ := ih' hf.2
      exact ⟨⟨h1, k1⟩, ⟨h2, k2⟩, fun t => congrArg₂ (· || ·) (h3 t) (k3 t)⟩
    | complement e ih =>
      obtain ⟨h1, h2, h3⟩ := ih hf
      exact ⟨h1, h2, fun t => congrArg (! ·) (h3 t)⟩
    | @inter a b e f ih ih' =>
      obtain ⟨h1, h2, h3⟩ := ih hf.1
      obtain ⟨k1, k2, k3⟩ := ih' hf.2
      by_cases hab : a = .lbs ∧ b = .lbs
      · obtain ⟨rfl, rfl⟩ := hab
        refine ⟨⟨h1, k1⟩, ⟨h2, k2⟩, fun t => ?_⟩
        change (!(!e.rewrite.erase.denotes t || !f.rewrite.erase.denotes t)) = (e.erase.denotes t && f.erase.denotes t)
        rw [h3, k3, Bool.not_or, Bool.not_not, Bool.not_not]
      · rw [TExpr.rewrite, TExpr.meet_of hab]
        exact ⟨⟨h1, k1, hab⟩, ⟨h2, k2⟩, fun t => congrArg₂ (· && ·) (h3 t) (k3 t)⟩
  obtain ⟨v, hv, hm⟩ := C82_safe _ key.2.1 key.1
  exact ⟨v, hv, fun t => by rw [hm, key.2.2]⟩

/-! ### Cases that meet the hypotheses -/

/-- `(0..3).union(5..).intersection((..9).complement())`. -/
def typedExpr : TExpr Int .lbs :=
  .inter (a := .lbs) (b := .lbr) (.union (.val .range ⟨0, 3⟩) (.val .rangeFrom ⟨5⟩)) (.complement (.val .rangeTo ⟨9⟩))

example : typedExpr.Safe ∧ typedExpr.erase.AllLeaves Any.Fresh ∧ typedExpr.erase.AllLeaves (fun a => a.toInner.Normal) :=
  ⟨⟨⟨trivial, trivial⟩, trivial, fun h => nomatch h.2⟩, ⟨⟨trivial, trivial⟩, trivial⟩, ⟨trivial, trivial⟩, trivial⟩

example : typedExpr.eval = .ok ⟨⟨[]⟩, ci 9⟩ := by decide +kernel

/-- `badExpr` of C05, typed: `(-5..-3).union(0..).intersection((1..3).union(10..))`. -/
def typedBad : TExpr Int .lbs :=
  .inter (a := .lbs) (b := .lbs) (.union (.val .range ⟨-5, -3⟩) (.val .rangeFrom ⟨0⟩))
    (.union (.val .range ⟨1, 3⟩) (.val .rangeFrom ⟨10⟩))

-- as written `1..3` is lost, rewritten it is not
example : typedBad.eval = .ok ⟨⟨[]⟩, ci 10⟩ ∧ typedBad.rewrite.eval = .ok ⟨⟨[co 1 3]⟩, ci 10⟩ := by
  refine ⟨by decide +kernel, by decide +kernel⟩

example : typedBad.erase.AllLeaves Any.Fresh ∧ ¬typedBad.Safe :=
  ⟨⟨⟨trivial, trivial⟩, trivial, trivial⟩, fun h => h.2.2 ⟨rfl, rfl⟩⟩

end Rangetools
