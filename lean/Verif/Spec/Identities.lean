import Verif.Spec.Region

/-!
# Identities between formulas

A formula of unions, intersections and complements of variables stands for one expression for every choice of values
for the variables.  Whether two formulas always have equal values can be found out by computing with five values: what
may be covered around a cut.
-/

namespace Rangetools

/-- A formula over numbered variables. -/
inductive Formula where
  | var (n : Nat)
  | union (e f : Formula)
  | inter (e f : Formula)
  | complement (e : Formula)
  deriving DecidableEq

namespace Formula

/-- The expression for a choice of values. -/
def expr {T : Type} (σ : Nat → Any T) : Formula → Expr T
  | var n => .leaf (σ n)
  | union e f => .union (e.expr σ) (f.expr σ)
  | inter e f => .inter (e.expr σ) (f.expr σ)
  | complement e => .complement (e.expr σ)

/-- No intersection in the formula. -/
def NoInter : Formula → Prop
  | var _ => True
  | union e f => e.NoInter ∧ f.NoInter
  | inter _ _ => False
  | complement e => e.NoInter

/-- The formula as one of propositional logic. -/
def truth (v : Nat → Bool) : Formula → Bool
  | var n => v n
  | union e f => e.truth v || f.truth v
  | inter e f => e.truth v && f.truth v
  | complement e => !e.truth v

/-- No intersection is of two `LowerBoundedSet`s, if `down n` and `up n` say whether variable `n` goes on without end in
these directions.  (A formula goes on in a direction if it is true of what happens there.) -/
def Safe (down up : Nat → Bool) : Formula → Prop
  | var _ => True
  | union e f => e.Safe down up ∧ f.Safe down up
  | inter e f => e.Safe down up ∧ f.Safe down up ∧
      ¬ (e.truth down = false ∧ e.truth up = true ∧ f.truth down = false ∧ f.truth up = true)
  | complement e => e.Safe down up

/-- A number above all variables. -/
def vars : Formula → Nat
  | var n => n + 1
  | union e f | inter e f => max e.vars f.vars
  | complement e => e.vars

end Formula

/-- What is covered around a cut: nothing, the side before it, the side after it, both sides but not the cut itself, or
everything. -/
inductive Germ where
  | nothing
  | before
  | after
  | sides
  | everything
  deriving DecidableEq

namespace Germ

/-- Is the side before the cut covered? -/
def left : Germ → Bool
  | before | sides | everything => true
  | _ => false

/-- Is the side after the cut covered? -/
def right : Germ → Bool
  | after | sides | everything => true
  | _ => false

/-- Is the cut itself covered? -/
def middle : Germ → Bool
  | everything => true
  | _ => false

/-- The value with these sides, and the cut if `m`. -/
def of (l m r : Bool) : Germ :=
  if m then everything
  else match l, r with
    | true, true => sides
    | true, false => before
    | false, true => after
    | false, false => nothing

/-- What either covers: two sides do not make a cut. -/
def union (a b : Germ) : Germ := of (a.left || b.left) (a.middle || b.middle) (a.right || b.right)

/-- What both cover. -/
def inter (a b : Germ) : Germ := of (a.left && b.left) (a.middle && b.middle) (a.right && b.right)

/-- The sides not covered, and the cut if both are not. -/
def complement (a : Germ) : Germ := of (!a.left) (!a.left && !a.right) (!a.right)

/-- All five. -/
def all : List Germ := [nothing, before, after, sides, everything]

end Germ

namespace Formula

/-- The value of the formula among the five. -/
def germ (v : Nat → Germ) : Formula → Germ
  | var n => v n
  | union e f => (e.germ v).union (f.germ v)
  | inter e f => (e.germ v).inter (f.germ v)
  | complement e => (e.germ v).complement

/-- All choices for `n` variables. -/
def choices {α : Type} (l : List α) : Nat → List (List α)
  | 0 => [[]]
  | n + 1 => (choices l n).flatMap fun xs => l.map (· :: xs)

/-- Try all choices of the five values. -/
def sameValues (e f : Formula) : Bool :=
  (choices Germ.all (max e.vars f.vars)).all fun xs =>
    e.germ (fun n => xs.getD n .nothing) == f.germ (fun n => xs.getD n .nothing)

/-- Try all choices of truth values. -/
def sameMembers (e f : Formula) : Bool :=
  (choices [false, true] (max e.vars f.vars)).all fun xs =>
    e.truth (fun n => xs.getD n false) == f.truth (fun n => xs.getD n false)

end Formula

/-- Does the type of this set go on without end towards smaller elements? -/
def Inner.goesDown {T : Type} : Inner T → Bool
  | .ubs _ | .us _ => true
  | _ => false

/-- Does the type of this set go on without end towards greater elements? -/
def Inner.goesUp {T : Type} : Inner T → Bool
  | .lbs _ | .us _ => true
  | _ => false

end Rangetools
