import Verif.Spec.Identities

/-!
# Identities in which elements may get lost

The intersection of two `LowerBoundedSet`s depends on where their last stretches begin, so a formula with such
intersections cannot be evaluated one cut at a time.  It can be evaluated from above to below, though, with a memory:
for every part of the formula, whether it covers everything from here on.  There are finitely many contents of the
memory, so all that can happen is found by a search.
-/

namespace Rangetools

namespace Formula

/-- Are the values of these two formulas both `LowerBoundedSet`s?  `down n` and `up n` say whether variable `n` goes on
without end in these directions. -/
def loses (down up : Nat → Bool) (e f : Formula) : Bool :=
  !e.truth down && e.truth up && !f.truth down && f.truth up

/-- What is remembered of a formula between two cuts: whether it covers this place, and whether it covers everything from
here on. -/
abbrev Memory := Formula → Bool × Bool

/-- What the formula covers around the next cut below, when the variables cover `v` there. -/
def atCut (down up : Nat → Bool) (m : Memory) (v : Nat → Germ) : Formula → Germ
  | var n => v n
  | union e f => (e.atCut down up m v).union (f.atCut down up m v)
  | inter e f =>
      let a := e.atCut down up m v
      let b := f.atCut down up m v
      if e.loses down up f then
        let r := !(m e).2 || (m f).2
        let c := !((m e).2 && a.middle) || ((m f).2 && b.middle)
        let l := !((m e).2 && a.middle && a.left) || ((m f).2 && b.middle && b.left)
        .of (a.left && b.left && l) (a.middle && b.middle && c) (a.right && b.right && r)
      else a.inter b
  | complement e => (e.atCut down up m v).complement

/-- The memory below the cut. -/
def belowCut (down up : Nat → Bool) (m : Memory) (v : Nat → Germ) : Memory := fun e =>
  let g := e.atCut down up m v
  (g.left, (m e).2 && g.middle && g.left)

/-- The memory above all cuts. -/
def aboveAll (up : Nat → Bool) : Memory := fun e => (e.truth up, e.truth up)

/-- The memories that can come up, with `k` variables. -/
inductive Scanned (k : Nat) (down up : Nat → Bool) : Memory → Prop
  | start : Scanned k down up (aboveAll up)
  | step {m : Memory} {v : Nat → Germ} : Scanned k down up m → (∀ n < k, (v n).right = (m (var n)).1) →
      Scanned k down up (belowCut down up m v)

/-! ### The search -/

/-- The formula and its parts. -/
def parts : Formula → List Formula
  | var n => [var n]
  | union e f => union e f :: (e.parts ++ f.parts)
  | inter e f => inter e f :: (e.parts ++ f.parts)
  | complement e => complement e :: e.parts

/-- The memory of these formulas. -/
def look (l : List Formula) (w : List (Bool × Bool)) : Memory := fun e => ((l.zip w).lookup e).getD (false, false)

/-- The values that variables can have at a cut, given whether they cover the place above it. -/
def follow (b : Bool) : List Germ := if b then [.after, .sides, .everything] else [.nothing, .before]

/-- All choices, with a list for each variable. -/
def picks (o : Nat → List Germ) : Nat → List (List Germ)
  | 0 => [[]]
  | n + 1 => (picks o n).flatMap fun xs => (o n).map fun x => xs ++ [x]

/-- The choices at the next cut. -/
def cuts (k : Nat) (m : Memory) : List (List Germ) := picks (fun n => follow (m (var n)).1) k

/-- What may be remembered after the next cut. -/
def after (l : List Formula) (k : Nat) (down up : Nat → Bool) (w : List (Bool × Bool)) : List (List (Bool × Bool)) :=
  (cuts k (look l w)).map fun xs => l.map (belowCut down up (look l w) fun n => xs.getD n .nothing)

/-- Add what is new. -/
def addNew {α : Type} [BEq α] (l : List α) : List α → List α
  | [] => l
  | x :: xs => addNew (if l.contains x then l else l ++ [x]) xs

/-- Go on with `next` until there is nothing new, but at most so many times. -/
def closure {α : Type} [BEq α] (next : α → List α) : Nat → List α → List α
  | 0, l => l
  | n + 1, l =>
      let l' := addNew l (l.flatMap next)
      if l'.length = l.length then l else closure next n l'

/-- All memories of the two formulas that can come up. -/
def search (e f : Formula) (down up : Nat → Bool) : List (List (Bool × Bool)) :=
  let l := e.parts ++ f.parts
  closure (after l (max e.vars f.vars) down up) (4 ^ l.length) [l.map (aboveAll up)]

/-- Do the formulas have the same values at all cuts the search finds? -/
def sameValuesFor (e f : Formula) (down up : Nat → Bool) : Bool :=
  let l := e.parts ++ f.parts
  let k := max e.vars f.vars
  (search e f down up).all fun w => (cuts k (look l w)).all fun xs =>
    e.atCut down up (look l w) (fun n => xs.getD n .nothing) == f.atCut down up (look l w) fun n => xs.getD n .nothing

/-- Do the formulas cover the same places between cuts? -/
def sameMembersFor (e f : Formula) (down up : Nat → Bool) : Bool :=
  (search e f down up).all fun w => (look (e.parts ++ f.parts) w e).1 == (look (e.parts ++ f.parts) w f).1

/-- All four types for each of so many variables. -/
def kinds (k : Nat) : List (List (Bool × Bool)) :=
  choices [(false, false), (false, true), (true, false), (true, true)] k

/-- Whether a test passes for all types of the variables. -/
def forAllTypes (test : (Nat → Bool) → (Nat → Bool) → Bool) (k : Nat) : Bool :=
  (kinds k).all fun t => test (fun n => (t.getD n (false, false)).1) fun n => (t.getD n (false, false)).2

end Formula

end Rangetools
