import Verif.Spec.Scan

/-!
# Identities between expressions over all types

`Spec/Scan` is about variables that stand for sets.  A single range is more: an empty `BoundedRange` remembers its bounds,
and an intersection with a single range never drops anything.  Here the variables stand for any of the types.  A single
range is drawn as two half-lines, a set as one drawing; the operations then say which drawings the result has.
-/

namespace Rangetools

/-- An expression over numbered variables. -/
inductive Term where
  | var (n : Nat)
  | toInner (e : Term)
  | toSet (e : Term)
  | union (e f : Term)
  | inter (e f : Term)
  | complement (e : Term)
  deriving DecidableEq

/-- The expression for a choice of values. -/
def Term.expr {T : Type} (σ : Nat → Any T) : Term → Expr T
  | var n => .leaf (σ n)
  | toInner e => .toInner (e.expr σ)
  | toSet e => .toSet (e.expr σ)
  | union e f => .union (e.expr σ) (f.expr σ)
  | inter e f => .inter (e.expr σ) (f.expr σ)
  | complement e => .complement (e.expr σ)

/-- A number above all variables. -/
def Term.vars : Term → Nat
  | var n => n + 1
  | union e f | inter e f => max e.vars f.vars
  | toInner e | toSet e | complement e => e.vars

/-! ### Types -/

/-- The type of `to_set`. -/
def Shape.toSet : Option Shape → Option Shape
  | none => none
  | some k => if k.below || k.above then some { k with set := true } else some k

/-- The type of `union`: `EmptyRange` is neutral, `UnboundedRange` absorbs, otherwise a set with a bound where both have
one. -/
def Shape.union : Option Shape → Option Shape → Option Shape
  | none, k => k
  | j, none => j
  | some j, some k =>
    let s := (j.set || j.below || j.above) && (k.set || k.below || k.above)
    some ⟨s, s && j.below && k.below, s && j.above && k.above⟩

/-- The type of the value, given those of the variables. -/
def Term.shape (κ : Nat → Option Shape) : Term → Option Shape
  | var n => κ n
  | toInner e => e.shape κ
  | toSet e => Shape.toSet (e.shape κ)
  | union e f => Shape.union (e.shape κ) (f.shape κ)
  | inter e f => Shape.inter (e.shape κ) (f.shape κ)
  | complement e => Shape.complement (e.shape κ)

/-! ### Drawings -/

/-- How a drawing is made from others. -/
inductive Core where
  | const (b : Bool)
  | var (n : Nat)
  | union (e f : Core)
  | inter (e f : Core)
  | lossy (e f : Core)
  | complement (e : Core)
  deriving DecidableEq

namespace Core

/-- What both cover. -/
def meet (a b : Core) : Core :=
  if a = b then a else if a = const true then b else if b = const true then a else inter a b

/-- What one of the two does not cover. -/
def apart (a b : Core) : Core :=
  if a = b then complement a else if a = const true then complement b else if b = const true then complement a
  else union (complement a) (complement b)

/-- The part itself and its parts. -/
def parts : Core → List Core
  | const b => [const b]
  | var n => [var n]
  | union e f => union e f :: (e.parts ++ f.parts)
  | inter e f => inter e f :: (e.parts ++ f.parts)
  | lossy e f => lossy e f :: (e.parts ++ f.parts)
  | complement e => complement e :: e.parts

end Core

/-- A single range is the intersection of two half-lines; of a set, both are the set itself. -/
def Term.core (κ : Nat → Option Shape) : Term → Core × Core
  | var n =>
    match κ n with
    | none => (.const false, .const false)
    | some k =>
      if k.set then (.var (2 * n), .var (2 * n))
      else (if k.below then .var (2 * n) else .const true, if k.above then .var (2 * n + 1) else .const true)
  | toInner e => e.core κ
  | toSet e =>
    let a := e.core κ
    (Core.meet a.1 a.2, Core.meet a.1 a.2)
  | union e f =>
    let a := e.core κ
    let b := f.core κ
    match e.shape κ, f.shape κ with
    | none, _ => b
    | _, none => a
    | _, _ => let c := Core.union (Core.meet a.1 a.2) (Core.meet b.1 b.2); (c, c)
  | inter e f =>
    let a := e.core κ
    let b := f.core κ
    if e.shape κ = some Shape.lbs ∧ f.shape κ = some Shape.lbs then
      let c := Core.lossy (Core.meet a.1 a.2) (Core.meet b.1 b.2); (c, c)
    else if (e.shape κ).any (·.set) || (f.shape κ).any (·.set) then
      let c := Core.meet (Core.meet a.1 a.2) (Core.meet b.1 b.2); (c, c)
    else (Core.meet a.1 b.1, Core.meet a.2 b.2)
  | complement e =>
    let a := e.core κ
    let c := Core.apart a.1 a.2
    match Shape.complement (e.shape κ) with
    | some ⟨false, true, false⟩ => (c, .const true)
    | some ⟨false, false, true⟩ => (.const true, c)
    | _ => (c, c)

/-- What the value covers. -/
def Term.inside (κ : Nat → Option Shape) (e : Term) : Core := Core.meet (e.core κ).1 (e.core κ).2

/-! ### What may be drawn -/

/-- What a variable may be: nothing at all, a set that goes on without end downwards or upwards or not, a half-line
upwards, a half-line downwards. -/
inductive Line where
  | unused
  | set (down up : Bool)
  | rising
  | falling
  deriving DecidableEq

/-- Is the far end above covered? -/
def Line.up : Line → Bool
  | unused => false
  | set _ u => u
  | rising => true
  | falling => false

/-- Is the far end below covered? -/
def Line.down : Line → Bool
  | unused => false
  | set d _ => d
  | rising => false
  | falling => true

/-- What may be covered around a cut, given whether the place above it is. -/
def Line.moves : Line → Bool → List Germ
  | unused, _ => [.nothing]
  | set _ _, b => Formula.follow b
  | rising, b => if b then [.after, .everything] else [.nothing]
  | falling, b => if b then [.everything] else [.nothing, .before]

/-- The drawings of the variables. -/
def Shape.line (κ : Nat → Option Shape) (m : Nat) : Line :=
  match κ (m / 2) with
  | none => .unused
  | some k =>
    if k.set then (if m % 2 = 0 then .set (!k.below) (!k.above) else .unused)
    else if m % 2 = 0 then (if k.below then .rising else .unused) else (if k.above then .falling else .unused)

/-! ### From above to below -/

namespace Core

/-- Above all cuts. -/
def truth (up : Nat → Bool) : Core → Bool
  | const b => b
  | var n => up n
  | union e f => e.truth up || f.truth up
  | inter e f | lossy e f => e.truth up && f.truth up
  | complement e => !e.truth up

/-- What is remembered of a drawing between two cuts: whether this place is covered, and whether everything from here on
is. -/
abbrev Memory := Core → Bool × Bool

/-- What is covered around the next cut below, when the variables cover `v` there. -/
def atCut (m : Memory) (v : Nat → Germ) : Core → Germ
  | const b => if b then .everything else .nothing
  | var n => v n
  | union e f => (e.atCut m v).union (f.atCut m v)
  | inter e f => (e.atCut m v).inter (f.atCut m v)
  | lossy e f =>
      let a := e.atCut m v
      let b := f.atCut m v
      let r := !(m e).2 || (m f).2
      let c := !((m e).2 && a.middle) || ((m f).2 && b.middle)
      let l := !((m e).2 && a.middle && a.left) || ((m f).2 && b.middle && b.left)
      .of (a.left && b.left && l) (a.middle && b.middle && c) (a.right && b.right && r)
  | complement e => (e.atCut m v).complement

/-- The memory below the cut. -/
def belowCut (m : Memory) (v : Nat → Germ) : Memory := fun e =>
  let g := e.atCut m v
  (g.left, (m e).2 && g.middle && g.left)

/-- The memory above all cuts. -/
def aboveAll (ℓ : Nat → Line) : Memory := fun e => (e.truth fun n => (ℓ n).up, e.truth fun n => (ℓ n).up)

/-- The memories that can come up, with `k` variables. -/
inductive Scanned (k : Nat) (ℓ : Nat → Line) : Memory → Prop
  | start : Scanned k ℓ (aboveAll ℓ)
  | step {m : Memory} {v : Nat → Germ} : Scanned k ℓ m → (∀ n < k, v n ∈ (ℓ n).moves (m (var n)).1) →
      Scanned k ℓ (belowCut m v)

/-! ### The search -/

/-- The memory of these drawings. -/
def look (l : List Core) (w : List (Bool × Bool)) : Memory := fun e => ((l.zip w).lookup e).getD (false, false)

/-- The choices at the next cut. -/
def cuts (k : Nat) (ℓ : Nat → Line) (m : Memory) : List (List Germ) :=
  Formula.picks (fun n => (ℓ n).moves (m (var n)).1) k

/-- What may be remembered after the next cut. -/
def after (l : List Core) (k : Nat) (ℓ : Nat → Line) (w : List (Bool × Bool)) : List (List (Bool × Bool)) :=
  (cuts k ℓ (look l w)).map fun xs => l.map (belowCut (look l w) fun n => xs.getD n .nothing)

/-- All memories of these drawings that can come up. -/
def search (l : List Core) (k : Nat) (ℓ : Nat → Line) : List (List (Bool × Bool)) :=
  Formula.closure (after l k ℓ) (4 ^ l.length) [l.map (aboveAll ℓ)]

/-- The drawings a test has to follow. -/
def allParts (l : List Core) : List Core := Formula.addNew [] (l.flatMap parts)

end Core

namespace Term

/-- Do the expressions have the same type, and the same drawings at all cuts the search finds? -/
def sameValues (κ : Nat → Option Shape) (e f : Term) : Bool :=
  let a := e.core κ
  let b := f.core κ
  let l := Core.allParts [a.1, a.2, b.1, b.2]
  let k := 2 * max e.vars f.vars
  e.shape κ == f.shape κ && (Core.search l k (Shape.line κ)).all fun w =>
    (Core.cuts k (Shape.line κ) (Core.look l w)).all fun xs =>
      a.1.atCut (Core.look l w) (fun n => xs.getD n .nothing) == b.1.atCut (Core.look l w) (fun n => xs.getD n .nothing) &&
        a.2.atCut (Core.look l w) (fun n => xs.getD n .nothing) == b.2.atCut (Core.look l w) fun n => xs.getD n .nothing

/-- Do the expressions cover the same places between cuts? -/
def sameMembers (κ : Nat → Option Shape) (e f : Term) : Bool :=
  let l := Core.allParts [e.inside κ, f.inside κ]
  (Core.search l (2 * max e.vars f.vars) (Shape.line κ)).all fun w =>
    (Core.look l w (e.inside κ)).1 == (Core.look l w (f.inside κ)).1

/-- The nine types. -/
def types : List (Option Shape) :=
  [none, some ⟨false, true, true⟩, some ⟨false, true, false⟩, some ⟨false, false, true⟩, some ⟨false, false, false⟩,
    some ⟨true, true, true⟩, some ⟨true, true, false⟩, some ⟨true, false, true⟩, some ⟨true, false, false⟩]

/-- Whether a test passes for all types of so many variables. -/
def forAllTypes (test : (Nat → Option Shape) → Bool) (k : Nat) : Bool :=
  (Formula.choices types k).all fun t => test fun n => t.getD n none

end Term

end Rangetools
