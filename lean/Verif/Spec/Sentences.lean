import Verif.Spec.Terms

/-!
# Sentences about expressions

Statements made of `==`, `is_empty` and `contains` with "not" and "and", about expressions over variables of all types and
about elements, which can be compared; `disjoint` and `intersects` are `is_empty` of an intersection.  Whether a sentence is
true of all values is found by a search along the line from above to below, as in `Spec/Terms`, that also remembers which
drawings have differed so far, what was drawn at the elements passed so far, and which of them were passed first.
-/

namespace Rangetools

/-- A statement about expressions. -/
inductive Sentence where
  | eq (e f : Term)
  | isEmpty (e : Term)
  /-- an element is in the value -/
  | mem (j : Nat) (e : Term)
  /-- an element is less than another -/
  | lt (i j : Nat)
  | not (s : Sentence)
  | and (s t : Sentence)
  deriving DecidableEq

namespace Sentence

/-- One of the two. -/
def or (s t : Sentence) : Sentence := not (and (not s) (not t))

/-- If the one, then the other. -/
def imp (s t : Sentence) : Sentence := not (and s (not t))

/-- Both or none. -/
def iff (s t : Sentence) : Sentence := and (imp s t) (imp t s)

/-- What the sentence says of a choice of values and elements. -/
def Holds {T : Type} [LE T] [LT T] [DecidableLE T] [DecidableLT T] [Ord T] [BEq T] (σ : Nat → Any T) (τ : Nat → T) :
    Sentence → Prop
  | eq e f => ∃ v w, (e.expr σ).eval = .ok v ∧ (f.expr σ).eval = .ok w ∧ v.toInner = w.toInner
  | isEmpty e => ∃ v, (e.expr σ).eval = .ok v ∧ v.isEmpty = true
  | mem j e => ∃ v, (e.expr σ).eval = .ok v ∧ v.contains (τ j) = true
  | lt i j => τ i < τ j
  | not s => ¬ s.Holds σ τ
  | and s t => s.Holds σ τ ∧ t.Holds σ τ

/-- A number above all variables. -/
def vars : Sentence → Nat
  | eq e f => max e.vars f.vars
  | isEmpty e => e.vars
  | mem _ e => e.vars
  | lt _ _ => 0
  | not s => s.vars
  | and s t => max s.vars t.vars

/-- A number above all elements. -/
def elems : Sentence → Nat
  | eq _ _ => 0
  | isEmpty _ => 0
  | mem j _ => j + 1
  | lt i j => max (i + 1) (j + 1)
  | not s => s.elems
  | and s t => max s.elems t.elems

/-! ### The search -/

/-- The pairs of drawings a sentence compares. -/
def pairs (κ : Nat → Option Shape) : Sentence → List (Core × Core)
  | eq e f => [((e.core κ).1, (f.core κ).1), ((e.core κ).2, (f.core κ).2)]
  | isEmpty e => [(e.inside κ, .const false)]
  | mem _ _ => []
  | lt _ _ => []
  | not s => s.pairs κ
  | and s t => s.pairs κ ++ t.pairs κ

/-- The elements a sentence asks for, and the drawings it asks for them in. -/
def places (κ : Nat → Option Shape) : Sentence → List (Nat × Core)
  | eq _ _ => []
  | isEmpty _ => []
  | mem j e => [(j, e.inside κ)]
  | lt _ _ => []
  | not s => s.places κ
  | and s t => s.places κ ++ t.places κ

/-- The pairs of elements a sentence compares. -/
def orders : Sentence → List (Nat × Nat)
  | eq _ _ => []
  | isEmpty _ => []
  | mem _ _ => []
  | lt i j => [(i, j)]
  | not s => s.orders
  | and s t => s.orders ++ t.orders

/-- Whether a sentence is true, given which drawings differ, what is drawn at the elements, and which are less. -/
def truth (κ : Nat → Option Shape) (d : Core × Core → Bool) (p : Nat × Core → Bool) (r : Nat × Nat → Bool) : Sentence → Bool
  | eq e f => e.shape κ == f.shape κ && !d ((e.core κ).1, (f.core κ).1) && !d ((e.core κ).2, (f.core κ).2)
  | isEmpty e => !d (e.inside κ, .const false)
  | mem j e => p (j, e.inside κ)
  | lt i j => r (i, j)
  | not s => !s.truth κ d p r
  | and s t => s.truth κ d p r && t.truth κ d p r

end Sentence

namespace Core

/-- Which drawings differ around a cut. -/
def differ (m : Memory) (v : Nat → Germ) (q : Core × Core) : Bool := q.1.atCut m v != q.2.atCut m v

/-- What is known of these pairs. -/
def known {α : Type} [BEq α] (Q : List α) (f : List Bool) (q : α) : Bool := ((Q.zip f).lookup q).getD false

/-- What may be remembered after the next cut, together with which pairs have differed. -/
def afterPairs (l : List Core) (Q : List (Core × Core)) (k : Nat) (ℓ : Nat → Line) (x : List (Bool × Bool) × List Bool) :
    List (List (Bool × Bool) × List Bool) :=
  (cuts k ℓ (look l x.1)).map fun xs =>
    (l.map (belowCut (look l x.1) fun n => xs.getD n .nothing),
      Q.map fun q => known Q x.2 q || differ (look l x.1) (fun n => xs.getD n .nothing) q)

/-- Some of the elements not passed yet are passed, from the `n`-th on. -/
def marks {α : Type} (w : Nat → α) : Nat → List (Option α) → List (List (Option α))
  | _, [] => [[]]
  | n, some u :: s => (marks w (n + 1) s).map (some u :: ·)
  | n, none :: s => (marks w (n + 1) s).map (none :: ·) ++ (marks w (n + 1) s).map (some (w n) :: ·)

/-- What is remembered: the memory, which pairs of drawings have differed, what was drawn at the elements passed so far, and
which pairs of elements were passed one after the other. -/
abbrev Note := (List (Bool × Bool) × List Bool) × List (Option (List Bool)) × List Bool

/-- What is drawn at an element between two cuts, where the sentence asks for it. -/
def drawnThere (P : List (Nat × Core)) (m : Memory) (j : Nat) : List Bool := P.map fun q => q.1 == j && (m q.2).1

/-- What may be remembered after some elements above the next cut and that cut. -/
def afterAll (l : List Core) (Q : List (Core × Core)) (P : List (Nat × Core)) (R : List (Nat × Nat)) (k : Nat)
    (ℓ : Nat → Line) (x : Note) : List Note :=
  (marks (drawnThere P (look l x.1.1)) 0 x.2.1).flatMap fun s => (afterPairs l Q k ℓ x.1).map fun y =>
    (y, s, R.map fun q => known R x.2.2 q || (s.getD q.2 none).isSome && (s.getD q.1 none).isNone)

/-- All that can be remembered. -/
def searchAll (l : List Core) (Q : List (Core × Core)) (P : List (Nat × Core)) (J : Nat) (R : List (Nat × Nat)) (k : Nat)
    (ℓ : Nat → Line) : List Note :=
  Formula.closure (afterAll l Q P R k ℓ) (4 ^ l.length * 2 ^ Q.length * ((2 ^ P.length + 1) ^ J * 2 ^ R.length))
    [((l.map (aboveAll ℓ), Q.map fun _ => false), List.replicate J none, R.map fun _ => false)]

/-- Whether all variables are as they have to be below all cuts. -/
def ended (k : Nat) (ℓ : Nat → Line) (m : Memory) : Bool := (List.range k).all fun n => (m (var n)).1 == (ℓ n).down

end Core

/-- Whether the sentence is true at the end of every scan; the elements not passed by then are below all cuts. -/
def Sentence.valid (s : Sentence) (κ : Nat → Option Shape) : Bool :=
  let Q := Formula.addNew [] (s.pairs κ)
  let P := Formula.addNew [] (s.places κ)
  let R := Formula.addNew [] s.orders
  let k := 2 * s.vars
  let l := Core.allParts ((List.range k).map .var ++ Q.flatMap (fun q => [q.1, q.2]) ++ P.map Prod.snd)
  (Core.searchAll l Q P s.elems R k (Shape.line κ)).all fun x => (Core.afterAll l Q P R k (Shape.line κ) x).all fun y =>
    !Core.ended k (Shape.line κ) (Core.look l y.1.1) ||
      s.truth κ (Core.known Q y.1.2) (fun q => Core.known P ((y.2.1.getD q.1 none).getD (Core.drawnThere P (Core.look l y.1.1) q.1)) q)
        (Core.known R y.2.2)

end Rangetools
