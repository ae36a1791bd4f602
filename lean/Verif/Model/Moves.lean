import Verif.Model.InterCost

/-!
# How many elements a `VecDeque` moves

A `VecDeque` is a ring buffer, so `push`, `pop`, and insertions and removals at the ends move nothing, while
`insert` and `remove` in the middle shift the shorter of the two sides by one place.  The functions here follow
the same branches as the model and count the elements shifted.  Growing the buffer is not counted.
-/

set_option linter.unusedVariables false

namespace Rangetools
variable {T : Type} [LE T] [LT T] [DecidableLE T] [DecidableLT T] [Ord T] [BEq T]

/-- Elements shifted by `VecDeque::insert(index, _)` on a deque of `len` elements: those at or after `index`, or
those before it when they are fewer (a fact about the standard library, taken on trust). -/
def vdInsertMoves (len index : Nat) : Nat := min index (len - index)

/-- Elements shifted by `VecDeque::remove(index)` on a deque of `len` elements: those after `index`, or those
before it when they are fewer (a fact about the standard library, taken on trust). -/
def vdRemoveMoves (len index : Nat) : Nat := min index (len - 1 - index)

/-- Elements swapped forward by `VecDeque::retain(p)`: those kept after the first that is dropped (a fact
about the standard library, taken on trust). -/
def vdRetainMoves {α : Type} (l : List α) (p : α → Bool) : Nat := ((l.dropWhile p).filter p).length

/-- Elements shifted by `BoundedSet::add_range` with all its nested activations: by `remove` and by `insert`,
/repo/src/bounded_set.rs:68, 76. -/
def BoundedSet.addRangeMoves (self : BoundedSet T) (r : BoundedRange T) : Nat :=
  if !r.isEmpty then
    match h : self.ranges.findIdx? (fun range => range.intersectsBR r) with
    | some index =>
        match vdIndex self.ranges index >>= r.combine with
        | .ok newRange =>
            vdRemoveMoves self.ranges.length index + addRangeMoves ⟨self.ranges.eraseIdx index⟩ newRange
        | .panic _ => 0
    | none =>
        vdInsertMoves self.ranges.length
          ((self.ranges.findIdx? (fun range => range.start.gt r.start)).getD self.ranges.length)
  else 0
termination_by self.ranges.length
decreasing_by
  have := (List.findIdx?_eq_some_iff_findIdx_eq.mp h).1
  rw [List.length_eraseIdx_of_lt this]
  omega

/-- Elements shifted in `for range in ranges { self.add_range(range) }`, /repo/src/bounded_set.rs:80-84. -/
def BoundedSet.addAllMoves (self : BoundedSet T) : List (BoundedRange T) → Nat
  | [] => 0
  | r :: rs => self.addRangeMoves r + match self.addRange r with
      | .ok s => s.addAllMoves rs
      | .panic _ => 0

/-- Elements shifted by `add_range` in the loop of `BoundedSet ∩ BoundedSet`,
/repo/src/implementations/intersection/bounded_set.rs:30-33. -/
def BoundedSet.interLoopMoves (set other : BoundedSet T) : List (BoundedRange T) → Nat
  | [] => 0
  | r :: rs => set.addAllMoves (r.interBS other).ranges + match set.addSet (r.interBS other) with
      | .ok s => s.interLoopMoves other rs
      | .panic _ => 0

/-- Elements swapped by the `retain`s of the same loop: one in each `BoundedSet ∩ BoundedRange`, after its pieces
have been met with the range, /repo/src/implementations/intersection/bounded_set.rs:15-18. -/
def BoundedSet.interLoopSwaps (other : BoundedSet T) : List (BoundedRange T) → Nat
  | [] => 0
  | r :: rs => vdRetainMoves (other.ranges.map fun p => p.interBR r) (fun q => !q.isEmpty)
      + interLoopSwaps other rs

/-- Elements shifted by `PiecewiseUnboundedSet::defragment` with all its nested activations,
/repo/src/unbounded_set.rs:56, 65. -/
def PiecewiseUnboundedSet.defragmentMoves (self : PiecewiseUnboundedSet T) : Nat :=
  match h : self.ranges.ranges.findIdx? (fun r => self.upperBoundedRange.intersectsBR r) with
  | some index =>
      match self.ranges.ranges[index]? with
      | some range =>
          vdRemoveMoves self.ranges.ranges.length index + defragmentMoves
            { self with
              ranges := ⟨self.ranges.ranges.eraseIdx index⟩
              upperBoundedRange := ⟨self.upperBoundedRange.stop.max range.stop⟩ }
      | none => 0
  | none =>
      match h' : self.ranges.ranges.findIdx? (fun r => self.lowerBoundedRange.intersectsBR r) with
      | some index =>
          match self.ranges.ranges[index]? with
          | some range =>
              vdRemoveMoves self.ranges.ranges.length index + defragmentMoves
                { self with
                  ranges := ⟨self.ranges.ranges.eraseIdx index⟩
                  lowerBoundedRange := ⟨self.lowerBoundedRange.start.min range.start⟩ }
          | none => 0
      | none => 0
termination_by self.ranges.ranges.length
decreasing_by
  · have := (List.findIdx?_eq_some_iff_findIdx_eq.mp h).1
    simp only [List.length_eraseIdx_of_lt this]
    omega
  · have := (List.findIdx?_eq_some_iff_findIdx_eq.mp h').1
    simp only [List.length_eraseIdx_of_lt this]
    omega

end Rangetools
