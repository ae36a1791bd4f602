import Verif.Model.Sets

/-!
# How deep the recursive functions nest

`BoundedSet::add_range` and `PiecewiseUnboundedSet::defragment` call themselves; Rust does not promise to
turn such calls into loops, so every level may take a stack frame.  These functions follow the same
branches as the model and count the activations; the other loops of the crate are not recursive.
-/

set_option linter.unusedVariables false

namespace Rangetools
variable {T : Type} [LE T] [LT T] [DecidableLE T] [DecidableLT T] [Ord T] [BEq T]

/-- Nested activations of `BoundedSet::add_range`, /repo/src/bounded_set.rs:64-79. -/
def BoundedSet.addRangeDepth (self : BoundedSet T) (r : BoundedRange T) : Nat :=
  if !r.isEmpty then
    match h : self.ranges.findIdx? (fun range => range.intersectsBR r) with
    | some index =>
        match vdIndex self.ranges index >>= r.combine with
        | .ok newRange => addRangeDepth ⟨self.ranges.eraseIdx index⟩ newRange + 1
        | .panic _ => 1
    | none => 1
  else 1
termination_by self.ranges.length
decreasing_by
  have := (List.findIdx?_eq_some_iff_findIdx_eq.mp h).1
  rw [List.length_eraseIdx_of_lt this]
  omega

/-- Nested activations of `PiecewiseUnboundedSet::defragment`, /repo/src/unbounded_set.rs:49-69. -/
def PiecewiseUnboundedSet.defragmentDepth (self : PiecewiseUnboundedSet T) : Nat :=
  match h : self.ranges.ranges.findIdx? (fun r => self.upperBoundedRange.intersectsBR r) with
  | some index =>
      match self.ranges.ranges[index]? with
      | some range =>
          defragmentDepth
            { self with
              ranges := ⟨self.ranges.ranges.eraseIdx index⟩
              upperBoundedRange := ⟨self.upperBoundedRange.stop.max range.stop⟩ } + 1
      | none => 1
  | none =>
      match h' : self.ranges.ranges.findIdx? (fun r => self.lowerBoundedRange.intersectsBR r) with
      | some index =>
          match self.ranges.ranges[index]? with
          | some range =>
              defragmentDepth
                { self with
                  ranges := ⟨self.ranges.ranges.eraseIdx index⟩
                  lowerBoundedRange := ⟨self.lowerBoundedRange.start.min range.start⟩ } + 1
          | none => 1
      | none => 1
termination_by self.ranges.ranges.length
decreasing_by
  · have := (List.findIdx?_eq_some_iff_findIdx_eq.mp h).1
    simp only [List.length_eraseIdx_of_lt this]
    omega
  · have := (List.findIdx?_eq_some_iff_findIdx_eq.mp h').1
    simp only [List.length_eraseIdx_of_lt this]
    omega

/-! ### How often pieces are looked at -/

/-- Elements `Iterator::position` looks at: up to and including the one it finds, or all. -/
def positionTests {α : Type} (l : List α) (p : α → Bool) : Nat :=
  match l.findIdx? p with
  | some i => i + 1
  | none => l.length

/-- Pieces looked at by `BoundedSet::add_range` with all its nested activations: by the search for a piece
that intersects, and by the search for the place to insert, /repo/src/bounded_set.rs:66, 71-75. -/
def BoundedSet.addRangeTests (self : BoundedSet T) (r : BoundedRange T) : Nat :=
  if !r.isEmpty then
    match h : self.ranges.findIdx? (fun range => range.intersectsBR r) with
    | some index =>
        match vdIndex self.ranges index >>= r.combine with
        | .ok newRange => index + 1 + addRangeTests ⟨self.ranges.eraseIdx index⟩ newRange
        | .panic _ => index + 1
    | none => self.ranges.length + positionTests self.ranges (fun range => range.start.gt r.start)
  else 0
termination_by self.ranges.length
decreasing_by
  have := (List.findIdx?_eq_some_iff_findIdx_eq.mp h).1
  rw [List.length_eraseIdx_of_lt this]
  omega

/-- Activations of `add_range` in `for range in ranges { self.add_range(range) }`,
/repo/src/bounded_set.rs:80-84. -/
def BoundedSet.addAllCalls (self : BoundedSet T) : List (BoundedRange T) → Nat
  | [] => 0
  | r :: rs => self.addRangeDepth r + match self.addRange r with
      | .ok s => s.addAllCalls rs
      | .panic _ => 0

/-- Pieces looked at in `for range in ranges { self.add_range(range) }`,
/repo/src/bounded_set.rs:80-84. -/
def BoundedSet.addAllTests (self : BoundedSet T) : List (BoundedRange T) → Nat
  | [] => 0
  | r :: rs => self.addRangeTests r + match self.addRange r with
      | .ok s => s.addAllTests rs
      | .panic _ => 0

end Rangetools
