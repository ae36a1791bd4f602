import Verif.Model.Intersection

/-!
# Model of `src/implementations/complement/*.rs`
-/

namespace Rangetools
variable {T : Type} [LE T] [LT T] [DecidableLE T] [DecidableLT T] [Ord T] [BEq T]

/-- /repo/src/implementations/complement/lower_bounded_range.rs:3-10. -/
def LowerBoundedRange.complement (self : LowerBoundedRange T) : UpperBoundedRange T :=
  ⟨.ofBound self.start.b.flipped⟩

/-- /repo/src/implementations/complement/upper_bounded_range.rs:3-10. -/
def UpperBoundedRange.complement (self : UpperBoundedRange T) : LowerBoundedRange T :=
  ⟨.ofBound self.stop.b.flipped⟩

/-- /repo/src/implementations/complement/bounded_range.rs:5-13.  The union is
`UpperBoundedRange ∪ LowerBoundedRange` (union/upper_bounded_range.rs:17-26), which converts both
sides with `to_set`. -/
def BoundedRange.complement (self : BoundedRange T) : Res (UnboundedSet T) :=
  (UpperBoundedSet.ofUBR ⟨.ofBound self.start.b.flipped⟩).unionLBS
    (LowerBoundedSet.ofLBR ⟨.ofBound self.stop.b.flipped⟩)

/-- /repo/src/implementations/complement/bounded_set.rs:3-14. -/
def BoundedSet.complement (self : BoundedSet T) : Res (UnboundedSet T) :=
  self.ranges.foldlM (fun acc range => do acc.interUS (← range.complement)) .full

/-- /repo/src/implementations/complement/lower_bounded_set.rs:3-13. -/
def LowerBoundedSet.complement (self : LowerBoundedSet T) : Res (UpperBoundedSet T) :=
  self.ranges.ranges.foldlM (fun acc range => do acc.interUS (← range.complement))
    (UpperBoundedSet.ofUBR self.lowerBoundedRange.complement)

/-- /repo/src/implementations/complement/upper_bounded_set.rs:3-13. -/
def UpperBoundedSet.complement (self : UpperBoundedSet T) : Res (LowerBoundedSet T) :=
  self.ranges.ranges.foldlM (fun acc range => do acc.interUS (← range.complement))
    (LowerBoundedSet.ofLBR self.upperBoundedRange.complement)

/-- /repo/src/implementations/complement/unbounded_set.rs:3-24. -/
def UnboundedSet.complement (self : UnboundedSet T) : Res (BoundedSet T) :=
  match self with
  | .full => .ok BoundedSet.empty
  | .piecewise set =>
      let startingRange :=
        set.lowerBoundedRange.complement.interLBR set.upperBoundedRange.complement
      set.ranges.ranges.foldlM (fun acc range => do acc.interUS (← range.complement))
        (BoundedSet.ofBR startingRange)

end Rangetools
