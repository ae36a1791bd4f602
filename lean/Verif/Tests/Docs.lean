import Verif.Tests.Harness

/-!
# The examples in the crate's documentation

Transcribed by hand from the doc comments that assert something.  These are tests of the model, not
proofs of a property.
-/

namespace Rangetools.Tests

abbrev r (x y : Int) : Any I32 := .range ⟨n x, n y⟩
abbrev rf (x : Int) : Any I32 := .rangeFrom ⟨n x⟩
abbrev rt (x : Int) : Any I32 := .rangeTo ⟨n x⟩
abbrev rti (x : Int) : Any I32 := .rangeToInclusive ⟨n x⟩

/-- /repo/src/bound.rs:22-28, 43-50. -/
example : (Bound.included (3 : Int)).map (· + 1) = .included 4 ∧
    (Bound.included (3 : Int)).flipped = .excluded 3 ∧
    (Bound.excluded (3 : Int)).flipped = .included 3 := by decide
/-- /repo/src/bound.rs:106-112, 120-126, 145-151. -/
example : (LowerBound.excluded (n 2)).cmp (LowerBound.excluded (n 3)) = .lt ∧
    LowerBound.included (n 2) = (LowerBoundedRange.ofRangeFrom ⟨n 2⟩).start ∧
    (LowerBound.included (3 : Int)).map (· + 1) = .included 4 := by decide +kernel
/-- /repo/src/bound.rs:207-213, 221-227, 246-252. -/
example : UpperBound.excluded (n 2) = (UpperBoundedRange.ofRangeTo ⟨n 2⟩).stop ∧
    UpperBound.included (n 2) = (UpperBoundedRange.ofRangeToInclusive ⟨n 2⟩).stop ∧
    (UpperBound.included (3 : Int)).map (· + 1) = .included 4 := by decide +kernel

/-- /repo/src/bounded_range.rs:13-18, /repo/src/lib.rs:137-142. -/
example : (r 0 5).inter (r 3 7) = .ok (.br ⟨.included (n 3), .excluded (n 5)⟩) := by decide +kernel
/-- /repo/src/bounded_range.rs:108-113, 121-127. -/
example : passes (do
  check ((BoundedRange.mk (.included (n 0)) (.included (n 10))).contains (n 5))
  let r ← inter (r 1 10) (r 5 7)
  check (r.contains (n 5))
  check (!r.contains (n 3))) := by decide +kernel
/-- /repo/src/bounded_set.rs:10-14, 49-55, 89-95. -/
example : passes (do
  hasType (← union (r 0 3) (r 3 5)) .bs
  check ((Inner.bs .empty : Inner I32).isEmpty)
  check (!(Inner.bs .empty : Inner I32).contains (n 5))
  let s ← union (r 1 5) (r 10 20)
  check (s.contains (n 1))
  check (!s.contains (n 42))) := by decide +kernel
/-- /repo/src/empty_range.rs:11-13, 56-61, 75-80. -/
example : (r 4 2).isEmpty = true ∧ (Inner.er : Inner I32).isEmpty = true ∧
    (Inner.er : Inner I32).contains (n 5) = false := by decide +kernel
/-- /repo/src/lib.rs:21-29. -/
example : passes (do
  let i ← inter (r 0 5) (rf 3)
  check (i.contains (n 4))
  check (← inter (r 0 5) (r 5 10)).isEmpty) := by decide +kernel
/-- /repo/src/lib.rs:35-43. -/
example : passes (do
  let u1 ← union (r 1 3) (r 5 7)
  check (decide ((← collect (← intoIter u1)) = [n 1, n 2, n 5, n 6]))
  let u2 ← union (r 1 3) (rf 10)
  check (decide ((← collectTake 5 (← intoIter u2)) = [n 1, n 2, n 10, n 11, n 12]))) := by
  decide +kernel
/-- /repo/src/lib.rs:89-94, 101-106. -/
example : passes (do
  check (r 3 2).isEmpty
  check (!(r 0 5).isEmpty)
  check (decide ((← compl (r 2 4)) = (← union (rt 2) (rf 4))))) := by decide +kernel
/-- /repo/src/lib.rs:124-129, 196-200. -/
example : (r 0 5).toInner = .br ⟨.included (n 0), .excluded (n 5)⟩ ∧
    (r 0 5).toSet = .bs ⟨[⟨.included (n 0), .excluded (n 5)⟩]⟩ := by decide +kernel
/-- /repo/src/lib.rs:154-159, 172-177. -/
example : (r 0 5).disjoint (r 10 20) = .ok true ∧ (rt 5).disjoint (rf 3) = .ok false ∧
    (rt 5).intersects (rf 3) = .ok true ∧ (r 0 5).intersects (r 10 20) = .ok false := by
  decide +kernel
/-- /repo/src/lib.rs:208-215. -/
example : passes (do
  let u ← union (rt 3) (rf 5)
  check (u.contains (n 0))
  check (!u.contains (n 4))
  check (u.contains (n 5))) := by decide +kernel
/-- /repo/src/lower_bounded_range.rs:12-17, 65-70, 78-84. -/
example : passes (do
  let i ← inter (rf 5) (rf 10)
  check (decide (i = .inner (.lbr ⟨.included (n 10)⟩)))
  check ((LowerBoundedRange.mk (.included (n 0))).contains (n 5))
  check (i.contains (n 10))
  check (!i.contains (n 5))) := by decide +kernel
/-- /repo/src/lower_bounded_set.rs:13-17, 86-92. -/
example : passes (do
  hasType (← union (r 0 3) (rf 5)) .lbs
  let s ← union (r 1 5) (rf 10)
  check (s.contains (n 42))
  check (!s.contains (n 0))) := by decide +kernel
/-- /repo/src/unbounded_range.rs:10-15, 36-41, 53-59. -/
example : passes (do
  let r ← inter Any.rangeFull Any.rangeFull
  check (decide (r = .inner .ur))
  check (r.contains (n 42))
  check (r.contains (n 5))
  check (r.contains (n 3))) := by decide +kernel
/-- /repo/src/unbounded_set.rs:12-21. -/
example : passes (do
  let s ← union (← union (rt 3) (r 5 10)) (rf 20)
  check (s.contains (n 0))
  check (!s.contains (n 4))
  check (s.contains (n 7))
  check (!s.contains (n 15))
  check (s.contains (n 42))) := by decide +kernel
/-- /repo/src/unbounded_set.rs:35-42. -/
example : passes (do
  let s ← union (rt 5) (rf 10)
  check (s.contains (n 4))
  check (!s.contains (n 7))
  check (s.contains (n 10))) := by decide +kernel
/-- /repo/src/unbounded_set.rs:76-82, 127-134. -/
example : passes (do
  hasType (← union (rt 3) (rf 5)) .us
  let s ← union (rt 10) (rf 5)
  check (decide (s = .inner (.us .full)))
  check (s.contains (n 4))
  check (s.contains (n 7))
  check (s.contains (n 10))) := by decide +kernel
/-- /repo/src/upper_bounded_range.rs:11-16, 68-73, 81-87. -/
example : passes (do
  check (decide ((← inter (rt 5) (rti 3)) = .inner (.ubr ⟨.included (n 3)⟩)))
  check ((UpperBoundedRange.mk (.included (n 10))).contains (n 5))
  let i ← inter (rt 5) (rt 10)
  check (i.contains (n 4))
  check (!i.contains (n 9))) := by decide +kernel
/-- /repo/src/upper_bounded_set.rs:9-13, 66-72. -/
example : passes (do
  let s ← union (r 10 20) (rt 5)
  hasType s .ubs
  check (s.contains (n 0))
  check (!s.contains (n 42))) := by decide +kernel

end Rangetools.Tests
