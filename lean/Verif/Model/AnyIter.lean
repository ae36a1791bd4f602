import Verif.Model.Any
import Verif.Model.Iter
import Verif.Spec.StdIter

/-!
# Which types can be iterated over

One constructor per type of iterator, and `into_iter` as rustc resolves it: by the crate's `impl IntoIterator`, or, for
the std ranges that are iterators, by std's `impl<I: Iterator> IntoIterator for I`.  Where neither exists the program is
rejected; this is the `compile_fail` example of /repo/src/lib.rs:45-50.
-/

namespace Rangetools

/-- The iterators: three std ranges, the crate's four, and std's `Empty`. -/
inductive AnyIter (T : Type) where
  | range (i : Range T)
  | rangeInclusive (i : RangeInclusive T)
  | rangeFrom (i : RangeFrom T)
  | br (i : BoundedRangeIter T)
  | bs (i : BoundedSetIter T)
  | lbr (i : LowerBoundedRangeIter T)
  | lbs (i : LowerBoundedSetIter T)
  | er (i : EmptyIter T)

variable {T : Type}

/-- `into_iter` of each of the fifteen types; `none`: no impl, the program does not compile.
`impl IntoIterator for` `BoundedRange` /repo/src/bounded_range.rs:85-102, `BoundedSet` /repo/src/bounded_set.rs:32-43,
`EmptyRange` /repo/src/empty_range.rs:44-50, `LowerBoundedRange` /repo/src/lower_bounded_range.rs:45-59,
`LowerBoundedSet` /repo/src/lower_bounded_set.rs:35-47; std: `Range`, `RangeInclusive` and `RangeFrom` are iterators, and
`into_iter` of an iterator is itself.  There are no other impls in /repo. -/
def Any.intoIter (S : Step T) : Any T → Option (Res (AnyIter T))
  | .range r => some (.ok (.range r))
  | .rangeInclusive r => some (.ok (.rangeInclusive r))
  | .rangeFrom r => some (.ok (.rangeFrom r))
  | .rangeTo _ | .rangeToInclusive _ | .rangeFull => none
  | .inner (.br r) => some (do return .br (← r.intoIter S))
  | .inner (.bs s) => some (do return .bs (← s.intoIter S))
  | .inner (.lbr r) => some (do return .lbr (← r.intoIter S))
  | .inner (.lbs s) => some (do return .lbs (← s.intoIter S))
  | .inner .er => some (.ok (.er EmptyRange.intoIter))
  | .inner (.ubr _) | .inner (.ubs _) | .inner .ur | .inner (.us _) => none

/-- `next` of each iterator: see Model/Iter and, for std, Spec/StdIter. -/
def AnyIter.next [LinearOrder T] (p : Platform) (S : Step T) : AnyIter T → Res (Option T × AnyIter T)
  | .range i => do let (t, i) ← i.next S; return (t, .range i)
  | .rangeInclusive i => do let (t, i) ← i.next S; return (t, .rangeInclusive i)
  | .rangeFrom i => do let (t, i) ← i.next S; return (t, .rangeFrom i)
  | .br i => do let (t, i) ← i.next S; return (t, .br i)
  | .bs i => do let (t, i) ← i.next p S; return (t, .bs i)
  | .lbr i => do let (t, i) ← i.next S; return (t, .lbr i)
  | .lbs i => do let (t, i) ← i.next p S; return (t, .lbs i)
  | .er i => .ok (i.next.1, .er i.next.2)

end Rangetools
