import Verif.Model.Any
import Verif.Model.Iter

/-!
# Model of `#[derive(Debug)]`

What `{:?}` and `{:#?}` print, as a list of characters.  The derived implementations are not written out in the crate; they call
`debug_struct`, `debug_tuple` and `write_str` of `std::fmt::Formatter`, and `VecDeque` (std) calls `debug_list`.  The
element type's own output is a parameter.  Simplified: flags such as a width are handed on to the elements
(Model/Flags); writing never fails.
-/

namespace Rangetools
variable {T : Type}

/-! ### `std::fmt::Formatter` -/

/-- `debug_tuple(name).field(v).finish()` (std). -/
def debugTuple (name : String) (v : List Char) : List Char := name.toList ++ "(".toList ++ v ++ ")".toList

/-- The fields of a struct, separated by commas (std). -/
def debugFields : List (String × List Char) → List Char
  | [] => []
  | [f] => f.1.toList ++ ": ".toList ++ f.2
  | f :: fs => f.1.toList ++ ": ".toList ++ f.2 ++ ", ".toList ++ debugFields fs

/-- `debug_struct(name).field(..)...finish()` with at least one field (std). -/
def debugStruct (name : String) (fs : List (String × List Char)) : List Char :=
  name.toList ++ " { ".toList ++ debugFields fs ++ " }".toList

/-- The elements of a list after the first (std). -/
def debugRest : List (List Char) → List Char
  | [] => "]".toList
  | v :: vs => ", ".toList ++ v ++ debugRest vs

/-- `debug_list().entries(vs).finish()` (std). -/
def debugList : List (List Char) → List Char
  | [] => "[]".toList
  | v :: vs => "[".toList ++ v ++ debugRest vs

/-- `PadAdapter` (std): four spaces go before every character that begins a line; `nl` says that the next one does. -/
def pad : (nl : Bool) → List Char → List Char
  | _, [] => []
  | nl, c :: cs => (if nl then "    ".toList else []) ++ c :: pad (c == '\n') cs

/-- One field or element in `{:#?}`: indented, and followed by a comma and the end of the line (std). -/
def prettyLine (v : List Char) : List Char := pad true (v ++ ",\n".toList)

/-- `debug_tuple(name).field(v).finish()` in `{:#?}` (std). -/
def prettyTuple (name : String) (v : List Char) : List Char :=
  name.toList ++ "(\n".toList ++ prettyLine v ++ ")".toList

/-- `debug_struct(name).field(..)...finish()` with at least one field, in `{:#?}` (std). -/
def prettyStruct (name : String) (fs : List (String × List Char)) : List Char :=
  name.toList ++ " {\n".toList ++ (fs.map fun f => prettyLine (f.1.toList ++ ": ".toList ++ f.2)).flatten ++ "}".toList

/-- `debug_list().entries(vs).finish()` in `{:#?}` (std). -/
def prettyList : List (List Char) → List Char
  | [] => "[]".toList
  | v :: vs => "[\n".toList ++ ((v :: vs).map prettyLine).flatten ++ "]".toList

/-- The part of `std::fmt::Formatter` that the derived implementations use. -/
structure Fmt where
  tuple : String → List Char → List Char
  struct : String → List (String × List Char) → List Char
  list : List (List Char) → List Char

/-- `{:?}` -/
def Fmt.plain : Fmt := ⟨debugTuple, debugStruct, debugList⟩

/-- `{:#?}` -/
def Fmt.pretty : Fmt := ⟨prettyTuple, prettyStruct, prettyList⟩

/-! ### The types of the crate -/

/-- `#[derive(Debug)]` on `Bound`, /repo/src/bound.rs:9-16. -/
def Bound.debug (F : Fmt) (h : T → List Char) : Bound T → List Char
  | .excluded t => F.tuple "Excluded" (h t)
  | .included t => F.tuple "Included" (h t)

/-- `#[derive(Debug)]` on `LowerBound`, /repo/src/bound.rs:62-64. -/
def LowerBound.debug (F : Fmt) (h : T → List Char) (b : LowerBound T) : List Char := F.tuple "LowerBound" (b.b.debug F h)

/-- `#[derive(Debug)]` on `UpperBound`, /repo/src/bound.rs:163-165. -/
def UpperBound.debug (F : Fmt) (h : T → List Char) (b : UpperBound T) : List Char := F.tuple "UpperBound" (b.b.debug F h)

/-- `#[derive(Debug)]` on `BoundedRange`, /repo/src/bounded_range.rs:23-30. -/
def BoundedRange.debug (F : Fmt) (h : T → List Char) (r : BoundedRange T) : List Char :=
  F.struct "BoundedRange" [("start", r.start.debug F h), ("end", r.stop.debug F h)]

/-- `#[derive(Debug)]` on `LowerBoundedRange`, /repo/src/lower_bounded_range.rs:18-23. -/
def LowerBoundedRange.debug (F : Fmt) (h : T → List Char) (r : LowerBoundedRange T) : List Char :=
  F.struct "LowerBoundedRange" [("start", r.start.debug F h)]

/-- `#[derive(Debug)]` on `UpperBoundedRange`, /repo/src/upper_bounded_range.rs:17-22. -/
def UpperBoundedRange.debug (F : Fmt) (h : T → List Char) (r : UpperBoundedRange T) : List Char :=
  F.struct "UpperBoundedRange" [("end", r.stop.debug F h)]

/-- `#[derive(Debug)]` on `UnboundedRange`, /repo/src/unbounded_range.rs:16-18. -/
def UnboundedRange.debug : List Char := "UnboundedRange".toList

/-- `#[derive(Debug)]` on `EmptyRange`, /repo/src/empty_range.rs:16-20; `ty` is the name that `PhantomData<T>` (std)
prints for `T`. -/
def EmptyRange.debug (F : Fmt) (ty : List Char) : List Char :=
  F.struct "EmptyRange" [("t", "PhantomData<".toList ++ ty ++ ">".toList)]

/-- `#[derive(Debug)]` on `BoundedSet`, /repo/src/bounded_set.rs:15-20. -/
def BoundedSet.debug (F : Fmt) (h : T → List Char) (s : BoundedSet T) : List Char :=
  F.struct "BoundedSet" [("ranges", F.list (s.ranges.map (BoundedRange.debug F h)))]

/-- `#[derive(Debug)]` on `LowerBoundedSet`, /repo/src/lower_bounded_set.rs:18-24. -/
def LowerBoundedSet.debug (F : Fmt) (h : T → List Char) (s : LowerBoundedSet T) : List Char :=
  F.struct "LowerBoundedSet" [("ranges", s.ranges.debug F h), ("lower_bounded_range", s.lowerBoundedRange.debug F h)]

/-- `#[derive(Debug)]` on `UpperBoundedSet`, /repo/src/upper_bounded_set.rs:14-20. -/
def UpperBoundedSet.debug (F : Fmt) (h : T → List Char) (s : UpperBoundedSet T) : List Char :=
  F.struct "UpperBoundedSet" [("upper_bounded_range", s.upperBoundedRange.debug F h), ("ranges", s.ranges.debug F h)]

/-- `#[derive(Debug)]` on `PiecewiseUnboundedSet`, /repo/src/unbounded_set.rs:22-29. -/
def PiecewiseUnboundedSet.debug (F : Fmt) (h : T → List Char) (s : PiecewiseUnboundedSet T) : List Char :=
  F.struct "PiecewiseUnboundedSet" [("upper_bounded_range", s.upperBoundedRange.debug F h), ("ranges", s.ranges.debug F h),
    ("lower_bounded_range", s.lowerBoundedRange.debug F h)]

/-- `#[derive(Debug)]` on `UnboundedSet`, /repo/src/unbounded_set.rs:83-90. -/
def UnboundedSet.debug (F : Fmt) (h : T → List Char) : UnboundedSet T → List Char
  | .full => "Full".toList
  | .piecewise s => F.tuple "Piecewise" (s.debug F h)

/-- `Debug` of the nine types. -/
def Inner.debug (F : Fmt) (h : T → List Char) (ty : List Char) : Inner T → List Char
  | .br r => r.debug F h
  | .bs s => s.debug F h
  | .lbr r => r.debug F h
  | .lbs s => s.debug F h
  | .ubr r => r.debug F h
  | .ubs s => s.debug F h
  | .ur => UnboundedRange.debug
  | .us s => s.debug F h
  | .er => EmptyRange.debug F ty

/-! ### Iterators -/

/-- `#[derive(Debug)]` on `BoundedRangeIter`, /repo/src/bounded_range.rs:166-170. -/
def BoundedRangeIter.debug (F : Fmt) (h : T → List Char) (i : BoundedRangeIter T) : List Char :=
  F.struct "BoundedRangeIter" [("current", h i.current), ("last", h i.last)]

/-- `#[derive(Debug)]` on `LowerBoundedRangeIter`, /repo/src/lower_bounded_range.rs:104-107. -/
def LowerBoundedRangeIter.debug (F : Fmt) (h : T → List Char) (i : LowerBoundedRangeIter T) : List Char :=
  F.struct "LowerBoundedRangeIter" [("current", h i.current)]

/-- `#[derive(Debug)]` on `BoundedSetIter`, /repo/src/bounded_set.rs:112-115. -/
def BoundedSetIter.debug (F : Fmt) (h : T → List Char) (i : BoundedSetIter T) : List Char :=
  F.struct "BoundedSetIter" [("range_iters", F.list (i.rangeIters.map (BoundedRangeIter.debug F h)))]

/-- `#[derive(Debug)]` on `LowerBoundedSetIter`, /repo/src/lower_bounded_set.rs:109-113. -/
def LowerBoundedSetIter.debug (F : Fmt) (h : T → List Char) (i : LowerBoundedSetIter T) : List Char :=
  F.struct "LowerBoundedSetIter" [("set_iter", i.setIter.debug F h), ("range_iter", i.rangeIter.debug F h)]

end Rangetools
