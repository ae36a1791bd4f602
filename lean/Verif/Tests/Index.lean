import Verif.Tests.Harness
import Verif.Model.Index

/-!
# Upstream index tests

Transcribed by hand from /repo/src/test/index.  A `String`/`str` pair and a slice/`Vec` pair of tests
share a model function and become one example each.  These are tests of the model, not proofs of a
property.
-/

namespace Rangetools.Tests

/-- A `usize` literal. -/
def u (x : Int) : Usize p := (IntTy.usize p).wrap x

/-- The bytes of a string literal. -/
def b (s : String) : List Nat := s.toList.map Char.toNat

/-- `bytes[i] = x`. -/
def setAt {α : Type} (i : Nat) (x : α) (l : List α) : List α := l.set i x

/-! ### /repo/src/test/index/bounded_range.rs -/

def br (r : Range (Usize p)) : BoundedRange (Usize p) := .ofRange r
def bri (r : RangeInclusive (Usize p)) : BoundedRange (Usize p) := .ofRangeInclusive r

/-- `string`, `str`. -/
example : (br ⟨u 0, u 5⟩).indexStr (b "hello, world!") = .ok (b "hello") ∧
    (bri ⟨u 7, u 11, false⟩).indexStr (b "hello, world!") = .ok (b "world") := by decide +kernel
/-- `string_mut`, `str_mut`. -/
example : (br ⟨u 0, u 5⟩).indexStrMut (b "hello, world!") (setAt 2 'n'.toNat) =
    .ok (b "henlo, world!") := by decide +kernel
/-- `slice`, `vec`. -/
example : (br ⟨u 0, u 2⟩).indexSlice [1, 2, 3, 4, 5] = .ok [1, 2] ∧
    (bri ⟨u 2, u 4, false⟩).indexSlice [1, 2, 3, 4, 5] = .ok [3, 4, 5] := by decide +kernel
/-- `slice_mut`, `vec_mut`. -/
example : (br ⟨u 1, u 3⟩).indexSliceMut [1, 2, 3, 4, 5] (setAt 0 7) = .ok [1, 7, 3, 4, 5] := by
  decide +kernel

/-! ### /repo/src/test/index/empty_range.rs -/

/-- `string`, `str`. -/
example : EmptyRange.indexStr p (b "hello, world!") = .ok [] := by decide +kernel
/-- `slice`, `vec`. -/
example : EmptyRange.indexSlice p [1, 2, 3, 4, 5] = .ok [] := by decide +kernel

/-! ### /repo/src/test/index/lower_bounded_range.rs -/

def lbr (r : RangeFrom (Usize p)) : LowerBoundedRange (Usize p) := .ofRangeFrom r

/-- `string`, `str`. -/
example : (lbr ⟨u 7⟩).indexStr (b "hello, world!") = .ok (b "world!") := by decide +kernel
/-- `string_mut`, `str_mut`. -/
example : (lbr ⟨u 7⟩).indexStrMut (b "hello, world!") (setAt 1 'u'.toNat) =
    .ok (b "hello, wurld!") := by decide +kernel
/-- `c_str`. -/
example : (lbr ⟨u 7⟩).indexCStr (b "hello, world!" ++ [0]) = .ok (b "world!" ++ [0]) := by
  decide +kernel
/-- `slice`, `vec`. -/
example : (lbr ⟨u 2⟩).indexSlice [1, 2, 3, 4, 5] = .ok [3, 4, 5] := by decide +kernel
/-- `slice_mut`. -/
example : (lbr ⟨u 1⟩).indexSliceMut [1, 2, 3, 4, 5] (setAt 0 7) = .ok [1, 7, 3, 4, 5] := by
  decide +kernel
/-- `vec_mut`. -/
example : (lbr ⟨u 2⟩).indexSliceMut [1, 2, 3, 4, 5] (setAt 0 7) = .ok [1, 2, 7, 4, 5] := by
  decide +kernel

/-! ### /repo/src/test/index/unbounded_range.rs -/

/-- `string`, `str`, `c_string`, `os_string`. -/
example : UnboundedRange.index (b "hello, world!") = .ok (b "hello, world!") := by decide +kernel
/-- `string_mut`, `str_mut`. -/
example : UnboundedRange.indexMut (b "hello, world!") (setAt 4 'a'.toNat) =
    .ok (b "hella, world!") := by decide +kernel
/-- `os_string_mut`. -/
example : UnboundedRange.indexMut (b "hello, world!")
    (List.map (fun x => if 97 ≤ x ∧ x ≤ 122 then x - 32 else x)) = .ok (b "HELLO, WORLD!") := by
  decide +kernel
/-- `slice`, `vec`. -/
example : UnboundedRange.index [1, 2, 3, 4, 5] = .ok [1, 2, 3, 4, 5] := by decide +kernel
/-- `slice_mut`. -/
example : UnboundedRange.indexMut [1, 2, 3, 4, 5] (setAt 0 7) = .ok [7, 2, 3, 4, 5] := by
  decide +kernel
/-- `vec_mut`. -/
example : UnboundedRange.indexMut [1, 2, 3, 4, 5] (setAt 1 7) = .ok [1, 7, 3, 4, 5] := by
  decide +kernel

/-! ### /repo/src/test/index/upper_bounded_range.rs -/

def ubr (r : RangeTo (Usize p)) : UpperBoundedRange (Usize p) := .ofRangeTo r
def ubri (r : RangeToInclusive (Usize p)) : UpperBoundedRange (Usize p) := .ofRangeToInclusive r

/-- `string`, `str`. -/
example : (ubr ⟨u 5⟩).indexStr (b "hello, world!") = .ok (b "hello") ∧
    (ubri ⟨u 5⟩).indexStr (b "hello, world!") = .ok (b "hello,") := by decide +kernel
/-- `string_mut`, `str_mut`. -/
example : (ubr ⟨u 5⟩).indexStrMut (b "hello, world!") (setAt 0 'y'.toNat) =
    .ok (b "yello, world!") := by decide +kernel
/-- `slice`. -/
example : (ubri ⟨u 2⟩).indexSlice [1, 2, 3, 4, 5] = .ok [1, 2, 3] := by decide +kernel
/-- `slice_mut`. -/
example : (ubr ⟨u 2⟩).indexSliceMut [1, 2, 3, 4, 5] (setAt 0 7) = .ok [7, 2, 3, 4, 5] := by
  decide +kernel
/-- `vec`. -/
example : (ubr ⟨u 1⟩).indexSlice [1, 2, 3, 4, 5] = .ok [1] := by decide +kernel
/-- `vec_mut`. -/
example : (ubri ⟨u 3⟩).indexSliceMut [1, 2, 3, 4, 5] (setAt 1 7) = .ok [1, 7, 3, 4, 5] := by
  decide +kernel

end Rangetools.Tests
