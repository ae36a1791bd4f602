import Verif.Model.Convert

/-!
# Model of `src/implementations/index`

Slices and `Vec`s are lists, strings are the lists of their UTF-8 bytes, a `CStr` is the list of its
bytes including the terminator; bytes are numbers.  `Vec`, `String`, `CString` and `OsString` reach the
slice, `str`, `CStr` and `OsStr` implementation by dereferencing (std), so one definition serves both.
`index_mut` returns a `&mut` to part of the value; it is modelled by the whole value after the caller
has applied `f` to that part.  `f` must not change the length, as no code can through a `&mut [T]` or a
`&mut str`; this is a hypothesis of the theorems.  Panic messages are not std's exact wording.
-/

namespace Rangetools
variable {α : Type}

/-- Values of `usize`. -/
abbrev Usize (p : Platform) : Type := (IntTy.usize p).Val

namespace Usize
variable {p : Platform}

/-- A `usize` as a list index. -/
def nat (x : Usize p) : Nat := x.1.toNat

/-- `usize::default()` (std), 0. -/
def zero (p : Platform) : Usize p := ⟨0, le_refl _, by
  have := (IntTy.usize p).card_pos
  have h : (IntTy.usize p).min = 0 := rfl
  unfold IntTy.max; omega⟩

/-- The `Step` implementation of `usize`. -/
abbrev step (p : Platform) : Step (Usize p) := IntTy.step p (IntTy.usize p)

end Usize

/-! ### std indexing -/

/-- `&v[start..end]` (std): panics when `start > end` or `end > len`. -/
def sliceRange (v : List α) (start stop : Nat) : Res (List α) :=
  if start > stop then .panic "slice index starts after its end"
  else if stop > v.length then .panic "range end index out of range for slice"
  else .ok ((v.take stop).drop start)

/-- `&v[start..]` (std): panics when `start > len`. -/
def sliceFrom (v : List α) (start : Nat) : Res (List α) :=
  if start > v.length then .panic "range start index out of range for slice" else .ok (v.drop start)

/-- `&v[..end]` (std), which is `&v[0..end]`. -/
def sliceTo (v : List α) (stop : Nat) : Res (List α) := sliceRange v 0 stop

/-- `&mut v[start..end]` (std). -/
def sliceRangeMut (v : List α) (start stop : Nat) (f : List α → List α) : Res (List α) :=
  if start > stop then .panic "slice index starts after its end"
  else if stop > v.length then .panic "range end index out of range for slice"
  else .ok (v.take start ++ f ((v.take stop).drop start) ++ v.drop stop)

/-- `&mut v[start..]` (std). -/
def sliceFromMut (v : List α) (start : Nat) (f : List α → List α) : Res (List α) :=
  if start > v.length then .panic "range start index out of range for slice"
  else .ok (v.take start ++ f (v.drop start))

/-- `&mut v[..end]` (std). -/
def sliceToMut (v : List α) (stop : Nat) (f : List α → List α) : Res (List α) := sliceRangeMut v 0 stop f

/-- `str::is_char_boundary` (std): `index == 0`, or `index == len`, or the byte at `index` is no
continuation byte, `(byte as i8) >= -0x40`. -/
def isCharBoundary (s : List Nat) (index : Nat) : Bool :=
  if index == 0 then true
  else match s[index]? with
    | none => index == s.length
    | some b => decide (b < 128) || decide (b ≥ 192)

/-- `&s[start..end]` for a `str` (std). -/
def strRange (s : List Nat) (start stop : Nat) : Res (List Nat) :=
  if start ≤ stop && isCharBoundary s start && isCharBoundary s stop then .ok ((s.take stop).drop start)
  else .panic "str slice error"

/-- `&s[start..]` for a `str` (std). -/
def strFrom (s : List Nat) (start : Nat) : Res (List Nat) :=
  if isCharBoundary s start then .ok (s.drop start) else .panic "str slice error"

/-- `&s[..end]` for a `str` (std). -/
def strTo (s : List Nat) (stop : Nat) : Res (List Nat) :=
  if isCharBoundary s stop then .ok (s.take stop) else .panic "str slice error"

/-- `&mut s[start..end]` for a `str` (std). -/
def strRangeMut (s : List Nat) (start stop : Nat) (f : List Nat → List Nat) : Res (List Nat) :=
  if start ≤ stop && isCharBoundary s start && isCharBoundary s stop then
    .ok (s.take start ++ f ((s.take stop).drop start) ++ s.drop stop)
  else .panic "str slice error"

/-- `&mut s[start..]` for a `str` (std). -/
def strFromMut (s : List Nat) (start : Nat) (f : List Nat → List Nat) : Res (List Nat) :=
  if isCharBoundary s start then .ok (s.take start ++ f (s.drop start)) else .panic "str slice error"

/-- `&mut s[..end]` for a `str` (std). -/
def strToMut (s : List Nat) (stop : Nat) (f : List Nat → List Nat) : Res (List Nat) :=
  if isCharBoundary s stop then .ok (f (s.take stop) ++ s.drop stop) else .panic "str slice error"

/-- `&c[start..]` for a `CStr` (std): `start` must be less than the length with the terminator. -/
def cstrFrom (c : List Nat) (start : Nat) : Res (List Nat) :=
  if start < c.length then .ok (c.drop start) else .panic "index out of bounds"

/-! ### `BoundedRange<usize>` -/

namespace BoundedRange
variable {p : Platform}

/-- `Index<BoundedRange<usize>>` for `[T]` and `Vec<T>`,
/repo/src/implementations/index/bounded_range.rs:29-34, 42-47. -/
def indexSlice (r : BoundedRange (Usize p)) (v : List α) : Res (List α) := do
  let q ← r.toRange (Usize.step p)
  sliceRange v q.start.nat q.stop.nat

/-- `IndexMut<BoundedRange<usize>>` for `[T]` and `Vec<T>`,
/repo/src/implementations/index/bounded_range.rs:36-40, 49-53. -/
def indexSliceMut (r : BoundedRange (Usize p)) (v : List α) (f : List α → List α) :
    Res (List α) := do
  let q ← r.toRange (Usize.step p)
  sliceRangeMut v q.start.nat q.stop.nat f

/-- `Index<BoundedRange<usize>>` for `String` and `str`,
/repo/src/implementations/index/bounded_range.rs:3-8, 16-21. -/
def indexStr (r : BoundedRange (Usize p)) (s : List Nat) : Res (List Nat) := do
  let q ← r.toRange (Usize.step p)
  strRange s q.start.nat q.stop.nat

/-- `IndexMut<BoundedRange<usize>>` for `String` and `str`,
/repo/src/implementations/index/bounded_range.rs:10-14, 23-27. -/
def indexStrMut (r : BoundedRange (Usize p)) (s : List Nat) (f : List Nat → List Nat) :
    Res (List Nat) := do
  let q ← r.toRange (Usize.step p)
  strRangeMut s q.start.nat q.stop.nat f

end BoundedRange

/-! ### `LowerBoundedRange<usize>` -/

namespace LowerBoundedRange
variable {p : Platform}

/-- `Index<LowerBoundedRange<usize>>` for `[T]` and `Vec<T>`,
/repo/src/implementations/index/lower_bounded_range.rs:36-41, 49-54. -/
def indexSlice (r : LowerBoundedRange (Usize p)) (v : List α) : Res (List α) := do
  let q ← r.toRangeFrom (Usize.step p)
  sliceFrom v q.start.nat

/-- `IndexMut<LowerBoundedRange<usize>>` for `[T]` and `Vec<T>`,
/repo/src/implementations/index/lower_bounded_range.rs:43-47, 56-60. -/
def indexSliceMut (r : LowerBoundedRange (Usize p)) (v : List α) (f : List α → List α) :
    Res (List α) := do
  let q ← r.toRangeFrom (Usize.step p)
  sliceFromMut v q.start.nat f

/-- `Index<LowerBoundedRange<usize>>` for `String` and `str`,
/repo/src/implementations/index/lower_bounded_range.rs:3-8, 16-21. -/
def indexStr (r : LowerBoundedRange (Usize p)) (s : List Nat) : Res (List Nat) := do
  let q ← r.toRangeFrom (Usize.step p)
  strFrom s q.start.nat

/-- `IndexMut<LowerBoundedRange<usize>>` for `String` and `str`,
/repo/src/implementations/index/lower_bounded_range.rs:10-14, 23-27. -/
def indexStrMut (r : LowerBoundedRange (Usize p)) (s : List Nat) (f : List Nat → List Nat) :
    Res (List Nat) := do
  let q ← r.toRangeFrom (Usize.step p)
  strFromMut s q.start.nat f

/-- `Index<LowerBoundedRange<usize>> for CStr`,
/repo/src/implementations/index/lower_bounded_range.rs:29-34. -/
def indexCStr (r : LowerBoundedRange (Usize p)) (c : List Nat) : Res (List Nat) := do
  let q ← r.toRangeFrom (Usize.step p)
  cstrFrom c q.start.nat

end LowerBoundedRange

/-! ### `UpperBoundedRange<usize>` -/

namespace UpperBoundedRange
variable {p : Platform}

/-- `Index<UpperBoundedRange<usize>>` for `[T]` and `Vec<T>`,
/repo/src/implementations/index/upper_bounded_range.rs:29-34, 42-47. -/
def indexSlice (r : UpperBoundedRange (Usize p)) (v : List α) : Res (List α) := do
  let q ← r.toRangeTo (Usize.step p)
  sliceTo v q.stop.nat

/-- `IndexMut<UpperBoundedRange<usize>>` for `[T]` and `Vec<T>`,
/repo/src/implementations/index/upper_bounded_range.rs:36-40, 49-53. -/
def indexSliceMut (r : UpperBoundedRange (Usize p)) (v : List α) (f : List α → List α) :
    Res (List α) := do
  let q ← r.toRangeTo (Usize.step p)
  sliceToMut v q.stop.nat f

/-- `Index<UpperBoundedRange<usize>>` for `String` and `str`,
/repo/src/implementations/index/upper_bounded_range.rs:3-8, 16-21. -/
def indexStr (r : UpperBoundedRange (Usize p)) (s : List Nat) : Res (List Nat) := do
  let q ← r.toRangeTo (Usize.step p)
  strTo s q.stop.nat

/-- `IndexMut<UpperBoundedRange<usize>>` for `String` and `str`,
/repo/src/implementations/index/upper_bounded_range.rs:10-14, 23-27. -/
def indexStrMut (r : UpperBoundedRange (Usize p)) (s : List Nat) (f : List Nat → List Nat) :
    Res (List Nat) := do
  let q ← r.toRangeTo (Usize.step p)
  strToMut s q.stop.nat f

end UpperBoundedRange

/-! ### `UnboundedRange` and `EmptyRange<usize>` -/

/-- `Index<UnboundedRange>` for `String`, `str`, `CString`, `OsString`, `[T]`, `Vec<T>`,
/repo/src/implementations/index/unbounded_range.rs:3-8, 16-21, 29-34, 36-41, 49-54, 62-67: std's `&v[..]`
is the whole. -/
def UnboundedRange.index (v : List α) : Res (List α) := .ok v

/-- `IndexMut<UnboundedRange>` for `String`, `str`, `OsString`, `[T]`, `Vec<T>`,
/repo/src/implementations/index/unbounded_range.rs:10-14, 23-27, 43-47, 56-60, 69-73. -/
def UnboundedRange.indexMut (v : List α) (f : List α → List α) : Res (List α) := .ok (f v)

/-- `Index<EmptyRange<usize>>` for `[T]` and `Vec<T>`,
/repo/src/implementations/index/empty_range.rs:17-22, 24-29. -/
def EmptyRange.indexSlice (p : Platform) (v : List α) : Res (List α) :=
  let q := EmptyRange.toRange (Usize.zero p)
  sliceRange v q.start.nat q.stop.nat

/-- `Index<EmptyRange<usize>>` for `String` and `str`,
/repo/src/implementations/index/empty_range.rs:3-8, 10-15. -/
def EmptyRange.indexStr (p : Platform) (s : List Nat) : Res (List Nat) :=
  let q := EmptyRange.toRange (Usize.zero p)
  strRange s q.start.nat q.stop.nat

end Rangetools
