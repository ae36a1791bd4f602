/-!
# Model of format flags

What a width, a fill, an alignment, `+`, `0`, `x` and `X` in the format string (`{:*^+7?}`, `{:05?}`, `{:x?}`) do to an
integer.  The derived implementations of the crate's types hand their `Formatter` on to the fields and write names and
punctuation as they are, so flags change the texts of the elements only: the element type's output, a parameter in
Model/Debug, is that of this file.
-/

namespace Rangetools

/-- `std::fmt::Alignment`. -/
inductive Align where
  | left
  | right
  | center
  deriving DecidableEq

/-- The flags of a format string (std); integers go to the right if nothing is said. -/
structure Flags where
  width : Nat := 0
  fill : Char := ' '
  align : Align := .right
  plus : Bool := false
  zero : Bool := false

namespace Flags

/-- The sign `Formatter::pad_integral` writes (std). -/
def sign (f : Flags) (n : Int) : List Char := if n < 0 then ['-'] else if f.plus then ['+'] else []

/-- The sign, the zeros of the `0` flag, and the digits (std, `pad_integral`). -/
def number (f : Flags) (n : Int) : List Char :=
  f.sign n ++ (if f.zero then List.replicate (f.width - ((f.sign n).length + (Nat.toDigits 10 n.natAbs).length)) '0' else []) ++
    Nat.toDigits 10 n.natAbs

/-- How many of the fill characters go before (std, `Formatter::padding`). -/
def before (f : Flags) (padding : Nat) : Nat :=
  match f.align with
  | .left => 0
  | .right => padding
  | .center => padding / 2

/-- A text with the fill characters (std, `pad_integral`). -/
def pad (f : Flags) (s : List Char) : List Char :=
  List.replicate (f.before (f.width - s.length)) f.fill ++ s ++
    List.replicate (f.width - s.length - f.before (f.width - s.length)) f.fill

/-- What is written for an integer (std). -/
def int (f : Flags) (n : Int) : List Char := f.pad (f.number n)

/-- The hexadecimal digits, of `{:x?}` or `{:X?}` (std). -/
def hexDigits (upper : Bool) (n : Nat) : List Char :=
  (Nat.toDigits 16 n).map fun c => if upper then c.toUpper else c

/-- What comes before hexadecimal digits: there is no negative sign, and `0x` is written with `#` (std, `pad_integral`). -/
def hexHead (f : Flags) (alternate : Bool) : List Char :=
  (if f.plus then ['+'] else []) ++ (if alternate then ['0', 'x'] else [])

/-- What comes before the digits, the zeros of the `0` flag, and the digits (std, `pad_integral`). -/
def hexNumber (f : Flags) (upper alternate : Bool) (n : Nat) : List Char :=
  f.hexHead alternate ++
    (if f.zero then List.replicate (f.width - ((f.hexHead alternate).length + (hexDigits upper n).length)) '0' else []) ++
    hexDigits upper n

/-- What `{:x?}`, `{:X?}` and, with `alternate`, `{:#x?}` and `{:#X?}` write for an integer of `w` bits (std: negative numbers in
two's complement). -/
def hex (f : Flags) (upper alternate : Bool) {w : Nat} (x : BitVec w) : List Char := f.pad (f.hexNumber upper alternate x.toNat)

end Flags
end Rangetools
