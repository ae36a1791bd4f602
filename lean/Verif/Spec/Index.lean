import Verif.Model.Index

/-!
# Specification of indexing

What the elements at given positions are, where a range of positions begins and ends, and UTF-8.
-/

namespace Rangetools
variable {α : Type} {p : Platform}

/-- The elements of `v` whose position satisfies `P`, in order. -/
def select (v : List α) (P : Nat → Bool) : List α := (v.zipIdx.filter (fun x => P x.2)).map Prod.fst

/-- A predicate on `usize` as a predicate on positions. -/
def Usize.holds (P : Usize p → Bool) (i : Nat) : Bool :=
  if h : i < p.usizeCount then
    P ⟨i, Int.natCast_nonneg i, by
      have : ((i : Int)) < 2 ^ p.usizeBits := by exact_mod_cast h
      show (i : Int) ≤ 0 + 2 ^ p.usizeBits - 1
      omega⟩
  else false

/-- The first position above a lower bound. -/
def LowerBound.first (b : LowerBound (Usize p)) : Nat :=
  match b.b with
  | .included a => a.nat
  | .excluded a => a.nat + 1

/-- The first position no longer below an upper bound. -/
def UpperBound.past (b : UpperBound (Usize p)) : Nat :=
  match b.b with
  | .included a => a.nat + 1
  | .excluded a => a.nat

/-- The UTF-8 encoding of a Unicode scalar value (RFC 3629). -/
def utf8Char (c : Scalar) : List Nat :=
  let n := c.1.toNat
  if n < 0x80 then [n]
  else if n < 0x800 then [0xC0 + n / 0x40, 0x80 + n % 0x40]
  else if n < 0x10000 then [0xE0 + n / 0x1000, 0x80 + n / 0x40 % 0x40, 0x80 + n % 0x40]
  else [0xF0 + n / 0x40000, 0x80 + n / 0x1000 % 0x40, 0x80 + n / 0x40 % 0x40, 0x80 + n % 0x40]

/-- The UTF-8 encoding of a string. -/
def utf8 (cs : List Scalar) : List Nat := cs.flatMap utf8Char

/-- The bytes of a C string with its terminator: one zero, at the end. -/
def IsCStr (c : List Nat) : Prop := ∃ bytes, 0 ∉ bytes ∧ c = bytes ++ [0]

end Rangetools
