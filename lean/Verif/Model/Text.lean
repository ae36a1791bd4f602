import Verif.Model.Debug

/-!
# Model of the Debug output of `char`, `&str`, pairs and `Option`

What `{:?}` prints for elements that are characters or strings (std, `core::char::methods::escape_debug_ext`, `core::fmt`).
Widths and other flags make no difference to it.  Which characters count as printable is a table in std; here it is a
parameter, and nothing is assumed about it.
-/

namespace Rangetools

/-- `escape_debug_ext` (std) between quotes `quote`: the other kind of quote is left alone. -/
def escapeDebug (quote : Char) (printable : Char → Bool) (c : Char) : List Char :=
  if c = '\x00' then ['\\', '0']
  else if c = '\t' then ['\\', 't']
  else if c = '\r' then ['\\', 'r']
  else if c = '\n' then ['\\', 'n']
  else if c = '\\' then ['\\', '\\']
  else if c = quote then ['\\', quote]
  else if printable c then [c]
  else ['\\', 'u', '{'] ++ Nat.toDigits 16 c.toNat ++ ['}']

/-- `Debug` of `char` (std). -/
def debugChar (printable : Char → Bool) (c : Char) : List Char := '\'' :: (escapeDebug '\'' printable c ++ ['\''])

/-- `Debug` of `str` (std). -/
def debugStr (printable : Char → Bool) (s : List Char) : List Char :=
  '"' :: (s.flatMap (escapeDebug '"' printable) ++ ['"'])

/-- `Debug` of a pair, without `#` (std). -/
def debugPair {α β : Type} (h : α → List Char) (k : β → List Char) (x : α × β) : List Char :=
  '(' :: (h x.1 ++ [',', ' '] ++ k x.2 ++ [')'])

/-- `Debug` of a pair with `#` (std): a tuple without a name. -/
def prettyPair {α β : Type} (h : α → List Char) (k : β → List Char) (x : α × β) : List Char :=
  "(\n".toList ++ prettyLine (h x.1) ++ prettyLine (k x.2) ++ ")".toList

/-- `Debug` of an `Option` (std, derived). -/
def debugOption {α : Type} (F : Fmt) (h : α → List Char) : Option α → List Char
  | none => "None".toList
  | some x => F.tuple "Some" (h x)

end Rangetools
