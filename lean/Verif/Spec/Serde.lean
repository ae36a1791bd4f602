import Mathlib.Data.List.Forall2
import Verif.Model.Serde

/-!
# What a serialized value looks like

The grammar of C62, as a relation between serialized data and values: `EncBound`, …, `Inner.EncodedBy`.  It uses the data
model `Ser` but none of the deserialization functions.
-/

namespace Rangetools
variable {T E : Type}

mutual

/-- The data as a format without field names keeps it: structs become sequences. -/
def Ser.positional : Ser E → Ser E
  | .elem e => .elem e
  | .unit => .unit
  | .newtype v => .newtype v.positional
  | .unitVariant n => .unitVariant n
  | .variant n v => .variant n v.positional
  | .seq vs => .seq (Ser.positionals vs)
  | .struct fs => .seq (Ser.positionalFields fs)

/-- `positional` of all values. -/
def Ser.positionals : List (Ser E) → List (Ser E)
  | [] => []
  | v :: vs => v.positional :: Ser.positionals vs

/-- `positional` of the values of all fields. -/
def Ser.positionalFields : List (String × Ser E) → List (Ser E)
  | [] => []
  | (_, v) :: fs => v.positional :: Ser.positionalFields fs

end

/-- `v` has the fields `names` with values `vs`: it is a sequence of just these values, or a struct with exactly one entry
for each name, and perhaps others. -/
def HasFields (names : List String) (vs : List (Ser E)) (v : Ser E) : Prop :=
  names.length = vs.length ∧
    (v = .seq vs ∨ ∃ fs, v = .struct fs ∧ ∀ p ∈ names.zip vs, fs.filter (fun f => f.1 == p.1) = [p])

/-- A bound: a variant with one element in it. -/
def EncBound (dec : E → Option T) (b : Bound T) (v : Ser E) : Prop :=
  ∃ e, match b with
    | .excluded t => v = .variant "Excluded" (.elem e) ∧ dec e = some t
    | .included t => v = .variant "Included" (.elem e) ∧ dec e = some t

/-- A lower bound: a bound inside a newtype. -/
def EncLower (dec : E → Option T) (b : LowerBound T) (v : Ser E) : Prop := ∃ w, v = .newtype w ∧ EncBound dec b.b w

/-- An upper bound: a bound inside a newtype. -/
def EncUpper (dec : E → Option T) (b : UpperBound T) (v : Ser E) : Prop := ∃ w, v = .newtype w ∧ EncBound dec b.b w

/-- A `BoundedRange`. -/
def EncBR (dec : E → Option T) (r : BoundedRange T) (v : Ser E) : Prop :=
  ∃ a b, HasFields ["start", "end"] [a, b] v ∧ EncLower dec r.start a ∧ EncUpper dec r.stop b

/-- A `LowerBoundedRange`. -/
def EncLBR (dec : E → Option T) (r : LowerBoundedRange T) (v : Ser E) : Prop :=
  ∃ a, HasFields ["start"] [a] v ∧ EncLower dec r.start a

/-- An `UpperBoundedRange`. -/
def EncUBR (dec : E → Option T) (r : UpperBoundedRange T) (v : Ser E) : Prop :=
  ∃ a, HasFields ["end"] [a] v ∧ EncUpper dec r.stop a

/-- A `BoundedSet`: a sequence of ranges, in order. -/
def EncBS (dec : E → Option T) (s : BoundedSet T) (v : Ser E) : Prop :=
  ∃ vs, HasFields ["ranges"] [.seq vs] v ∧ List.Forall₂ (EncBR dec) s.ranges vs

/-- Any of the nine types. -/
def Inner.EncodedBy (dec : E → Option T) (i : Inner T) (v : Ser E) : Prop :=
  match i with
  | .br r => EncBR dec r v
  | .bs s => EncBS dec s v
  | .lbr r => EncLBR dec r v
  | .lbs s => ∃ a b, HasFields ["ranges", "lower_bounded_range"] [a, b] v ∧ EncBS dec s.ranges a ∧
      EncLBR dec s.lowerBoundedRange b
  | .ubr r => EncUBR dec r v
  | .ubs s => ∃ a b, HasFields ["upper_bounded_range", "ranges"] [a, b] v ∧ EncUBR dec s.upperBoundedRange a ∧
      EncBS dec s.ranges b
  | .ur => v = .unit
  | .us .full => v = .unitVariant "Full"
  | .us (.piecewise s) => ∃ w a b c, v = .variant "Piecewise" w ∧
      HasFields ["upper_bounded_range", "ranges", "lower_bounded_range"] [a, b, c] w ∧
      EncUBR dec s.upperBoundedRange a ∧ EncBS dec s.ranges b ∧ EncLBR dec s.lowerBoundedRange c
  | .er => HasFields ["t"] [.unit] v

end Rangetools
