import Verif.Model.Any

/-!
# Model of the derived `Serialize` and `Deserialize`

With the `serde` feature the types derive both traits without any attribute on a field or container
(`#[cfg_attr(feature = "serde", derive(Deserialize, Serialize))]` above every type), so what they do is
fixed by serde's data model.  `Ser E` is the part of that data model the crate uses; `E` is the type of
serialized elements.  A format (JSON, …) is an encoding of such trees and is not modelled.

`Deserialize` is modelled for formats that hand a struct over as a map (`visit_map`) or as a sequence
(`visit_seq`): fields are found by name, in any order, unknown fields are ignored, a missing or repeated
field is an error.  Errors are all `none`; which of several errors is reported is not modelled.
-/

namespace Rangetools

/-- A value of serde's data model. -/
inductive Ser (E : Type) where
  /-- Whatever the element type serializes to. -/
  | elem (e : E)
  /-- `serialize_unit_struct` -/
  | unit
  /-- `serialize_newtype_struct` -/
  | newtype (v : Ser E)
  /-- `serialize_unit_variant` -/
  | unitVariant (name : String)
  /-- `serialize_newtype_variant` -/
  | variant (name : String) (v : Ser E)
  /-- `serialize_seq` -/
  | seq (vs : List (Ser E))
  /-- `serialize_struct` -/
  | struct (fields : List (String × Ser E))

variable {T E : Type}

/-- The value of a field, as the derived `visit_map` finds it: there must be exactly one entry of that
name. -/
def field (name : String) (fs : List (String × Ser E)) : Option (Ser E) :=
  match fs.filter (fun f => f.1 == name) with
  | [f] => some f.2
  | _ => none

/-- The fields `names` of a struct, from a map (`visit_map`) or from a sequence with one value for each
field in order (`visit_seq`). -/
def fieldsOf (names : List String) : Ser E → Option (List (Ser E))
  | .struct fs => names.mapM (fun n => field n fs)
  | .seq vs => if vs.length = names.length then some vs else none
  | _ => none

/-! ### Bounds, /repo/src/bound.rs:9-17, 62-64, 163-165 -/

/-- derived `Serialize` of `Bound<T>`, /repo/src/bound.rs:10-16. -/
def Bound.ser (enc : T → E) : Bound T → Ser E
  | .excluded t => .variant "Excluded" (.elem (enc t))
  | .included t => .variant "Included" (.elem (enc t))

/-- derived `Deserialize` of `Bound<T>`, /repo/src/bound.rs:10-16. -/
def Bound.de (dec : E → Option T) : Ser E → Option (Bound T)
  | .variant "Excluded" (.elem e) => (dec e).map .excluded
  | .variant "Included" (.elem e) => (dec e).map .included
  | _ => none

/-- derived `Serialize` of `LowerBound<T>`, /repo/src/bound.rs:63-64. -/
def LowerBound.ser (enc : T → E) (b : LowerBound T) : Ser E := .newtype (b.b.ser enc)

/-- derived `Deserialize` of `LowerBound<T>`, /repo/src/bound.rs:63-64. -/
def LowerBound.de (dec : E → Option T) : Ser E → Option (LowerBound T)
  | .newtype v => (Bound.de dec v).map .mk
  | _ => none

/-- derived `Serialize` of `UpperBound<T>`, /repo/src/bound.rs:164-165. -/
def UpperBound.ser (enc : T → E) (b : UpperBound T) : Ser E := .newtype (b.b.ser enc)

/-- derived `Deserialize` of `UpperBound<T>`, /repo/src/bound.rs:164-165. -/
def UpperBound.de (dec : E → Option T) : Ser E → Option (UpperBound T)
  | .newtype v => (Bound.de dec v).map .mk
  | _ => none

/-! ### Ranges -/

/-- derived `Serialize` of `BoundedRange<T>`, /repo/src/bounded_range.rs:24-30. -/
def BoundedRange.ser (enc : T → E) (r : BoundedRange T) : Ser E :=
  .struct [("start", r.start.ser enc), ("end", r.stop.ser enc)]

/-- derived `Deserialize` of `BoundedRange<T>`, /repo/src/bounded_range.rs:24-30. -/
def BoundedRange.de (dec : E → Option T) (v : Ser E) : Option (BoundedRange T) := do
  match ← fieldsOf ["start", "end"] v with
  | [a, b] => return ⟨← LowerBound.de dec a, ← UpperBound.de dec b⟩
  | _ => none

/-- derived `Serialize` of `LowerBoundedRange<T>`, /repo/src/lower_bounded_range.rs:19-23. -/
def LowerBoundedRange.ser (enc : T → E) (r : LowerBoundedRange T) : Ser E :=
  .struct [("start", r.start.ser enc)]

/-- derived `Deserialize` of `LowerBoundedRange<T>`, /repo/src/lower_bounded_range.rs:19-23. -/
def LowerBoundedRange.de (dec : E → Option T) (v : Ser E) : Option (LowerBoundedRange T) := do
  match ← fieldsOf ["start"] v with
  | [a] => return ⟨← LowerBound.de dec a⟩
  | _ => none

/-- derived `Serialize` of `UpperBoundedRange<T>`, /repo/src/upper_bounded_range.rs:18-22. -/
def UpperBoundedRange.ser (enc : T → E) (r : UpperBoundedRange T) : Ser E :=
  .struct [("end", r.stop.ser enc)]

/-- derived `Deserialize` of `UpperBoundedRange<T>`, /repo/src/upper_bounded_range.rs:18-22. -/
def UpperBoundedRange.de (dec : E → Option T) (v : Ser E) : Option (UpperBoundedRange T) := do
  match ← fieldsOf ["end"] v with
  | [a] => return ⟨← UpperBound.de dec a⟩
  | _ => none

/-- derived `Serialize` of `UnboundedRange`, /repo/src/unbounded_range.rs:17-18. -/
def UnboundedRange.ser : Ser E := .unit

/-- derived `Deserialize` of `UnboundedRange`, /repo/src/unbounded_range.rs:17-18. -/
def UnboundedRange.de : Ser E → Option Unit
  | .unit => some ()
  | _ => none

/-- derived `Serialize` of `EmptyRange<T>`, /repo/src/empty_range.rs:17-20; serde's `PhantomData` is a
unit struct. -/
def EmptyRange.ser : Ser E := .struct [("t", .unit)]

/-- derived `Deserialize` of `EmptyRange<T>`, /repo/src/empty_range.rs:17-20. -/
def EmptyRange.de (v : Ser E) : Option Unit := do
  match ← fieldsOf ["t"] v with
  | [.unit] => return ()
  | _ => none

/-! ### Sets -/

/-- derived `Serialize` of `BoundedSet<T>`, /repo/src/bounded_set.rs:16-20; a `VecDeque` is a sequence. -/
def BoundedSet.ser (enc : T → E) (s : BoundedSet T) : Ser E :=
  .struct [("ranges", .seq (s.ranges.map (fun r => r.ser enc)))]

/-- derived `Deserialize` of `BoundedSet<T>`, /repo/src/bounded_set.rs:16-20. -/
def BoundedSet.de (dec : E → Option T) (v : Ser E) : Option (BoundedSet T) := do
  match ← fieldsOf ["ranges"] v with
  | [.seq vs] => return ⟨← vs.mapM (fun v => BoundedRange.de dec v)⟩
  | _ => none

/-- derived `Serialize` of `LowerBoundedSet<T>`, /repo/src/lower_bounded_set.rs:19-24. -/
def LowerBoundedSet.ser (enc : T → E) (s : LowerBoundedSet T) : Ser E :=
  .struct [("ranges", s.ranges.ser enc), ("lower_bounded_range", s.lowerBoundedRange.ser enc)]

/-- derived `Deserialize` of `LowerBoundedSet<T>`, /repo/src/lower_bounded_set.rs:19-24. -/
def LowerBoundedSet.de (dec : E → Option T) (v : Ser E) : Option (LowerBoundedSet T) := do
  match ← fieldsOf ["ranges", "lower_bounded_range"] v with
  | [a, b] => return ⟨← BoundedSet.de dec a, ← LowerBoundedRange.de dec b⟩
  | _ => none

/-- derived `Serialize` of `UpperBoundedSet<T>`, /repo/src/upper_bounded_set.rs:15-20. -/
def UpperBoundedSet.ser (enc : T → E) (s : UpperBoundedSet T) : Ser E :=
  .struct [("upper_bounded_range", s.upperBoundedRange.ser enc), ("ranges", s.ranges.ser enc)]

/-- derived `Deserialize` of `UpperBoundedSet<T>`, /repo/src/upper_bounded_set.rs:15-20. -/
def UpperBoundedSet.de (dec : E → Option T) (v : Ser E) : Option (UpperBoundedSet T) := do
  match ← fieldsOf ["upper_bounded_range", "ranges"] v with
  | [a, b] => return ⟨← UpperBoundedRange.de dec a, ← BoundedSet.de dec b⟩
  | _ => none

/-- derived `Serialize` of `PiecewiseUnboundedSet<T>`, /repo/src/unbounded_set.rs:23-29. -/
def PiecewiseUnboundedSet.ser (enc : T → E) (s : PiecewiseUnboundedSet T) : Ser E :=
  .struct [("upper_bounded_range", s.upperBoundedRange.ser enc), ("ranges", s.ranges.ser enc),
    ("lower_bounded_range", s.lowerBoundedRange.ser enc)]

/-- derived `Deserialize` of `PiecewiseUnboundedSet<T>`, /repo/src/unbounded_set.rs:23-29. -/
def PiecewiseUnboundedSet.de (dec : E → Option T) (v : Ser E) : Option (PiecewiseUnboundedSet T) := do
  match ← fieldsOf ["upper_bounded_range", "ranges", "lower_bounded_range"] v with
  | [a, b, c] =>
      return ⟨← UpperBoundedRange.de dec a, ← BoundedSet.de dec b, ← LowerBoundedRange.de dec c⟩
  | _ => none

/-- derived `Serialize` of `UnboundedSet<T>`, /repo/src/unbounded_set.rs:84-90. -/
def UnboundedSet.ser (enc : T → E) : UnboundedSet T → Ser E
  | .full => .unitVariant "Full"
  | .piecewise p => .variant "Piecewise" (p.ser enc)

/-- derived `Deserialize` of `UnboundedSet<T>`, /repo/src/unbounded_set.rs:84-90. -/
def UnboundedSet.de (dec : E → Option T) : Ser E → Option (UnboundedSet T)
  | .unitVariant "Full" => some .full
  | .variant "Piecewise" v => (PiecewiseUnboundedSet.de dec v).map .piecewise
  | _ => none

/-! ### All nine types -/

/-- `Serialize` of the nine crate types. -/
def Inner.ser (enc : T → E) : Inner T → Ser E
  | .br r => r.ser enc
  | .bs s => s.ser enc
  | .lbr r => r.ser enc
  | .lbs s => s.ser enc
  | .ubr r => r.ser enc
  | .ubs s => s.ser enc
  | .ur => UnboundedRange.ser
  | .us s => s.ser enc
  | .er => EmptyRange.ser

/-- `Deserialize` into the type of `like`. -/
def Inner.deLike (dec : E → Option T) (like : Inner T) (v : Ser E) : Option (Inner T) :=
  match like with
  | .br _ => (BoundedRange.de dec v).map .br
  | .bs _ => (BoundedSet.de dec v).map .bs
  | .lbr _ => (LowerBoundedRange.de dec v).map .lbr
  | .lbs _ => (LowerBoundedSet.de dec v).map .lbs
  | .ubr _ => (UpperBoundedRange.de dec v).map .ubr
  | .ubs _ => (UpperBoundedSet.de dec v).map .ubs
  | .ur => (UnboundedRange.de v).map fun _ => .ur
  | .us _ => (UnboundedSet.de dec v).map .us
  | .er => (EmptyRange.de v).map fun _ => .er

end Rangetools
