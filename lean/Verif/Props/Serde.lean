import Verif.Spec.Serde
import Verif.Spec.Samples

/-!
# C62: serialization
-/

namespace Rangetools
variable {T E : Type} {enc : T → E} {dec : E → Option T}

theorem Bound.de_ser (h : ∀ t, dec (enc t) = some t) (b : Bound T) : Bound.de dec (b.ser enc) = some b := by
  cases b <;> simp [Bound.ser, Bound.de, h]

theorem LowerBound.de_ser (h : ∀ t, dec (enc t) = some t) (b : LowerBound T) :
    LowerBound.de dec (b.ser enc) = some b := by
  simp [LowerBound.ser, LowerBound.de, Bound.de_ser h]

theorem UpperBound.de_ser (h : ∀ t, dec (enc t) = some t) (b : UpperBound T) :
    UpperBound.de dec (b.ser enc) = some b := by
  simp [UpperBound.ser, UpperBound.de, Bound.de_ser h]

theorem BoundedRange.de_ser (h : ∀ t, dec (enc t) = some t) (r : BoundedRange T) :
    BoundedRange.de dec (r.ser enc) = some r := by
  simp [BoundedRange.ser, BoundedRange.de, fieldsOf, field, LowerBound.de_ser h, UpperBound.de_ser h]

theorem LowerBoundedRange.de_ser (h : ∀ t, dec (enc t) = some t) (r : LowerBoundedRange T) :
    LowerBoundedRange.de dec (r.ser enc) = some r := by
  simp [LowerBoundedRange.ser, LowerBoundedRange.de, fieldsOf, field, LowerBound.de_ser h]

theorem UpperBoundedRange.de_ser (h : ∀ t, dec (enc t) = some t) (r : UpperBoundedRange T) :
    UpperBoundedRange.de dec (r.ser enc) = some r := by
  simp [UpperBoundedRange.ser, UpperBoundedRange.de, fieldsOf, field, UpperBound.de_ser h]

theorem mapM_de_ser (h : ∀ t, dec (enc t) = some t) (l : List (BoundedRange T)) :
    (l.map (fun r => r.ser enc)).mapM (fun v => BoundedRange.de dec v) = some l := by
  induction l with
  | nil => rfl
  | cons r l ih => rw [List.map_cons, List.mapM_cons, ih, BoundedRange.de_ser h]; rfl

theorem BoundedSet.de_ser (h : ∀ t, dec (enc t) = some t) (s : BoundedSet T) :
    BoundedSet.de dec (s.ser enc) = some s := by
  simp [BoundedSet.ser, BoundedSet.de, fieldsOf, field, mapM_de_ser h]

theorem UnboundedSet.de_ser (h : ∀ t, dec (enc t) = some t) (s : UnboundedSet T) :
    UnboundedSet.de dec (s.ser enc) = some s := by
  cases s <;> simp [UnboundedSet.ser, UnboundedSet.de, PiecewiseUnboundedSet.ser,
    PiecewiseUnboundedSet.de, fieldsOf, field, BoundedSet.de_ser h, LowerBoundedRange.de_ser h,
    UpperBoundedRange.de_ser h]

/-- C62. Deserializing what was serialized gives the value back, for every value of the nine types,
whenever the element type does so. -/
theorem C62_round_trip (h : ∀ t, dec (enc t) = some t) (i : Inner T) :
    Inner.deLike dec i (i.ser enc) = some i := by
  cases i <;> simp only [Inner.ser, Inner.deLike]
  · simp [BoundedRange.de_ser h]
  · simp [BoundedSet.de_ser h]
  · simp [LowerBoundedRange.de_ser h]
  · simp [LowerBoundedSet.ser, LowerBoundedSet.de, fieldsOf, field, BoundedSet.de_ser h,
      LowerBoundedRange.de_ser h]
  · simp [UpperBoundedRange.de_ser h]
  · simp [UpperBoundedSet.ser, UpperBoundedSet.de, fieldsOf, field, BoundedSet.de_ser h,
      UpperBoundedRange.de_ser h]
  · rfl
  · simp [UnboundedSet.de_ser h]
  · simp [EmptyRange.ser, EmptyRange.de, fieldsOf, field]

example : ∀ t : Int, (some : Int → Option Int) (id t) = some t := fun _ => rfl

theorem LowerBound.de_positional (h : ∀ t, dec (enc t) = some t) (b : LowerBound T) :
    LowerBound.de dec (b.ser enc).positional = some b := by
  obtain ⟨b | b⟩ := b <;> simp [LowerBound.ser, LowerBound.de, Bound.ser, Bound.de, Ser.positional, h]

theorem UpperBound.de_positional (h : ∀ t, dec (enc t) = some t) (b : UpperBound T) :
    UpperBound.de dec (b.ser enc).positional = some b := by
  obtain ⟨b | b⟩ := b <;> simp [UpperBound.ser, UpperBound.de, Bound.ser, Bound.de, Ser.positional, h]

theorem BoundedRange.de_positional (h : ∀ t, dec (enc t) = some t) (r : BoundedRange T) :
    BoundedRange.de dec (r.ser enc).positional = some r := by
  simp [BoundedRange.ser, BoundedRange.de, fieldsOf, Ser.positional, Ser.positionalFields, LowerBound.de_positional h,
    UpperBound.de_positional h]

theorem LowerBoundedRange.de_positional (h : ∀ t, dec (enc t) = some t) (r : LowerBoundedRange T) :
    LowerBoundedRange.de dec (r.ser enc).positional = some r := by
  simp [LowerBoundedRange.ser, LowerBoundedRange.de, fieldsOf, Ser.positional, Ser.positionalFields,
    LowerBound.de_positional h]

theorem UpperBoundedRange.de_positional (h : ∀ t, dec (enc t) = some t) (r : UpperBoundedRange T) :
    UpperBoundedRange.de dec (r.ser enc).positional = some r := by
  simp [UpperBoundedRange.ser, UpperBoundedRange.de, fieldsOf, Ser.positional, Ser.positionalFields,
    UpperBound.de_positional h]

theorem mapM_de_positional (h : ∀ t, dec (enc t) = some t) (l : List (BoundedRange T)) :
    (Ser.positionals (l.map (fun r => r.ser enc))).mapM (fun v => BoundedRange.de dec v) = some l := by
  induction l with
  | nil => rfl
  | cons r l ih => rw [List.map_cons, Ser.positionals, List.mapM_cons, ih, BoundedRange.de_positional h]; rfl

theorem BoundedSet.de_positional (h : ∀ t, dec (enc t) = some t) (s : BoundedSet T) :
    BoundedSet.de dec (s.ser enc).positional = some s := by
  simp [BoundedSet.ser, BoundedSet.de, fieldsOf, Ser.positional, Ser.positionalFields, mapM_de_positional h]

/-- C62. The value comes back as well from a format that keeps the values of the fields and not their names: both sides agree
on the order of the fields. -/
theorem C62_positional (h : ∀ t, dec (enc t) = some t) (i : Inner T) :
    Inner.deLike dec i (i.ser enc).positional = some i := by
  cases i with
  | us s =>
    cases s <;> simp [Inner.ser, Inner.deLike, UnboundedSet.ser, UnboundedSet.de, PiecewiseUnboundedSet.ser,
      PiecewiseUnboundedSet.de, fieldsOf, Ser.positional, Ser.positionalFields, BoundedSet.de_positional h,
      LowerBoundedRange.de_positional h, UpperBoundedRange.de_positional h]
  | br r => simp [Inner.ser, Inner.deLike, BoundedRange.de_positional h]
  | bs s => simp [Inner.ser, Inner.deLike, BoundedSet.de_positional h]
  | lbr r => simp [Inner.ser, Inner.deLike, LowerBoundedRange.de_positional h]
  | ubr r => simp [Inner.ser, Inner.deLike, UpperBoundedRange.de_positional h]
  | _ =>
    simp [Inner.ser, Inner.deLike, LowerBoundedSet.ser, LowerBoundedSet.de, UpperBoundedSet.ser, UpperBoundedSet.de,
      UnboundedRange.ser, UnboundedRange.de, EmptyRange.ser, EmptyRange.de, fieldsOf, Ser.positional, Ser.positionalFields,
      BoundedSet.de_positional h, LowerBoundedRange.de_positional h, UpperBoundedRange.de_positional h]

example : ((Inner.lbr ⟨⟨.included 4⟩⟩ : Inner Int).ser id).positional =
    .seq [.newtype (.variant "Included" (.elem 4))] := by
  simp [Inner.ser, LowerBoundedRange.ser, LowerBound.ser, Bound.ser, Ser.positional, Ser.positionalFields]

/-- C62. Different values of a type serialize differently. -/
theorem C62_injective (h : ∀ t, dec (enc t) = some t) (i j : Inner T) (hij : i.SameType j)
    (he : i.ser enc = j.ser enc) : i = j := by
  have e1 := C62_round_trip h i
  have e2 := C62_round_trip h j
  have : Inner.deLike dec i = Inner.deLike dec j := by
    cases i <;> cases j <;> first | rfl | exact absurd hij id
  rw [he, this, e2] at e1
  exact (Option.some.inj e1).symm

example : Samples.lbs.SameType Samples.lbs' ∧ Samples.lbs ≠ Samples.lbs' := ⟨trivial, by decide⟩

theorem field_perm (n : String) {fs gs : List (String × Ser E)} (h : fs.Perm gs) :
    field n fs = field n gs := by
  have hp := h.filter (fun f => f.1 == n)
  unfold field
  generalize fs.filter (fun f => f.1 == n) = x at hp
  generalize gs.filter (fun f => f.1 == n) = y at hp
  rcases x with _ | ⟨a, _ | ⟨b, x⟩⟩
  · rw [List.nil_perm.1 hp]
  · rw [List.singleton_perm.1 hp]
  · rcases y with _ | ⟨c, _ | ⟨d, y⟩⟩
    · exact absurd hp.length_eq (by simp)
    · exact absurd hp.length_eq (by simp)
    · rfl

/-- C62. The order of the fields does not matter. -/
theorem C62_field_order (like : Inner T) {fs gs : List (String × Ser E)} (h : fs.Perm gs) :
    Inner.deLike dec like (.struct fs) = Inner.deLike dec like (.struct gs) := by
  have key : ∀ names, fieldsOf names (.struct fs) = fieldsOf names (.struct gs) := fun names => by
    simp only [fieldsOf, fun n => field_perm n h]
  cases like <;> simp only [Inner.deLike, BoundedRange.de, BoundedSet.de, LowerBoundedRange.de,
    LowerBoundedSet.de, UpperBoundedRange.de, UpperBoundedSet.de, UnboundedRange.de, UnboundedSet.de,
    EmptyRange.de, key]

example : Inner.deLike (some : Int → Option Int) (.br (Samples.co 0 1))
    (.struct [("end", .newtype (.variant "Excluded" (.elem 9))),
      ("start", .newtype (.variant "Included" (.elem 4)))]) = some (.br (Samples.co 4 9)) := by rfl

/-- C62. Fields of other names are ignored. -/
theorem C62_unknown_field (like : Inner T) (n : String) (v : Ser E) (fs : List (String × Ser E))
    (hn : n ∉ ["start", "end", "ranges", "lower_bounded_range", "upper_bounded_range", "t"]) :
    Inner.deLike dec like (.struct ((n, v) :: fs)) = Inner.deLike dec like (.struct fs) := by
  simp only [List.mem_cons, List.not_mem_nil, or_false, not_or] at hn
  obtain ⟨h1, h2, h3, h4, h5, h6⟩ := hn
  have key : ∀ m, n ≠ m → field m ((n, v) :: fs) = field m fs := fun m hm => by
    unfold field
    rw [List.filter_cons_of_neg (by simpa using hm)]
  cases like <;> simp only [Inner.deLike, BoundedRange.de, BoundedSet.de, LowerBoundedRange.de,
    LowerBoundedSet.de, UpperBoundedRange.de, UpperBoundedSet.de, UnboundedRange.de, UnboundedSet.de,
    EmptyRange.de, fieldsOf, List.mapM_cons, List.mapM_nil, key _ h1, key _ h2, key _ h3, key _ h4,
    key _ h5, key _ h6]

example : "comment" ∉ ["start", "end", "ranges", "lower_bounded_range", "upper_bounded_range", "t"] := by
  decide

/-- The field names of the struct types. -/
def Inner.fieldNames : Inner T → List String
  | .br _ => ["start", "end"]
  | .bs _ => ["ranges"]
  | .lbr _ => ["start"]
  | .lbs _ => ["ranges", "lower_bounded_range"]
  | .ubr _ => ["end"]
  | .ubs _ => ["upper_bounded_range", "ranges"]
  | .er => ["t"]
  | .ur | .us _ => []

/-- C62. A missing field, and a field that occurs twice, is an error. -/
theorem C62_exactly_once (like : Inner T) (fs : List (String × Ser E)) (i : Inner T)
    (h : Inner.deLike dec like (.struct fs) = some i) :
    ∀ n ∈ like.fieldNames, (fs.filter (fun f => f.1 == n)).length = 1 := by
  have hf : ∀ {n : String} {v : Ser E}, field n fs = some v →
      (fs.filter (fun f => f.1 == n)).length = 1 := by
    intro n v e
    unfold field at e
    generalize fs.filter (fun f => f.1 == n) = x at e
    rcases x with _ | ⟨a, _ | ⟨b, x⟩⟩
    · cases e
    · rfl
    · cases e
  have hm : ∀ {names : List String} {vs : List (Ser E)}, fieldsOf names (.struct fs) = some vs →
      ∀ n ∈ names, (fs.filter (fun f => f.1 == n)).length = 1 := by
    intro names
    induction names with
    | nil => intro vs _ n hn; cases hn
    | cons m names ih =>
      intro vs e n hn
      simp only [fieldsOf, List.mapM_cons, Option.bind_eq_bind, Option.bind_eq_some_iff] at e
      obtain ⟨a, ha, b, hb, _⟩ := e
      rcases List.mem_cons.1 hn with rfl | hn
      · exact hf ha
      · exact ih hb n hn
  cases like <;> simp only [Inner.deLike, BoundedRange.de, BoundedSet.de, LowerBoundedRange.de,
    LowerBoundedSet.de, UpperBoundedRange.de, UpperBoundedSet.de, UnboundedRange.de, UnboundedSet.de,
    EmptyRange.de, Option.map_eq_some_iff, Option.bind_eq_bind, Option.bind_eq_some_iff] at h
  case ur => intro n hn; cases hn
  case us => intro n hn; cases hn
  all_goals
    obtain ⟨_, ⟨vs, hvs, _⟩, _⟩ := h
    exact hm hvs

example : (Inner.br (Samples.co 0 1)).fieldNames = ["start", "end"] := rfl

/-! ### Exactly what is accepted -/

theorem field_eq_some {n : String} {fs : List (String × Ser E)} {v : Ser E} :
    field n fs = some v ↔ fs.filter (fun f => f.1 == n) = [(n, v)] := by
  have hm : ∀ f ∈ fs.filter (fun f => f.1 == n), f.1 = n := fun f hf => by simpa using (List.mem_filter.1 hf).2
  unfold field
  generalize fs.filter (fun f => f.1 == n) = x at hm
  rcases x with _ | ⟨⟨m, a⟩, _ | ⟨b, x⟩⟩
  · simp
  · obtain rfl : m = n := hm (m, a) (by simp)
    simp
  · simp

theorem mapM_field {fs : List (String × Ser E)} {names : List String} {vs : List (Ser E)} :
    names.mapM (fun n => field n fs) = some vs ↔
      names.length = vs.length ∧ ∀ p ∈ names.zip vs, fs.filter (fun f => f.1 == p.1) = [p] := by
  induction names generalizing vs with
  | nil => cases vs <;> simp
  | cons n names ih =>
    rw [List.mapM_cons]
    cases vs with
    | nil => simp [Option.bind_eq_some_iff]
    | cons v vs =>
      simp only [Option.bind_eq_bind, Option.bind_eq_some_iff, Option.pure_def, Option.some.injEq, List.cons.injEq,
        field_eq_some, ih, List.length_cons, Nat.add_right_cancel_iff, List.zip_cons_cons, List.mem_cons, forall_eq_or_imp]
      constructor
      · rintro ⟨_, h, _, ⟨hl, h'⟩, rfl, rfl⟩; exact ⟨hl, h, h'⟩
      · rintro ⟨hl, h, h'⟩; exact ⟨_, h, _, ⟨hl, h'⟩, rfl, rfl⟩

theorem fieldsOf_eq_some {names : List String} {vs : List (Ser E)} {v : Ser E} :
    fieldsOf names v = some vs ↔ HasFields names vs v := by
  cases v with
  | struct fs => simp [fieldsOf, HasFields, mapM_field]
  | seq ws =>
    simp only [fieldsOf, HasFields, Option.ite_none_right_eq_some, Option.some.injEq, Ser.seq.injEq, reduceCtorEq, false_and,
      exists_false, or_false]
    constructor
    · rintro ⟨h, rfl⟩; exact ⟨h.symm, rfl⟩
    · rintro ⟨h, rfl⟩; exact ⟨h.symm, rfl⟩
  | _ => simp [fieldsOf, HasFields]

theorem Bound.de_iff {b : Bound T} {v : Ser E} : Bound.de dec v = some b ↔ EncBound dec b v := by
  unfold Bound.de EncBound
  split
  · cases b <;> simp [Option.map_eq_some_iff]
  · cases b <;> simp [Option.map_eq_some_iff]
  · rename_i h1 h2
    constructor
    · intro h; cases h
    · rintro ⟨e, h⟩
      cases b
      · exact absurd h.1 (h1 e)
      · exact absurd h.1 (h2 e)

theorem LowerBound.de_iff {b : LowerBound T} {v : Ser E} : LowerBound.de dec v = some b ↔ EncLower dec b v := by
  obtain ⟨b⟩ := b
  cases v <;> simp [LowerBound.de, EncLower, Bound.de_iff]

theorem UpperBound.de_iff {b : UpperBound T} {v : Ser E} : UpperBound.de dec v = some b ↔ EncUpper dec b v := by
  obtain ⟨b⟩ := b
  cases v <;> simp [UpperBound.de, EncUpper, Bound.de_iff]

theorem BoundedRange.de_iff {r : BoundedRange T} {v : Ser E} : BoundedRange.de dec v = some r ↔ EncBR dec r v := by
  obtain ⟨x, y⟩ := r
  simp only [BoundedRange.de, EncBR, Option.bind_eq_bind, Option.bind_eq_some_iff, fieldsOf_eq_some]
  constructor
  · rintro ⟨vs, h, e⟩
    split at e
    · simp only [Option.bind_eq_some_iff, Option.pure_def, Option.some.injEq, BoundedRange.mk.injEq] at e
      obtain ⟨_, h1, _, h2, rfl, rfl⟩ := e
      exact ⟨_, _, h, LowerBound.de_iff.1 h1, UpperBound.de_iff.1 h2⟩
    · cases e
  · rintro ⟨a, b, h, h1, h2⟩
    exact ⟨_, h, by simp [LowerBound.de_iff.2 h1, UpperBound.de_iff.2 h2]⟩

theorem LowerBoundedRange.de_iff {r : LowerBoundedRange T} {v : Ser E} :
    LowerBoundedRange.de dec v = some r ↔ EncLBR dec r v := by
  obtain ⟨x⟩ := r
  simp only [LowerBoundedRange.de, EncLBR, Option.bind_eq_bind, Option.bind_eq_some_iff, fieldsOf_eq_some]
  constructor
  · rintro ⟨vs, h, e⟩
    split at e
    · simp only [Option.bind_eq_some_iff, Option.pure_def, Option.some.injEq, LowerBoundedRange.mk.injEq] at e
      obtain ⟨_, h1, rfl⟩ := e
      exact ⟨_, h, LowerBound.de_iff.1 h1⟩
    · cases e
  · rintro ⟨a, h, h1⟩
    exact ⟨_, h, by simp [LowerBound.de_iff.2 h1]⟩

theorem UpperBoundedRange.de_iff {r : UpperBoundedRange T} {v : Ser E} :
    UpperBoundedRange.de dec v = some r ↔ EncUBR dec r v := by
  obtain ⟨x⟩ := r
  simp only [UpperBoundedRange.de, EncUBR, Option.bind_eq_bind, Option.bind_eq_some_iff, fieldsOf_eq_some]
  constructor
  · rintro ⟨vs, h, e⟩
    split at e
    · simp only [Option.bind_eq_some_iff, Option.pure_def, Option.some.injEq, UpperBoundedRange.mk.injEq] at e
      obtain ⟨_, h1, rfl⟩ := e
      exact ⟨_, h, UpperBound.de_iff.1 h1⟩
    · cases e
  · rintro ⟨a, h, h1⟩
    exact ⟨_, h, by simp [UpperBound.de_iff.2 h1]⟩

theorem mapM_de_iff {l : List (BoundedRange T)} {vs : List (Ser E)} :
    vs.mapM (fun v => BoundedRange.de dec v) = some l ↔ List.Forall₂ (EncBR dec) l vs := by
  induction vs generalizing l with
  | nil => cases l <;> simp
  | cons v vs ih =>
    rw [List.mapM_cons]
    cases l with
    | nil => simp [Option.bind_eq_some_iff]
    | cons r l =>
      simp only [Option.bind_eq_bind, Option.bind_eq_some_iff, Option.pure_def, Option.some.injEq, List.cons.injEq,
        BoundedRange.de_iff, ih, List.forall₂_cons]
      constructor
      · rintro ⟨_, h, _, h', rfl, rfl⟩; exact ⟨h, h'⟩
      · rintro ⟨h, h'⟩; exact ⟨_, h, _, h', rfl, rfl⟩

theorem BoundedSet.de_iff {s : BoundedSet T} {v : Ser E} : BoundedSet.de dec v = some s ↔ EncBS dec s v := by
  obtain ⟨l⟩ := s
  simp only [BoundedSet.de, EncBS, Option.bind_eq_bind, Option.bind_eq_some_iff, fieldsOf_eq_some]
  constructor
  · rintro ⟨vs, h, e⟩
    split at e
    · simp only [Option.bind_eq_some_iff, Option.pure_def, Option.some.injEq, BoundedSet.mk.injEq] at e
      obtain ⟨_, h1, rfl⟩ := e
      exact ⟨_, h, mapM_de_iff.1 h1⟩
    · cases e
  · rintro ⟨a, h, h1⟩
    exact ⟨_, h, by simp [mapM_de_iff.2 h1]⟩

/-- C62. Deserialization accepts exactly the data described by the grammar of Spec/Serde.lean, and returns the value it
stands for. -/
theorem C62_accepts (like i : Inner T) (v : Ser E) :
    Inner.deLike dec like v = some i ↔ like.SameType i ∧ i.EncodedBy dec v := by
  cases like with
  | br => cases i <;> simp [Inner.deLike, Inner.SameType, Inner.EncodedBy, BoundedRange.de_iff]
  | bs => cases i <;> simp [Inner.deLike, Inner.SameType, Inner.EncodedBy, BoundedSet.de_iff]
  | lbr => cases i <;> simp [Inner.deLike, Inner.SameType, Inner.EncodedBy, LowerBoundedRange.de_iff]
  | ubr => cases i <;> simp [Inner.deLike, Inner.SameType, Inner.EncodedBy, UpperBoundedRange.de_iff]
  | ur => cases i <;> cases v <;> simp [Inner.deLike, Inner.SameType, Inner.EncodedBy, UnboundedRange.de]
  | lbs =>
    cases i with
    | lbs s =>
      obtain ⟨x, y⟩ := s
      simp only [Inner.deLike, Inner.SameType, Inner.EncodedBy, LowerBoundedSet.de, Option.map_eq_some_iff,
        Option.bind_eq_bind, Option.bind_eq_some_iff, fieldsOf_eq_some, true_and]
      constructor
      · rintro ⟨_, ⟨vs, h, e⟩, g⟩
        obtain rfl : _ = _ := Inner.lbs.inj g
        split at e
        · simp only [Option.bind_eq_some_iff, Option.pure_def, Option.some.injEq, LowerBoundedSet.mk.injEq] at e
          obtain ⟨_, h1, _, h2, rfl, rfl⟩ := e
          exact ⟨_, _, h, BoundedSet.de_iff.1 h1, LowerBoundedRange.de_iff.1 h2⟩
        · cases e
      · rintro ⟨a, b, h, h1, h2⟩
        exact ⟨_, ⟨_, h, by simp [BoundedSet.de_iff.2 h1, LowerBoundedRange.de_iff.2 h2]⟩, rfl⟩
    | _ => simp [Inner.deLike, Inner.SameType]
  | ubs =>
    cases i with
    | ubs s =>
      obtain ⟨x, y⟩ := s
      simp only [Inner.deLike, Inner.SameType, Inner.EncodedBy, UpperBoundedSet.de, Option.map_eq_some_iff,
        Option.bind_eq_bind, Option.bind_eq_some_iff, fieldsOf_eq_some, true_and]
      constructor
      · rintro ⟨_, ⟨vs, h, e⟩, g⟩
        obtain rfl : _ = _ := Inner.ubs.inj g
        split at e
        · simp only [Option.bind_eq_some_iff, Option.pure_def, Option.some.injEq, UpperBoundedSet.mk.injEq] at e
          obtain ⟨_, h1, _, h2, rfl, rfl⟩ := e
          exact ⟨_, _, h, UpperBoundedRange.de_iff.1 h1, BoundedSet.de_iff.1 h2⟩
        · cases e
      · rintro ⟨a, b, h, h1, h2⟩
        exact ⟨_, ⟨_, h, by simp [UpperBoundedRange.de_iff.2 h1, BoundedSet.de_iff.2 h2]⟩, rfl⟩
    | _ => simp [Inner.deLike, Inner.SameType]
  | er =>
    cases i with
    | er =>
      simp only [Inner.deLike, Inner.SameType, Inner.EncodedBy, EmptyRange.de, Option.map_eq_some_iff,
        Option.bind_eq_bind, Option.bind_eq_some_iff, fieldsOf_eq_some, true_and, and_true]
      constructor
      · rintro ⟨_, vs, h, e⟩
        split at e
        · exact h
        · cases e
      · intro h
        exact ⟨(), _, h, rfl⟩
    | _ => simp [Inner.deLike, Inner.SameType]
  | us =>
    cases i with
    | us s =>
      simp only [Inner.deLike, Inner.SameType, Option.map_eq_some_iff, true_and, Inner.us.injEq, exists_eq_right]
      unfold UnboundedSet.de
      split
      · cases s <;> simp [Inner.EncodedBy]
      · rename_i w
        cases s with
        | full => simp [Inner.EncodedBy]
        | piecewise s =>
          obtain ⟨x, y, z⟩ := s
          simp only [Inner.EncodedBy, PiecewiseUnboundedSet.de, Option.map_eq_some_iff,
            Option.bind_eq_bind, Option.bind_eq_some_iff, fieldsOf_eq_some, UnboundedSet.piecewise.injEq, exists_eq_right]
          constructor
          · rintro ⟨vs, h, e⟩
            split at e
            · simp only [Option.bind_eq_some_iff, Option.pure_def, Option.some.injEq, PiecewiseUnboundedSet.mk.injEq] at e
              obtain ⟨_, h1, _, h2, _, h3, rfl, rfl, rfl⟩ := e
              exact ⟨_, _, _, _, rfl, h, UpperBoundedRange.de_iff.1 h1, BoundedSet.de_iff.1 h2, LowerBoundedRange.de_iff.1 h3⟩
            · cases e
          · rintro ⟨w', a, b, c, e, h, h1, h2, h3⟩
            obtain rfl : _ = _ := (Ser.variant.inj e).2
            exact ⟨_, h, by simp [UpperBoundedRange.de_iff.2 h1, BoundedSet.de_iff.2 h2, LowerBoundedRange.de_iff.2 h3]⟩
      · rename_i h1 h2
        constructor
        · intro h; cases h
        · intro h
          cases s with
          | full => exact absurd h h1
          | piecewise s =>
            obtain ⟨w, _, _, _, e, _⟩ := h
            exact absurd e (h2 w)
    | _ => simp [Inner.deLike, Inner.SameType]

-- a sequence stands for a struct; a unit is not a `BoundedSet`
example : (Inner.br (Samples.co 0 1)).EncodedBy some
      (.seq [.newtype (.variant "Included" (.elem 0)), .newtype (.variant "Excluded" (.elem (1 : Int)))]) ∧
    ¬(Inner.bs (⟨[]⟩ : BoundedSet Int)).EncodedBy (E := Int) some .unit := by
  constructor
  · exact ⟨_, _, ⟨rfl, Or.inl rfl⟩, ⟨_, rfl, _, rfl, rfl⟩, ⟨_, rfl, _, rfl, rfl⟩⟩
  · rintro ⟨_, ⟨_, h | ⟨_, h, _⟩⟩, _⟩ <;> cases h

/-- C62. Deserialization does not check the private invariant: a `BoundedSet` with reversed and
overlapping pieces comes through.  (C01, C04 and C57 hold for such values as well; C06 does not.) -/
theorem C62_invariant_counterexample :
    ∃ (v : Ser Int) (s : BoundedSet Int), BoundedSet.de some v = some s ∧
      ¬ (Inner.bs s).Normal ∧ s.ranges = [Samples.co 5 3, Samples.co 0 4, Samples.co 2 9] :=
  ⟨_, ⟨[Samples.co 5 3, Samples.co 0 4, Samples.co 2 9]⟩,
    BoundedSet.de_ser (enc := id) (fun _ => rfl) _, by decide, rfl⟩

end Rangetools
