import Verif.Props.Convert
import Verif.Props.IterLimits
import Verif.Props.Lattice

/-!
# How far the partial claims go

Exact conditions for C14, C32, C43 and C58, whose full statements are false of the code.
-/

namespace Rangetools
open Samples

/-! ## C14, C58 -/

section
variable {T : Type} [LinearOrder T] [DenselyOrdered T] [NoMinOrder T] [NoMaxOrder T] [Nonempty T]

/-- C14, second half, on dense types without end points: it holds exactly for the lossless pairs. -/
theorem C14_complement_inter_iff (a b : Inner T) (na : a.Normal) (nb : b.Normal) :
    ∃ i l ca cb r, (Any.inner a).inter (.inner b) = .ok i ∧ (Any.inner i).complement = .ok l ∧
      (Any.inner a).complement = .ok ca ∧ (Any.inner b).complement = .ok cb ∧
      (Any.inner ca).union (.inner cb) = .ok r ∧
      ((∀ t, l.contains t = r.contains t) ↔ Lossless (.inner a) (.inner b)) := by
  obtain ⟨i, hi⟩ := (C04_no_panic (.inner a) (.inner b)).2.1
  obtain ⟨l, hl, sl⟩ := C03_complement_contains (.inner i) trivial
  obtain ⟨ca, hca, sca⟩ := C03_complement_contains (.inner a) trivial
  obtain ⟨cb, hcb, scb⟩ := C03_complement_contains (.inner b) trivial
  obtain ⟨r, hr, sr⟩ := C01_union_contains (.inner ca) (.inner cb) trivial trivial
  refine ⟨i, l, ca, cb, r, hi, hl, hca, hcb, hr, ?_⟩
  rw [← C02_lossless_exact a b na nb i hi]
  refine forall_congr' fun t => ?_
  rw [sl, sr]
  simp only [Any.contains_inner]
  rw [sca, scb]
  simp only [Any.contains_inner]
  cases i.contains t <;> cases a.contains t <;> cases b.contains t <;> decide

/-- C58's difference on dense types without end points: it is right exactly when the intersection in it is
lossless. -/
theorem C58_difference_iff (a b : Inner T) (na : a.Normal) :
    ∃ c d, (Any.inner b).complement = .ok c ∧ (Any.inner a).inter (.inner c) = .ok d ∧
      ((∀ t, d.contains t = (a.contains t && !b.contains t)) ↔ Lossless (.inner a) (.inner c)) := by
  obtain ⟨c, hc, sc⟩ := C03_complement_contains (.inner b) trivial
  obtain ⟨c', hc', _, wc, _⟩ := Any.complement_comp (.inner b)
  obtain rfl : c = c' := by rw [hc] at hc'; injection hc'
  obtain ⟨d, hd⟩ := (C04_no_panic (.inner a) (.inner c)).2.1
  refine ⟨c, d, hc, hd, ?_⟩
  rw [← C02_lossless_exact a c na ((Inner.normal_iff _).mpr (wc trivial)) d hd]
  refine forall_congr' fun t => ?_
  rw [sc, Any.contains_inner]

end

-- over the rationals: lossless in one order only
example : (Inner.lbs ⟨⟨[⟨.included (-5), .excluded (-3)⟩]⟩, ⟨.included 0⟩⟩ : Inner Rat).Normal ∧
    (Inner.lbs ⟨⟨[⟨.included 1, .excluded 3⟩]⟩, ⟨.included 10⟩⟩ : Inner Rat).Normal ∧
    ¬ Lossless (.inner (.lbs ⟨⟨[⟨.included (-5), .excluded (-3)⟩]⟩, ⟨.included (0 : Rat)⟩⟩))
      (.inner (.lbs ⟨⟨[⟨.included 1, .excluded 3⟩]⟩, ⟨.included 10⟩⟩)) := by decide +kernel

/-! ## C32, C43 -/

section
variable {T : Type} [LinearOrder T] {p : Platform} {S : Step T} {idx : T → Int}

/-- Stepping out of the type panics, or starts again at the other end. -/
structure Step.Circular (S : Step T) : Prop where
  forward : ∀ a, ¬ HasAbove a → (∃ m, S.forward a 1 = .panic m) ∨ ∃ b, S.forward a 1 = .ok b ∧ ¬ HasBelow b
  backward : ∀ a, ¬ HasBelow a → (∃ m, S.backward a 1 = .panic m) ∨ ∃ b, S.backward a 1 = .ok b ∧ ¬ HasAbove b

theorem IntTy.circular (p : Platform) (τ : IntTy) : (IntTy.step p τ).Circular where
  forward a h := by
    have : a = τ.top := Subtype.ext (by
      have h2 := a.2
      show a.1 = τ.max
      by_contra hne
      exact h ⟨τ.top, show a.1 < τ.max by omega⟩)
    subst this
    rw [IntTy.forward_top]
    split
    · exact .inl ⟨_, rfl⟩
    · exact .inr ⟨_, rfl, fun ⟨c, hc⟩ => absurd hc (not_lt.2 c.2.1)⟩
  backward a h := by
    have : a = τ.bot := Subtype.ext (by
      have h2 := a.2
      show a.1 = τ.min
      by_contra hne
      exact h ⟨τ.bot, show τ.min < a.1 by omega⟩)
    subst this
    rw [IntTy.backward_bot]
    split
    · exact .inl ⟨_, rfl⟩
    · exact .inr ⟨_, rfl, fun ⟨c, hc⟩ => absurd hc (not_lt.2 c.2.2)⟩

theorem Scalar.circular (p : Platform) : (Scalar.step p).Circular where
  forward _ h := .inl ((Scalar.lawful p).no_up (Scalar.checked p) h)
  backward _ h := .inl ((Scalar.lawful p).no_down (Scalar.checked p) h)

/-- C32. The conversion of `EmptyRange` to `RangeInclusive` succeeds with an empty range exactly when the
default value is not the least value of the type. -/
theorem C32_inclusive_iff (L : LawfulStep p S idx) (C : S.Circular) (dflt : T) :
    (∃ q, EmptyRange.toRangeInclusive S dflt = .ok q ∧ ∀ t, q.contains t = false) ↔ HasBelow dflt := by
  refine ⟨fun ⟨q, hq, ht⟩ => ?_, fun h => C32_inclusive_partial L dflt h⟩
  by_contra h
  simp only [EmptyRange.toRangeInclusive, BoundedRange.toRangeInclusive, LowerBound.toBound,
    UpperBound.toBound, LowerBound.included, UpperBound.excluded] at hq
  rcases C.backward dflt h with ⟨m, hm⟩ | ⟨b, hb, hmax⟩
  · rw [hm] at hq; cases hq
  · rw [hb] at hq
    cases hq
    have := ht dflt
    have hle : dflt ≤ b := not_lt.1 fun hlt => hmax ⟨dflt, hlt⟩
    simp [RangeInclusive.contains, hle] at this

/-- Of the integer types it is the signed ones. -/
theorem C32_inclusive_types (p : Platform) (τ : IntTy) (d : τ.Val) (hd : d.1 = 0) :
    (∃ q, EmptyRange.toRangeInclusive (IntTy.step p τ) d = .ok q ∧ ∀ t, q.contains t = false) ↔ τ.signed = true := by
  rw [C32_inclusive_iff (IntTy.lawful p τ) (IntTy.circular p τ)]
  constructor
  · rintro ⟨c, hc⟩
    have h1 : c.1 < d.1 := hc
    have h2 := c.2.1
    by_contra hs
    simp only [IntTy.min, if_neg hs] at h2
    omega
  · intro hs
    refine ⟨τ.bot, ?_⟩
    show τ.min < d.1
    simp only [hd, IntTy.min, if_pos hs]
    have : (0 : Int) < 2 ^ (τ.bits - 1) := Int.pow_pos (by decide)
    omega

example : (⟨0, by decide⟩ : u8.Val).1 = 0 ∧ u8.signed = false ∧ (⟨0, by decide⟩ : i8.Val).1 = 0 ∧ i8.signed = true := by decide

/-- Calling `next` yields all elements in order, and then `None` for ever. -/
def BoundedRange.YieldsAll (p : Platform) (S : Step T) (r : BoundedRange T) : Prop :=
  ∃ it l, r.intoIter S = .ok it ∧ Lists l r.contains ∧
    ∀ k, ∃ it', runOps (BoundedRangeIter.call p S) it (List.replicate (l.length + k) .next) =
      .ok (l.map (fun t => .item (some t)) ++ List.replicate k (.item none), it')

/-- Calling `next_back` yields all elements in reverse order, and then `None` for ever. -/
def BoundedRange.YieldsAllBack (p : Platform) (S : Step T) (r : BoundedRange T) : Prop :=
  ∃ it l, r.intoIter S = .ok it ∧ Lists l r.contains ∧
    ∀ k, ∃ it', runOps (BoundedRangeIter.call p S) it (List.replicate (l.length + k) .nextBack) =
      .ok (l.reverse.map (fun t => .item (some t)) ++ List.replicate k (.item none), it')

theorem BoundedRange.representable_of_canInclude (L : LawfulStep p S idx) {r : BoundedRange T} (h1 : r.start.CanInclude)
    (h2 : r.stop.CanInclude) : r.Representable idx := by
  obtain ⟨⟨s | s⟩, ⟨e | e⟩⟩ := r
  · exact ⟨(L.hasAbove s).1 (h1 s rfl), (L.hasBelow e).1 (h2 e rfl)⟩
  · exact ⟨(L.hasAbove s).1 (h1 s rfl), ⟨e, rfl⟩⟩
  · exact ⟨⟨s, rfl⟩, (L.hasBelow e).1 (h2 e rfl)⟩
  · exact ⟨⟨s, rfl⟩, ⟨e, rfl⟩⟩

/-- Where the state of an iterator starts that is built from a bound at the very end of the type. -/
theorem BoundedRange.intoIter_edge (C : S.Circular) {r : BoundedRange T} {it : BoundedRangeIter T}
    (hit : r.intoIter S = .ok it) :
    (∀ a, r.start = .excluded a → ¬ HasAbove a → ¬ HasBelow it.current) ∧
    (∀ a, r.stop = .excluded a → ¬ HasBelow a → ¬ HasAbove it.last) ∧
    (∀ a, r.start = .included a → it.current = a) ∧ ∀ a, r.stop = .included a → it.last = a := by
  obtain ⟨h1, h2⟩ : (match r.start.b with | .excluded t => S.forward t 1 | .included t => .ok t) = .ok it.current ∧
      (match r.stop.b with | .excluded t => S.backward t 1 | .included t => .ok t) = .ok it.last := by
    obtain ⟨⟨s | s⟩, ⟨e | e⟩⟩ := r <;> simp only [BoundedRange.intoIter] at hit ⊢
    · cases h1 : S.forward s 1 <;> cases h2 : S.backward e 1 <;> rw [h1] at hit <;> try rw [h2] at hit
      all_goals cases hit
      exact ⟨rfl, rfl⟩
    · cases h1 : S.forward s 1 <;> rw [h1] at hit <;> cases hit
      exact ⟨rfl, rfl⟩
    · cases h2 : S.backward e 1 <;> rw [h2] at hit <;> cases hit
      exact ⟨rfl, rfl⟩
    · cases hit
      exact ⟨rfl, rfl⟩
  obtain ⟨start, stop⟩ := r
  refine ⟨fun a ha hn => ?_, fun a ha hn => ?_, fun a ha => ?_, fun a ha => ?_⟩ <;> dsimp only at ha <;> subst ha
  · change S.forward a 1 = _ at h1
    rcases C.forward a hn with ⟨m, hm⟩ | ⟨b, hb, h⟩
    · rw [hm] at h1; cases h1
    · rw [hb] at h1; cases h1; exact h
  · change S.backward a 1 = _ at h2
    rcases C.backward a hn with ⟨m, hm⟩ | ⟨b, hb, h⟩
    · rw [hm] at h2; cases h2
    · rw [hb] at h2; cases h2; exact h
  · cases h1; rfl
  · cases h2; rfl

theorem BoundedRangeIter.next_ne_none {it it' : BoundedRangeIter T} (h : it.current ≤ it.last) :
    it.next S ≠ .ok (none, it') := by
  rw [BoundedRangeIter.next, if_neg (not_lt.2 h)]
  cases S.forward it.current 1 <;> simp [Res.bind_ok]

theorem BoundedRangeIter.nextBack_ne_none {it it' : BoundedRangeIter T} (h : it.current ≤ it.last) :
    it.nextBack S ≠ .ok (none, it') := by
  rw [BoundedRangeIter.nextBack, if_neg (not_lt.2 h)]
  cases S.backward it.last 1 <;> simp [Res.bind_ok]

theorem BoundedRangeIter.next_of_run {it it' : BoundedRangeIter T}
    (h : runOps (BoundedRangeIter.call p S) it (List.replicate (([] : List T).length + 1) .next) =
      .ok (([] : List T).map (fun t => Out.item (some t)) ++ List.replicate 1 (.item none), it')) :
    it.next S = .ok (none, it') := by
  simp only [List.length_nil, Nat.zero_add, List.replicate_one, runOps, BoundedRangeIter.call, List.map_nil,
    List.nil_append] at h
  cases hn : it.next S with
  | panic m => rw [hn] at h; cases h
  | ok x =>
    rw [hn] at h
    simp only [Res.bind_ok, Res.pure_eq, Res.ok.injEq, Prod.mk.injEq, List.cons.injEq, and_true, Out.item.injEq] at h
    rw [← h.1, ← h.2]

theorem BoundedRangeIter.nextBack_of_run {it it' : BoundedRangeIter T}
    (h : runOps (BoundedRangeIter.call p S) it (List.replicate (([] : List T).length + 1) .nextBack) =
      .ok (([] : List T).reverse.map (fun t => Out.item (some t)) ++ List.replicate 1 (.item none), it')) :
    it.nextBack S = .ok (none, it') := by
  simp only [List.length_nil, Nat.zero_add, List.replicate_one, runOps, BoundedRangeIter.call, List.map_nil,
    List.reverse_nil, List.nil_append] at h
  cases hn : it.nextBack S with
  | panic m => rw [hn] at h; cases h
  | ok x =>
    rw [hn] at h
    simp only [Res.bind_ok, Res.pure_eq, Res.ok.injEq, Prod.mk.injEq, List.cons.injEq, and_true, Out.item.injEq] at h
    rw [← h.1, ← h.2]

theorem BoundedRange.lt_of_contains {r : BoundedRange T} {a t : T} (h : r.start = .excluded a) (ht : r.contains t = true) :
    a < t := by
  obtain ⟨start, ⟨e | e⟩⟩ := r <;> dsimp only at h <;> subst h <;>
    simp only [BoundedRange.contains, LowerBound.excluded, Bool.and_eq_true, decide_eq_true_eq] at ht <;> exact ht.1

theorem BoundedRange.gt_of_contains {r : BoundedRange T} {a t : T} (h : r.stop = .excluded a) (ht : r.contains t = true) :
    t < a := by
  obtain ⟨⟨s | s⟩, stop⟩ := r <;> dsimp only at h <;> subst h <;>
    simp only [BoundedRange.contains, UpperBound.excluded, Bool.and_eq_true, decide_eq_true_eq] at ht <;> exact ht.2

theorem BoundedRange.le_of_contains {r : BoundedRange T} {a t : T} (h : r.stop = .included a) (ht : r.contains t = true) :
    t ≤ a := by
  obtain ⟨⟨s | s⟩, stop⟩ := r <;> dsimp only at h <;> subst h <;>
    simp only [BoundedRange.contains, UpperBound.included, Bool.and_eq_true, decide_eq_true_eq] at ht <;> exact ht.2

theorem BoundedRange.ge_of_contains {r : BoundedRange T} {a t : T} (h : r.start = .included a) (ht : r.contains t = true) :
    a ≤ t := by
  obtain ⟨start, ⟨e | e⟩⟩ := r <;> dsimp only at h <;> subst h <;>
    simp only [BoundedRange.contains, LowerBound.included, Bool.and_eq_true, decide_eq_true_eq] at ht <;> exact ht.1

/-- An iterator whose last element is the greatest value never returns `None`. -/
theorem BoundedRangeIter.run_next_some {it it' : BoundedRangeIter T} (h : ¬ HasAbove it.last) (n : Nat) {os : List (Out T)}
    (hrun : runOps (BoundedRangeIter.call p S) it (List.replicate n .next) = .ok (os, it')) (o : Out T) (ho : o ∈ os) :
    o ≠ .item none := by
  induction n generalizing it os with
  | zero => cases hrun; cases ho
  | succ n ih =>
    have hle : ¬ it.current > it.last := fun hx => h ⟨_, hx⟩
    simp only [List.replicate_succ, runOps, BoundedRangeIter.call, BoundedRangeIter.next, if_neg hle] at hrun
    cases hf : S.forward it.current 1 with
    | panic m => rw [hf] at hrun; cases hrun
    | ok c =>
      rw [hf] at hrun
      simp only [Res.bind_ok, Res.pure_eq] at hrun
      cases hr : runOps (BoundedRangeIter.call p S) { it with current := c } (List.replicate n .next) with
      | panic m => rw [hr] at hrun; cases hrun
      | ok x =>
        rw [hr] at hrun
        simp only [Res.bind_ok, Res.ok.injEq, Prod.mk.injEq] at hrun
        obtain ⟨rfl, rfl⟩ := hrun
        rcases List.mem_cons.1 ho with rfl | ho
        · simp
        · exact ih (it := { it with current := c }) h hr ho

/-- An iterator whose current element is the least value never returns `None` from `next_back`. -/
theorem BoundedRangeIter.run_nextBack_some {it it' : BoundedRangeIter T} (h : ¬ HasBelow it.current) (n : Nat)
    {os : List (Out T)}
    (hrun : runOps (BoundedRangeIter.call p S) it (List.replicate n .nextBack) = .ok (os, it')) (o : Out T) (ho : o ∈ os) :
    o ≠ .item none := by
  induction n generalizing it os with
  | zero => cases hrun; cases ho
  | succ n ih =>
    have hle : ¬ it.current > it.last := fun hx => h ⟨_, hx⟩
    simp only [List.replicate_succ, runOps, BoundedRangeIter.call, BoundedRangeIter.nextBack, if_neg hle] at hrun
    cases hf : S.backward it.last 1 with
    | panic m => rw [hf] at hrun; cases hrun
    | ok c =>
      rw [hf] at hrun
      simp only [Res.bind_ok, Res.pure_eq] at hrun
      cases hr : runOps (BoundedRangeIter.call p S) { it with last := c } (List.replicate n .nextBack) with
      | panic m => rw [hr] at hrun; cases hrun
      | ok x =>
        rw [hr] at hrun
        simp only [Res.bind_ok, Res.ok.injEq, Prod.mk.injEq] at hrun
        obtain ⟨rfl, rfl⟩ := hrun
        rcases List.mem_cons.1 ho with rfl | ho
        · simp
        · exact ih (it := { it with last := c }) h hr ho

/-- C43. Going forward, exactly these ranges are gone through completely: those that do not contain the
greatest value and whose first and last positions (`excluded` ends moved by one) exist.  Either build. -/
theorem C43_forward_iff (L : LawfulStep p S idx) (C : S.Circular) (r : BoundedRange T) :
    r.YieldsAll p S ↔ r.start.CanInclude ∧ r.stop.CanInclude ∧ ∀ t, r.contains t = true → HasAbove t := by
  constructor
  · rintro ⟨it, l, hit, hl, hrun⟩
    obtain ⟨e1, e2, e3, e4⟩ := BoundedRange.intoIter_edge C hit
    have first : l = [] → ¬ it.current ≤ it.last := by
      rintro rfl hle
      obtain ⟨it', h⟩ := hrun 1
      exact BoundedRangeIter.next_ne_none hle (BoundedRangeIter.next_of_run h)
    have empty : (∀ t, r.contains t ≠ true) → l = [] := fun h =>
      List.eq_nil_iff_forall_not_mem.2 fun t ht => h t ((hl.2 t).1 ht)
    refine ⟨fun a ha => ?_, fun a ha => ?_, fun t ht => ?_⟩
    · by_contra hn
      exact first (empty fun t ht => hn ⟨t, r.lt_of_contains ha ht⟩) (not_lt.1 fun h => e1 a ha hn ⟨_, h⟩)
    · by_contra hn
      exact first (empty fun t ht => hn ⟨t, r.gt_of_contains ha ht⟩) (not_lt.1 fun h => e2 a ha hn ⟨_, h⟩)
    · by_contra hn
      obtain ⟨it', h⟩ := hrun 1
      have hlast : ¬ HasAbove it.last := by
        rcases hs : r.stop with ⟨e | e⟩
        · exact absurd ⟨e, r.gt_of_contains hs ht⟩ hn
        · rw [e4 e hs]
          rintro ⟨c, hc⟩
          exact hn ⟨c, (r.le_of_contains hs ht).trans_lt hc⟩
      refine BoundedRangeIter.run_next_some hlast _ h (.item none) ?_ rfl
      simp
  · rintro ⟨h1, h2, h3⟩
    have hr := BoundedRange.representable_of_canInclude L h1 h2
    refine C33_range_iteration L r hr ?_
    rw [BoundedRange.RoomAbove]
    by_cases hle : r.start.firstIdx idx ≤ r.stop.lastIdx idx
    · obtain ⟨t, ht⟩ := hr.2
      have := (L.hasAbove t).1 (h3 t ((r.contains_idx L t).2 ⟨by omega, by omega⟩))
      rw [max_eq_right (by omega)]
      rw [ht] at this
      obtain ⟨b, hb⟩ := this
      exact ⟨b, by simpa using hb⟩
    · rw [max_eq_left (by omega)]
      simpa using hr.1

/-- C43. Going back, exactly these are: those that do not contain the least value and whose first and last
positions exist. -/
theorem C43_backward_iff (L : LawfulStep p S idx) (C : S.Circular) (r : BoundedRange T) :
    r.YieldsAllBack p S ↔ r.start.CanInclude ∧ r.stop.CanInclude ∧ ∀ t, r.contains t = true → HasBelow t := by
  constructor
  · rintro ⟨it, l, hit, hl, hrun⟩
    obtain ⟨e1, e2, e3, e4⟩ := BoundedRange.intoIter_edge C hit
    have first : l = [] → ¬ it.current ≤ it.last := by
      rintro rfl hle
      obtain ⟨it', h⟩ := hrun 1
      exact BoundedRangeIter.nextBack_ne_none hle (BoundedRangeIter.nextBack_of_run h)
    have empty : (∀ t, r.contains t ≠ true) → l = [] := fun h =>
      List.eq_nil_iff_forall_not_mem.2 fun t ht => h t ((hl.2 t).1 ht)
    refine ⟨fun a ha => ?_, fun a ha => ?_, fun t ht => ?_⟩
    · by_contra hn
      exact first (empty fun t ht => hn ⟨t, r.lt_of_contains ha ht⟩) (not_lt.1 fun h => e1 a ha hn ⟨_, h⟩)
    · by_contra hn
      exact first (empty fun t ht => hn ⟨t, r.gt_of_contains ha ht⟩) (not_lt.1 fun h => e2 a ha hn ⟨_, h⟩)
    · by_contra hn
      obtain ⟨it', h⟩ := hrun 1
      have hcur : ¬ HasBelow it.current := by
        rcases hs : r.start with ⟨e | e⟩
        · exact absurd ⟨e, r.lt_of_contains hs ht⟩ hn
        · rw [e3 e hs]
          rintro ⟨c, hc⟩
          exact hn ⟨c, hc.trans_le (r.ge_of_contains hs ht)⟩
      refine BoundedRangeIter.run_nextBack_some hcur _ h (.item none) ?_ rfl
      simp
  · rintro ⟨h1, h2, h3⟩
    have hr := BoundedRange.representable_of_canInclude L h1 h2
    obtain ⟨it, l, e, hl, _, hrun⟩ := BoundedRange.iterates L hr
    refine ⟨it, l, e, hl, fun k => ?_⟩
    have hp := p.le_usizeCount
    have hno : ∀ op ∈ List.replicate (l.length + k) Op.nextBack, op = .nextBack :=
      fun op h => List.eq_of_mem_replicate h
    have hroom : r.RoomBelow idx 0 := by
      rw [BoundedRange.RoomBelow]
      by_cases hle : r.start.firstIdx idx ≤ r.stop.lastIdx idx
      · obtain ⟨t, ht⟩ := hr.1
        have := (L.hasBelow t).1 (h3 t ((r.contains_idx L t).2 ⟨by omega, by omega⟩))
        rw [min_eq_right (by omega)]
        rw [ht] at this
        obtain ⟨b, hb⟩ := this
        exact ⟨b, by simpa using hb⟩
      · rw [min_eq_left (by omega)]
        simpa using hr.2
    obtain ⟨it', e', _⟩ := hrun (List.replicate (l.length + k) .nextBack)
      { args := fun op h => by rw [hno op h]; exact ⟨by simp [Op.skipFront]; omega, by simp [Op.skipBack]; omega⟩
        front := fun ⟨op, h, h'⟩ => by rw [hno op h] at h'; cases h'
        back := fun _ => by simpa [skipsBack, Op.skipBack] using hroom
        sizes := fun ⟨op, h, h'⟩ => by rw [hno op h] at h'; cases h' }
    refine ⟨it', ?_⟩
    rw [e', (listRun_nextBack _ l).2, List.take_of_length_le (by rw [List.length_reverse]; omega),
      Nat.add_sub_cancel_left]

end

/-- `3..=254u8` works both ways, `3..=255u8` only back, `0..=9u8` only forward, `0..0u8` neither way. -/
example (p : Platform) :
    let f := fun a b : u8.Val => (⟨.included a, .included b⟩ : BoundedRange u8.Val)
    ((f (byte 3) (byte 254)).YieldsAll p (IntTy.step p u8) ∧ (f (byte 3) (byte 254)).YieldsAllBack p (IntTy.step p u8)) ∧
    (¬ (f (byte 3) (byte 255)).YieldsAll p (IntTy.step p u8) ∧ (f (byte 3) (byte 255)).YieldsAllBack p (IntTy.step p u8)) ∧
    ((f (byte 0) (byte 9)).YieldsAll p (IntTy.step p u8) ∧ ¬ (f (byte 0) (byte 9)).YieldsAllBack p (IntTy.step p u8)) ∧
    ¬ (⟨.included (byte 0), .excluded (byte 0)⟩ : BoundedRange u8.Val).YieldsAll p (IntTy.step p u8) ∧
    ¬ (⟨.included (byte 0), .excluded (byte 0)⟩ : BoundedRange u8.Val).YieldsAllBack p (IntTy.step p u8) := by
  have L := IntTy.lawful p u8
  have C := IntTy.circular p u8
  have i1 (a : u8.Val) : (LowerBound.included a).CanInclude := fun _ h => by cases h
  have i2 (a : u8.Val) : (UpperBound.included a).CanInclude := fun _ h => by cases h
  simp only [C43_forward_iff L C, C43_backward_iff L C]
  have top : ¬ HasAbove (byte 255) := fun ⟨c, hc⟩ => absurd hc (not_lt.2 c.2.2)
  have bot : ¬ HasBelow (byte 0) := fun ⟨c, hc⟩ => absurd hc (not_lt.2 c.2.1)
  refine ⟨⟨⟨i1 _, i2 _, fun t ht => ?_⟩, i1 _, i2 _, fun t ht => ?_⟩,
    ⟨fun h => top (h.2.2 _ (by decide)), i1 _, i2 _, fun t ht => ?_⟩,
    ⟨⟨i1 _, i2 _, fun t ht => ?_⟩, fun h => bot (h.2.2 _ (by decide))⟩,
    fun h => bot (h.2.1 _ rfl), fun h => bot (h.2.1 _ rfl)⟩
  · exact ⟨byte 255, (BoundedRange.le_of_contains rfl ht).trans_lt (by decide)⟩
  · exact ⟨byte 0, lt_of_lt_of_le (by decide) (BoundedRange.ge_of_contains rfl ht)⟩
  · exact ⟨byte 0, lt_of_lt_of_le (by decide) (BoundedRange.ge_of_contains rfl ht)⟩
  · exact ⟨byte 255, (BoundedRange.le_of_contains rfl ht).trans_lt (by decide)⟩

end Rangetools
