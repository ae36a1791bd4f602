import Verif.Model.CallsConvert
import Verif.Proofs.Calls
import Verif.Model.Ranges

/-!
# C107: the calls of `Step` that the conversions to `std::ops` ranges make, under implementations with side effects

`(x.exec E s).1` is what the program `x` returns in the state `s`, `(x.exec E s).2` the state it leaves, and `x.trace E s` the
calls it makes.
-/

namespace Rangetools
variable {T σ : Type}

open Calls

/-- C107. With an implementation without side effects the programs are the conversions of `Model/Convert.lean`. -/
theorem C107_agree [LinearOrder T] (S : Step T) :
    (∀ r : BoundedRange T, (r.toRangeC.exec S.effects ()).1 = r.toRange S ∧
      (r.toRangeInclusiveC.exec S.effects ()).1 = r.toRangeInclusive S) ∧
    (∀ r : LowerBoundedRange T, (r.toRangeFromC.exec S.effects ()).1 = r.toRangeFrom S) ∧
    (∀ r : UpperBoundedRange T, (r.toRangeToC.exec S.effects ()).1 = r.toRangeTo S ∧
      (r.toRangeToInclusiveC.exec S.effects ()).1 = r.toRangeToInclusive S) ∧
    ∀ dflt : T, ((EmptyRange.toRangeInclusiveC dflt).exec S.effects ()).1 = EmptyRange.toRangeInclusive S dflt := by
  have h1 : ∀ r : BoundedRange T, (r.toRangeC.exec S.effects ()).1 = r.toRange S := by
    rintro ⟨⟨a | a⟩, ⟨b | b⟩⟩ <;>
      simp only [BoundedRange.toRangeC, BoundedRange.toRange, LowerBound.toBound, UpperBound.toBound, exec_bind, Calls.exec,
        Step.effects]
    · cases S.forward a 1 <;> rfl
    · cases S.forward a 1
      · simp only [exec_bind, Calls.exec]
        cases S.forward b 1 <;> rfl
      · rfl
    · rfl
    · cases S.forward b 1 <;> rfl
  have h2 : ∀ r : BoundedRange T, (r.toRangeInclusiveC.exec S.effects ()).1 = r.toRangeInclusive S := by
    rintro ⟨⟨a | a⟩, ⟨b | b⟩⟩ <;>
      simp only [BoundedRange.toRangeInclusiveC, BoundedRange.toRangeInclusive, LowerBound.toBound, UpperBound.toBound,
        exec_bind, Calls.exec, Step.effects]
    · cases S.forward a 1
      · simp only [exec_bind, Calls.exec]
        cases S.backward b 1 <;> rfl
      · rfl
    · cases S.forward a 1 <;> rfl
    · cases S.backward b 1 <;> rfl
    · rfl
  refine ⟨fun r => ⟨h1 r, h2 r⟩, ?_, fun r => ⟨?_, ?_⟩, fun d => h2 _⟩
  · rintro ⟨⟨a | a⟩⟩
    · simp only [LowerBoundedRange.toRangeFromC, LowerBoundedRange.toRangeFrom, LowerBound.toBound, Calls.exec, Step.effects]
      cases S.forward a 1 <;> rfl
    · rfl
  · obtain ⟨⟨a | a⟩⟩ := r
    · rfl
    · simp only [UpperBoundedRange.toRangeToC, UpperBoundedRange.toRangeTo, UpperBound.toBound, Calls.exec, Step.effects]
      cases S.forward a 1 <;> rfl
  · obtain ⟨⟨a | a⟩⟩ := r
    · simp only [UpperBoundedRange.toRangeToInclusiveC, UpperBoundedRange.toRangeToInclusive, UpperBound.toBound, Calls.exec,
        Step.effects]
      cases S.backward a 1 <;> rfl
    · rfl

/-- C107. To `Range`: an excluded start takes one step forward, then an included end takes one step forward, in the state that the
first step leaves.  A panic of the first is the last thing that happens.  Nothing else is called. -/
theorem C107_range (E : Effects σ T) (a b : T) (s : σ) :
    ((BoundedRange.toRangeC ⟨.included a, .excluded b⟩).exec E s = (.ok ⟨a, b⟩, s) ∧
      (BoundedRange.toRangeC ⟨.included a, .excluded b⟩).trace E s = []) ∧
    ((BoundedRange.toRangeC ⟨.included a, .included b⟩).exec E s =
        (Range.mk a <$> (E.forward b 1 s).1, (E.forward b 1 s).2) ∧
      (BoundedRange.toRangeC ⟨.included a, .included b⟩).trace E s = [.forward b 1]) ∧
    ((BoundedRange.toRangeC ⟨.excluded a, .excluded b⟩).exec E s =
        ((fun c => Range.mk c b) <$> (E.forward a 1 s).1, (E.forward a 1 s).2) ∧
      (BoundedRange.toRangeC ⟨.excluded a, .excluded b⟩).trace E s = [.forward a 1]) ∧
    (∀ m s', E.forward a 1 s = (.panic m, s') →
      (BoundedRange.toRangeC ⟨.excluded a, .included b⟩).exec E s = (.panic m, s') ∧
      (BoundedRange.toRangeC ⟨.excluded a, .included b⟩).trace E s = [.forward a 1]) ∧
    (∀ c s', E.forward a 1 s = (.ok c, s') →
      (BoundedRange.toRangeC ⟨.excluded a, .included b⟩).exec E s =
        (Range.mk c <$> (E.forward b 1 s').1, (E.forward b 1 s').2) ∧
      (BoundedRange.toRangeC ⟨.excluded a, .included b⟩).trace E s = [.forward a 1, .forward b 1]) := by
  refine ⟨⟨rfl, rfl⟩, ?_, ?_, ?_, ?_⟩
  · simp only [BoundedRange.toRangeC, LowerBound.toBound, UpperBound.toBound, LowerBound.included, UpperBound.included,
      bind_eq, Calls.bind, Calls.exec, Calls.trace]
    rcases E.forward b 1 s with ⟨_ | _, _⟩ <;> exact ⟨rfl, rfl⟩
  · simp only [BoundedRange.toRangeC, LowerBound.toBound, UpperBound.toBound, LowerBound.excluded, UpperBound.excluded,
      bind_eq, Calls.bind, Calls.exec, Calls.trace]
    rcases E.forward a 1 s with ⟨_ | _, _⟩ <;> exact ⟨rfl, rfl⟩
  · intro m s' h
    simp only [BoundedRange.toRangeC, LowerBound.toBound, LowerBound.excluded, bind_eq, Calls.bind, Calls.exec, Calls.trace, h]
    exact ⟨rfl, rfl⟩
  · intro c s' h
    simp only [BoundedRange.toRangeC, LowerBound.toBound, UpperBound.toBound, LowerBound.excluded, UpperBound.included,
      bind_eq, Calls.bind, Calls.exec, Calls.trace, h]
    rcases E.forward b 1 s' with ⟨_ | _, _⟩ <;> exact ⟨rfl, rfl⟩

/-- C107. To `RangeInclusive`: the same, but it is an excluded end that takes a step, and backward. -/
theorem C107_range_inclusive (E : Effects σ T) (a b : T) (s : σ) :
    ((BoundedRange.toRangeInclusiveC ⟨.included a, .included b⟩).exec E s = (.ok ⟨a, b, false⟩, s) ∧
      (BoundedRange.toRangeInclusiveC ⟨.included a, .included b⟩).trace E s = []) ∧
    ((BoundedRange.toRangeInclusiveC ⟨.included a, .excluded b⟩).exec E s =
        ((fun c => ⟨a, c, false⟩) <$> (E.backward b 1 s).1, (E.backward b 1 s).2) ∧
      (BoundedRange.toRangeInclusiveC ⟨.included a, .excluded b⟩).trace E s = [.backward b 1]) ∧
    ((BoundedRange.toRangeInclusiveC ⟨.excluded a, .included b⟩).exec E s =
        ((fun c => ⟨c, b, false⟩) <$> (E.forward a 1 s).1, (E.forward a 1 s).2) ∧
      (BoundedRange.toRangeInclusiveC ⟨.excluded a, .included b⟩).trace E s = [.forward a 1]) ∧
    (∀ m s', E.forward a 1 s = (.panic m, s') →
      (BoundedRange.toRangeInclusiveC ⟨.excluded a, .excluded b⟩).exec E s = (.panic m, s') ∧
      (BoundedRange.toRangeInclusiveC ⟨.excluded a, .excluded b⟩).trace E s = [.forward a 1]) ∧
    (∀ c s', E.forward a 1 s = (.ok c, s') →
      (BoundedRange.toRangeInclusiveC ⟨.excluded a, .excluded b⟩).exec E s =
        ((fun d => ⟨c, d, false⟩) <$> (E.backward b 1 s').1, (E.backward b 1 s').2) ∧
      (BoundedRange.toRangeInclusiveC ⟨.excluded a, .excluded b⟩).trace E s = [.forward a 1, .backward b 1]) := by
  refine ⟨⟨rfl, rfl⟩, ?_, ?_, ?_, ?_⟩
  · simp only [BoundedRange.toRangeInclusiveC, LowerBound.toBound, UpperBound.toBound, LowerBound.included,
      UpperBound.excluded, bind_eq, Calls.bind, Calls.exec, Calls.trace]
    rcases E.backward b 1 s with ⟨_ | _, _⟩ <;> exact ⟨rfl, rfl⟩
  · simp only [BoundedRange.toRangeInclusiveC, LowerBound.toBound, UpperBound.toBound, LowerBound.excluded,
      UpperBound.included, bind_eq, Calls.bind, Calls.exec, Calls.trace]
    rcases E.forward a 1 s with ⟨_ | _, _⟩ <;> exact ⟨rfl, rfl⟩
  · intro m s' h
    simp only [BoundedRange.toRangeInclusiveC, LowerBound.toBound, LowerBound.excluded, bind_eq, Calls.bind, Calls.exec,
      Calls.trace, h]
    exact ⟨rfl, rfl⟩
  · intro c s' h
    simp only [BoundedRange.toRangeInclusiveC, LowerBound.toBound, UpperBound.toBound, LowerBound.excluded,
      UpperBound.excluded, bind_eq, Calls.bind, Calls.exec, Calls.trace, h]
    rcases E.backward b 1 s' with ⟨_ | _, _⟩ <;> exact ⟨rfl, rfl⟩

/-- C107. The three with one end: at most one step, and the answer is the end.  The empty range takes one step backward from the
default value, and its panic is the conversion's. -/
theorem C107_one_end (E : Effects σ T) (a : T) (s : σ) :
    ((LowerBoundedRange.toRangeFromC ⟨.included a⟩).exec E s = (.ok ⟨a⟩, s) ∧
      (LowerBoundedRange.toRangeFromC ⟨.included a⟩).trace E s = []) ∧
    ((LowerBoundedRange.toRangeFromC ⟨.excluded a⟩).exec E s =
        (RangeFrom.mk <$> (E.forward a 1 s).1, (E.forward a 1 s).2) ∧
      (LowerBoundedRange.toRangeFromC ⟨.excluded a⟩).trace E s = [.forward a 1]) ∧
    ((UpperBoundedRange.toRangeToC ⟨.excluded a⟩).exec E s = (.ok ⟨a⟩, s) ∧
      (UpperBoundedRange.toRangeToC ⟨.excluded a⟩).trace E s = []) ∧
    ((UpperBoundedRange.toRangeToC ⟨.included a⟩).exec E s =
        (RangeTo.mk <$> (E.forward a 1 s).1, (E.forward a 1 s).2) ∧
      (UpperBoundedRange.toRangeToC ⟨.included a⟩).trace E s = [.forward a 1]) ∧
    ((UpperBoundedRange.toRangeToInclusiveC ⟨.included a⟩).exec E s = (.ok ⟨a⟩, s) ∧
      (UpperBoundedRange.toRangeToInclusiveC ⟨.included a⟩).trace E s = []) ∧
    ((UpperBoundedRange.toRangeToInclusiveC ⟨.excluded a⟩).exec E s =
        (RangeToInclusive.mk <$> (E.backward a 1 s).1, (E.backward a 1 s).2) ∧
      (UpperBoundedRange.toRangeToInclusiveC ⟨.excluded a⟩).trace E s = [.backward a 1]) ∧
    ((EmptyRange.toRangeInclusiveC a).exec E s =
        ((fun c => ⟨a, c, false⟩) <$> (E.backward a 1 s).1, (E.backward a 1 s).2) ∧
      (EmptyRange.toRangeInclusiveC a).trace E s = [.backward a 1]) := by
  refine ⟨⟨rfl, rfl⟩, ?_, ⟨rfl, rfl⟩, ?_, ⟨rfl, rfl⟩, ?_, (C107_range_inclusive E a a s).2.1⟩
  · simp only [LowerBoundedRange.toRangeFromC, LowerBound.toBound, LowerBound.excluded, Calls.exec, Calls.trace]
    rcases E.forward a 1 s with ⟨_ | _, _⟩ <;> exact ⟨rfl, rfl⟩
  · simp only [UpperBoundedRange.toRangeToC, UpperBound.toBound, UpperBound.included, Calls.exec, Calls.trace]
    rcases E.forward a 1 s with ⟨_ | _, _⟩ <;> exact ⟨rfl, rfl⟩
  · simp only [UpperBoundedRange.toRangeToInclusiveC, UpperBound.toBound, UpperBound.excluded, Calls.exec, Calls.trace]
    rcases E.backward a 1 s with ⟨_ | _, _⟩ <;> exact ⟨rfl, rfl⟩

/-- C107. A `std` range taken into the crate and back is the same range, and no method of `Step` is called; a used-up
`RangeInclusive` comes back unused. -/
theorem C107_round_trip (E : Effects σ T) (s : σ) :
    (∀ r : Range T, (BoundedRange.ofRange r).toRangeC.exec E s = (.ok r, s) ∧
      (BoundedRange.ofRange r).toRangeC.trace E s = []) ∧
    (∀ r : RangeInclusive T, (BoundedRange.ofRangeInclusive r).toRangeInclusiveC.exec E s = (.ok { r with exhausted := false }, s) ∧
      (BoundedRange.ofRangeInclusive r).toRangeInclusiveC.trace E s = []) ∧
    (∀ r : RangeFrom T, (LowerBoundedRange.ofRangeFrom r).toRangeFromC.exec E s = (.ok r, s) ∧
      (LowerBoundedRange.ofRangeFrom r).toRangeFromC.trace E s = []) ∧
    (∀ r : RangeTo T, (UpperBoundedRange.ofRangeTo r).toRangeToC.exec E s = (.ok r, s) ∧
      (UpperBoundedRange.ofRangeTo r).toRangeToC.trace E s = []) ∧
    (∀ r : RangeToInclusive T, (UpperBoundedRange.ofRangeToInclusive r).toRangeToInclusiveC.exec E s = (.ok r, s) ∧
      (UpperBoundedRange.ofRangeToInclusive r).toRangeToInclusiveC.trace E s = []) :=
  ⟨fun _ => ⟨rfl, rfl⟩, fun _ => ⟨rfl, rfl⟩, fun _ => ⟨rfl, rfl⟩, fun _ => ⟨rfl, rfl⟩, fun _ => ⟨rfl, rfl⟩⟩

/-- C107. `into_iter` calls what the conversion to `RangeInclusive` calls, in the same order, and the iterator runs from the start
of that range to its end; and the iterator of a half-line starts where its `RangeFrom` does. -/
theorem C107_into_iter (E : Effects σ T) (s : σ) :
    (∀ r : BoundedRange T, r.intoIterC.trace E s = r.toRangeInclusiveC.trace E s ∧
      r.intoIterC.exec E s = ((fun q : RangeInclusive T => BoundedRangeIter.mk q.start q.stop) <$>
        (r.toRangeInclusiveC.exec E s).1, (r.toRangeInclusiveC.exec E s).2)) ∧
    (∀ r : LowerBoundedRange T, r.intoIterC.trace E s = r.toRangeFromC.trace E s ∧
      r.intoIterC.exec E s = ((fun q : RangeFrom T => LowerBoundedRangeIter.mk q.start) <$>
        (r.toRangeFromC.exec E s).1, (r.toRangeFromC.exec E s).2)) := by
  constructor
  · rintro ⟨⟨a | a⟩, ⟨b | b⟩⟩ <;>
      simp only [BoundedRange.toRangeInclusiveC, BoundedRange.intoIterC, LowerBound.firstC, UpperBound.lastC,
        LowerBound.toBound, UpperBound.toBound, bind_eq, Calls.bind, Calls.exec, Calls.trace]
    · rcases E.forward a 1 s with ⟨_ | _, s'⟩
      · simp only [Calls.exec, Calls.trace]
        rcases E.backward b 1 s' with ⟨_ | _, _⟩ <;> exact ⟨rfl, rfl⟩
      · exact ⟨rfl, rfl⟩
    · rcases E.forward a 1 s with ⟨_ | _, _⟩ <;> exact ⟨rfl, rfl⟩
    · rcases E.backward b 1 s with ⟨_ | _, _⟩ <;> exact ⟨rfl, rfl⟩
    · exact ⟨rfl, rfl⟩
  · rintro ⟨⟨a | a⟩⟩
    · simp only [LowerBoundedRange.toRangeFromC, LowerBoundedRange.intoIterC, LowerBound.firstC, LowerBound.toBound, bind_eq,
        Calls.bind, Calls.exec, Calls.trace]
      rcases E.forward a 1 s with ⟨_ | _, _⟩ <;> exact ⟨rfl, rfl⟩
    · exact ⟨rfl, rfl⟩

/-- A `Step` whose first step is of one, whose second is of two, and so on; the state counts the steps. -/
def drifting : Effects Nat Int :=
  ⟨fun a b s => (.ok (some (b - a).toNat), s), fun a n s => (.ok (a + n + s), s + 1), fun a n s => (.ok (a - n - s), s + 1),
    fun a b s => (.ok (decide (a > b)), s)⟩

/-- With it the start of an open-closed range is stepped first. -/
example : (BoundedRange.toRangeC ⟨.excluded 3, .included 7⟩).exec drifting 0 = (.ok ⟨4, 9⟩, 2) ∧
    (BoundedRange.toRangeC ⟨.excluded 3, .included 7⟩).trace drifting 0 = [.forward 3 1, .forward 7 1] ∧
    (BoundedRange.toRangeInclusiveC ⟨.excluded 3, .excluded 9⟩).exec drifting 0 = (.ok ⟨4, 7, false⟩, 2) ∧
    (LowerBoundedRange.toRangeFromC ⟨.excluded 3⟩).exec drifting 2 = (.ok ⟨6⟩, 3) ∧
    (UpperBoundedRange.toRangeToInclusiveC ⟨.excluded 3⟩).exec drifting 2 = (.ok ⟨0⟩, 3) := by decide

/-- A panic of the first step hides the second. -/
example : (BoundedRange.toRangeC ⟨.excluded (3 : Int), .included 7⟩).trace
      { drifting with forward := fun _ _ s => (.panic "no", s + 1) } 0 = [.forward 3 1] ∧
    (BoundedRange.toRangeC ⟨.excluded (3 : Int), .included 7⟩).exec
      { drifting with forward := fun _ _ s => (.panic "no", s + 1) } 0 = (.panic "no", 1) := by decide

end Rangetools
