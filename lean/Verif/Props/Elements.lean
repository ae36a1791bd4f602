import Verif.Props.Sentences

/-!
# C126: which sentences about expressions and elements hold
-/

namespace Rangetools
open Iv

variable {T : Type} [LinearOrder T]

/-- C126. A sentence that passes the test for the types of the variables is true of all normal values of these types and all
elements. -/
theorem C126_valid (s : Sentence) (σ : Nat → Any T) (τ : Nat → T) (hn : ∀ n, (σ n).toInner.Normal) (hf : ∀ n, (σ n).Fresh)
    (h : s.valid (fun n => (σ n).toInner.shape) = true) : s.Holds σ τ := s.holds_of_valid σ τ hn (.inr hf) h

/-- C126. A sentence that fails is false of some normal values of the types in question and some elements, with integers as
elements. -/
theorem C126_complete (s : Sentence) (κ : Nat → Option Shape) (h : s.valid κ = false) :
    ∃ (ι : Nat → Inner Int) (τ : Nat → Int), (∀ n, (ι n).shape = κ n ∧ (ι n).Normal) ∧ ¬ s.Holds (fun n => .inner (ι n)) τ :=
  s.exists_of_not_valid κ h

/-- C126. A sentence that passes the test for all types is true of all normal values and all elements of any type. -/
theorem C126_any (s : Sentence) (h : Term.forAllTypes s.valid s.vars = true) (σ : Nat → Any T) (τ : Nat → T)
    (hn : ∀ n < s.vars, (σ n).toInner.Normal) (hf : ∀ n < s.vars, (σ n).Fresh) : s.Holds σ τ := by
  rw [Term.forAllTypes_iff] at h
  have := C126_valid s (Term.cutOff σ s.vars) τ (Term.cutOff_all (P := fun a => a.toInner.Normal) trivial hn)
    (Term.cutOff_all (P := Any.Fresh) trivial hf) (h _ fun n hn => Term.cutOff_shape σ hn)
  refine (s.holds_congr fun n hn => ?_).mp this
  simp only [Term.cutOff, if_pos hn]

/-- C126. Passing the test for all types is being true of all normal values and elements that are integers. -/
theorem C126_all (s : Sentence) :
    Term.forAllTypes s.valid s.vars = true ↔
      ∀ (σ : Nat → Any Int) (τ : Nat → Int), (∀ n, (σ n).toInner.Normal) → (∀ n, (σ n).Fresh) → s.Holds σ τ := by
  constructor
  · exact fun h σ τ hn hf => C126_any s h σ τ (fun n _ => hn n) fun n _ => hf n
  · intro h
    rw [Term.forAllTypes_iff]
    intro κ _
    by_contra hn
    obtain ⟨ι, τ, hι, hf⟩ := C126_complete s κ (by simpa using hn)
    exact hf (h (fun n => .inner (ι n)) τ (fun n => (hι n).2) fun _ => trivial)

/-- C126. What is true of all integers is true of all ordered elements. -/
theorem C126_transfer (s : Sentence)
    (h : ∀ (σ : Nat → Any Int) (τ : Nat → Int), (∀ n, (σ n).toInner.Normal) → (∀ n, (σ n).Fresh) → s.Holds σ τ)
    (σ : Nat → Any T) (τ : Nat → T) (hn : ∀ n, (σ n).toInner.Normal) (hf : ∀ n, (σ n).Fresh) : s.Holds σ τ :=
  C126_any s ((C126_all s).mpr h) σ τ (fun n _ => hn n) fun n _ => hf n

/-! ### Some laws -/

omit [LinearOrder T] in
theorem Term.pair_fresh {a b : Any T} (ha : a.Fresh) (hb : b.Fresh) (n : Nat) : (pair a b n).Fresh := by
  by_cases h : n = 0
  · rw [pair, if_pos h]; exact ha
  · rw [pair, if_neg h]; exact hb

/-- C126. If the intersection of a `LowerBoundedSet` with the complement of another is empty, all its members are in the other. -/
theorem C126_difference (a b : LowerBoundedSet T) (d : Any T) (ha : (Inner.lbs a).Normal) (hb : (Inner.lbs b).Normal)
    (hd : (Expr.inter (.leaf (.inner (.lbs a))) (.complement (.leaf (.inner (.lbs b))))).eval = .ok d) (he : d.isEmpty = true)
    (t : T) (ht : a.contains t = true) : b.contains t = true := by
  have h := C126_valid (.imp (.and (.isEmpty (.inter (.var 0) (.complement (.var 1)))) (.mem 0 (.var 0))) (.mem 0 (.var 1)))
    (Term.pair (.inner (.lbs a)) (.inner (.lbs b))) (fun _ => t) (Term.pair_normal ha hb) (Term.pair_fresh trivial trivial) (by
      have : (fun n => (Term.pair (.inner (.lbs a)) (.inner (.lbs b)) n).toInner.shape) = fun _ => some ⟨true, true, false⟩ := by
        funext n; by_cases h : n = 0 <;> simp [Term.pair, h, Any.toInner, Inner.shape]
      rw [this]
      decide +kernel)
  have h' : (Sentence.mem 0 (.var 1)).Holds (Term.pair (.inner (.lbs a)) (.inner (.lbs b))) fun _ => t := by
    by_contra hc
    exact h ⟨⟨⟨d, hd, he⟩, ⟨_, rfl, ht⟩⟩, hc⟩
  obtain ⟨v, hv, h'⟩ := h'
  injection hv with hv
  subst hv
  exact h'

/-- With a member, all greater elements are members. -/
private def upward : Sentence := .imp (.and (.mem 0 (.var 0)) (.lt 0 1)) (.mem 1 (.var 0))

/-- C126. The types all of whose normal values have with a member all greater elements are `EmptyRange`, `UnboundedRange` and
`LowerBoundedRange`. -/
theorem C126_upward (k : Option Shape) : (∀ i : Inner Int, i.Normal → i.shape = k → ∀ t u, t < u → i.contains t = true →
    i.contains u = true) ↔ k = none ∨ k = some ⟨false, false, false⟩ ∨ k = some ⟨false, true, false⟩ := by
  have test : Term.forAllTypes (fun κ => upward.valid κ == !(κ 0).any fun k => k.above || k.set) 1 = true := by decide +kernel
  rw [Term.forAllTypes_iff] at test
  have test := test (fun n => if n = 0 then k else none) fun n hn => if_neg (by omega)
  simp only [if_true, beq_iff_eq] at test
  have hk : (k = none ∨ k = some ⟨false, false, false⟩ ∨ k = some ⟨false, true, false⟩) ↔
      (!k.any fun k => k.above || k.set) = true := by
    rcases k with _ | ⟨_ | _, _ | _, _ | _⟩ <;> simp
  rw [hk, ← test]
  constructor
  · intro h
    by_contra hn
    obtain ⟨ι, τ, hι, hf⟩ := C126_complete upward _ (by simpa using hn)
    refine hf ?_
    rintro ⟨⟨⟨v, hv, h1⟩, h2⟩, h3⟩
    injection hv with hv
    subst hv
    exact h3 ⟨_, rfl, h (ι 0) (hι 0).2 (hι 0).1 _ _ h2 h1⟩
  · intro h i hi hs t u htu ht
    subst hs
    have := C126_valid upward (fun n => if n = 0 then .inner i else .inner .er) (fun n => if n = 0 then t else u)
      (fun n => by by_cases h : n = 0 <;> simp only [h, if_true, if_false]; exacts [hi, trivial])
      (fun n => by by_cases h : n = 0 <;> simp only [h, if_true, if_false] <;> trivial) (by
        rw [← h]
        congr 1
        funext n
        by_cases h : n = 0 <;> simp [h, Any.toInner, Inner.shape])
    have h' : (Sentence.mem 1 (.var 0)).Holds (fun n => if n = 0 then .inner i else .inner .er) fun n => if n = 0 then t else u := by
      by_contra hc
      exact this ⟨⟨⟨_, rfl, ht⟩, htu⟩, hc⟩
    obtain ⟨v, hv, h'⟩ := h'
    have hv : Res.ok (Any.inner i) = Res.ok v := hv
    rw [← Res.ok.inj hv] at h'
    exact h'

section Samples

private def a : Term := .var 0

open Sentence

/-- between two members there are only members -/
private def convex : Sentence := imp (and (and (lt 0 1) (lt 1 2)) (and (mem 0 a) (mem 2 a))) (mem 1 a)

-- true of `LowerBoundedRange`, false of a set
example : convex.valid (fun _ => some ⟨false, true, false⟩) = true := by decide +kernel

example : (Inner.bs ⟨[Samples.co 0 1, Samples.co 2 3]⟩ : Inner Int).Normal ∧
    ¬ convex.Holds (fun _ => Any.inner (.bs ⟨[Samples.co 0 1, Samples.co 2 3]⟩)) (fun n => (n : Int)) := by
  refine ⟨by decide, fun h => h ⟨⟨⟨by simp [Holds], by simp [Holds]⟩, ⟨_, rfl, by decide⟩, ⟨_, rfl, by decide⟩⟩, ?_⟩⟩
  rintro ⟨v, hv, h⟩
  injection hv with hv
  subst hv
  revert h
  decide

-- two members need not be different
example : (imp (and (mem 0 a) (mem 1 a)) (or (lt 0 1) (lt 1 0))).valid (fun _ => some ⟨true, true, true⟩) = false := by
  decide +kernel

-- values the theorems are about: the difference of these sets is empty
example : Samples.lbs.Normal ∧ Samples.lbs'.Normal ∧ (Any.inner Samples.lbs).Fresh ∧
    (Expr.inter (.leaf (.inner Samples.lbs')) (.complement (.leaf (.inner Samples.lbs)))).eval = .ok (.inner (.bs ⟨[]⟩)) := by
  refine ⟨by decide, by decide, trivial, by decide +kernel⟩

end Samples

end Rangetools
