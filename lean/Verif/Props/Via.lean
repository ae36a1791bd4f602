import Verif.Spec.Via
import Verif.Proofs.Step
import Verif.Props.Iter

/-!
# C129: implementing Step through codes
-/

namespace Rangetools
variable {T U : Type} [LinearOrder T] [LinearOrder U] {p : Platform} {S : Step T} {idx : T → Int}
  {code : U → T} {decode : T → Option U}

omit [LinearOrder U] in
theorem Step.via_forward_some (hS : LawfulStep p S idx) (hc : IsCode code decode) (a : U) (n : Nat) (b : U)
    (hn : n < p.usizeCount) (h : idx (code b) = idx (code a) + n) : (S.via code decode).forwardChecked a n = .ok (some b) := by
  simp only [Step.via, hS.forwardChecked_some _ n _ hn h]
  exact congrArg Res.ok ((hc _ _).mpr rfl)

omit [LinearOrder U] in
theorem Step.via_backward_some (hS : LawfulStep p S idx) (hc : IsCode code decode) (a : U) (n : Nat) (b : U)
    (hn : n < p.usizeCount) (h : idx (code b) = idx (code a) - n) : (S.via code decode).backwardChecked a n = .ok (some b) := by
  simp only [Step.via, hS.backwardChecked_some _ n _ hn h]
  exact congrArg Res.ok ((hc _ _).mpr rfl)

omit [LinearOrder U] in
theorem Step.via_forward_none (hS : LawfulStep p S idx) (hc : IsCode code decode) (a : U) (n : Nat)
    (hn : n < p.usizeCount) (h : ∀ b, idx (code b) ≠ idx (code a) + n) : (S.via code decode).forwardChecked a n = .ok none := by
  by_cases hx : ∃ t, idx t = idx (code a) + n
  · obtain ⟨t, ht⟩ := hx
    simp only [Step.via, hS.forwardChecked_some _ n _ hn ht]
    cases hd : decode t with
    | none => exact congrArg Res.ok hd
    | some u =>
      have := (hc _ _).mp hd
      exact absurd (this ▸ ht) (h u)
  · simp only [Step.via, hS.forwardChecked_none _ n hn fun t ht => hx ⟨t, ht⟩]
    rfl

omit [LinearOrder U] in
theorem Step.via_backward_none (hS : LawfulStep p S idx) (hc : IsCode code decode) (a : U) (n : Nat)
    (hn : n < p.usizeCount) (h : ∀ b, idx (code b) ≠ idx (code a) - n) : (S.via code decode).backwardChecked a n = .ok none := by
  by_cases hx : ∃ t, idx t = idx (code a) - n
  · obtain ⟨t, ht⟩ := hx
    simp only [Step.via, hS.backwardChecked_some _ n _ hn ht]
    cases hd : decode t with
    | none => exact congrArg Res.ok hd
    | some u =>
      have := (hc _ _).mp hd
      exact absurd (this ▸ ht) (h u)
  · simp only [Step.via, hS.backwardChecked_none _ n hn fun t ht => hx ⟨t, ht⟩]
    rfl

omit [LinearOrder T] [LinearOrder U] in
theorem Step.via_forward (a : U) (n : Nat) : (S.via code decode).forward a n =
    ((S.via code decode).forwardChecked a n).bind (unwrap "Overflow in `Step::forward`") := rfl

omit [LinearOrder T] [LinearOrder U] in
theorem Step.via_backward (a : U) (n : Nat) : (S.via code decode).backward a n =
    ((S.via code decode).backwardChecked a n).bind (unwrap "Overflow in `Step::backward`") := rfl

/-- C129. If the codes are ordered like the values and leave no gaps, the implementation obeys the laws that iteration relies on,
and stepping out of the type panics whether or not the program checks for overflow. -/
theorem C129_lawful (hS : LawfulStep p S idx) (hc : IsCode code decode) (ho : ∀ u v, u < v ↔ code u < code v)
    (hg : ∀ u v t, code u ≤ t → t ≤ code v → ∃ w, code w = t) :
    LawfulStep p (S.via code decode) (fun u => idx (code u)) ∧ (S.via code decode).Checked p (fun u => idx (code u)) := by
  have hle : ∀ u v, u ≤ v ↔ code u ≤ code v := fun u v => by rw [← not_lt, ← not_lt, ho]
  have hidx : ∀ s t, s ≤ t ↔ idx s ≤ idx t := fun s t => by rw [← not_lt, ← not_lt, hS.lt_iff]
  refine ⟨⟨fun a b => (ho a b).trans (hS.lt_iff _ _), ?_, ?_, ?_, ?_, ?_, ?_, ?_, ?_⟩, ⟨?_, ?_⟩⟩
  · intro a b k h1 h2
    obtain ⟨t, rfl⟩ := hS.convex _ _ _ h1 h2
    obtain ⟨w, rfl⟩ := hg a b t ((hidx _ _).mpr h1) ((hidx _ _).mpr h2)
    exact ⟨w, rfl⟩
  · intro a b
    simp only [Step.via, hS.stepsBetween, hle]
  · exact fun a n b hn h => Step.via_forward_some hS hc a n b hn h
  · exact fun a n hn h => Step.via_forward_none hS hc a n hn h
  · exact fun a n b hn h => Step.via_backward_some hS hc a n b hn h
  · exact fun a n hn h => Step.via_backward_none hS hc a n hn h
  · intro a n b hn h
    rw [Step.via_forward, Step.via_forward_some hS hc a n b hn h]; rfl
  · intro a n b hn h
    rw [Step.via_backward, Step.via_backward_some hS hc a n b hn h]; rfl
  · intro a n hn h
    rw [Step.via_forward, Step.via_forward_none hS hc a n hn h]; exact ⟨_, rfl⟩
  · intro a n hn h
    rw [Step.via_backward, Step.via_backward_none hS hc a n hn h]; exact ⟨_, rfl⟩

/-- C129. Only then: if the laws hold for any numbering of the values, the codes are ordered like the values and leave no gaps,
provided that the codes are close enough for `steps_between`. -/
theorem C129_needed (hS : LawfulStep p S idx) (hc : IsCode code decode) (hf : Step.Fits p idx)
    {idx' : U → Int} (h : LawfulStep p (S.via code decode) idx') :
    (∀ u v, u < v ↔ code u < code v) ∧ ∀ u v t, code u ≤ t → t ≤ code v → ∃ w, code w = t := by
  have hidx : ∀ s t, s ≤ t ↔ idx s ≤ idx t := fun s t => by rw [← not_lt, ← not_lt, hS.lt_iff]
  have inj : ∀ u v, code u = code v → u = v := fun u v e => by
    have h1 := (hc (code v) u).mpr e
    rw [(hc (code v) v).mpr rfl] at h1
    exact (Option.some.inj h1).symm
  have steps : ∀ u v, code u ≤ code v → u ≤ v ∧ idx' v - idx' u < p.usizeCount ∧
      (idx' v - idx' u).toNat = (idx (code v) - idx (code u)).toNat := by
    intro u v huv
    have e := h.stepsBetween u v
    rw [show (S.via code decode).stepsBetween u v = S.stepsBetween (code u) (code v) from rfl, hS.stepsBetween,
      if_pos ⟨huv, hf _ _⟩] at e
    have e := Res.ok.inj e
    split at e
    · rename_i hx
      exact ⟨hx.1, hx.2, (Option.some.inj e).symm⟩
    · cases e
  have mono : ∀ u v, code u ≤ code v → u ≤ v := fun u v huv => (steps u v huv).1
  have order : ∀ u v, u < v ↔ code u < code v := by
    intro u v
    constructor
    · intro huv
      by_contra hn
      exact absurd huv (not_lt.2 (mono v u (not_lt.1 hn)))
    · intro huv
      refine lt_of_le_of_ne (mono u v huv.le) fun e => ?_
      rw [e] at huv
      exact lt_irrefl _ huv
  refine ⟨order, fun u v t h1 h2 => ?_⟩
  obtain ⟨-, hlt, he⟩ := steps u v (h1.trans h2)
  have i1 := (hidx _ _).mp h1
  have i2 := (hidx _ _).mp h2
  have hv := hf (code u) (code v)
  have le' : idx' u ≤ idx' v := by
    have : ¬ v < u := fun hx => absurd ((order v u).mp hx) (not_lt.2 (h1.trans h2))
    rw [h.lt_iff] at this
    omega
  obtain ⟨w, hw⟩ := h.convex u v (idx' u + (idx t - idx (code u)).toNat) (by omega) (by omega)
  have e := h.forwardChecked_some u (idx t - idx (code u)).toNat w (by omega) hw
  have e' := hS.forwardChecked_some (code u) (idx t - idx (code u)).toNat t (by omega) (by omega)
  simp only [Step.via, e'] at e
  exact ⟨w, (hc t w).mp (Res.ok.inj e)⟩

/-- C129. A range of such values gives the values it contains, in order and once each, as long as the type has a value after its end. -/
theorem C129_iteration (hS : LawfulStep p S idx) (hc : IsCode code decode) (ho : ∀ u v, u < v ↔ code u < code v)
    (hg : ∀ u v t, code u ≤ t → t ≤ code v → ∃ w, code w = t) (r : BoundedRange U)
    (hr : r.Representable fun u => idx (code u)) (hroom : r.RoomAbove (fun u => idx (code u)) 0) :
    ∃ it l, r.intoIter (S.via code decode) = .ok it ∧ Lists l r.contains ∧
      ∀ k, ∃ it', runOps (BoundedRangeIter.call p (S.via code decode)) it (List.replicate (l.length + k) .next) =
        .ok (l.map (fun t => .item (some t)) ++ List.replicate k (.item none), it') :=
  C33_range_iteration (C129_lawful hS hc ho hg).1 r hr hroom

/-! `bool` numbered by bytes: `false` is 0 and `true` is 1, or with a gap 2. -/

private def bit (b : Bool) : u8.Val := if b then byte 1 else byte 0
private def unbit (t : u8.Val) : Option Bool := if t = byte 0 then some false else if t = byte 1 then some true else none
private def gap (b : Bool) : u8.Val := if b then byte 2 else byte 0
private def ungap (t : u8.Val) : Option Bool := if t = byte 0 then some false else if t = byte 2 then some true else none

private theorem isCode_bit : IsCode bit unbit := by
  intro t u
  unfold unbit bit
  cases u <;> simp only [Bool.false_eq_true, if_true, if_false] <;> split
  · rename_i h; simp [h]
  · rename_i h; split <;> simp [Ne.symm h]
  · rename_i h; simp [h]; decide
  · rename_i h; split
    · rename_i h'; simp [h']
    · rename_i h'; simp [Ne.symm h']

private theorem isCode_gap : IsCode gap ungap := by
  intro t u
  unfold ungap gap
  cases u <;> simp only [Bool.false_eq_true, if_true, if_false] <;> split
  · rename_i h; simp [h]
  · rename_i h; split <;> simp [Ne.symm h]
  · rename_i h; simp [h]; decide
  · rename_i h; split
    · rename_i h'; simp [h']
    · rename_i h'; simp [Ne.symm h']

/-- The hypotheses of `C129_lawful`, for `bool` numbered by 0 and 1. -/
example : LawfulStep debug64 (IntTy.step debug64 u8) (IntTy.idx (τ := u8)) ∧ IsCode bit unbit ∧
    (∀ u v : Bool, u < v ↔ bit u < bit v) ∧ ∀ u v t, bit u ≤ t → t ≤ bit v → ∃ w, bit w = t := by
  refine ⟨IntTy.lawful _ _, isCode_bit, by decide, fun u v t h1 h2 => ?_⟩
  have h0 : (0 : Int) ≤ t.1 := t.2.1
  have h3 : t.1 ≤ (1 : Int) := by
    have : t.1 ≤ (bit v).1 := h2
    cases v
    · exact le_trans this (by decide)
    · exact this
  obtain h | h : t.1 = 0 ∨ t.1 = 1 := by omega
  · exact ⟨false, Subtype.ext h.symm⟩
  · exact ⟨true, Subtype.ext h.symm⟩

/-- `(false..true).into_iter()`, asked twice. -/
example : (do let it ← (⟨.included false, .excluded true⟩ : BoundedRange Bool).intoIter ((IntTy.step debug64 u8).via bit unbit)
              let (os, _) ← runOps (BoundedRangeIter.call debug64 ((IntTy.step debug64 u8).via bit unbit)) it [.next, .next]
              return os) = .ok [.item (some false), .item none] := by decide

/-- With the gap the laws fail for every numbering (`C129_needed`): byte 1 lies between the codes. -/
example : ¬ ∃ idx', LawfulStep debug64 ((IntTy.step debug64 u8).via gap ungap) idx' := by
  rintro ⟨idx', h⟩
  obtain ⟨w, hw⟩ := (C129_needed (IntTy.lawful _ _) isCode_gap (IntTy.fits _ _ (by decide)) h).2 false true (byte 1)
    (by decide) (by decide)
  revert hw
  cases w <;> decide

/-- What goes wrong: the successor of `false` is missing, though `steps_between` counts two steps to `true`. -/
example : ((IntTy.step debug64 u8).via gap ungap).stepsBetween false true = .ok (some 2) ∧
    ((IntTy.step debug64 u8).via gap ungap).forwardChecked false 1 = .ok none := by decide

end Rangetools
