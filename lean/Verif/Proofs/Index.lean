import Verif.Spec.Index
import Verif.Props.Convert

/-!
# Lemmas about indexing
-/

namespace Rangetools
variable {α : Type} {p : Platform}

/-! ### Positions -/

namespace Usize

theorem max_eq (p : Platform) : (IntTy.usize p).max = (p.usizeCount : Int) - 1 := by
  show (0 : Int) + 2 ^ p.usizeBits - 1 = ((2 ^ p.usizeBits : Nat) : Int) - 1
  push_cast; ring

theorem nat_cast (x : Usize p) : (x.nat : Int) = x.1 := Int.toNat_of_nonneg x.2.1

theorem nat_lt (x : Usize p) : x.nat < p.usizeCount := by
  have h1 := nat_cast x
  have h2 := x.2.2
  have h3 := max_eq p
  omega

theorem le_iff (x y : Usize p) : x ≤ y ↔ x.nat ≤ y.nat := by
  rw [← Subtype.coe_le_coe, ← nat_cast, ← nat_cast]; omega

theorem lt_iff (x y : Usize p) : x < y ↔ x.nat < y.nat := by
  rw [← Subtype.coe_lt_coe, ← nat_cast, ← nat_cast]; omega

/-- A small number as a `usize`. -/
def ofNat (i : Nat) (h : i < p.usizeCount) : Usize p :=
  ⟨i, Int.natCast_nonneg i, by rw [max_eq]; omega⟩

theorem nat_ofNat {i : Nat} (h : i < p.usizeCount) : (ofNat (p := p) i h).nat = i := by
  simp [nat, ofNat]

theorem ofNat_nat (x : Usize p) (h : x.nat < p.usizeCount := x.nat_lt) : ofNat x.nat h = x :=
  Subtype.ext (nat_cast x)

theorem holds_of_lt (P : Usize p → Bool) {i : Nat} (h : i < p.usizeCount) :
    holds P i = P (ofNat i h) := by
  rw [holds, dif_pos h]; rfl

theorem holds_of_le (P : Usize p → Bool) {i : Nat} (h : p.usizeCount ≤ i) : holds P i = false := by
  rw [holds, dif_neg (by omega)]

theorem holds_nat (P : Usize p → Bool) (x : Usize p) : holds P x.nat = P x := by
  rw [holds_of_lt P x.nat_lt, ofNat_nat]

/-- `Step::forward(x, 1)`. -/
theorem forward_one (x : Usize p) :
    (∃ h : x.nat + 1 < p.usizeCount, (step p).forward x 1 = .ok (ofNat (x.nat + 1) h)) ∨
    (x.nat + 1 = p.usizeCount ∧ p.overflowChecks = true ∧ ∃ m, (step p).forward x 1 = .panic m) ∨
    (x.nat + 1 = p.usizeCount ∧ p.overflowChecks = false) := by
  have h1 := nat_cast x
  by_cases h : x.nat + 1 < p.usizeCount
  · left
    refine ⟨h, (IntTy.lawful p _).forward_some x 1 _ (LawfulStep.one_lt p) ?_⟩
    simp only [IntTy.idx, ofNat]; push_cast; omega
  · right
    have := nat_lt x
    cases hp : p.overflowChecks
    · exact .inr ⟨by omega, rfl⟩
    · refine .inl ⟨by omega, rfl, ?_⟩
      refine (IntTy.checked p _ hp).forward x 1 (LawfulStep.one_lt p) (fun b hb => ?_)
      have hb2 := b.2.2
      have h3 := max_eq p
      simp only [IntTy.idx] at hb
      push_cast at hb
      omega

end Usize

/-! ### The bounds -/

/-- No overflow can go unnoticed: checks are on, or the converted bound is representable. -/
theorem LowerBoundedRange.toRangeFrom_cases (r : LowerBoundedRange (Usize p)) :
    (∃ h : r.start.first < p.usizeCount,
      r.toRangeFrom (Usize.step p) = .ok ⟨Usize.ofNat r.start.first h⟩) ∨
    (r.start.first = p.usizeCount ∧ p.overflowChecks = true ∧
      ∃ m, r.toRangeFrom (Usize.step p) = .panic m) ∨
    (r.start.first = p.usizeCount ∧ p.overflowChecks = false) := by
  obtain ⟨⟨s⟩⟩ := r
  cases s with
  | included a =>
    exact .inl ⟨a.nat_lt, by
      show Res.ok _ = _
      simp only [LowerBound.first, Usize.ofNat_nat]⟩
  | excluded a =>
    rcases Usize.forward_one a with ⟨h, e⟩ | ⟨h, hp, m, e⟩ | ⟨h, hp⟩
    · exact .inl ⟨h, by simp only [toRangeFrom, LowerBound.toBound, e]; rfl⟩
    · exact .inr (.inl ⟨h, hp, m, by simp only [toRangeFrom, LowerBound.toBound, e]; rfl⟩)
    · exact .inr (.inr ⟨h, hp⟩)

theorem UpperBoundedRange.toRangeTo_cases (r : UpperBoundedRange (Usize p)) :
    (∃ h : r.stop.past < p.usizeCount,
      r.toRangeTo (Usize.step p) = .ok ⟨Usize.ofNat r.stop.past h⟩) ∨
    (r.stop.past = p.usizeCount ∧ p.overflowChecks = true ∧
      ∃ m, r.toRangeTo (Usize.step p) = .panic m) ∨
    (r.stop.past = p.usizeCount ∧ p.overflowChecks = false) := by
  obtain ⟨⟨s⟩⟩ := r
  cases s with
  | excluded a =>
    exact .inl ⟨a.nat_lt, by
      show Res.ok _ = _
      simp only [UpperBound.past, Usize.ofNat_nat]⟩
  | included a =>
    rcases Usize.forward_one a with ⟨h, e⟩ | ⟨h, hp, m, e⟩ | ⟨h, hp⟩
    · exact .inl ⟨h, by simp only [toRangeTo, UpperBound.toBound, e]; rfl⟩
    · exact .inr (.inl ⟨h, hp, m, by simp only [toRangeTo, UpperBound.toBound, e]; rfl⟩)
    · exact .inr (.inr ⟨h, hp⟩)

/-- `Range::from` in terms of the one-sided conversions. -/
theorem BoundedRange.toRange_eq {T : Type} (S : Step T) (r : BoundedRange T) :
    r.toRange S = do
      let a ← LowerBoundedRange.toRangeFrom S ⟨r.start⟩
      let b ← UpperBoundedRange.toRangeTo S ⟨r.stop⟩
      return ⟨a.start, b.stop⟩ := by
  obtain ⟨⟨s⟩, ⟨e⟩⟩ := r
  cases s <;> cases e <;>
    simp only [toRange, LowerBoundedRange.toRangeFrom, UpperBoundedRange.toRangeTo, LowerBound.toBound,
      UpperBound.toBound, Res.bind_ok]
  all_goals first
    | rfl
    | (rename_i a b; cases S.forward a 1 <;> first | rfl | (cases S.forward b 1 <;> rfl))

theorem BoundedRange.toRange_cases (r : BoundedRange (Usize p)) :
    (∃ (h1 : r.start.first < p.usizeCount) (h2 : r.stop.past < p.usizeCount),
      r.toRange (Usize.step p) = .ok ⟨Usize.ofNat r.start.first h1, Usize.ofNat r.stop.past h2⟩) ∨
    ((r.start.first = p.usizeCount ∨ r.stop.past = p.usizeCount) ∧ p.overflowChecks = true ∧
      ∃ m, r.toRange (Usize.step p) = .panic m) ∨
    ((r.start.first = p.usizeCount ∨ r.stop.past = p.usizeCount) ∧ p.overflowChecks = false) := by
  rw [toRange_eq]
  rcases LowerBoundedRange.toRangeFrom_cases ⟨r.start⟩ with ⟨h, e⟩ | ⟨h, hp, m, e⟩ | ⟨h, hp⟩
  · rcases UpperBoundedRange.toRangeTo_cases ⟨r.stop⟩ with ⟨h', e'⟩ | ⟨h', hp', m, e'⟩ | ⟨h', hp'⟩
    · exact .inl ⟨h, h', by rw [e, e']; rfl⟩
    · exact .inr (.inl ⟨.inr h', hp', m, by rw [e, e']; rfl⟩)
    · exact .inr (.inr ⟨.inr h', hp'⟩)
  · exact .inr (.inl ⟨.inl h, hp, m, by rw [e]; rfl⟩)
  · exact .inr (.inr ⟨.inl h, hp⟩)

theorem LowerBound.first_le (b : LowerBound (Usize p)) : b.first ≤ p.usizeCount := by
  obtain ⟨b⟩ := b
  cases b with
  | included a => exact a.nat_lt.le
  | excluded a => exact a.nat_lt

theorem UpperBound.past_le (b : UpperBound (Usize p)) : b.past ≤ p.usizeCount := by
  obtain ⟨b⟩ := b
  cases b with
  | included a => exact a.nat_lt
  | excluded a => exact a.nat_lt.le

theorem BoundedRange.holds_iff (r : BoundedRange (Usize p)) (i : Nat) :
    Usize.holds r.contains i = (decide (r.start.first ≤ i) && decide (i < r.stop.past)) := by
  have hp := r.stop.past_le
  by_cases h : i < p.usizeCount
  · rw [Usize.holds_of_lt _ h, Bool.eq_iff_iff, Bool.and_eq_true, decide_eq_true_iff, decide_eq_true_iff]
    obtain ⟨⟨s⟩, ⟨e⟩⟩ := r
    cases s <;> cases e <;>
      simp only [contains, LowerBound.first, UpperBound.past, Bool.and_eq_true, decide_eq_true_eq,
        gt_iff_lt, ge_iff_le, Usize.le_iff, Usize.lt_iff, Usize.nat_ofNat] <;> omega
  · rw [Usize.holds_of_le _ (by omega)]
    symm
    rw [Bool.and_eq_false_iff]
    exact .inr (decide_eq_false (by omega))

theorem LowerBoundedRange.holds_iff (r : LowerBoundedRange (Usize p)) (i : Nat) :
    Usize.holds r.contains i = (decide (r.start.first ≤ i) && decide (i < p.usizeCount)) := by
  by_cases h : i < p.usizeCount
  · rw [Usize.holds_of_lt _ h, Bool.eq_iff_iff, Bool.and_eq_true, decide_eq_true_iff, decide_eq_true_iff]
    obtain ⟨⟨s⟩⟩ := r
    cases s <;>
      simp only [contains, LowerBound.first, decide_eq_true_eq,
        gt_iff_lt, ge_iff_le, Usize.le_iff, Usize.lt_iff, Usize.nat_ofNat] <;> omega
  · rw [Usize.holds_of_le _ (by omega)]
    symm
    rw [Bool.and_eq_false_iff]
    exact .inr (decide_eq_false h)

theorem UpperBoundedRange.holds_iff (r : UpperBoundedRange (Usize p)) (i : Nat) :
    Usize.holds r.contains i = (decide (0 ≤ i) && decide (i < r.stop.past)) := by
  have hp := r.stop.past_le
  by_cases h : i < p.usizeCount
  · rw [Usize.holds_of_lt _ h, Bool.eq_iff_iff, Bool.and_eq_true, decide_eq_true_iff, decide_eq_true_iff]
    obtain ⟨⟨s⟩⟩ := r
    cases s <;>
      simp only [contains, UpperBound.past, decide_eq_true_eq,
        Usize.le_iff, Usize.lt_iff, Usize.nat_ofNat] <;> omega
  · rw [Usize.holds_of_le _ (by omega)]
    symm
    rw [Bool.and_eq_false_iff]
    exact .inr (decide_eq_false (by omega))

/-! ### Selecting -/

theorem select_interval_aux (v : List α) (k a b : Nat) :
    ((v.zipIdx k).filter (fun x => decide (a ≤ x.2) && decide (x.2 < b))).map Prod.fst =
      (v.take (b - k)).drop (a - k) := by
  induction v generalizing k with
  | nil => simp
  | cons x v ih =>
    rw [List.zipIdx_cons, List.filter_cons]
    by_cases hb : k < b
    · obtain ⟨n, hn⟩ : ∃ n, b - k = n + 1 := ⟨b - k - 1, by omega⟩
      have hn' : b - (k + 1) = n := by omega
      rw [hn, List.take_succ_cons]
      by_cases ha : a ≤ k
      · rw [if_pos (by simp [ha, hb]), List.map_cons, ih, hn']
        simp [show a - k = 0 by omega, show a - (k + 1) = 0 by omega]
      · obtain ⟨m, hm⟩ : ∃ m, a - k = m + 1 := ⟨a - k - 1, by omega⟩
        rw [if_neg (by simp [ha]), ih, hn', hm, List.drop_succ_cons]
        congr 1
        omega
    · rw [if_neg (by simp [hb]), ih]
      simp [show b - k = 0 by omega, show b - (k + 1) = 0 by omega]

theorem select_interval (v : List α) (a b : Nat) :
    select v (fun i => decide (a ≤ i) && decide (i < b)) = (v.take b).drop a :=
  select_interval_aux v 0 a b

/-! ### UTF-8 -/

/-- A byte that begins a character. -/
def IsLead (b : Nat) : Prop := b < 128 ∨ 192 ≤ b

theorem utf8Char_shape (c : Scalar) :
    ∃ b bs, utf8Char c = b :: bs ∧ IsLead b ∧ ∀ x ∈ bs, ¬ IsLead x := by
  have h := c.2
  unfold IsScalar at h
  have hn : c.1.toNat < 0x110000 := by omega
  unfold utf8Char IsLead
  dsimp only
  split
  · exact ⟨_, _, rfl, by omega, by simp⟩
  · split
    · refine ⟨_, _, rfl, by omega, ?_⟩
      simp only [List.mem_cons, List.not_mem_nil, or_false]
      intro x hx
      omega
    · split
      · refine ⟨_, _, rfl, by omega, ?_⟩
        simp only [List.mem_cons, List.not_mem_nil, or_false]
        intro x hx
        omega
      · refine ⟨_, _, rfl, by omega, ?_⟩
        simp only [List.mem_cons, List.not_mem_nil, or_false]
        intro x hx
        omega

theorem utf8_cons (c : Scalar) (cs : List Scalar) : utf8 (c :: cs) = utf8Char c ++ utf8 cs := rfl

theorem utf8_append (cs ds : List Scalar) : utf8 (cs ++ ds) = utf8 cs ++ utf8 ds :=
  List.flatMap_append

theorem utf8Char_length_pos (c : Scalar) : 0 < (utf8Char c).length := by
  obtain ⟨b, bs, h, _⟩ := utf8Char_shape c
  rw [h]; simp

theorem isCharBoundary_iff (s : List Nat) (i : Nat) : isCharBoundary s i = true ↔
    i = 0 ∨ i = s.length ∨ ∃ b, s[i]? = some b ∧ IsLead b := by
  unfold isCharBoundary IsLead
  by_cases h : i = 0
  · simp [h]
  · rw [if_neg (by simp [h])]
    cases hb : s[i]? with
    | none => simp [h]
    | some b =>
      have : i ≠ s.length := by
        rintro rfl
        simp at hb
      simp [h, this]

/-- The character boundaries of an encoded string are the lengths of the encodings of its prefixes. -/
theorem isCharBoundary_utf8 (cs : List Scalar) (i : Nat) : isCharBoundary (utf8 cs) i = true ↔
    ∃ a, a ≤ cs.length ∧ i = (utf8 (cs.take a)).length := by
  rw [isCharBoundary_iff]
  induction cs generalizing i with
  | nil =>
    simp [utf8]
  | cons c cs ih =>
    obtain ⟨b, bs, hc, hb, hbs⟩ := utf8Char_shape c
    have hlen : (utf8Char c).length = bs.length + 1 := by rw [hc]; rfl
    constructor
    · intro h
      by_cases h0 : i = 0
      · exact ⟨0, by simp, by simp [h0, utf8]⟩
      by_cases hi : i < (utf8Char c).length
      · exfalso
        rcases h with h | h | ⟨x, hx, hl⟩
        · exact h0 h
        · rw [utf8_cons, List.length_append] at h; omega
        · rw [utf8_cons, List.getElem?_append_left hi, hc] at hx
          obtain ⟨j, rfl⟩ : ∃ j, i = j + 1 := ⟨i - 1, by omega⟩
          rw [List.getElem?_cons_succ] at hx
          exact hbs x (List.mem_of_getElem? hx) hl
      · obtain ⟨j, rfl⟩ : ∃ j, i = (utf8Char c).length + j := ⟨i - (utf8Char c).length, by omega⟩
        obtain ⟨a, ha, hj⟩ := (ih j).1 (by
          rcases h with h | h | ⟨x, hx, hl⟩
          · exact absurd h h0
          · rw [utf8_cons, List.length_append] at h
            exact .inr (.inl (by omega))
          · rw [utf8_cons, List.getElem?_append_right (by omega), Nat.add_sub_cancel_left] at hx
            exact .inr (.inr ⟨x, hx, hl⟩))
        exact ⟨a + 1, by simpa using ha, by
          rw [List.take_succ_cons, utf8_cons, List.length_append, hj]⟩
    · rintro ⟨a, ha, rfl⟩
      cases a with
      | zero => left; simp [utf8]
      | succ a =>
        rw [List.take_succ_cons, utf8_cons, utf8_cons, List.length_append]
        have := (ih _).2 ⟨a, by simpa using ha, rfl⟩
        right
        rcases this with h | h | ⟨x, hx, hl⟩
        · rw [h, Nat.add_zero]
          cases cs with
          | nil => left; simp [utf8]
          | cons d ds =>
            obtain ⟨b', bs', hd, hb', _⟩ := utf8Char_shape d
            right
            refine ⟨b', ?_, hb'⟩
            rw [List.getElem?_append_right (le_refl _), Nat.sub_self, utf8_cons, hd]
            rfl
        · left; rw [List.length_append, h]
        · right
          refine ⟨x, ?_, hl⟩
          rw [List.getElem?_append_right (by omega), Nat.add_sub_cancel_left]
          exact hx

theorem utf8_take (cs : List Scalar) (a : Nat) :
    (utf8 cs).take (utf8 (cs.take a)).length = utf8 (cs.take a) := by
  conv_lhs => rw [← List.take_append_drop a cs, utf8_append]
  simp

theorem utf8_drop (cs : List Scalar) (a : Nat) :
    (utf8 cs).drop (utf8 (cs.take a)).length = utf8 (cs.drop a) := by
  conv_lhs => rw [← List.take_append_drop a cs, utf8_append]
  simp

theorem utf8_take_length_lt (cs : List Scalar) {a b : Nat} (h : a < b) (hb : b ≤ cs.length) :
    (utf8 (cs.take a)).length < (utf8 (cs.take b)).length := by
  have e : cs.take b = cs.take a ++ (cs.take b).drop a := by
    conv_lhs => rw [← List.take_append_drop a (cs.take b)]
    rw [List.take_take, min_eq_left (by omega)]
  rw [e, utf8_append, List.length_append]
  have : (cs.take b).drop a ≠ [] := by
    intro hn
    have := congrArg List.length hn
    simp at this
    omega
  obtain ⟨c, ds, hd⟩ := List.exists_cons_of_ne_nil this
  rw [hd, utf8_cons, List.length_append]
  have := utf8Char_length_pos c
  omega

theorem utf8_take_length_le (cs : List Scalar) {a b : Nat} (ha : a ≤ cs.length) :
    (utf8 (cs.take a)).length ≤ (utf8 (cs.take b)).length → a ≤ b := by
  intro h
  by_contra hlt
  have := utf8_take_length_lt cs (not_le.1 hlt) ha
  omega

theorem utf8_slice (cs : List Scalar) {a b : Nat} (h : a ≤ b) :
    ((utf8 cs).take (utf8 (cs.take b)).length).drop (utf8 (cs.take a)).length =
      utf8 ((cs.take b).drop a) := by
  rw [utf8_take]
  have := utf8_drop (cs.take b) a
  rwa [List.take_take, min_eq_left h] at this

end Rangetools
