import Verif.Spec.Iter
import Verif.Proofs.Step
import Mathlib.Data.List.Sort
import Mathlib.Data.List.Range

/-!
# The iterators refine a list popped at both ends

`Rep idx it l`: the iterator `it` still has to yield exactly `l`.
-/

namespace Rangetools

/-! ### Consecutive integers -/

/-- `[a, a + 1, …, b]`. -/
def ints (a b : Int) : List Int := (List.range (b - a + 1).toNat).map (fun i : Nat => a + i)

theorem length_ints (a b : Int) : (ints a b).length = (b - a + 1).toNat := by simp [ints]

theorem ints_nil {a b : Int} (h : b < a) : ints a b = [] := by
  apply List.length_eq_zero_iff.1
  rw [length_ints]; omega

theorem ints_getElem? (a b : Int) (n : Nat) :
    (ints a b)[n]? = if a + n ≤ b then some (a + n) else none := by
  by_cases h : a + n ≤ b
  · rw [if_pos h]
    unfold ints
    rw [List.getElem?_map, List.getElem?_range (by omega)]; rfl
  · rw [if_neg h, List.getElem?_eq_none_iff, length_ints]; omega

theorem ints_drop (a b : Int) (n : Nat) : (ints a b).drop n = ints (a + n) b := by
  apply List.ext_getElem?
  intro i
  rw [List.getElem?_drop, ints_getElem?, ints_getElem?]
  push_cast
  split <;> split <;> first | (congr 1; omega) | omega | rfl

theorem ints_take (a b : Int) (n : Nat) : (ints a b).take ((ints a b).length - n) = ints a (b - n) := by
  apply List.ext_getElem?
  intro i
  rw [List.getElem?_take, ints_getElem?, ints_getElem?, length_ints]
  split <;> split <;> first | rfl | omega | skip
  all_goals split <;> first | rfl | omega

theorem ints_mem {a b k : Int} : k ∈ ints a b ↔ a ≤ k ∧ k ≤ b := by
  unfold ints
  simp only [List.mem_map, List.mem_range]
  constructor
  · rintro ⟨i, hi, rfl⟩; omega
  · rintro ⟨h1, h2⟩; exact ⟨(k - a).toNat, by omega, by omega⟩

theorem ints_sorted (a b : Int) : (ints a b).Pairwise (· < ·) := by
  unfold ints
  rw [List.pairwise_map]
  exact List.pairwise_lt_range.imp (fun h => by omega)

theorem reverse_drop_reverse {α : Type} (l : List α) (n : Nat) :
    (l.reverse.drop n).reverse = l.take (l.length - n) := by
  rw [List.drop_reverse, List.reverse_reverse]

/-! ### Numberings -/

namespace LawfulStep
variable {T : Type} [LinearOrder T] {p : Platform} {S : Step T} {idx : T → Int}

theorem inj (L : LawfulStep p S idx) {a b : T} (h : idx a = idx b) : a = b := by
  rcases lt_trichotomy a b with h1 | h1 | h1
  · have := (L.lt_iff _ _).1 h1; omega
  · exact h1
  · have := (L.lt_iff _ _).1 h1; omega

theorem le_iff (L : LawfulStep p S idx) (a b : T) : a ≤ b ↔ idx a ≤ idx b := by
  rw [← not_lt, L.lt_iff, not_lt]

theorem map_inj (L : LawfulStep p S idx) {l l' : List T} (h : l.map idx = l'.map idx) : l = l' :=
  List.map_injective_iff.2 (fun _ _ => L.inj) h

theorem has_between (L : LawfulStep p S idx) {i j k : Int} (hi : Has idx i) (hj : Has idx j)
    (h1 : i ≤ k) (h2 : k ≤ j) : Has idx k := by
  obtain ⟨a, rfl⟩ := hi
  obtain ⟨b, rfl⟩ := hj
  exact L.convex a b k h1 h2

theorem has_idx (_L : LawfulStep p S idx) (a : T) : Has idx (idx a) := ⟨a, rfl⟩

/-- Every run of positions of the type is the list of numbers of a list of values. -/
theorem exists_list (L : LawfulStep p S idx) {i j : Int} (hi : i ≤ j → Has idx i ∧ Has idx j) :
    ∃ l : List T, l.map idx = ints i j := by
  have : ∀ n : Nat, ∀ i, (j - i + 1).toNat = n → (i ≤ j → Has idx i ∧ Has idx j) →
      ∃ l : List T, l.map idx = ints i j := by
    intro n
    induction n with
    | zero => intro i hn _; exact ⟨[], by rw [ints_nil (by omega)]; rfl⟩
    | succ n ih =>
      intro i hn h
      obtain ⟨⟨a, ha⟩, hj⟩ := h (by omega)
      obtain ⟨l, hl⟩ := ih (i + 1) (by omega)
        (fun hle => ⟨L.has_between ⟨a, ha⟩ hj (by omega) hle, hj⟩)
      refine ⟨a :: l, ?_⟩
      have h0 := ints_drop i j 1
      have h1 := ints_getElem? i j 0
      rw [if_pos (by omega)] at h1
      rw [List.map_cons, hl, ha]
      cases hx : ints i j with
      | nil => rw [hx] at h1; simp at h1
      | cons x xs =>
        rw [hx] at h0 h1
        simp at h0 h1
        rw [h0, h1]
  exact this _ i rfl hi

/-- The increasing list of the values between two positions, by numbers. -/
theorem lists_iff (L : LawfulStep p S idx) {l : List T} {i j : Int}
    (h : i ≤ j → Has idx i ∧ Has idx j) :
    (l.Pairwise (· < ·) ∧ ∀ t, t ∈ l ↔ i ≤ idx t ∧ idx t ≤ j) ↔ l.map idx = ints i j := by
  constructor
  · rintro ⟨hs, hm⟩
    have hs1 : (l.map idx).Pairwise (· < ·) := by
      rw [List.pairwise_map]; exact hs.imp (fun h => (L.lt_iff _ _).1 h)
    have hp : (l.map idx).Perm (ints i j) := by
      rw [List.perm_ext_iff_of_nodup (hs1.imp (fun h => ne_of_lt h))
        ((ints_sorted i j).imp (fun h => ne_of_lt h))]
      intro k
      rw [ints_mem, List.mem_map]
      constructor
      · rintro ⟨t, ht, rfl⟩; exact (hm t).1 ht
      · rintro ⟨h1, h2⟩
        obtain ⟨hi, hj⟩ := h (by omega)
        obtain ⟨t, ht⟩ := L.has_between hi hj h1 h2
        exact ⟨t, (hm t).2 (by omega), ht⟩
    exact hp.eq_of_pairwise (fun a b _ _ h1 h2 => absurd h1 (not_lt.2 (le_of_lt h2))) hs1
      (ints_sorted i j)
  · intro hl
    constructor
    · have := ints_sorted i j
      rw [← hl, List.pairwise_map] at this
      exact this.imp (fun h => (L.lt_iff _ _).2 h)
    · intro t
      rw [← ints_mem, ← hl, List.mem_map]
      constructor
      · exact fun ht => ⟨t, ht, rfl⟩
      · rintro ⟨u, hu, he⟩; rw [← L.inj he]; exact hu

end LawfulStep

/-! ### `BoundedRangeIter` -/

section
variable {T : Type} [LinearOrder T] {p : Platform} {S : Step T} {idx : T → Int}

/-- The iterator still has to yield exactly `l`. -/
def Rep (idx : T → Int) (it : BoundedRangeIter T) (l : List T) : Prop :=
  l.map idx = ints (idx it.current) (idx it.last)

omit [LinearOrder T] in
theorem Rep.length {it : BoundedRangeIter T} {l : List T} (h : Rep idx it l) :
    (l.length : Int) = (idx it.last - idx it.current + 1).toNat := by
  rw [← List.length_map (f := idx), h, length_ints]

omit [LinearOrder T] in
theorem Rep.eq_nil {it : BoundedRangeIter T} {l : List T} (h : Rep idx it l) :
    l = [] ↔ idx it.last < idx it.current := by
  rw [← List.length_eq_zero_iff]
  have := h.length
  omega

theorem Rep.getElem? (L : LawfulStep p S idx) {it : BoundedRangeIter T} {l : List T}
    (h : Rep idx it l) {n : Nat} {t : T} (ht : idx t = idx it.current + n)
    (hle : idx it.current + n ≤ idx it.last) : l[n]? = some t := by
  have h1 : (l.map idx)[n]? = some (idx t) := by rw [h, ints_getElem?, if_pos hle, ht]
  rw [List.getElem?_map] at h1
  cases hx : l[n]? with
  | none => rw [hx] at h1; cases h1
  | some u =>
    rw [hx] at h1
    rw [L.inj (Option.some.inj h1)]

omit [LinearOrder T] in
theorem Rep.getElem?_none {it : BoundedRangeIter T} {l : List T}
    (h : Rep idx it l) {n : Nat} (hle : idx it.last < idx it.current + n) : l[n]? = none := by
  rw [List.getElem?_eq_none_iff]
  have := h.length
  omega

omit [LinearOrder T] in
theorem Rep.drop {it it' : BoundedRangeIter T} {l : List T} (h : Rep idx it l) {n : Nat}
    (hc : idx it'.current = idx it.current + n) (hl : it'.last = it.last) :
    Rep idx it' (l.drop n) := by
  unfold Rep
  rw [List.map_drop, h, ints_drop, hc, hl]

omit [LinearOrder T] in
theorem Rep.dropBack {it it' : BoundedRangeIter T} {l : List T} (h : Rep idx it l) {n : Nat}
    (hl : idx it'.last = idx it.last - n) (hc : it'.current = it.current) :
    Rep idx it' ((l.reverse.drop n).reverse) := by
  unfold Rep
  rw [reverse_drop_reverse, List.map_take, ← List.length_map (f := idx), h, ints_take, hc, hl]

/-- What `nth(n)` does when the values it steps to exist. -/
theorem BoundedRangeIter.nth_spec (L : LawfulStep p S idx) {it : BoundedRangeIter T} {l : List T}
    (h : Rep idx it l) {n : Nat} (hn : n < p.usizeCount) (h1 : Has idx (idx it.current + n))
    (h2 : idx it.current + n ≤ idx it.last → Has idx (idx it.current + n + 1)) :
    ∃ it', it.nth S n = .ok (l[n]?, it') ∧ Rep idx it' (l.drop (n + 1)) ∧ it'.last = it.last ∧
      idx it.current ≤ idx it'.current ∧
      idx it'.current ≤ Max.max (idx it.current + n) (idx it.last + 1) := by
  obtain ⟨c, hc⟩ := h1
  have hu := p.le_usizeCount
  simp only [BoundedRangeIter.nth, BoundedRangeIter.next, L.forward_some _ n c hn hc, Res.bind_ok]
  by_cases hle : idx it.current + n ≤ idx it.last
  · obtain ⟨d, hd⟩ := h2 hle
    have hcl : ¬ (c > it.last) := by rw [gt_iff_lt, L.lt_iff]; omega
    rw [if_neg hcl, L.forward_some c 1 d (by omega) (by push_cast; omega)]
    refine ⟨⟨d, it.last⟩, ?_, ?_, rfl, ?_, ?_⟩
    · rw [h.getElem? L hc hle]; rfl
    · exact h.drop (by push_cast; omega) rfl
    · show _ ≤ idx d; omega
    · show idx d ≤ _; omega
  · have hcl : c > it.last := by rw [gt_iff_lt, L.lt_iff]; omega
    rw [if_pos hcl]
    refine ⟨⟨c, it.last⟩, ?_, ?_, rfl, ?_, ?_⟩
    · rw [h.getElem?_none (by omega)]
    · have hlen := h.length
      unfold Rep
      rw [ints_nil (by show idx it.last < idx c; omega), List.drop_eq_nil_of_le (by omega)]
      rfl
    · show _ ≤ idx c; omega
    · show idx c ≤ _; omega

/-- What `nth_back(n)` does when the values it steps to exist. -/
theorem BoundedRangeIter.nthBack_spec (L : LawfulStep p S idx) {it : BoundedRangeIter T} {l : List T}
    (h : Rep idx it l) {n : Nat} (hn : n < p.usizeCount) (h1 : Has idx (idx it.last - n))
    (h2 : idx it.current ≤ idx it.last - n → Has idx (idx it.last - n - 1)) :
    ∃ it', it.nthBack S n = .ok (l.reverse[n]?, it') ∧
      Rep idx it' ((l.reverse.drop (n + 1)).reverse) ∧ it'.current = it.current ∧
      idx it'.last ≤ idx it.last ∧
      Min.min (idx it.last - n) (idx it.current - 1) ≤ idx it'.last := by
  obtain ⟨c, hc⟩ := h1
  have hu := p.le_usizeCount
  have hlen := h.length
  simp only [BoundedRangeIter.nthBack, BoundedRangeIter.nextBack, L.backward_some _ n c hn hc,
    Res.bind_ok]
  by_cases hle : idx it.current ≤ idx it.last - n
  · obtain ⟨d, hd⟩ := h2 hle
    have hcl : ¬ (it.current > c) := by rw [gt_iff_lt, L.lt_iff]; omega
    rw [if_neg hcl, L.backward_some c 1 d (by omega) (by push_cast; omega)]
    refine ⟨⟨it.current, d⟩, ?_, ?_, rfl, ?_, ?_⟩
    · rw [List.getElem?_reverse (by omega), h.getElem? L (t := c) (by omega) (by omega)]; rfl
    · exact h.dropBack (by push_cast; omega) rfl
    · show idx d ≤ _; omega
    · show _ ≤ idx d; omega
  · have hcl : it.current > c := by rw [gt_iff_lt, L.lt_iff]; omega
    rw [if_pos hcl]
    refine ⟨⟨it.current, c⟩, ?_, ?_, rfl, ?_, ?_⟩
    · rw [List.getElem?_eq_none_iff.2 (by rw [List.length_reverse]; omega)]
    · unfold Rep
      rw [ints_nil (by show idx c < idx it.current; omega),
        List.drop_eq_nil_of_le (by rw [List.length_reverse]; omega)]
      rfl
    · show idx c ≤ _; omega
    · show _ ≤ idx c; omega

/-- What `next` does when the value it steps to exists. -/
theorem BoundedRangeIter.next_spec (L : LawfulStep p S idx) {it : BoundedRangeIter T} {l : List T}
    (h : Rep idx it l) (h2 : idx it.current ≤ idx it.last → Has idx (idx it.current + 1)) :
    ∃ it', it.next S = .ok (l.head?, it') ∧ Rep idx it' l.tail ∧ it'.last = it.last ∧
      idx it.current ≤ idx it'.current ∧
      idx it'.current ≤ Max.max (idx it.current) (idx it.last + 1) := by
  have hu := p.le_usizeCount
  have := BoundedRangeIter.nth_spec L h (n := 0) (by omega) ⟨it.current, by simp⟩
    (by simpa using h2)
  simp only [BoundedRangeIter.nth, L.forward_some it.current 0 it.current (by omega) (by simp),
    Res.bind_ok] at this
  simpa [List.head?_eq_getElem?] using this

/-- What `next_back` does when the value it steps to exists. -/
theorem BoundedRangeIter.nextBack_spec (L : LawfulStep p S idx) {it : BoundedRangeIter T} {l : List T}
    (h : Rep idx it l) (h2 : idx it.current ≤ idx it.last → Has idx (idx it.last - 1)) :
    ∃ it', it.nextBack S = .ok (l.getLast?, it') ∧ Rep idx it' l.dropLast ∧ it'.current = it.current ∧
      idx it'.last ≤ idx it.last ∧
      Min.min (idx it.last) (idx it.current - 1) ≤ idx it'.last := by
  have hu := p.le_usizeCount
  have := BoundedRangeIter.nthBack_spec L h (n := 0) (by omega) ⟨it.last, by simp⟩
    (by simpa using h2)
  simp only [BoundedRangeIter.nthBack, L.backward_some it.last 0 it.last (by omega) (by simp),
    Res.bind_ok] at this
  simpa [← List.head?_eq_getElem?, List.head?_reverse, reverse_drop_reverse, ← List.dropLast_eq_take]
    using this

/-- `size_hint` is exact when the number of elements fits `usize`. -/
theorem BoundedRangeIter.sizeHint_spec (L : LawfulStep p S idx) {it : BoundedRangeIter T} {l : List T}
    (h : Rep idx it l) (hl : l.length < p.usizeCount) :
    it.sizeHint p S = .ok (l.length, some l.length) := by
  have hlen := h.length
  have hu := p.le_usizeCount
  simp only [BoundedRangeIter.sizeHint, L.stepsBetween, Res.bind_ok]
  by_cases hle : idx it.current ≤ idx it.last
  · rw [if_pos ⟨(L.le_iff _ _).2 hle, by omega⟩]
    simp only [Platform.addUsize]
    rw [if_pos (by omega)]
    have : (idx it.last - idx it.current).toNat + 1 = l.length := by omega
    simp only [Res.bind_ok, this]; rfl
  · rw [if_neg (by rw [L.le_iff]; omega)]
    have : l.length = 0 := by omega
    simp only [this]; rfl

theorem BoundedRangeIter.len_spec (L : LawfulStep p S idx) {it : BoundedRangeIter T} {l : List T}
    (h : Rep idx it l) (hl : l.length < p.usizeCount) : it.len p S = .ok l.length := by
  simp only [BoundedRangeIter.len, BoundedRangeIter.sizeHint_spec L h hl, Res.bind_ok, assert,
    BEq.rfl, if_true]
  rfl

omit [LinearOrder T] in
theorem listCall_length (l : List T) (op : Op) : (listCall l op).2.length ≤ l.length := by
  cases op <;> simp [listCall]

/-- One call, when the values it steps to exist and sizes fit. -/
theorem BoundedRangeIter.call_spec (L : LawfulStep p S idx) {it : BoundedRangeIter T} {l : List T}
    (h : Rep idx it l) (op : Op) (ha : op.skipFront < p.usizeCount ∧ op.skipBack < p.usizeCount)
    (hf : op.isFront = true → Has idx (Max.max (idx it.current) (idx it.last + 1) + op.skipFront))
    (hb : op.isBack = true → Has idx (Min.min (idx it.last) (idx it.current - 1) - op.skipBack))
    (hs : op.isSize = true → l.length < p.usizeCount) :
    ∃ it', it.call p S op = .ok ((listCall l op).1, it') ∧ Rep idx it' (listCall l op).2 ∧
      Max.max (idx it'.current) (idx it'.last + 1) ≤
        Max.max (idx it.current) (idx it.last + 1) + op.skipFront ∧
      Min.min (idx it.last) (idx it.current - 1) - op.skipBack ≤
        Min.min (idx it'.last) (idx it'.current - 1) := by
  have hcur := L.has_idx it.current
  have hlast := L.has_idx it.last
  cases op with
  | next =>
    obtain ⟨it', e, hr, hl, h1, h2⟩ := it.next_spec L h
      (fun hle => L.has_between hcur (hf rfl) (by omega) (by simp only [Op.skipFront]; omega))
    refine ⟨it', ?_, hr, ?_, ?_⟩
    · simp only [BoundedRangeIter.call, e, Res.bind_ok, listCall]; rfl
    · rw [hl]; simp only [Op.skipFront]; omega
    · rw [hl]; simp only [Op.skipBack]; omega
  | nextBack =>
    obtain ⟨it', e, hr, hl, h1, h2⟩ := it.nextBack_spec L h
      (fun hle => L.has_between (hb rfl) hlast (by simp only [Op.skipBack]; omega) (by omega))
    refine ⟨it', ?_, hr, ?_, ?_⟩
    · simp only [BoundedRangeIter.call, e, Res.bind_ok, listCall]; rfl
    · rw [hl]; simp only [Op.skipFront]; omega
    · rw [hl]; simp only [Op.skipBack]; omega
  | nth n =>
    have hf := hf rfl
    simp only [Op.skipFront] at hf ha
    obtain ⟨it', e, hr, hl, h1, h2⟩ := it.nth_spec L h (n := n) ha.1
      (L.has_between hcur hf (by omega) (by omega))
      (fun hle => L.has_between hcur hf (by omega) (by omega))
    refine ⟨it', ?_, hr, ?_, ?_⟩
    · simp only [BoundedRangeIter.call, e, Res.bind_ok, listCall]; rfl
    · rw [hl]; simp only [Op.skipFront]; omega
    · rw [hl]; simp only [Op.skipBack]; omega
  | nthBack n =>
    have hb := hb rfl
    simp only [Op.skipBack] at hb ha
    obtain ⟨it', e, hr, hl, h1, h2⟩ := it.nthBack_spec L h (n := n) ha.2
      (L.has_between hb hlast (by omega) (by omega))
      (fun hle => L.has_between hb hlast (by omega) (by omega))
    refine ⟨it', ?_, hr, ?_, ?_⟩
    · simp only [BoundedRangeIter.call, e, Res.bind_ok, listCall]; rfl
    · rw [hl]; simp only [Op.skipFront]; omega
    · rw [hl]; simp only [Op.skipBack]; omega
  | sizeHint =>
    refine ⟨it, ?_, h, by simp [Op.skipFront], by simp [Op.skipBack]⟩
    simp only [BoundedRangeIter.call, it.sizeHint_spec L h (hs rfl), Res.bind_ok, listCall]; rfl
  | len =>
    refine ⟨it, ?_, h, by simp [Op.skipFront], by simp [Op.skipBack]⟩
    simp only [BoundedRangeIter.call, it.len_spec L h (hs rfl), Res.bind_ok, listCall]; rfl
  | count =>
    refine ⟨it, ?_, h, by simp [Op.skipFront], by simp [Op.skipBack]⟩
    simp only [BoundedRangeIter.call, BoundedRangeIter.count, it.len_spec L h (hs rfl), Res.bind_ok,
      listCall]; rfl
  | min =>
    obtain ⟨it', e, _⟩ := it.next_spec L h
      (fun hle => L.has_between hcur (hf rfl) (by omega) (by simp only [Op.skipFront]; omega))
    refine ⟨it, ?_, h, by simp [Op.skipFront], by simp [Op.skipBack]⟩
    simp only [BoundedRangeIter.call, BoundedRangeIter.min, e, Res.bind_ok, listCall]; rfl
  | max =>
    obtain ⟨it', e, _⟩ := it.nextBack_spec L h
      (fun hle => L.has_between (hb rfl) hlast (by simp only [Op.skipBack]; omega) (by omega))
    refine ⟨it, ?_, h, by simp [Op.skipFront], by simp [Op.skipBack]⟩
    simp only [BoundedRangeIter.call, BoundedRangeIter.max, e, Res.bind_ok, listCall]; rfl

/-- A schedule, when the values it steps to exist and sizes fit. -/
theorem BoundedRangeIter.run_spec (L : LawfulStep p S idx) (ops : List Op) :
    ∀ {it : BoundedRangeIter T} {l : List T}, Rep idx it l → UsizeArgs p ops →
    ((∃ op ∈ ops, op.isFront = true) →
      Has idx (Max.max (idx it.current) (idx it.last + 1) + skipsFront ops)) →
    ((∃ op ∈ ops, op.isBack = true) →
      Has idx (Min.min (idx it.last) (idx it.current - 1) - skipsBack ops)) →
    ((∃ op ∈ ops, op.isSize = true) → l.length < p.usizeCount) →
    ∃ it', runOps (BoundedRangeIter.call p S) it ops = .ok ((listRun l ops).1, it') ∧
      Rep idx it' (listRun l ops).2 := by
  induction ops with
  | nil => intro it l h _ _ _ _; exact ⟨it, rfl, h⟩
  | cons op ops ih =>
    intro it l h ha hf hb hs
    have hcur := L.has_idx it.current
    have hlast := L.has_idx it.last
    have ef : skipsFront (op :: ops) = op.skipFront + skipsFront ops := by simp [skipsFront]
    have eb : skipsBack (op :: ops) = op.skipBack + skipsBack ops := by simp [skipsBack]
    rw [ef] at hf
    rw [eb] at hb
    push_cast at hf hb
    obtain ⟨it', e, hr, h1, h2⟩ := it.call_spec L h op (ha op (List.mem_cons_self))
      (fun hx => L.has_between hcur (hf ⟨op, List.mem_cons_self, hx⟩) (by omega) (by omega))
      (fun hx => L.has_between (hb ⟨op, List.mem_cons_self, hx⟩) hlast (by omega) (by omega))
      (fun hx => hs ⟨op, List.mem_cons_self, hx⟩)
    obtain ⟨it'', e', hr'⟩ := ih (it := it') (l := (listCall l op).2) hr
      (fun o ho => ha o (List.mem_cons_of_mem _ ho))
      (fun ⟨o, ho, hx⟩ => L.has_between (L.has_idx it'.current)
        (hf ⟨o, List.mem_cons_of_mem _ ho, hx⟩) (by omega) (by omega))
      (fun ⟨o, ho, hx⟩ => L.has_between (hb ⟨o, List.mem_cons_of_mem _ ho, hx⟩)
        (L.has_idx it'.last) (by omega) (by omega))
      (fun ⟨o, ho, hx⟩ => lt_of_le_of_lt (listCall_length l op)
        (hs ⟨o, List.mem_cons_of_mem _ ho, hx⟩))
    refine ⟨it'', ?_, hr'⟩
    simp only [runOps, e, e', Res.bind_ok, listRun]
    rfl

/-! ### `BoundedRange::into_iter` -/

omit [LinearOrder T] in
theorem BoundedRange.intoIter_spec' (S : Step T) (r : BoundedRange T) {c e : T}
    (h1 : match r.start.b with | .excluded t => S.forward t 1 = .ok c | .included t => t = c)
    (h2 : match r.stop.b with | .excluded t => S.backward t 1 = .ok e | .included t => t = e) :
    r.intoIter S = .ok ⟨c, e⟩ := by
  rcases r with ⟨⟨_ | _⟩, ⟨_ | _⟩⟩ <;> simp only [BoundedRange.intoIter] at * <;>
    simp only [h1, h2, Res.bind_ok, Res.pure_eq]

theorem BoundedRange.intoIter_spec (L : LawfulStep p S idx) (r : BoundedRange T)
    (h : r.Representable idx) :
    ∃ it, r.intoIter S = .ok it ∧ idx it.current = r.start.firstIdx idx ∧
      idx it.last = r.stop.lastIdx idx := by
  obtain ⟨⟨c, hc⟩, ⟨e, he⟩⟩ := h
  have hu := p.le_usizeCount
  refine ⟨⟨c, e⟩, BoundedRange.intoIter_spec' S r ?_ ?_, hc, he⟩
  · rcases r with ⟨⟨s | s⟩, _⟩
    · exact L.forward_some _ _ _ (by omega) (by simpa [LowerBound.firstIdx] using hc)
    · exact L.inj (by simpa [LowerBound.firstIdx] using hc.symm)
  · rcases r with ⟨_, ⟨s | s⟩⟩
    · exact L.backward_some _ _ _ (by omega) (by simpa [UpperBound.lastIdx] using he)
    · exact L.inj (by simpa [UpperBound.lastIdx] using he.symm)

theorem BoundedRange.contains_idx (L : LawfulStep p S idx) (r : BoundedRange T) (t : T) :
    r.contains t = true ↔ r.start.firstIdx idx ≤ idx t ∧ idx t ≤ r.stop.lastIdx idx := by
  rcases r with ⟨⟨s | s⟩, ⟨e | e⟩⟩ <;>
    simp only [BoundedRange.contains, LowerBound.firstIdx, UpperBound.lastIdx, Bool.and_eq_true,
      decide_eq_true_eq, gt_iff_lt, ge_iff_le, L.lt_iff, L.le_iff] <;> omega

/-- The increasing list of the contained values, by numbers. -/
theorem BoundedRange.lists_iff (L : LawfulStep p S idx) (r : BoundedRange T)
    (h : r.Representable idx) (l : List T) :
    Lists l r.contains ↔ l.map idx = ints (r.start.firstIdx idx) (r.stop.lastIdx idx) := by
  rw [← L.lists_iff (fun _ => h)]
  unfold Lists
  simp only [r.contains_idx L]

end
end Rangetools
