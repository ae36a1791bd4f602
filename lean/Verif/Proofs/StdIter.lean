import Verif.Spec.StdIter
import Verif.Proofs.Schedule

/-!
# The iterators of the standard library refine a list popped at both ends
-/

namespace Rangetools
variable {T : Type} [LinearOrder T] {p : Platform} {S : Step T} {idx : T → Int}

/-! ### Lists of consecutive values -/

section
omit [LinearOrder T]

theorem span_length {l : List T} {a b : Int} (h : l.map idx = ints a b) : l.length = (b - a + 1).toNat := by
  rw [← List.length_map (f := idx), h, length_ints]

theorem span_nil {l : List T} {a b : Int} (h : l.map idx = ints a b) (hb : b < a) : l = [] := by
  rw [← List.length_eq_zero_iff, span_length h]; omega

theorem span_drop {l : List T} {a b : Int} (h : l.map idx = ints a b) (n : Nat) :
    (l.drop n).map idx = ints (a + n) b := by
  rw [List.map_drop, h, ints_drop]

theorem span_dropBack {l : List T} {a b : Int} (h : l.map idx = ints a b) (n : Nat) :
    (l.reverse.drop n).reverse.map idx = ints a (b - n) := by
  rw [reverse_drop_reverse, List.map_take, ← List.length_map (f := idx), h, ints_take]

theorem span_none {l : List T} {a b : Int} (h : l.map idx = ints a b) {n : Nat} (hn : b < a + n) : l[n]? = none := by
  rw [List.getElem?_eq_none_iff, span_length h]; omega

theorem span_none_back {l : List T} {a b : Int} (h : l.map idx = ints a b) {n : Nat} (hn : b - n < a) :
    l.reverse[n]? = none := by
  rw [List.getElem?_eq_none_iff, List.length_reverse, span_length h]; omega

end

theorem span_get (L : LawfulStep p S idx) {l : List T} {a b : Int} (h : l.map idx = ints a b) {n : Nat} {t : T}
    (ht : idx t = a + n) (hn : a + n ≤ b) : l[n]? = some t := by
  have h1 : (l.map idx)[n]? = some (idx t) := by rw [h, ints_getElem?, if_pos hn, ht]
  rw [List.getElem?_map] at h1
  cases hx : l[n]? with
  | none => rw [hx] at h1; cases h1
  | some u =>
    rw [hx] at h1
    rw [L.inj (Option.some.inj h1)]

theorem span_get_back (L : LawfulStep p S idx) {l : List T} {a b : Int} (h : l.map idx = ints a b) {n : Nat} {t : T}
    (ht : idx t = b - n) (hn : a ≤ b - n) : l.reverse[n]? = some t := by
  have hlen := span_length h
  rw [List.getElem?_reverse (by omega), span_get L h (t := t) (by omega) (by omega)]

omit [LinearOrder T] in
/-- A schedule follows the list if every call does. -/
theorem run_of_calls {σ : Type} {call : σ → Op → Res (Out T × σ)} {R : σ → List T → Prop}
    (hcall : ∀ s l op, R s l → op.skipFront < p.usizeCount ∧ op.skipBack < p.usizeCount →
      (op.isSize = true → l.length < p.usizeCount) →
      ∃ s', call s op = .ok ((listCall l op).1, s') ∧ R s' (listCall l op).2) (ops : List Op) :
    ∀ {s : σ} {l : List T}, R s l → UsizeArgs p ops → ((∃ op ∈ ops, op.isSize = true) → l.length < p.usizeCount) →
    ∃ s', runOps call s ops = .ok ((listRun l ops).1, s') ∧ R s' (listRun l ops).2 := by
  induction ops with
  | nil => intro s l h _ _; exact ⟨s, rfl, h⟩
  | cons op ops ih =>
    intro s l h ha hs
    obtain ⟨s', e, hr⟩ := hcall s l op h (ha op List.mem_cons_self) fun hx => hs ⟨op, List.mem_cons_self, hx⟩
    obtain ⟨s'', e', hr'⟩ := ih hr (fun o ho => ha o (List.mem_cons_of_mem _ ho))
      (fun ⟨o, ho, hx⟩ => lt_of_le_of_lt (listCall_length l op) (hs ⟨o, List.mem_cons_of_mem _ ho, hx⟩))
    refine ⟨s'', ?_, hr'⟩
    simp only [runOps, e, e', Res.bind_ok, listRun]
    rfl

/-! ### `Range` -/

/-- The range still has to yield exactly `l`. -/
def StdRep (idx : T → Int) (r : Range T) (l : List T) : Prop := l.map idx = ints (idx r.start) (idx r.stop - 1)

theorem Range.nth_spec (L : LawfulStep p S idx) {r : Range T} {l : List T} (h : StdRep idx r l) {n : Nat}
    (hn : n < p.usizeCount) : ∃ r', r.nth S n = .ok (l[n]?, r') ∧ StdRep idx r' (l.drop (n + 1)) := by
  have hu := p.le_usizeCount
  have out : idx r.stop - 1 < idx r.start + n → ∃ r', (Res.ok (none, ⟨r.stop, r.stop⟩) : Res (Option T × Range T)) =
      .ok (l[n]?, r') ∧ StdRep idx r' (l.drop (n + 1)) := by
    intro hlt
    refine ⟨_, by rw [span_none h hlt], ?_⟩
    unfold StdRep
    rw [ints_nil (by show idx r.stop - 1 < idx r.stop; omega),
      List.drop_eq_nil_of_le (by have := span_length h; omega)]
    rfl
  by_cases hx : ∃ x, idx x = idx r.start + n
  · obtain ⟨x, hx⟩ := hx
    simp only [Range.nth, L.forwardChecked_some _ n x hn hx, Res.bind_ok]
    by_cases hlt : x < r.stop
    · have hlt' := (L.lt_iff _ _).mp hlt
      obtain ⟨d, hd⟩ := L.convex x r.stop (idx x + 1) (by omega) (by omega)
      rw [if_pos hlt, L.forward_some x 1 d (by omega) (by push_cast; omega)]
      refine ⟨⟨d, r.stop⟩, by rw [span_get L h hx (by omega)]; rfl, ?_⟩
      have := span_drop h (n + 1)
      unfold StdRep
      rw [this, hd, hx]
      push_cast
      rw [Int.add_assoc]
    · rw [if_neg hlt]
      exact out (by rw [L.lt_iff] at hlt; omega)
  · have hx' : ∀ b, idx b ≠ idx r.start + n := fun b hb => hx ⟨b, hb⟩
    simp only [Range.nth, L.forwardChecked_none _ n hn hx', Res.bind_ok]
    refine out ?_
    by_contra hc
    exact hx (L.convex r.start r.stop _ (by omega) (by omega))

theorem Range.nthBack_spec (L : LawfulStep p S idx) {r : Range T} {l : List T} (h : StdRep idx r l) {n : Nat}
    (hn : n < p.usizeCount) :
    ∃ r', r.nthBack S n = .ok (l.reverse[n]?, r') ∧ StdRep idx r' (l.reverse.drop (n + 1)).reverse := by
  have hu := p.le_usizeCount
  have out : idx r.stop - 1 - n < idx r.start → ∃ r', (Res.ok (none, ⟨r.start, r.start⟩) : Res (Option T × Range T)) =
      .ok (l.reverse[n]?, r') ∧ StdRep idx r' (l.reverse.drop (n + 1)).reverse := by
    intro hlt
    refine ⟨_, by rw [span_none_back h hlt], ?_⟩
    unfold StdRep
    rw [ints_nil (by show idx r.start - 1 < idx r.start; omega),
      List.drop_eq_nil_of_le (by have := span_length h; rw [List.length_reverse]; omega)]
    rfl
  by_cases hx : ∃ x, idx x = idx r.stop - n
  · obtain ⟨x, hx⟩ := hx
    simp only [Range.nthBack, L.backwardChecked_some _ n x hn hx, Res.bind_ok]
    by_cases hlt : r.start < x
    · have hlt' := (L.lt_iff _ _).mp hlt
      obtain ⟨d, hd⟩ := L.convex r.start x (idx x - 1) (by omega) (by omega)
      rw [if_pos hlt, L.backward_some x 1 d (by omega) (by push_cast; omega)]
      refine ⟨⟨r.start, d⟩, by rw [span_get_back L h (t := d) (by omega) (by omega)]; rfl, ?_⟩
      have := span_dropBack h (n + 1)
      unfold StdRep
      rw [this, hd, hx]
      push_cast
      congr 1
      omega
    · rw [if_neg hlt]
      exact out (by rw [L.lt_iff] at hlt; omega)
  · have hx' : ∀ b, idx b ≠ idx r.stop - n := fun b hb => hx ⟨b, hb⟩
    simp only [Range.nthBack, L.backwardChecked_none _ n hn hx', Res.bind_ok]
    refine out ?_
    by_contra hc
    exact hx (L.convex r.start r.stop _ (by omega) (by omega))

theorem Range.next_spec (L : LawfulStep p S idx) {r : Range T} {l : List T} (h : StdRep idx r l) :
    ∃ r', r.next S = .ok (l.head?, r') ∧ StdRep idx r' l.tail := by
  have hu := p.le_usizeCount
  have hn := Range.nth_spec L h (n := 0) (by omega)
  simp only [Range.nth, L.forwardChecked_some r.start 0 r.start (by omega) (by simp), Res.bind_ok] at hn
  by_cases hlt : r.start < r.stop
  · rw [if_pos hlt] at hn
    rw [Range.next, if_pos hlt]
    simpa [List.head?_eq_getElem?] using hn
  · rw [Range.next, if_neg hlt]
    have hl := span_nil h (by rw [L.lt_iff] at hlt; omega)
    subst hl
    exact ⟨r, rfl, h⟩

theorem Range.nextBack_spec (L : LawfulStep p S idx) {r : Range T} {l : List T} (h : StdRep idx r l) :
    ∃ r', r.nextBack S = .ok (l.getLast?, r') ∧ StdRep idx r' l.dropLast := by
  have hu := p.le_usizeCount
  have hn := Range.nthBack_spec L h (n := 0) (by omega)
  simp only [Range.nthBack, L.backwardChecked_some r.stop 0 r.stop (by omega) (by simp), Res.bind_ok] at hn
  by_cases hlt : r.start < r.stop
  · rw [if_pos hlt] at hn
    rw [Range.nextBack, if_pos hlt]
    simpa [← List.head?_eq_getElem?, List.head?_reverse, reverse_drop_reverse, ← List.dropLast_eq_take] using hn
  · rw [Range.nextBack, if_neg hlt]
    have hl := span_nil h (by rw [L.lt_iff] at hlt; omega)
    subst hl
    exact ⟨r, rfl, h⟩

theorem stdSteps_spec (L : LawfulStep p S idx) {a b : T} (h : idx a ≤ idx b) (hs : idx b - idx a < p.usizeCount) :
    stdSteps p S a b = .ok ((idx b - idx a).toNat, some (idx b - idx a).toNat) := by
  simp only [stdSteps, L.stepsBetween, if_pos (And.intro ((L.le_iff _ _).mpr h) hs), Res.bind_ok]
  rfl

theorem Range.sizeHint_spec (L : LawfulStep p S idx) {r : Range T} {l : List T} (h : StdRep idx r l)
    (hs : l.length < p.usizeCount) : r.sizeHint p S = .ok (l.length, some l.length) ∧ r.count p S = .ok l.length := by
  have hlen := span_length h
  by_cases hlt : r.start < r.stop
  · have hlt' := (L.lt_iff _ _).mp hlt
    have hst := stdSteps_spec (p := p) L (a := r.start) (b := r.stop) (by omega) (by omega)
    have : (idx r.stop - idx r.start).toNat = l.length := by omega
    rw [this] at hst
    simp only [Range.sizeHint, Range.count, if_pos hlt, hst, Res.bind_ok, unwrap, and_self]
  · rw [L.lt_iff] at hlt
    have : l.length = 0 := by omega
    rw [← L.lt_iff] at hlt
    simp only [Range.sizeHint, Range.count, if_neg hlt, this, and_self]

theorem Range.call_spec (L : LawfulStep p S idx) (r : Range T) (l : List T) (op : Op) (h : StdRep idx r l)
    (ha : op.skipFront < p.usizeCount ∧ op.skipBack < p.usizeCount) (hs : op.isSize = true → l.length < p.usizeCount) :
    ∃ r', r.call p S op = .ok ((listCall l op).1, r') ∧ StdRep idx r' (listCall l op).2 := by
  cases op with
  | next =>
    obtain ⟨r', e, hr⟩ := Range.next_spec L h
    exact ⟨r', by simp only [Range.call, e, Res.bind_ok, listCall]; rfl, hr⟩
  | nextBack =>
    obtain ⟨r', e, hr⟩ := Range.nextBack_spec L h
    exact ⟨r', by simp only [Range.call, e, Res.bind_ok, listCall]; rfl, hr⟩
  | nth n =>
    obtain ⟨r', e, hr⟩ := Range.nth_spec L h (n := n) ha.1
    exact ⟨r', by simp only [Range.call, e, Res.bind_ok, listCall]; rfl, hr⟩
  | nthBack n =>
    obtain ⟨r', e, hr⟩ := Range.nthBack_spec L h (n := n) ha.2
    exact ⟨r', by simp only [Range.call, e, Res.bind_ok, listCall]; rfl, hr⟩
  | sizeHint =>
    exact ⟨r, by simp only [Range.call, (Range.sizeHint_spec L h (hs rfl)).1, Res.bind_ok, listCall]; rfl, h⟩
  | len =>
    refine ⟨r, ?_, h⟩
    simp only [Range.call, (Range.sizeHint_spec L h (hs rfl)).1, Res.bind_ok, listCall, assert, BEq.rfl, if_true]
    rfl
  | count =>
    exact ⟨r, by simp only [Range.call, (Range.sizeHint_spec L h (hs rfl)).2, Res.bind_ok, listCall]; rfl, h⟩
  | min =>
    obtain ⟨r', e, hr⟩ := Range.next_spec L h
    exact ⟨r, by simp only [Range.call, e, Res.bind_ok, listCall]; rfl, h⟩
  | max =>
    obtain ⟨r', e, hr⟩ := Range.nextBack_spec L h
    exact ⟨r, by simp only [Range.call, e, Res.bind_ok, listCall]; rfl, h⟩

/-! ### `RangeInclusive` -/

/-- The range still has to yield exactly `l`. -/
def InclRep (idx : T → Int) (r : RangeInclusive T) (l : List T) : Prop :=
  if r.exhausted then l = [] else l.map idx = ints (idx r.start) (idx r.stop)

theorem InclRep.cases (L : LawfulStep p S idx) {r : RangeInclusive T} {l : List T} (h : InclRep idx r l) :
    (r.done = true ∧ l = []) ∨
      (r.done = false ∧ r.exhausted = false ∧ idx r.start ≤ idx r.stop ∧ l.map idx = ints (idx r.start) (idx r.stop)) := by
  unfold InclRep at h
  unfold RangeInclusive.done
  cases he : r.exhausted with
  | true => rw [he, if_pos rfl] at h; exact Or.inl ⟨rfl, h⟩
  | false =>
    rw [he] at h
    simp only [Bool.false_eq_true, if_false] at h
    by_cases hle : r.start ≤ r.stop
    · exact Or.inr ⟨by simp [hle], rfl, (L.le_iff _ _).mp hle, h⟩
    · refine Or.inl ⟨by simp [hle], span_nil h ?_⟩
      rw [L.le_iff] at hle; omega

theorem RangeInclusive.nth_spec (L : LawfulStep p S idx) {r : RangeInclusive T} {l : List T} (h : InclRep idx r l)
    {n : Nat} (hn : n < p.usizeCount) : ∃ r', r.nth S n = .ok (l[n]?, r') ∧ InclRep idx r' (l.drop (n + 1)) := by
  have hu := p.le_usizeCount
  rcases h.cases L with ⟨hd, hl⟩ | ⟨hd, he, hle, hl⟩
  · subst hl
    refine ⟨r, by simp [RangeInclusive.nth, hd], ?_⟩
    simpa using h
  have hlen := span_length hl
  by_cases hx : ∃ x, idx x = idx r.start + n
  · obtain ⟨x, hx⟩ := hx
    simp only [RangeInclusive.nth, hd, L.forwardChecked_some _ n x hn hx, Res.bind_ok, Bool.false_eq_true, if_false]
    by_cases hlt : x < r.stop
    · have hlt' := (L.lt_iff _ _).mp hlt
      obtain ⟨d, hdd⟩ := L.convex x r.stop (idx x + 1) (by omega) (by omega)
      rw [if_pos hlt, L.forward_some x 1 d (by omega) (by push_cast; omega)]
      refine ⟨{ r with start := d }, by rw [span_get L hl hx (by omega)]; rfl, ?_⟩
      have := span_drop hl (n + 1)
      simp only [InclRep, he, Bool.false_eq_true, if_false]
      rw [this, hdd, hx]
      push_cast
      rw [Int.add_assoc]
    · rw [if_neg hlt]
      rw [L.lt_iff] at hlt
      by_cases heq : x = r.stop
      · subst heq
        rw [if_pos rfl]
        refine ⟨_, by rw [span_get L hl hx (by omega)]; rfl, ?_⟩
        simp only [InclRep, if_true]
        exact List.drop_eq_nil_of_le (by omega)
      · rw [if_neg heq]
        have : idx x ≠ idx r.stop := fun h => heq (L.inj h)
        refine ⟨_, by rw [span_none hl (by omega)]; rfl, ?_⟩
        simp only [InclRep, if_true]
        exact List.drop_eq_nil_of_le (by omega)
  · have hx' : ∀ b, idx b ≠ idx r.start + n := fun b hb => hx ⟨b, hb⟩
    simp only [RangeInclusive.nth, hd, L.forwardChecked_none _ n hn hx', Res.bind_ok, Bool.false_eq_true, if_false]
    have hlt : idx r.stop < idx r.start + n := by
      by_contra hc
      exact hx (L.convex r.start r.stop _ (by omega) (by omega))
    refine ⟨_, by rw [span_none hl hlt]; rfl, ?_⟩
    simp only [InclRep, if_true]
    exact List.drop_eq_nil_of_le (by omega)

theorem RangeInclusive.nthBack_spec (L : LawfulStep p S idx) {r : RangeInclusive T} {l : List T} (h : InclRep idx r l)
    {n : Nat} (hn : n < p.usizeCount) :
    ∃ r', r.nthBack S n = .ok (l.reverse[n]?, r') ∧ InclRep idx r' (l.reverse.drop (n + 1)).reverse := by
  have hu := p.le_usizeCount
  rcases h.cases L with ⟨hd, hl⟩ | ⟨hd, he, hle, hl⟩
  · subst hl
    refine ⟨r, by simp [RangeInclusive.nthBack, hd], ?_⟩
    simpa using h
  have hlen := span_length hl
  have fin : idx r.stop - n ≤ idx r.start → (l.reverse.drop (n + 1)).reverse = [] := by
    intro hc
    rw [List.drop_eq_nil_of_le (by rw [List.length_reverse]; omega)]; rfl
  by_cases hx : ∃ x, idx x = idx r.stop - n
  · obtain ⟨x, hx⟩ := hx
    simp only [RangeInclusive.nthBack, hd, L.backwardChecked_some _ n x hn hx, Res.bind_ok, Bool.false_eq_true,
      if_false]
    by_cases hlt : r.start < x
    · have hlt' := (L.lt_iff _ _).mp hlt
      obtain ⟨d, hdd⟩ := L.convex r.start x (idx x - 1) (by omega) (by omega)
      rw [if_pos hlt, L.backward_some x 1 d (by omega) (by push_cast; omega)]
      refine ⟨{ r with stop := d }, by rw [span_get_back L hl hx (by omega)]; rfl, ?_⟩
      have := span_dropBack hl (n + 1)
      simp only [InclRep, he, Bool.false_eq_true, if_false]
      rw [this, hdd, hx]
      push_cast
      congr 1
      omega
    · rw [if_neg hlt]
      rw [L.lt_iff] at hlt
      by_cases heq : x = r.start
      · rw [if_pos heq]
        refine ⟨_, by rw [span_get_back L hl hx (by rw [← heq]; omega)]; rfl, ?_⟩
        simp only [InclRep, if_true]
        exact fin (by omega)
      · rw [if_neg heq]
        have : idx x ≠ idx r.start := fun h => heq (L.inj h)
        refine ⟨_, by rw [span_none_back hl (by omega)]; rfl, ?_⟩
        simp only [InclRep, if_true]
        exact fin (by omega)
  · have hx' : ∀ b, idx b ≠ idx r.stop - n := fun b hb => hx ⟨b, hb⟩
    simp only [RangeInclusive.nthBack, hd, L.backwardChecked_none _ n hn hx', Res.bind_ok, Bool.false_eq_true,
      if_false]
    have hlt : idx r.stop - n < idx r.start := by
      by_contra hc
      exact hx (L.convex r.start r.stop _ (by omega) (by omega))
    refine ⟨_, by rw [span_none_back hl hlt]; rfl, ?_⟩
    simp only [InclRep, if_true]
    exact fin (by omega)

theorem RangeInclusive.next_spec (L : LawfulStep p S idx) {r : RangeInclusive T} {l : List T} (h : InclRep idx r l) :
    ∃ r', r.next S = .ok (l.head?, r') ∧ InclRep idx r' l.tail := by
  have hu := p.le_usizeCount
  rcases h.cases L with ⟨hd, hl⟩ | ⟨hd, he, hle, hl⟩
  · subst hl
    exact ⟨r, by simp [RangeInclusive.next, hd], h⟩
  obtain ⟨r', hn, hr⟩ := RangeInclusive.nth_spec L h (n := 0) (by omega)
  simp only [RangeInclusive.nth, hd, L.forwardChecked_some r.start 0 r.start (by omega) (by simp), Res.bind_ok,
    Bool.false_eq_true, if_false] at hn
  have hle' := (L.le_iff _ _).mpr hle
  refine ⟨r', ?_, by simpa using hr⟩
  rw [List.head?_eq_getElem?, ← hn, RangeInclusive.next, hd]
  by_cases hlt : r.start < r.stop
  · simp [hlt]
  · simp [le_antisymm hle' (not_lt.mp hlt)]

theorem RangeInclusive.nextBack_spec (L : LawfulStep p S idx) {r : RangeInclusive T} {l : List T}
    (h : InclRep idx r l) : ∃ r', r.nextBack S = .ok (l.getLast?, r') ∧ InclRep idx r' l.dropLast := by
  have hu := p.le_usizeCount
  rcases h.cases L with ⟨hd, hl⟩ | ⟨hd, he, hle, hl⟩
  · subst hl
    exact ⟨r, by simp [RangeInclusive.nextBack, hd], h⟩
  obtain ⟨r', hn, hr⟩ := RangeInclusive.nthBack_spec L h (n := 0) (by omega)
  simp only [RangeInclusive.nthBack, hd, L.backwardChecked_some r.stop 0 r.stop (by omega) (by simp), Res.bind_ok,
    Bool.false_eq_true, if_false] at hn
  have hle' := (L.le_iff _ _).mpr hle
  refine ⟨r', ?_, by simpa [reverse_drop_reverse, ← List.dropLast_eq_take] using hr⟩
  rw [List.getLast?_eq_head?_reverse, List.head?_eq_getElem?, ← hn, RangeInclusive.nextBack, hd]
  by_cases hlt : r.start < r.stop
  · simp [hlt]
  · simp [le_antisymm hle' (not_lt.mp hlt)]

theorem RangeInclusive.sizeHint_spec (L : LawfulStep p S idx) {r : RangeInclusive T} {l : List T}
    (h : InclRep idx r l) (hs : l.length < p.usizeCount) :
    r.sizeHint p S = .ok (l.length, some l.length) ∧ r.count p S = .ok l.length := by
  rcases h.cases L with ⟨hd, hl⟩ | ⟨hd, he, hle, hl⟩
  · subst hl
    simp [RangeInclusive.sizeHint, RangeInclusive.count, hd]
  have hlen := span_length hl
  have hst := stdSteps_spec (p := p) L (a := r.start) (b := r.stop) hle (by omega)
  have e1 : (idx r.stop - idx r.start).toNat + 1 = l.length := by omega
  have e2 : checkedSucc p (idx r.stop - idx r.start).toNat = some l.length := by
    rw [checkedSucc, e1, if_pos hs]
  have e3 : Min.min l.length p.usizeMax = l.length := by
    rw [min_eq_left]; unfold Platform.usizeMax; omega
  constructor
  · simp only [RangeInclusive.sizeHint, hd, hst, Res.bind_ok, Option.bind_some, e1, e2, e3, Bool.false_eq_true,
      if_false]
    rfl
  · simp only [RangeInclusive.count, hd, hst, Res.bind_ok, Option.bind_some, e2, Bool.false_eq_true, if_false, unwrap]

theorem RangeInclusive.call_spec (L : LawfulStep p S idx) (r : RangeInclusive T) (l : List T) (op : Op)
    (h : InclRep idx r l) (ha : op.skipFront < p.usizeCount ∧ op.skipBack < p.usizeCount)
    (hs : op.isSize = true → l.length < p.usizeCount) :
    ∃ r', r.call p S op = .ok ((listCall l op).1, r') ∧ InclRep idx r' (listCall l op).2 := by
  cases op with
  | next =>
    obtain ⟨r', e, hr⟩ := RangeInclusive.next_spec L h
    exact ⟨r', by simp only [RangeInclusive.call, e, Res.bind_ok, listCall]; rfl, hr⟩
  | nextBack =>
    obtain ⟨r', e, hr⟩ := RangeInclusive.nextBack_spec L h
    exact ⟨r', by simp only [RangeInclusive.call, e, Res.bind_ok, listCall]; rfl, hr⟩
  | nth n =>
    obtain ⟨r', e, hr⟩ := RangeInclusive.nth_spec L h (n := n) ha.1
    exact ⟨r', by simp only [RangeInclusive.call, e, Res.bind_ok, listCall]; rfl, hr⟩
  | nthBack n =>
    obtain ⟨r', e, hr⟩ := RangeInclusive.nthBack_spec L h (n := n) ha.2
    exact ⟨r', by simp only [RangeInclusive.call, e, Res.bind_ok, listCall]; rfl, hr⟩
  | sizeHint =>
    exact ⟨r, by simp only [RangeInclusive.call, (RangeInclusive.sizeHint_spec L h (hs rfl)).1, Res.bind_ok,
      listCall]; rfl, h⟩
  | len =>
    refine ⟨r, ?_, h⟩
    simp only [RangeInclusive.call, (RangeInclusive.sizeHint_spec L h (hs rfl)).1, Res.bind_ok, listCall, assert,
      BEq.rfl, if_true]
    rfl
  | count =>
    exact ⟨r, by simp only [RangeInclusive.call, (RangeInclusive.sizeHint_spec L h (hs rfl)).2, Res.bind_ok,
      listCall]; rfl, h⟩
  | min =>
    obtain ⟨r', e, hr⟩ := RangeInclusive.next_spec L h
    exact ⟨r, by simp only [RangeInclusive.call, e, Res.bind_ok, listCall]; rfl, h⟩
  | max =>
    obtain ⟨r', e, hr⟩ := RangeInclusive.nextBack_spec L h
    exact ⟨r, by simp only [RangeInclusive.call, e, Res.bind_ok, listCall]; rfl, h⟩

end Rangetools
