import Verif.Proofs.Iter
import Mathlib.Data.List.Forall2

/-!
# `BoundedSetIter` refines a list popped at both ends
-/

namespace Rangetools
variable {T : Type} [LinearOrder T] {p : Platform} {S : Step T} {idx : T → Int}

/-- The piece iterators still have to yield exactly `l`, piece by piece. -/
def SetRep (idx : T → Int) (its : List (BoundedRangeIter T)) (l : List T) : Prop :=
  ∃ ls : List (List T), List.Forall₂ (Rep idx) its ls ∧ l = ls.flatten

/-- Stepping past the last remaining element stays in the type. -/
def FrontOk (idx : T → Int) (it : BoundedRangeIter T) : Prop :=
  Has idx (Max.max (idx it.current) (idx it.last + 1))

/-- Stepping back before the first remaining element stays in the type. -/
def BackOk (idx : T → Int) (it : BoundedRangeIter T) : Prop :=
  Has idx (Min.min (idx it.last) (idx it.current - 1))

/-- The number of remaining elements fits `usize`. -/
def Small (p : Platform) (idx : T → Int) (it : BoundedRangeIter T) : Prop :=
  idx it.last - idx it.current + 1 < p.usizeCount

/-- `it'` is `it` after some calls. -/
def Shrinks (idx : T → Int) (it it' : BoundedRangeIter T) : Prop :=
  idx it.current ≤ idx it'.current ∧ idx it'.last ≤ idx it.last ∧
    Max.max (idx it'.current) (idx it'.last + 1) ≤ Max.max (idx it.current) (idx it.last + 1) ∧
    Min.min (idx it.last) (idx it.current - 1) ≤ Min.min (idx it'.last) (idx it'.current - 1)

omit [LinearOrder T] in
theorem Shrinks.refl (it : BoundedRangeIter T) : Shrinks idx it it :=
  ⟨le_refl _, le_refl _, le_refl _, le_refl _⟩

omit [LinearOrder T] in
theorem Shrinks.small {it it' : BoundedRangeIter T} (h : Shrinks idx it it') (hs : Small p idx it) :
    Small p idx it' := by
  obtain ⟨h1, h2, _⟩ := h
  unfold Small at *
  omega

theorem Shrinks.frontOk (L : LawfulStep p S idx) {it it' : BoundedRangeIter T}
    (h : Shrinks idx it it') (hs : FrontOk idx it) : FrontOk idx it' := by
  obtain ⟨h1, h2, h3, h4⟩ := h
  exact L.has_between (L.has_idx it'.current) hs (by omega) (by omega)

theorem Shrinks.backOk (L : LawfulStep p S idx) {it it' : BoundedRangeIter T}
    (h : Shrinks idx it it') (hs : BackOk idx it) : BackOk idx it' := by
  obtain ⟨h1, h2, h3, h4⟩ := h
  exact L.has_between hs (L.has_idx it'.last) (by omega) (by omega)

/-- Every piece is a piece that was there before, after some calls. -/
def ShrinksAll (idx : T → Int) (its its' : List (BoundedRangeIter T)) : Prop :=
  ∀ it' ∈ its', ∃ it ∈ its, Shrinks idx it it'

omit [LinearOrder T] in
theorem ShrinksAll.refl (its : List (BoundedRangeIter T)) : ShrinksAll idx its its :=
  fun it h => ⟨it, h, Shrinks.refl it⟩

omit [LinearOrder T] in
theorem Rep.small {it : BoundedRangeIter T} {l : List T} (h : Rep idx it l) (hs : Small p idx it) :
    l.length < p.usizeCount := by
  have := h.length
  have := p.le_usizeCount
  unfold Small at hs
  omega

/-! ### The loops -/

theorem BoundedSetIter.popEmpty_spec (L : LawfulStep p S idx) :
    ∀ {its : List (BoundedRangeIter T)} {ls : List (List T)}, List.Forall₂ (Rep idx) its ls →
    (∀ it ∈ its, Small p idx it) →
    ∃ its₀ its' ls₀ ls', its = its₀ ++ its' ∧ ls = ls₀ ++ ls' ∧
      BoundedSetIter.popEmpty p S its = .ok its' ∧ List.Forall₂ (Rep idx) its' ls' ∧
      (∀ x ∈ ls₀, x = []) ∧ (∀ x xs, ls' = x :: xs → x ≠ []) := by
  intro its ls h
  induction h with
  | nil => intro _; exact ⟨[], [], [], [], rfl, rfl, rfl, .nil, by simp, by simp⟩
  | @cons it l its ls hr hrs ih =>
    intro hs
    have hlen := it.len_spec L hr (hr.small (hs it List.mem_cons_self))
    simp only [BoundedSetIter.popEmpty, hlen, Res.bind_ok]
    by_cases hl : l = []
    · obtain ⟨its₀, its', ls₀, ls', e1, e2, e3, e4, e5, e6⟩ :=
        ih (fun i hi => hs i (List.mem_cons_of_mem _ hi))
      refine ⟨it :: its₀, its', l :: ls₀, ls', by rw [e1]; rfl, by rw [e2]; rfl, ?_, e4, ?_, e6⟩
      · rw [if_pos (by simp [hl])]; exact e3
      · intro x hx
        rcases List.mem_cons.1 hx with rfl | hx
        · exact hl
        · exact e5 x hx
    · refine ⟨[], it :: its, [], l :: ls, rfl, rfl, ?_, .cons hr hrs, by simp, ?_⟩
      · rw [if_neg (by simpa using hl)]; rfl
      · intro x xs e; cases e; exact hl

theorem BoundedSetIter.skip_spec (L : LawfulStep p S idx) :
    ∀ {its : List (BoundedRangeIter T)} {ls : List (List T)}, List.Forall₂ (Rep idx) its ls →
    (∀ it ∈ its, Small p idx it) → ∀ n : Nat,
    ∃ its₀ its' ls₀ ls' n', its = its₀ ++ its' ∧ ls = ls₀ ++ ls' ∧
      BoundedSetIter.skip p S its n = .ok (its', n') ∧ List.Forall₂ (Rep idx) its' ls' ∧
      n = ls₀.flatten.length + n' ∧ (∀ x xs, ls' = x :: xs → n' < x.length) := by
  intro its ls h
  induction h with
  | nil => intro _ n; exact ⟨[], [], [], [], n, rfl, rfl, rfl, .nil, by simp, by simp⟩
  | @cons it l its ls hr hrs ih =>
    intro hs n
    have hlen := it.len_spec L hr (hr.small (hs it List.mem_cons_self))
    simp only [BoundedSetIter.skip, hlen, Res.bind_ok]
    by_cases hl : l.length ≤ n
    · obtain ⟨its₀, its', ls₀, ls', n', e1, e2, e3, e4, e5, e6⟩ :=
        ih (fun i hi => hs i (List.mem_cons_of_mem _ hi)) (n - l.length)
      refine ⟨it :: its₀, its', l :: ls₀, ls', n', by rw [e1]; rfl, by rw [e2]; rfl, ?_, e4, ?_, e6⟩
      · rw [if_pos hl]
        simp only [Platform.subUsize, if_pos hl, Res.bind_ok]
        exact e3
      · simp only [List.flatten_cons, List.length_append]; omega
    · refine ⟨[], it :: its, [], l :: ls, n, rfl, rfl, ?_, .cons hr hrs, by simp, ?_⟩
      · rw [if_neg hl]; rfl
      · intro x xs e; cases e; omega

theorem BoundedSetIter.sumLens_spec (L : LawfulStep p S idx) :
    ∀ {its : List (BoundedRangeIter T)} {ls : List (List T)}, List.Forall₂ (Rep idx) its ls →
    ∀ acc : Nat, acc + ls.flatten.length < p.usizeCount →
    BoundedSetIter.sumLens p S acc its = .ok (acc + ls.flatten.length) := by
  intro its ls h
  induction h with
  | nil => intro acc _; rfl
  | @cons it l its ls hr hrs ih =>
    intro acc hacc
    simp only [List.flatten_cons, List.length_append] at hacc ⊢
    simp only [BoundedSetIter.sumLens, it.len_spec L hr (by omega), Res.bind_ok, Platform.addUsize]
    rw [if_pos (by omega)]
    simp only [Res.bind_ok]
    rw [ih (acc + l.length) (by omega)]
    congr 1; omega

/-! ### The methods -/

omit [LinearOrder T] in
theorem flatten_nil {ls : List (List T)} (h : ∀ x ∈ ls, x = []) : ls.flatten = [] := by
  rw [List.flatten_eq_nil_iff]; exact h

omit [LinearOrder T] in
theorem forall₂_reverse {its : List (BoundedRangeIter T)} {ls : List (List T)}
    (h : List.Forall₂ (Rep idx) its ls) : List.Forall₂ (Rep idx) its.reverse ls.reverse :=
  List.rel_reverse h

omit [LinearOrder T] in
theorem shrinksAll_front {its its₀ its' : List (BoundedRangeIter T)} {it it' : BoundedRangeIter T}
    (e : its = its₀ ++ it :: its') (h : Shrinks idx it it') : ShrinksAll idx its (it' :: its') := by
  intro x hx
  rcases List.mem_cons.1 hx with rfl | hx
  · exact ⟨it, by rw [e]; simp, h⟩
  · exact ⟨x, by rw [e]; simp [hx], Shrinks.refl x⟩

omit [LinearOrder T] in
theorem shrinksAll_back {its its₀ its' : List (BoundedRangeIter T)} {it it' : BoundedRangeIter T}
    (e : its.reverse = its₀ ++ it :: its') (h : Shrinks idx it it') :
    ShrinksAll idx its (it' :: its').reverse := by
  intro x hx
  rw [List.mem_reverse] at hx
  obtain ⟨y, hy, hxy⟩ := shrinksAll_front e h x hx
  exact ⟨y, List.mem_reverse.1 hy, hxy⟩

theorem BoundedSetIter.next_spec (L : LawfulStep p S idx) {it : BoundedSetIter T} {l : List T}
    (h : SetRep idx it.rangeIters l) (hs : ∀ i ∈ it.rangeIters, Small p idx i)
    (hf : ∀ i ∈ it.rangeIters, FrontOk idx i) :
    ∃ it', it.next p S = .ok (l.head?, it') ∧ SetRep idx it'.rangeIters l.tail ∧
      ShrinksAll idx it.rangeIters it'.rangeIters := by
  obtain ⟨ls, hls, rfl⟩ := h
  obtain ⟨its₀, its', ls₀, ls', e1, e2, e3, e4, e5, e6⟩ := BoundedSetIter.popEmpty_spec L hls hs
  simp only [BoundedSetIter.next, e3, Res.bind_ok]
  rw [e2, List.flatten_append, flatten_nil e5, List.nil_append]
  cases e4 with
  | nil => exact ⟨⟨[]⟩, rfl, ⟨[], .nil, rfl⟩, fun _ hx => by simp at hx⟩
  | @cons i x is xs hr hrs =>
    have hi : i ∈ it.rangeIters := by rw [e1]; simp
    obtain ⟨i', e, hr', hl, h1, h2⟩ := i.next_spec L hr
      (fun hle => L.has_between (L.has_idx i.current) (hf i hi) (by omega) (by omega))
    simp only [e, Res.bind_ok]
    have hx : x ≠ [] := e6 x xs rfl
    obtain ⟨a, x, rfl⟩ := List.exists_cons_of_ne_nil hx
    refine ⟨⟨i' :: is⟩, rfl, ⟨x :: xs, .cons hr' hrs, by simp⟩, shrinksAll_front e1 ?_⟩
    rw [Shrinks, hl]
    omega

theorem BoundedSetIter.nextBack_spec (L : LawfulStep p S idx) {it : BoundedSetIter T} {l : List T}
    (h : SetRep idx it.rangeIters l) (hs : ∀ i ∈ it.rangeIters, Small p idx i)
    (hf : ∀ i ∈ it.rangeIters, BackOk idx i) :
    ∃ it', it.nextBack p S = .ok (l.getLast?, it') ∧ SetRep idx it'.rangeIters l.dropLast ∧
      ShrinksAll idx it.rangeIters it'.rangeIters := by
  obtain ⟨ls, hls, rfl⟩ := h
  obtain ⟨its₀, its', ls₀, ls', e1, e2, e3, e4, e5, e6⟩ :=
    BoundedSetIter.popEmpty_spec L (forall₂_reverse hls) (fun i hi => hs i (List.mem_reverse.1 hi))
  simp only [BoundedSetIter.nextBack, e3, Res.bind_ok]
  have e2' : ls = ls'.reverse ++ ls₀.reverse := by
    rw [← List.reverse_reverse ls, e2, List.reverse_append]
  rw [e2', List.flatten_append,
    flatten_nil (ls := ls₀.reverse) (fun x hx => e5 x (List.mem_reverse.1 hx)), List.append_nil]
  cases e4 with
  | nil => exact ⟨⟨[]⟩, rfl, ⟨[], .nil, rfl⟩, fun _ hx => by simp at hx⟩
  | @cons i x is xs hr hrs =>
    have hi : i ∈ it.rangeIters := by rw [← List.mem_reverse, e1]; simp
    obtain ⟨i', e, hr', hl, h1, h2⟩ := i.nextBack_spec L hr
      (fun hle => L.has_between (hf i hi) (L.has_idx i.last) (by omega) (by omega))
    simp only [e, Res.bind_ok]
    have hx : x ≠ [] := e6 x xs rfl
    have ef : (x :: xs).reverse.flatten = xs.reverse.flatten ++ x := by simp
    refine ⟨⟨(i' :: is).reverse⟩, ?_, ⟨(x.dropLast :: xs).reverse, ?_, ?_⟩, shrinksAll_back e1 ?_⟩
    · rw [ef, List.getLast?_append_of_ne_nil _ hx]; rfl
    · exact forall₂_reverse (.cons hr' hrs)
    · rw [ef, List.dropLast_append_of_ne_nil hx]; simp
    · rw [Shrinks, hl]
      omega

theorem BoundedSetIter.nth_spec (L : LawfulStep p S idx) {it : BoundedSetIter T} {l : List T}
    (h : SetRep idx it.rangeIters l) (hs : ∀ i ∈ it.rangeIters, Small p idx i)
    (hf : ∀ i ∈ it.rangeIters, FrontOk idx i) {n : Nat} (hn : n < p.usizeCount) :
    ∃ it', it.nth p S n = .ok (l[n]?, it') ∧ SetRep idx it'.rangeIters (l.drop (n + 1)) ∧
      ShrinksAll idx it.rangeIters it'.rangeIters := by
  obtain ⟨ls, hls, rfl⟩ := h
  obtain ⟨its₀, its', ls₀, ls', n', e1, e2, e3, e4, e5, e6⟩ := BoundedSetIter.skip_spec L hls hs n
  simp only [BoundedSetIter.nth, e3, Res.bind_ok]
  rw [e2, List.flatten_append, List.getElem?_append_right (by omega), List.drop_append,
    List.drop_eq_nil_of_le (as := ls₀.flatten) (by omega), List.nil_append]
  have en : n - ls₀.flatten.length = n' := by omega
  have en1 : n + 1 - ls₀.flatten.length = n' + 1 := by omega
  rw [en, en1]
  cases e4 with
  | nil => exact ⟨⟨[]⟩, rfl, ⟨[], .nil, by simp⟩, fun _ hx => by simp at hx⟩
  | @cons i x is xs hr hrs =>
    have hi : i ∈ it.rangeIters := by rw [e1]; simp
    have hx : n' < x.length := e6 x xs rfl
    have hlen := hr.length
    obtain ⟨i', e, hr', hl, h1, h2⟩ := i.nth_spec L hr (n := n') (by omega)
      (L.has_between (L.has_idx i.current) (L.has_idx i.last) (by omega) (by omega))
      (fun hle => L.has_between (L.has_idx i.current) (hf i hi) (by omega) (by omega))
    simp only [e, Res.bind_ok]
    refine ⟨⟨i' :: is⟩, ?_, ⟨x.drop (n' + 1) :: xs, .cons hr' hrs, ?_⟩, shrinksAll_front e1 ?_⟩
    · rw [List.flatten_cons, List.getElem?_append_left hx]; rfl
    · rw [List.flatten_cons, List.drop_append_of_le_length (by omega)]; rfl
    · rw [Shrinks, hl]
      omega

theorem BoundedSetIter.nthBack_spec (L : LawfulStep p S idx) {it : BoundedSetIter T} {l : List T}
    (h : SetRep idx it.rangeIters l) (hs : ∀ i ∈ it.rangeIters, Small p idx i)
    (hf : ∀ i ∈ it.rangeIters, BackOk idx i) {n : Nat} (hn : n < p.usizeCount) :
    ∃ it', it.nthBack p S n = .ok (l.reverse[n]?, it') ∧
      SetRep idx it'.rangeIters ((l.reverse.drop (n + 1)).reverse) ∧
      ShrinksAll idx it.rangeIters it'.rangeIters := by
  obtain ⟨ls, hls, rfl⟩ := h
  obtain ⟨its₀, its', ls₀, ls', n', e1, e2, e3, e4, e5, e6⟩ :=
    BoundedSetIter.skip_spec L (forall₂_reverse hls) (fun i hi => hs i (List.mem_reverse.1 hi)) n
  simp only [BoundedSetIter.nthBack, e3, Res.bind_ok]
  have e2' : ls = ls'.reverse ++ ls₀.reverse := by
    rw [← List.reverse_reverse ls, e2, List.reverse_append]
  have hB : ls₀.reverse.flatten.reverse.length = ls₀.flatten.length := by
    simp [List.length_flatten]
  rw [e2', List.flatten_append, List.reverse_append, List.getElem?_append_right (by omega),
    List.drop_append, List.drop_eq_nil_of_le (as := ls₀.reverse.flatten.reverse) (by omega),
    List.nil_append, hB]
  have en : n - ls₀.flatten.length = n' := by omega
  have en1 : n + 1 - ls₀.flatten.length = n' + 1 := by omega
  rw [en, en1]
  cases e4 with
  | nil => exact ⟨⟨[]⟩, rfl, ⟨[], .nil, by simp⟩, fun _ hx => by simp at hx⟩
  | @cons i x is xs hr hrs =>
    have hi : i ∈ it.rangeIters := by rw [← List.mem_reverse, e1]; simp
    have hx : n' < x.length := e6 x xs rfl
    have hlen := hr.length
    obtain ⟨i', e, hr', hl, h1, h2⟩ := i.nthBack_spec L hr (n := n') (by omega)
      (L.has_between (L.has_idx i.current) (L.has_idx i.last) (by omega) (by omega))
      (fun hle => L.has_between (hf i hi) (L.has_idx i.last) (by omega) (by omega))
    simp only [e, Res.bind_ok]
    have ef : (x :: xs).reverse.flatten = xs.reverse.flatten ++ x := by simp
    refine ⟨⟨(i' :: is).reverse⟩, ?_, ⟨((x.reverse.drop (n' + 1)).reverse :: xs).reverse, ?_, ?_⟩,
      shrinksAll_back e1 ?_⟩
    · rw [ef, List.reverse_append, List.getElem?_append_left (by simpa using hx)]; rfl
    · exact forall₂_reverse (.cons hr' hrs)
    · rw [ef, List.reverse_append, List.drop_append_of_le_length (by simp; omega)]; simp
    · rw [Shrinks, hl]
      omega

theorem BoundedSetIter.sizeHint_spec (L : LawfulStep p S idx) {it : BoundedSetIter T} {l : List T}
    (h : SetRep idx it.rangeIters l) (hl : l.length < p.usizeCount) :
    it.sizeHint p S = .ok (l.length, some l.length) := by
  obtain ⟨ls, hls, rfl⟩ := h
  simp only [BoundedSetIter.sizeHint, BoundedSetIter.sumLens_spec L hls 0 (by omega), Res.bind_ok,
    Nat.zero_add]
  rfl

theorem BoundedSetIter.len_spec (L : LawfulStep p S idx) {it : BoundedSetIter T} {l : List T}
    (h : SetRep idx it.rangeIters l) (hl : l.length < p.usizeCount) : it.len p S = .ok l.length := by
  simp only [BoundedSetIter.len, BoundedSetIter.sizeHint_spec L h hl, Res.bind_ok, assert,
    BEq.rfl, if_true]
  rfl

/-- One call. -/
theorem BoundedSetIter.call_spec (L : LawfulStep p S idx) {it : BoundedSetIter T} {l : List T}
    (h : SetRep idx it.rangeIters l) (hs : ∀ i ∈ it.rangeIters, Small p idx i) (op : Op)
    (ha : op.skipFront < p.usizeCount ∧ op.skipBack < p.usizeCount)
    (hf : op.isFront = true → ∀ i ∈ it.rangeIters, FrontOk idx i)
    (hb : op.isBack = true → ∀ i ∈ it.rangeIters, BackOk idx i)
    (hz : op.isSize = true → l.length < p.usizeCount) :
    ∃ it', it.call p S op = .ok ((listCall l op).1, it') ∧
      SetRep idx it'.rangeIters (listCall l op).2 ∧ ShrinksAll idx it.rangeIters it'.rangeIters := by
  cases op with
  | next =>
    obtain ⟨it', e, h'⟩ := it.next_spec L h hs (hf rfl)
    exact ⟨it', by simp only [BoundedSetIter.call, e, Res.bind_ok, listCall]; rfl, h'⟩
  | nextBack =>
    obtain ⟨it', e, h'⟩ := it.nextBack_spec L h hs (hb rfl)
    exact ⟨it', by simp only [BoundedSetIter.call, e, Res.bind_ok, listCall]; rfl, h'⟩
  | nth n =>
    obtain ⟨it', e, h'⟩ := it.nth_spec L h hs (hf rfl) (n := n) ha.1
    exact ⟨it', by simp only [BoundedSetIter.call, e, Res.bind_ok, listCall]; rfl, h'⟩
  | nthBack n =>
    obtain ⟨it', e, h'⟩ := it.nthBack_spec L h hs (hb rfl) (n := n) ha.2
    exact ⟨it', by simp only [BoundedSetIter.call, e, Res.bind_ok, listCall]; rfl, h'⟩
  | sizeHint =>
    refine ⟨it, ?_, h, ShrinksAll.refl _⟩
    simp only [BoundedSetIter.call, it.sizeHint_spec L h (hz rfl), Res.bind_ok, listCall]; rfl
  | len =>
    refine ⟨it, ?_, h, ShrinksAll.refl _⟩
    simp only [BoundedSetIter.call, it.len_spec L h (hz rfl), Res.bind_ok, listCall]; rfl
  | count =>
    refine ⟨it, ?_, h, ShrinksAll.refl _⟩
    simp only [BoundedSetIter.call, BoundedSetIter.count, it.len_spec L h (hz rfl), Res.bind_ok,
      listCall]; rfl
  | min =>
    obtain ⟨it', e, _⟩ := it.next_spec L h hs (hf rfl)
    refine ⟨it, ?_, h, ShrinksAll.refl _⟩
    simp only [BoundedSetIter.call, BoundedSetIter.min, e, Res.bind_ok, listCall]; rfl
  | max =>
    obtain ⟨it', e, _⟩ := it.nextBack_spec L h hs (hb rfl)
    refine ⟨it, ?_, h, ShrinksAll.refl _⟩
    simp only [BoundedSetIter.call, BoundedSetIter.max, e, Res.bind_ok, listCall]; rfl

/-- A schedule. -/
theorem BoundedSetIter.run_spec (L : LawfulStep p S idx) (ops : List Op) :
    ∀ {it : BoundedSetIter T} {l : List T}, SetRep idx it.rangeIters l →
    (∀ i ∈ it.rangeIters, Small p idx i) → UsizeArgs p ops →
    ((∃ op ∈ ops, op.isFront = true) → ∀ i ∈ it.rangeIters, FrontOk idx i) →
    ((∃ op ∈ ops, op.isBack = true) → ∀ i ∈ it.rangeIters, BackOk idx i) →
    ((∃ op ∈ ops, op.isSize = true) → l.length < p.usizeCount) →
    ∃ it', runOps (BoundedSetIter.call p S) it ops = .ok ((listRun l ops).1, it') ∧
      SetRep idx it'.rangeIters (listRun l ops).2 ∧
      ShrinksAll idx it.rangeIters it'.rangeIters := by
  induction ops with
  | nil => intro it l h _ _ _ _ _; exact ⟨it, rfl, h, ShrinksAll.refl _⟩
  | cons op ops ih =>
    intro it l h hsm ha hf hb hz
    obtain ⟨it', e, hr, hsh⟩ := it.call_spec L h hsm op (ha op (List.mem_cons_self))
      (fun hx => hf ⟨op, List.mem_cons_self, hx⟩) (fun hx => hb ⟨op, List.mem_cons_self, hx⟩)
      (fun hx => hz ⟨op, List.mem_cons_self, hx⟩)
    obtain ⟨it'', e', hr', hsh'⟩ := ih (it := it') (l := (listCall l op).2) hr
      (fun i hi => by obtain ⟨j, hj, hx⟩ := hsh i hi; exact hx.small (hsm j hj))
      (fun o ho => ha o (List.mem_cons_of_mem _ ho))
      (fun ⟨o, ho, hx⟩ i hi => by
        obtain ⟨j, hj, hy⟩ := hsh i hi
        exact hy.frontOk L (hf ⟨o, List.mem_cons_of_mem _ ho, hx⟩ j hj))
      (fun ⟨o, ho, hx⟩ i hi => by
        obtain ⟨j, hj, hy⟩ := hsh i hi
        exact hy.backOk L (hb ⟨o, List.mem_cons_of_mem _ ho, hx⟩ j hj))
      (fun ⟨o, ho, hx⟩ => lt_of_le_of_lt (listCall_length l op)
        (hz ⟨o, List.mem_cons_of_mem _ ho, hx⟩))
    refine ⟨it'', ?_, hr', ?_⟩
    · simp only [runOps, e, e', Res.bind_ok, listRun]
      rfl
    · intro x hx
      obtain ⟨y, hy, h1⟩ := hsh' x hx
      obtain ⟨z, hz', h2⟩ := hsh y hy
      obtain ⟨a1, a2, a3, a4⟩ := h1
      obtain ⟨b1, b2, b3, b4⟩ := h2
      exact ⟨z, hz', by unfold Shrinks; omega⟩

end Rangetools
