import Verif.Proofs.Schedule

/-!
# With overflow checks, a call that returns, returns the right thing

No assumption on how far the iterator is from the ends of the element type: from the fact that a call
returned we learn that the values it stepped to exist, and then the exact specification applies.
-/

namespace Rangetools
variable {T : Type} [LinearOrder T] {p : Platform} {S : Step T} {idx : T → Int}

theorem Res.bind_eq_ok {α β : Type} {x : Res α} {f : α → Res β} {b : β} :
    (x >>= f) = .ok b ↔ ∃ a, x = .ok a ∧ f a = .ok b := by
  cases x with
  | ok a => exact ⟨fun h => ⟨a, rfl, h⟩, fun ⟨a', h, h'⟩ => by cases h; exact h'⟩
  | panic m => exact ⟨fun h => (by cases h), fun ⟨_, h, _⟩ => (by cases h)⟩

theorem Step.Checked.forward_ok (L : LawfulStep p S idx) (C : S.Checked p idx) {a b : T} {n : Nat}
    (hn : n < p.usizeCount) (h : S.forward a n = .ok b) : idx b = idx a + n := by
  by_cases hx : ∃ c, idx c = idx a + n
  · obtain ⟨c, hc⟩ := hx
    rw [L.forward_some a n c hn hc] at h
    cases h; exact hc
  · obtain ⟨m, hm⟩ := C.forward a n hn (fun c hc => hx ⟨c, hc⟩)
    rw [hm] at h; cases h

theorem Step.Checked.backward_ok (L : LawfulStep p S idx) (C : S.Checked p idx) {a b : T} {n : Nat}
    (hn : n < p.usizeCount) (h : S.backward a n = .ok b) : idx b = idx a - n := by
  by_cases hx : ∃ c, idx c = idx a - n
  · obtain ⟨c, hc⟩ := hx
    rw [L.backward_some a n c hn hc] at h
    cases h; exact hc
  · obtain ⟨m, hm⟩ := C.backward a n hn (fun c hc => hx ⟨c, hc⟩)
    rw [hm] at h; cases h

/-! ### `BoundedRangeIter` -/

namespace BoundedRangeIter

theorem nth_ok (L : LawfulStep p S idx) (C : S.Checked p idx) {it : BoundedRangeIter T} {l : List T}
    (h : Rep idx it l) {n : Nat} (hn : n < p.usizeCount) {x : Option T × BoundedRangeIter T}
    (e : it.nth S n = .ok x) : x.1 = l[n]? ∧ Rep idx x.2 (l.drop (n + 1)) := by
  have hu := p.le_usizeCount
  have e0 := e
  unfold nth at e
  rw [Res.bind_eq_ok] at e
  obtain ⟨c, hc, e⟩ := e
  have hc' := C.forward_ok L hn hc
  obtain ⟨it', e', hr, _⟩ := it.nth_spec L h hn ⟨c, hc'⟩ (fun hle => by
    simp only [next] at e
    rw [if_neg (by rw [gt_iff_lt, L.lt_iff]; omega), Res.bind_eq_ok] at e
    obtain ⟨d, hd, _⟩ := e
    have := C.forward_ok L (by omega) hd
    exact ⟨d, by push_cast at this; omega⟩)
  rw [e0] at e'
  cases e'
  exact ⟨rfl, hr⟩

theorem nthBack_ok (L : LawfulStep p S idx) (C : S.Checked p idx) {it : BoundedRangeIter T} {l : List T}
    (h : Rep idx it l) {n : Nat} (hn : n < p.usizeCount) {x : Option T × BoundedRangeIter T}
    (e : it.nthBack S n = .ok x) :
    x.1 = l.reverse[n]? ∧ Rep idx x.2 ((l.reverse.drop (n + 1)).reverse) := by
  have hu := p.le_usizeCount
  have e0 := e
  unfold nthBack at e
  rw [Res.bind_eq_ok] at e
  obtain ⟨c, hc, e⟩ := e
  have hc' := C.backward_ok L hn hc
  obtain ⟨it', e', hr, _⟩ := it.nthBack_spec L h hn ⟨c, hc'⟩ (fun hle => by
    simp only [nextBack] at e
    rw [if_neg (by rw [gt_iff_lt, L.lt_iff]; omega), Res.bind_eq_ok] at e
    obtain ⟨d, hd, _⟩ := e
    have := C.backward_ok L (by omega) hd
    exact ⟨d, by push_cast at this; omega⟩)
  rw [e0] at e'
  cases e'
  exact ⟨rfl, hr⟩

theorem next_ok (L : LawfulStep p S idx) (C : S.Checked p idx) {it : BoundedRangeIter T} {l : List T}
    (h : Rep idx it l) {x : Option T × BoundedRangeIter T} (e : it.next S = .ok x) :
    x.1 = l.head? ∧ Rep idx x.2 l.tail := by
  have hu := p.le_usizeCount
  have := it.nth_ok L C h (n := 0) (by omega) (x := x) (by
    simp only [nth, L.forward_some it.current 0 it.current (by omega) (by simp), Res.bind_ok]
    exact e)
  simpa [List.head?_eq_getElem?] using this

theorem nextBack_ok (L : LawfulStep p S idx) (C : S.Checked p idx) {it : BoundedRangeIter T} {l : List T}
    (h : Rep idx it l) {x : Option T × BoundedRangeIter T} (e : it.nextBack S = .ok x) :
    x.1 = l.getLast? ∧ Rep idx x.2 l.dropLast := by
  have hu := p.le_usizeCount
  have := it.nthBack_ok L C h (n := 0) (by omega) (x := x) (by
    simp only [nthBack, L.backward_some it.last 0 it.last (by omega) (by simp), Res.bind_ok]
    exact e)
  rw [← List.head?_eq_getElem?, List.head?_reverse, List.drop_one, List.tail_reverse,
    List.reverse_reverse] at this
  exact this

theorem sizeHint_ok (L : LawfulStep p S idx) (F : Step.Fits p idx) (hp : p.overflowChecks = true)
    {it : BoundedRangeIter T} {l : List T} (h : Rep idx it l) {x : Nat × Option Nat}
    (e : it.sizeHint p S = .ok x) : x = (l.length, some l.length) ∧ l.length < p.usizeCount := by
  have hu := p.le_usizeCount
  have hlen := h.length
  have hl : l.length < p.usizeCount := by
    by_cases hle : idx it.current ≤ idx it.last
    · have hF := F it.current it.last
      simp only [sizeHint, L.stepsBetween, Res.bind_ok] at e
      rw [if_pos ⟨(L.le_iff _ _).2 hle, hF⟩] at e
      simp only [Platform.addUsize] at e
      by_cases hx : (idx it.last - idx it.current).toNat + 1 < p.usizeCount
      · omega
      · rw [if_neg hx, if_pos hp] at e; cases e
    · omega
  rw [it.sizeHint_spec L h hl] at e
  cases e
  exact ⟨rfl, hl⟩

theorem len_ok (L : LawfulStep p S idx) (F : Step.Fits p idx) (hp : p.overflowChecks = true)
    {it : BoundedRangeIter T} {l : List T} (h : Rep idx it l) {n : Nat} (e : it.len p S = .ok n) :
    n = l.length ∧ l.length < p.usizeCount := by
  have e0 := e
  unfold len at e
  rw [Res.bind_eq_ok] at e
  obtain ⟨x, hx, _⟩ := e
  have hl := (it.sizeHint_ok L F hp h hx).2
  rw [it.len_spec L h hl] at e0
  cases e0
  exact ⟨rfl, hl⟩

theorem call_ok (L : LawfulStep p S idx) (C : S.Checked p idx) (F : Step.Fits p idx)
    (hp : p.overflowChecks = true) {it : BoundedRangeIter T} {l : List T} (h : Rep idx it l) (op : Op)
    (ha : op.skipFront < p.usizeCount ∧ op.skipBack < p.usizeCount)
    {x : Out T × BoundedRangeIter T} (e : it.call p S op = .ok x) :
    x.1 = (listCall l op).1 ∧ Rep idx x.2 (listCall l op).2 := by
  cases op with
  | next =>
    obtain ⟨y, hy, e⟩ := Res.bind_eq_ok.1 e
    cases e
    obtain ⟨h1, h2⟩ := it.next_ok L C h hy
    exact ⟨congrArg _ h1, h2⟩
  | nextBack =>
    obtain ⟨y, hy, e⟩ := Res.bind_eq_ok.1 e
    cases e
    obtain ⟨h1, h2⟩ := it.nextBack_ok L C h hy
    exact ⟨congrArg _ h1, h2⟩
  | nth n =>
    obtain ⟨y, hy, e⟩ := Res.bind_eq_ok.1 e
    cases e
    obtain ⟨h1, h2⟩ := it.nth_ok L C h ha.1 hy
    exact ⟨congrArg _ h1, h2⟩
  | nthBack n =>
    obtain ⟨y, hy, e⟩ := Res.bind_eq_ok.1 e
    cases e
    obtain ⟨h1, h2⟩ := it.nthBack_ok L C h ha.2 hy
    exact ⟨congrArg _ h1, h2⟩
  | sizeHint =>
    obtain ⟨y, hy, e⟩ := Res.bind_eq_ok.1 e
    cases e
    rw [(it.sizeHint_ok L F hp h hy).1]
    exact ⟨rfl, h⟩
  | len =>
    obtain ⟨y, hy, e⟩ := Res.bind_eq_ok.1 e
    cases e
    rw [(it.len_ok L F hp h hy).1]
    exact ⟨rfl, h⟩
  | count =>
    obtain ⟨y, hy, e⟩ := Res.bind_eq_ok.1 e
    cases e
    rw [(it.len_ok L F hp h hy).1]
    exact ⟨rfl, h⟩
  | min =>
    obtain ⟨y, hy, e⟩ := Res.bind_eq_ok.1 e
    obtain ⟨z, hz, hy⟩ := Res.bind_eq_ok.1 hy
    cases e; cases hy
    exact ⟨congrArg _ (it.next_ok L C h hz).1, h⟩
  | max =>
    obtain ⟨y, hy, e⟩ := Res.bind_eq_ok.1 e
    obtain ⟨z, hz, hy⟩ := Res.bind_eq_ok.1 hy
    cases e; cases hy
    exact ⟨congrArg _ (it.nextBack_ok L C h hz).1, h⟩

end BoundedRangeIter

omit [LinearOrder T] in
/-- From one call to a schedule. -/
theorem runOps_ok {σ : Type} {call : σ → Op → Res (Out T × σ)} {R : σ → List T → Prop}
    {A : Op → Prop} (hcall : ∀ s l op x, R s l → A op → call s op = .ok x →
      x.1 = (listCall l op).1 ∧ R x.2 (listCall l op).2) (ops : List Op) :
    ∀ {s : σ} {l : List T} {x : List (Out T) × σ}, R s l → (∀ op ∈ ops, A op) →
    runOps call s ops = .ok x → x.1 = (listRun l ops).1 := by
  induction ops with
  | nil => intro s l x _ _ e; cases e; rfl
  | cons op ops ih =>
    intro s l x h ha e
    obtain ⟨y, hy, e⟩ := Res.bind_eq_ok.1 e
    obtain ⟨z, hz, e⟩ := Res.bind_eq_ok.1 e
    cases e
    obtain ⟨h1, h2⟩ := hcall s l op y h (ha op List.mem_cons_self) hy
    simp only [listRun]
    rw [← ih h2 (fun o ho => ha o (List.mem_cons_of_mem _ ho)) hz, h1]

/-! ### `BoundedSetIter` -/

namespace BoundedSetIter

theorem popEmpty_ok (L : LawfulStep p S idx) (F : Step.Fits p idx) (hp : p.overflowChecks = true) :
    ∀ {its : List (BoundedRangeIter T)} {ls : List (List T)}, List.Forall₂ (Rep idx) its ls →
    ∀ {its' : List (BoundedRangeIter T)}, popEmpty p S its = .ok its' →
    ∃ ls₀ ls', ls = ls₀ ++ ls' ∧ List.Forall₂ (Rep idx) its' ls' ∧
      (∀ x ∈ ls₀, x = []) ∧ (∀ x xs, ls' = x :: xs → x ≠ []) := by
  intro its ls h
  induction h with
  | nil => intro its' e; cases e; exact ⟨[], [], rfl, .nil, by simp, by simp⟩
  | @cons it l its ls hr hrs ih =>
    intro its' e
    obtain ⟨n, hn, e⟩ := Res.bind_eq_ok.1 e
    rw [(it.len_ok L F hp hr hn).1] at e
    by_cases hl : l = []
    · rw [if_pos (by simp [hl])] at e
      obtain ⟨ls₀, ls', e2, e4, e5, e6⟩ := ih e
      refine ⟨l :: ls₀, ls', by rw [e2]; rfl, e4, ?_, e6⟩
      intro x hx
      rcases List.mem_cons.1 hx with rfl | hx
      · exact hl
      · exact e5 x hx
    · rw [if_neg (by simpa using hl)] at e
      cases e
      exact ⟨[], l :: ls, rfl, .cons hr hrs, by simp, fun x xs e => by cases e; exact hl⟩

theorem skip_ok (L : LawfulStep p S idx) (F : Step.Fits p idx) (hp : p.overflowChecks = true) :
    ∀ {its : List (BoundedRangeIter T)} {ls : List (List T)}, List.Forall₂ (Rep idx) its ls →
    ∀ {n : Nat} {x : List (BoundedRangeIter T) × Nat}, skip p S its n = .ok x →
    ∃ ls₀ ls', ls = ls₀ ++ ls' ∧ List.Forall₂ (Rep idx) x.1 ls' ∧
      n = ls₀.flatten.length + x.2 ∧ (∀ y ys, ls' = y :: ys → x.2 < y.length) := by
  intro its ls h
  induction h with
  | nil => intro n x e; cases e; exact ⟨[], [], rfl, .nil, by simp, by simp⟩
  | @cons it l its ls hr hrs ih =>
    intro n x e
    obtain ⟨k, hk, e⟩ := Res.bind_eq_ok.1 e
    rw [(it.len_ok L F hp hr hk).1] at e
    by_cases hl : l.length ≤ n
    · rw [if_pos hl] at e
      simp only [Platform.subUsize, if_pos hl, Res.bind_ok] at e
      obtain ⟨ls₀, ls', e2, e4, e5, e6⟩ := ih e
      refine ⟨l :: ls₀, ls', by rw [e2]; rfl, e4, ?_, e6⟩
      simp only [List.flatten_cons, List.length_append]; omega
    · rw [if_neg hl] at e
      cases e
      exact ⟨[], l :: ls, rfl, .cons hr hrs, by simp, fun y ys e => by cases e; omega⟩

theorem sumLens_ok (L : LawfulStep p S idx) (F : Step.Fits p idx) (hp : p.overflowChecks = true) :
    ∀ {its : List (BoundedRangeIter T)} {ls : List (List T)}, List.Forall₂ (Rep idx) its ls →
    ∀ {acc n : Nat}, sumLens p S acc its = .ok n → n = acc + ls.flatten.length := by
  intro its ls h
  induction h with
  | nil => intro acc n e; cases e; rfl
  | @cons it l its ls hr hrs ih =>
    intro acc n e
    obtain ⟨k, hk, e⟩ := Res.bind_eq_ok.1 e
    rw [(it.len_ok L F hp hr hk).1] at e
    obtain ⟨m, hm, e⟩ := Res.bind_eq_ok.1 e
    have : m = acc + l.length := by
      unfold Platform.addUsize at hm
      split at hm
      · cases hm; rfl
      · cases hm
    rw [ih e, this, List.flatten_cons, List.length_append]; omega

variable {it : BoundedSetIter T} {l : List T}

theorem next_ok (L : LawfulStep p S idx) (C : S.Checked p idx) (F : Step.Fits p idx)
    (hp : p.overflowChecks = true) (h : SetRep idx it.rangeIters l)
    {x : Option T × BoundedSetIter T} (e : it.next p S = .ok x) :
    x.1 = l.head? ∧ SetRep idx x.2.rangeIters l.tail := by
  obtain ⟨ls, hls, rfl⟩ := h
  obtain ⟨its', hits, e⟩ := Res.bind_eq_ok.1 e
  obtain ⟨ls₀, ls', e2, e4, e5, e6⟩ := popEmpty_ok L F hp hls hits
  rw [e2, List.flatten_append, flatten_nil e5, List.nil_append]
  cases e4 with
  | nil => cases e; exact ⟨rfl, [], .nil, rfl⟩
  | @cons i y is ys hr hrs =>
    obtain ⟨z, hz, e⟩ := Res.bind_eq_ok.1 e
    cases e
    obtain ⟨h1, h2⟩ := i.next_ok L C hr hz
    obtain ⟨a, y, rfl⟩ := List.exists_cons_of_ne_nil (e6 y ys rfl)
    exact ⟨h1, y :: ys, .cons h2 hrs, by simp⟩

theorem nextBack_ok (L : LawfulStep p S idx) (C : S.Checked p idx) (F : Step.Fits p idx)
    (hp : p.overflowChecks = true) (h : SetRep idx it.rangeIters l)
    {x : Option T × BoundedSetIter T} (e : it.nextBack p S = .ok x) :
    x.1 = l.getLast? ∧ SetRep idx x.2.rangeIters l.dropLast := by
  obtain ⟨ls, hls, rfl⟩ := h
  obtain ⟨its', hits, e⟩ := Res.bind_eq_ok.1 e
  obtain ⟨ls₀, ls', e2, e4, e5, e6⟩ := popEmpty_ok L F hp (forall₂_reverse hls) hits
  have e2' : ls = ls'.reverse ++ ls₀.reverse := by
    rw [← List.reverse_reverse ls, e2, List.reverse_append]
  rw [e2', List.flatten_append,
    flatten_nil (ls := ls₀.reverse) (fun x hx => e5 x (List.mem_reverse.1 hx)), List.append_nil]
  cases e4 with
  | nil => cases e; exact ⟨rfl, [], .nil, rfl⟩
  | @cons i y is ys hr hrs =>
    obtain ⟨z, hz, e⟩ := Res.bind_eq_ok.1 e
    cases e
    obtain ⟨h1, h2⟩ := i.nextBack_ok L C hr hz
    have hy : y ≠ [] := e6 y ys rfl
    have ef : (y :: ys).reverse.flatten = ys.reverse.flatten ++ y := by simp
    refine ⟨?_, (y.dropLast :: ys).reverse, forall₂_reverse (.cons h2 hrs), ?_⟩
    · rw [ef, List.getLast?_append_of_ne_nil _ hy]; exact h1
    · rw [ef, List.dropLast_append_of_ne_nil hy]; simp

theorem nth_ok (L : LawfulStep p S idx) (C : S.Checked p idx) (F : Step.Fits p idx)
    (hp : p.overflowChecks = true) (h : SetRep idx it.rangeIters l) {n : Nat} (hn : n < p.usizeCount)
    {x : Option T × BoundedSetIter T} (e : it.nth p S n = .ok x) :
    x.1 = l[n]? ∧ SetRep idx x.2.rangeIters (l.drop (n + 1)) := by
  obtain ⟨ls, hls, rfl⟩ := h
  obtain ⟨⟨its', n'⟩, hits, e⟩ := Res.bind_eq_ok.1 e
  obtain ⟨ls₀, ls', e2, e4, e5, e6⟩ := skip_ok L F hp hls hits
  dsimp only at e4 e5 e6
  rw [e2, List.flatten_append, List.getElem?_append_right (by omega), List.drop_append,
    List.drop_eq_nil_of_le (as := ls₀.flatten) (by omega), List.nil_append]
  have en : n - ls₀.flatten.length = n' := by omega
  have en1 : n + 1 - ls₀.flatten.length = n' + 1 := by omega
  rw [en, en1]
  cases e4 with
  | nil => cases e; exact ⟨by simp, [], .nil, by simp⟩
  | @cons i y is ys hr hrs =>
    obtain ⟨z, hz, e⟩ := Res.bind_eq_ok.1 e
    cases e
    have hy : n' < y.length := e6 y ys rfl
    obtain ⟨h1, h2⟩ := i.nth_ok L C hr (by omega) hz
    refine ⟨?_, y.drop (n' + 1) :: ys, .cons h2 hrs, ?_⟩
    · rw [List.flatten_cons, List.getElem?_append_left hy]; exact h1
    · rw [List.flatten_cons, List.drop_append_of_le_length (by omega)]; rfl

theorem nthBack_ok (L : LawfulStep p S idx) (C : S.Checked p idx) (F : Step.Fits p idx)
    (hp : p.overflowChecks = true) (h : SetRep idx it.rangeIters l) {n : Nat} (hn : n < p.usizeCount)
    {x : Option T × BoundedSetIter T} (e : it.nthBack p S n = .ok x) :
    x.1 = l.reverse[n]? ∧ SetRep idx x.2.rangeIters ((l.reverse.drop (n + 1)).reverse) := by
  obtain ⟨ls, hls, rfl⟩ := h
  obtain ⟨⟨its', n'⟩, hits, e⟩ := Res.bind_eq_ok.1 e
  obtain ⟨ls₀, ls', e2, e4, e5, e6⟩ := skip_ok L F hp (forall₂_reverse hls) hits
  dsimp only at e4 e5 e6
  have e2' : ls = ls'.reverse ++ ls₀.reverse := by
    rw [← List.reverse_reverse ls, e2, List.reverse_append]
  have hB : ls₀.reverse.flatten.reverse.length = ls₀.flatten.length := by
    simp [List.length_flatten]
  rw [e2', List.flatten_append, List.reverse_append, List.getElem?_append_right (by omega),
    List.drop_append, List.drop_eq_nil_of_le (as := ls₀.reverse.flatten.reverse) (by omega),
    List.nil_append, hB]
  have en : n - ls₀.flatten.length = n' := by omega
  have en1 : n + 1 - ls₀.flatten.length = n' + 1 := by omega
  rw [en, en1]
  cases e4 with
  | nil => cases e; exact ⟨by simp, [], .nil, by simp⟩
  | @cons i y is ys hr hrs =>
    obtain ⟨z, hz, e⟩ := Res.bind_eq_ok.1 e
    cases e
    have hy : n' < y.length := e6 y ys rfl
    obtain ⟨h1, h2⟩ := i.nthBack_ok L C hr (by omega) hz
    have ef : (y :: ys).reverse.flatten = ys.reverse.flatten ++ y := by simp
    refine ⟨?_, ((y.reverse.drop (n' + 1)).reverse :: ys).reverse, forall₂_reverse (.cons h2 hrs), ?_⟩
    · rw [ef, List.reverse_append, List.getElem?_append_left (by simpa using hy)]; exact h1
    · rw [ef, List.reverse_append, List.drop_append_of_le_length (by simp; omega)]; simp

theorem sizeHint_ok (L : LawfulStep p S idx) (F : Step.Fits p idx) (hp : p.overflowChecks = true)
    (h : SetRep idx it.rangeIters l) {x : Nat × Option Nat} (e : it.sizeHint p S = .ok x) :
    x = (l.length, some l.length) := by
  obtain ⟨ls, hls, rfl⟩ := h
  obtain ⟨n, hn, e⟩ := Res.bind_eq_ok.1 e
  have := sumLens_ok L F hp hls hn
  cases e
  rw [this, Nat.zero_add]

theorem len_ok (L : LawfulStep p S idx) (F : Step.Fits p idx) (hp : p.overflowChecks = true)
    (h : SetRep idx it.rangeIters l) {n : Nat} (e : it.len p S = .ok n) : n = l.length := by
  obtain ⟨x, hx, e⟩ := Res.bind_eq_ok.1 e
  rw [sizeHint_ok L F hp h hx] at e
  obtain ⟨_, _, e⟩ := Res.bind_eq_ok.1 e
  cases e; rfl

theorem call_ok (L : LawfulStep p S idx) (C : S.Checked p idx) (F : Step.Fits p idx)
    (hp : p.overflowChecks = true) (h : SetRep idx it.rangeIters l) (op : Op)
    (ha : op.skipFront < p.usizeCount ∧ op.skipBack < p.usizeCount)
    {x : Out T × BoundedSetIter T} (e : it.call p S op = .ok x) :
    x.1 = (listCall l op).1 ∧ SetRep idx x.2.rangeIters (listCall l op).2 := by
  cases op with
  | next =>
    obtain ⟨y, hy, e⟩ := Res.bind_eq_ok.1 e
    cases e
    obtain ⟨h1, h2⟩ := next_ok L C F hp h hy
    exact ⟨congrArg _ h1, h2⟩
  | nextBack =>
    obtain ⟨y, hy, e⟩ := Res.bind_eq_ok.1 e
    cases e
    obtain ⟨h1, h2⟩ := nextBack_ok L C F hp h hy
    exact ⟨congrArg _ h1, h2⟩
  | nth n =>
    obtain ⟨y, hy, e⟩ := Res.bind_eq_ok.1 e
    cases e
    obtain ⟨h1, h2⟩ := nth_ok L C F hp h ha.1 hy
    exact ⟨congrArg _ h1, h2⟩
  | nthBack n =>
    obtain ⟨y, hy, e⟩ := Res.bind_eq_ok.1 e
    cases e
    obtain ⟨h1, h2⟩ := nthBack_ok L C F hp h ha.2 hy
    exact ⟨congrArg _ h1, h2⟩
  | sizeHint =>
    obtain ⟨y, hy, e⟩ := Res.bind_eq_ok.1 e
    cases e
    rw [sizeHint_ok L F hp h hy]
    exact ⟨rfl, h⟩
  | len =>
    obtain ⟨y, hy, e⟩ := Res.bind_eq_ok.1 e
    cases e
    rw [len_ok L F hp h hy]
    exact ⟨rfl, h⟩
  | count =>
    obtain ⟨y, hy, e⟩ := Res.bind_eq_ok.1 e
    cases e
    rw [len_ok L F hp h hy]
    exact ⟨rfl, h⟩
  | min =>
    obtain ⟨y, hy, e⟩ := Res.bind_eq_ok.1 e
    obtain ⟨z, hz, hy⟩ := Res.bind_eq_ok.1 hy
    cases e; cases hy
    exact ⟨congrArg _ (next_ok L C F hp h hz).1, h⟩
  | max =>
    obtain ⟨y, hy, e⟩ := Res.bind_eq_ok.1 e
    obtain ⟨z, hz, hy⟩ := Res.bind_eq_ok.1 hy
    cases e; cases hy
    exact ⟨congrArg _ (nextBack_ok L C F hp h hz).1, h⟩

end BoundedSetIter

/-! ### `into_iter` -/

/-- An iterator that could be made stands at the ends of its range. -/
theorem BoundedRange.intoIter_ok (L : LawfulStep p S idx) (C : S.Checked p idx) {r : BoundedRange T}
    {it : BoundedRangeIter T} (e : r.intoIter S = .ok it) : AtEnds idx r it := by
  have hu := p.le_usizeCount
  unfold BoundedRange.intoIter at e
  rcases r with ⟨⟨s | s⟩, ⟨t | t⟩⟩ <;> dsimp only at e <;>
    obtain ⟨c, hc, e⟩ := Res.bind_eq_ok.1 e <;>
    obtain ⟨d, hd, e⟩ := Res.bind_eq_ok.1 e <;>
    cases e <;>
    simp only [AtEnds, LowerBound.firstIdx, UpperBound.lastIdx] <;>
    refine ⟨?_, ?_⟩ <;>
    first
    | (cases hc; rfl)
    | (cases hd; rfl)
    | (have := C.forward_ok L (by omega) hc; push_cast at this; exact this)
    | (have := C.backward_ok L (by omega) hd; push_cast at this; exact this)

theorem intoIters_ok (L : LawfulStep p S idx) (C : S.Checked p idx) :
    ∀ {rs : List (BoundedRange T)} {its : List (BoundedRangeIter T)}, intoIters S rs = .ok its →
    List.Forall₂ (AtEnds idx) rs its := by
  intro rs
  induction rs with
  | nil => intro its e; cases e; exact .nil
  | cons r rs ih =>
    intro its e
    obtain ⟨c, hc, e⟩ := Res.bind_eq_ok.1 e
    obtain ⟨d, hd, e⟩ := Res.bind_eq_ok.1 e
    cases e
    exact .cons (r.intoIter_ok L C hc) (ih hd)

end Rangetools
