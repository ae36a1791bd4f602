import Verif.Proofs.LowerIter
import Verif.Proofs.Checked
import Mathlib.Data.Nat.Find

/-!
# The iterators of half-lines, with overflow checks, up to the greatest value of the type
-/

namespace Rangetools
variable {T : Type} [LinearOrder T] {p : Platform} {S : Step T} {idx : T → Int}

/-- `l` is everything from the iterator's position up to the greatest value of the type. -/
def LFull (idx : T → Int) (it : LowerBoundedRangeIter T) (l : List T) : Prop :=
  l ≠ [] ∧ l.map idx = ints (idx it.current) (idx it.current + l.length - 1) ∧
    ∀ k : Int, idx it.current + l.length ≤ k → ¬ Has idx k

omit [LinearOrder T] in
/-- In a finite type there is a greatest value. -/
theorem Step.Fits.exists_greatest (F : Step.Fits p idx) (a : T) :
    ∃ n : Nat, Has idx (idx a + n) ∧ ∀ k : Int, idx a + n < k → ¬ Has idx k := by
  classical
  have hb : ∀ n : Nat, Has idx (idx a + n) → n ≤ p.usizeCount := fun n ⟨c, hc⟩ => by
    have := F a c; omega
  have h0 : Has idx (idx a + (0 : Nat)) := ⟨a, by simp⟩
  refine ⟨Nat.findGreatest (fun n : Nat => Has idx (idx a + n)) p.usizeCount,
    Nat.findGreatest_spec (P := fun n : Nat => Has idx (idx a + n)) (Nat.zero_le _) h0, fun k hk hh => ?_⟩
  have e : idx a + ((k - idx a).toNat : Nat) = k := by omega
  have h1 : Has idx (idx a + ((k - idx a).toNat : Nat)) := by rw [e]; exact hh
  have h2 := Nat.le_findGreatest (P := fun n : Nat => Has idx (idx a + n)) (hb _ h1) h1
  omega

theorem LFull.exists (L : LawfulStep p S idx) (F : Step.Fits p idx) (it : LowerBoundedRangeIter T) :
    ∃ l, LFull idx it l := by
  obtain ⟨n, hn, hmax⟩ := F.exists_greatest it.current
  obtain ⟨l, hl⟩ := L.exists_list (i := idx it.current) (j := idx it.current + n)
    (fun _ => ⟨L.has_idx _, hn⟩)
  have hlen : l.length = n + 1 := by
    rw [← List.length_map (f := idx), hl, length_ints]; omega
  refine ⟨l, ⟨fun e => (by rw [e] at hlen; cases hlen), ?_, fun k hk => hmax k (by omega)⟩⟩
  rw [hl, hlen]; congr 1; push_cast; omega

theorem LFull.lists (L : LawfulStep p S idx) {it : LowerBoundedRangeIter T} {l : List T}
    (h : LFull idx it l) {r : LowerBoundedRange T} (hr : idx it.current = r.start.firstIdx idx) :
    Lists l r.contains := by
  have hpos := List.length_pos_iff.2 h.1
  have hlast : Has idx (idx it.current + l.length - 1) := by
    have : idx it.current + l.length - 1 ∈ l.map idx := by rw [h.2.1, ints_mem]; omega
    obtain ⟨t, _, ht⟩ := List.mem_map.1 this
    exact ⟨t, ht⟩
  obtain ⟨hs, hm⟩ := (L.lists_iff (fun _ => ⟨L.has_idx _, hlast⟩)).2 h.2.1
  refine ⟨hs, fun t => ?_⟩
  rw [hm, r.contains_idx L, ← hr]
  refine ⟨fun h => h.1, fun ht => ⟨ht, ?_⟩⟩
  by_contra hc
  exact h.2.2 _ (by omega) (L.has_idx t)

omit [LinearOrder T] in
/-- All but the greatest value can be yielded. -/
theorem LFull.rep {it : LowerBoundedRangeIter T} {l : List T}
    (h : LFull idx it l) : LRep idx it l.dropLast := by
  have hpos := List.length_pos_iff.2 h.1
  have hlen := List.length_dropLast (xs := l)
  constructor
  · rw [List.map_dropLast, h.2.1, List.dropLast_eq_take, length_ints, hlen]
    have := ints_take (idx it.current) (idx it.current + l.length - 1) 1
    rw [length_ints] at this
    rw [this]; congr 1; omega
  · have : idx it.current + l.dropLast.length ∈ l.map idx := by rw [h.2.1, ints_mem]; omega
    obtain ⟨t, _, ht⟩ := List.mem_map.1 this
    exact ⟨t, ht⟩

namespace LowerBoundedRangeIter

theorem nth_ok (L : LawfulStep p S idx) (C : S.Checked p idx) {it : LowerBoundedRangeIter T} {l : List T}
    (h : LFull idx it l) {n : Nat} (hn : n < p.usizeCount) {x : Option T × LowerBoundedRangeIter T}
    (e : it.nth S n = .ok x) : x.1 = l[n]? ∧ LFull idx x.2 (l.drop (n + 1)) := by
  have hu := p.le_usizeCount
  obtain ⟨c, hc, e⟩ := Res.bind_eq_ok.1 e
  obtain ⟨d, hd, e⟩ := Res.bind_eq_ok.1 e
  cases e
  have hc' := C.forward_ok L hn hc
  have hd' := C.forward_ok L (by omega) hd
  dsimp only at hd'
  have hlt : n + 1 < l.length := by
    by_contra hcon
    exact h.2.2 (idx d) (by push_cast at hd'; omega) (L.has_idx d)
  have hlen := List.length_drop (l := l) (i := n + 1)
  refine ⟨?_, ?_, ?_, ?_⟩
  · have h1 : (l.map idx)[n]? = some (idx c) := by
      rw [h.2.1, ints_getElem?, if_pos (by omega), hc']
    rw [List.getElem?_map] at h1
    cases hx : l[n]? with
    | none => rw [hx] at h1; cases h1
    | some u =>
      rw [hx] at h1
      rw [L.inj (Option.some.inj h1)]
  · intro e
    rw [e] at hlen
    simp only [List.length_nil] at hlen
    omega
  · rw [List.map_drop, h.2.1, ints_drop]
    dsimp only
    congr 1 <;> push_cast at * <;> omega
  · intro k hk
    dsimp only at hk
    exact h.2.2 k (by push_cast at *; omega)

theorem next_ok (L : LawfulStep p S idx) (C : S.Checked p idx) {it : LowerBoundedRangeIter T} {l : List T}
    (h : LFull idx it l) {x : Option T × LowerBoundedRangeIter T} (e : it.next S = .ok x) :
    x.1 = l.head? ∧ LFull idx x.2 l.tail := by
  have hu := p.le_usizeCount
  have := it.nth_ok L C h (n := 0) (by omega) (x := x) (by
    simp only [nth, L.forward_some it.current 0 it.current (by omega) (by simp), Res.bind_ok]
    exact e)
  simpa [List.head?_eq_getElem?] using this

end LowerBoundedRangeIter

omit [LinearOrder T] in
/-- A run that returned has looked at fewer elements than there are, and saw the right ones. -/
theorem runFront_ok {σ : Type} {call : σ → FrontOp → Res (Out T × σ)} {R : σ → List T → Prop}
    {A : Op → Prop} (hne : ∀ s l, R s l → l ≠ [])
    (hnext : ∀ s l x, R s l → call s .next = .ok x → x.1 = .item l.head? ∧ R x.2 l.tail)
    (hnth : ∀ s l n x, R s l → A (.nth n) → call s (.nth n) = .ok x →
      x.1 = .item l[n]? ∧ R x.2 (l.drop (n + 1)))
    (hmin : ∀ s l x, R s l → call s .min = .ok x →
      x.1 = .item l.head? ∧ x.2 = s ∧ ∃ s', R s' l.tail)
    (ops : List FrontOp) :
    ∀ {s : σ} {l : List T} {x : List (Out T) × σ}, R s l → (∀ op ∈ ops.map FrontOp.toOp, A op) →
    runFront call s ops = .ok x → x.1 = (listRun l (ops.map FrontOp.toOp)).1 ∧ needs ops < l.length := by
  induction ops with
  | nil => intro s l x h _ e; cases e; exact ⟨rfl, List.length_pos_iff.2 (hne _ _ h)⟩
  | cons op ops ih =>
    intro s l x h ha e
    obtain ⟨y, hy, e⟩ := Res.bind_eq_ok.1 e
    obtain ⟨z, hz, e⟩ := Res.bind_eq_ok.1 e
    cases e
    have ha' : ∀ op ∈ ops.map FrontOp.toOp, A op := fun o ho => ha o (List.mem_cons_of_mem _ ho)
    cases op with
    | next =>
      obtain ⟨h1, h2⟩ := hnext s l y h hy
      obtain ⟨h3, h4⟩ := ih h2 ha' hz
      rw [List.length_tail] at h4
      refine ⟨?_, by simp only [needs]; omega⟩
      simp only [List.map_cons, FrontOp.toOp, listRun, listCall]
      rw [h1, h3]
    | nth n =>
      obtain ⟨h1, h2⟩ := hnth s l n y h (ha _ List.mem_cons_self) hy
      obtain ⟨h3, h4⟩ := ih h2 ha' hz
      rw [List.length_drop] at h4
      refine ⟨?_, by simp only [needs]; omega⟩
      simp only [List.map_cons, FrontOp.toOp, listRun, listCall]
      rw [h1, h3]
    | min =>
      obtain ⟨h1, h2, s', h5⟩ := hmin s l y h hy
      rw [h2] at hz
      obtain ⟨h3, h4⟩ := ih h ha' hz
      have := List.length_pos_iff.2 (hne _ _ h5)
      rw [List.length_tail] at this
      refine ⟨?_, by simp only [needs]; omega⟩
      simp only [List.map_cons, FrontOp.toOp, listRun, listCall]
      rw [h1, h3]

theorem LowerBoundedRange.intoIter_ok (L : LawfulStep p S idx) (C : S.Checked p idx)
    {r : LowerBoundedRange T} {it : LowerBoundedRangeIter T} (e : r.intoIter S = .ok it) :
    idx it.current = r.start.firstIdx idx := by
  have hu := p.le_usizeCount
  unfold LowerBoundedRange.intoIter at e
  rcases r with ⟨⟨s | s⟩⟩ <;> dsimp only at e <;> obtain ⟨c, hc, e⟩ := Res.bind_eq_ok.1 e <;> cases e <;>
    simp only [LowerBound.firstIdx]
  · have := C.forward_ok L (by omega) hc; push_cast at this; exact this
  · cases hc; rfl

/-! ### `LowerBoundedSetIter` -/

/-- `l` is what remains of the pieces and then everything up to the greatest value of the type. -/
def LSFull (idx : T → Int) (it : LowerBoundedSetIter T) (l : List T) : Prop :=
  ∃ l1 l2, l = l1 ++ l2 ∧ SetRep idx it.setIter.rangeIters l1 ∧ LFull idx it.rangeIter l2

namespace LowerBoundedSetIter

theorem next_ok (L : LawfulStep p S idx) (C : S.Checked p idx) (F : Step.Fits p idx)
    (hp : p.overflowChecks = true) {it : LowerBoundedSetIter T} {l : List T} (h : LSFull idx it l)
    {x : Option T × LowerBoundedSetIter T} (e : it.next p S = .ok x) :
    x.1 = l.head? ∧ LSFull idx x.2 l.tail := by
  obtain ⟨l1, l2, rfl, h1, h2⟩ := h
  obtain ⟨⟨o, si⟩, hy, e⟩ := Res.bind_eq_ok.1 e
  obtain ⟨h3, h4⟩ := BoundedSetIter.next_ok L C F hp h1 hy
  dsimp only at h3 h4
  cases l1 with
  | nil =>
    cases h3
    obtain ⟨z, hz, e⟩ := Res.bind_eq_ok.1 e
    cases e
    obtain ⟨h5, h6⟩ := LowerBoundedRangeIter.next_ok L C h2 hz
    exact ⟨h5, [], _, rfl, h4, h6⟩
  | cons a l1 =>
    cases h3
    cases e
    exact ⟨rfl, l1, l2, rfl, h4, h2⟩

theorem nth_ok (L : LawfulStep p S idx) (C : S.Checked p idx) (F : Step.Fits p idx)
    (hp : p.overflowChecks = true) {it : LowerBoundedSetIter T} {l : List T} (h : LSFull idx it l)
    {n : Nat} (hn : n < p.usizeCount) {x : Option T × LowerBoundedSetIter T} (e : it.nth p S n = .ok x) :
    x.1 = l[n]? ∧ LSFull idx x.2 (l.drop (n + 1)) := by
  obtain ⟨l1, l2, rfl, h1, h2⟩ := h
  obtain ⟨k, hk, e⟩ := Res.bind_eq_ok.1 e
  have hk' := BoundedSetIter.len_ok L F hp h1 hk
  subst hk'
  obtain ⟨⟨o, si⟩, hy, e⟩ := Res.bind_eq_ok.1 e
  obtain ⟨h3, h4⟩ := BoundedSetIter.nth_ok L C F hp h1 hn hy
  dsimp only at h3 h4
  by_cases hc : n < l1.length
  · rw [List.getElem?_append_left hc, List.drop_append_of_le_length (by omega)]
    rw [List.getElem?_eq_getElem hc] at h3 ⊢
    subst h3
    cases e
    exact ⟨rfl, l1.drop (n + 1), l2, rfl, h4, h2⟩
  · rw [List.getElem?_append_right (by omega), List.drop_append]
    rw [List.drop_eq_nil_of_le (by omega)] at h4 ⊢
    rw [List.getElem?_eq_none_iff.2 (by omega : l1.length ≤ n)] at h3
    subst h3
    simp only [Platform.subUsize, if_pos (show l1.length ≤ n by omega), Res.bind_ok] at e
    obtain ⟨z, hz, e⟩ := Res.bind_eq_ok.1 e
    cases e
    obtain ⟨h5, h6⟩ := LowerBoundedRangeIter.nth_ok L C h2 (by omega) hz
    refine ⟨h5, [], _, rfl, h4, ?_⟩
    rw [show n + 1 - l1.length = n - l1.length + 1 by omega]
    exact h6

end LowerBoundedSetIter
end Rangetools
