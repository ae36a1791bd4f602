import Verif.Proofs.SetIter

/-!
# `into_iter`, `last`, and the lists of contained elements
-/

namespace Rangetools
variable {T : Type} [LinearOrder T] {p : Platform} {S : Step T} {idx : T → Int}

theorem Lists.unique {l l' : List T} {P : T → Bool} (h : Lists l P) (h' : Lists l' P) : l = l' := by
  have hp : l.Perm l' := by
    rw [List.perm_ext_iff_of_nodup (h.1.imp (fun h => ne_of_lt h)) (h'.1.imp (fun h => ne_of_lt h))]
    intro t
    rw [h.2, h'.2]
  exact hp.eq_of_pairwise (fun a b _ _ h1 h2 => absurd h1 (not_lt.2 (le_of_lt h2))) h.1 h'.1

/-- The iterator stands at the ends of the range. -/
def AtEnds (idx : T → Int) (r : BoundedRange T) (it : BoundedRangeIter T) : Prop :=
  idx it.current = r.start.firstIdx idx ∧ idx it.last = r.stop.lastIdx idx

omit [LinearOrder T] in
theorem AtEnds.representable {r : BoundedRange T} {it : BoundedRangeIter T} (h : AtEnds idx r it) :
    r.Representable idx := ⟨⟨_, h.1⟩, ⟨_, h.2⟩⟩

theorem AtEnds.lists_iff (L : LawfulStep p S idx) {r : BoundedRange T} {it : BoundedRangeIter T}
    (h : AtEnds idx r it) (l : List T) : Lists l r.contains ↔ Rep idx it l := by
  rw [r.lists_iff L h.representable, Rep, h.1, h.2]

theorem AtEnds.exists_rep (L : LawfulStep p S idx) {r : BoundedRange T} {it : BoundedRangeIter T}
    (_h : AtEnds idx r it) : ∃ l, Rep idx it l :=
  L.exists_list (fun _ => ⟨L.has_idx _, L.has_idx _⟩)

theorem intoIters_spec (L : LawfulStep p S idx) :
    ∀ {rs : List (BoundedRange T)}, (∀ r ∈ rs, r.Representable idx) →
    ∃ its, intoIters S rs = .ok its ∧ List.Forall₂ (AtEnds idx) rs its := by
  intro rs
  induction rs with
  | nil => intro _; exact ⟨[], rfl, .nil⟩
  | cons r rs ih =>
    intro h
    obtain ⟨it, e, h1, h2⟩ := r.intoIter_spec L (h r List.mem_cons_self)
    obtain ⟨its, e', h'⟩ := ih (fun r' hr => h r' (List.mem_cons_of_mem _ hr))
    refine ⟨it :: its, ?_, .cons ⟨h1, h2⟩ h'⟩
    simp only [intoIters, e, e', Res.bind_ok]; rfl

theorem noOverlap_lt {r r' : BoundedRange T} (h : NoOverlap r.stop r'.start) {x y : T}
    (hx : r.contains x = true) (hy : r'.contains y = true) : x < y := by
  rcases r with ⟨⟨s | s⟩, ⟨e | e⟩⟩ <;> rcases r' with ⟨⟨s' | s'⟩, ⟨e' | e'⟩⟩ <;>
    simp only [NoOverlap, BoundedRange.contains, Bool.and_eq_true, decide_eq_true_eq] at h hx hy <;>
    first
    | exact lt_of_lt_of_le hx.2 (le_trans h (le_of_lt hy.1))
    | exact lt_of_lt_of_le hx.2 (le_trans h hy.1)
    | exact lt_of_le_of_lt hx.2 (lt_of_le_of_lt h hy.1)
    | exact lt_of_le_of_lt hx.2 (lt_of_lt_of_le h hy.1)

/-- The pieces' lists, concatenated, list the set. -/
theorem pieces_lists {rs : List (BoundedRange T)} {ls : List (List T)}
    (hp : rs.Pairwise (fun r r' => NoOverlap r.stop r'.start))
    (h : List.Forall₂ (fun r l => Lists l (BoundedRange.contains r)) rs ls) :
    Lists ls.flatten (fun t => rs.any (fun r => r.contains t)) := by
  induction h with
  | nil => exact ⟨.nil, by simp⟩
  | @cons r l rs ls hr hrs ih =>
    rw [List.pairwise_cons] at hp
    obtain ⟨ih1, ih2⟩ := ih hp.2
    rw [List.flatten_cons]
    constructor
    · rw [List.pairwise_append]
      refine ⟨hr.1, ih1, ?_⟩
      intro x hx y hy
      rw [hr.2] at hx
      rw [ih2, List.any_eq_true] at hy
      obtain ⟨r', hr', hy⟩ := hy
      exact noOverlap_lt (hp.1 r' hr') hx hy
    · intro t
      simp only [List.mem_append, List.any_cons, Bool.or_eq_true, hr.2, ih2]

theorem atEnds_rep (L : LawfulStep p S idx) {rs : List (BoundedRange T)}
    {its : List (BoundedRangeIter T)} (h : List.Forall₂ (AtEnds idx) rs its) :
    ∃ ls, List.Forall₂ (Rep idx) its ls ∧
      List.Forall₂ (fun r l => Lists l (BoundedRange.contains r)) rs ls := by
  induction h with
  | nil => exact ⟨[], .nil, .nil⟩
  | @cons r it rs its hr hrs ih =>
    obtain ⟨ls, h1, h2⟩ := ih
    obtain ⟨l, hl⟩ := hr.exists_rep L
    exact ⟨l :: ls, .cons hl h1, .cons ((hr.lists_iff L l).2 hl) h2⟩

theorem atEnds_setRep (L : LawfulStep p S idx) {rs : List (BoundedRange T)}
    {its : List (BoundedRangeIter T)} (hp : rs.Pairwise (fun r r' => NoOverlap r.stop r'.start))
    (h : List.Forall₂ (AtEnds idx) rs its) (l : List T) :
    Lists l (fun t => rs.any (fun r => r.contains t)) ↔ SetRep idx its l := by
  obtain ⟨ls, h1, h2⟩ := atEnds_rep L h
  have hl := pieces_lists hp h2
  constructor
  · intro h'; exact ⟨ls, h1, h'.unique hl⟩
  · rintro ⟨ls', h1', rfl⟩
    have : ls' = ls := by
      clear hl h2 h hp
      induction h1' generalizing ls with
      | nil => cases h1; rfl
      | cons hr hrs ih =>
        cases h1 with
        | cons hr1 hrs1 =>
          rw [ih _ hrs1, L.map_inj (hr.trans hr1.symm)]
    rw [this]; exact hl

/-- `into_iter` of a set whose pieces' ends exist. -/
theorem BoundedSet.intoIter_spec (L : LawfulStep p S idx) {s : BoundedSet T} (hs : Pieces s.ranges)
    (h : ∀ r ∈ s.ranges, r.Representable idx) :
    ∃ it, s.intoIter S = .ok it ∧ List.Forall₂ (AtEnds idx) s.ranges it.rangeIters ∧
      ∀ l, Lists l s.contains ↔ SetRep idx it.rangeIters l := by
  obtain ⟨its, e, h'⟩ := intoIters_spec L h
  refine ⟨⟨its⟩, ?_, h', atEnds_setRep L hs.2 h'⟩
  simp only [BoundedSet.intoIter, e, Res.bind_ok]; rfl

/-! ### `last` -/

theorem BoundedRangeIter.lastItem_spec (L : LawfulStep p S idx) {it : BoundedRangeIter T} {l : List T}
    (h : Rep idx it l) : it.lastItem = l.getLast? := by
  have hlen := h.length
  unfold BoundedRangeIter.lastItem
  by_cases hle : idx it.current ≤ idx it.last
  · rw [if_neg (by rw [gt_iff_lt, L.lt_iff]; omega), List.getLast?_eq_getElem?,
      h.getElem? L (t := it.last) (by omega) (by omega)]
  · rw [if_pos (by rw [gt_iff_lt, L.lt_iff]; omega), h.eq_nil.2 (by omega)]; rfl

/-- The provided `last`, a loop over `next`, when the last element has a successor. -/
theorem BoundedRangeIter.foldLast_spec (L : LawfulStep p S idx) :
    ∀ {l : List T} {it : BoundedRangeIter T}, Rep idx it l → FrontOk idx it → ∀ (fuel : Nat) (acc : Option T),
    l.length < fuel → it.foldLast S fuel acc = .ok (some (l.getLast?.or acc)) := by
  intro l
  induction l with
  | nil =>
    intro it h hf fuel acc hfuel
    obtain ⟨fuel, rfl⟩ : ∃ k, fuel = k + 1 := ⟨fuel - 1, by simp at hfuel; omega⟩
    have := h.eq_nil.1 rfl
    obtain ⟨it', e, _⟩ := it.next_spec L h (fun hle => by omega)
    simp only [BoundedRangeIter.foldLast, e, Res.bind_ok, List.head?_nil]; rfl
  | cons a l ih =>
    intro it h hf fuel acc hfuel
    obtain ⟨fuel, rfl⟩ : ∃ k, fuel = k + 1 := ⟨fuel - 1, by simp at hfuel; omega⟩
    obtain ⟨it', e, hr, hl, h1, h2⟩ := it.next_spec L h
      (fun hle => L.has_between (L.has_idx it.current) hf (by omega) (by omega))
    simp only [BoundedRangeIter.foldLast, e, Res.bind_ok, List.head?_cons]
    rw [ih (it := it') hr
      (L.has_between (L.has_idx it'.current) hf (by omega) (by rw [hl]; omega)) fuel (some a)
      (by simpa using hfuel)]
    cases l <;> simp [List.getLast?_cons]

theorem BoundedSetIter.lastItem_spec (L : LawfulStep p S idx) {it : BoundedSetIter T} {l : List T}
    (h : SetRep idx it.rangeIters l) (hs : ∀ i ∈ it.rangeIters, Small p idx i)
    (hf : ∀ i ∈ it.rangeIters, FrontOk idx i) (fuel : Nat) (hfuel : l.length < fuel) :
    it.lastItem p S fuel = .ok (some l.getLast?) := by
  obtain ⟨ls, hls, rfl⟩ := h
  obtain ⟨its₀, its', ls₀, ls', e1, e2, e3, e4, e5, e6⟩ :=
    BoundedSetIter.popEmpty_spec L (forall₂_reverse hls) (fun i hi => hs i (List.mem_reverse.1 hi))
  simp only [BoundedSetIter.lastItem, e3, Res.bind_ok]
  have e2' : ls = ls'.reverse ++ ls₀.reverse := by
    rw [← List.reverse_reverse ls, e2, List.reverse_append]
  rw [e2', List.flatten_append,
    flatten_nil (ls := ls₀.reverse) (fun x hx => e5 x (List.mem_reverse.1 hx)),
    List.append_nil] at hfuel ⊢
  cases e4 with
  | nil => rfl
  | @cons i x is xs hr hrs =>
    have hi : i ∈ it.rangeIters := by rw [← List.mem_reverse, e1]; simp
    have hx : x ≠ [] := e6 x xs rfl
    have ef : (x :: xs).reverse.flatten = xs.reverse.flatten ++ x := by simp
    rw [ef] at hfuel ⊢
    rw [List.length_append] at hfuel
    rw [List.getLast?_append_of_ne_nil _ hx]
    show i.foldLast S fuel none = _
    rw [BoundedRangeIter.foldLast_spec L hr (hf i hi) fuel none (by omega), Option.or_none]

end Rangetools
