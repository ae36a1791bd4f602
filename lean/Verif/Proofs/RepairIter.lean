import Verif.Spec.RepairIter
import Verif.Proofs.StdIter
import Verif.Proofs.Schedule

/-!
# The repaired iterators
-/

namespace Rangetools
variable {T : Type} [LinearOrder T] {p : Platform} {S : Step T} {idx : T → Int}

/-- The pieces still have to yield exactly `l`. -/
def InclReps (idx : T → Int) (its : List (RangeInclusive T)) (l : List T) : Prop :=
  ∃ ls, List.Forall₂ (InclRep idx) its ls ∧ l = ls.flatten

theorem InclRep.done_iff (L : LawfulStep p S idx) {r : RangeInclusive T} {l : List T} (h : InclRep idx r l) :
    r.done = true ↔ l = [] := by
  rcases h.cases L with ⟨hd, hl⟩ | ⟨hd, -, hle, hl⟩
  · exact ⟨fun _ => hl, fun _ => hd⟩
  · have hlen := span_length hl
    refine ⟨fun h => by simp [hd] at h, fun h => ?_⟩
    subst h
    simp only [List.length_nil] at hlen
    omega

/-- Dropping the spent pieces leaves what there is to yield as it is. -/
theorem dropDone_spec (L : LawfulStep p S idx) {its : List (RangeInclusive T)} {ls : List (List T)}
    (h : List.Forall₂ (InclRep idx) its ls) :
    ∃ ls', List.Forall₂ (InclRep idx) (its.dropWhile RangeInclusive.done) ls' ∧ ls'.flatten = ls.flatten ∧
      ls'.reverse.flatten = ls.reverse.flatten ∧ ∀ x xs, ls' = x :: xs → x ≠ [] := by
  induction h with
  | nil => exact ⟨[], .nil, rfl, rfl, by simp⟩
  | @cons i l is ls hi his ih =>
    by_cases hd : i.done = true
    · obtain ⟨ls', h1, h2, h3, h4⟩ := ih
      have hl := (hi.done_iff L).mp hd
      subst hl
      refine ⟨ls', ?_, by simpa using h2, by simpa using h3, h4⟩
      rw [List.dropWhile_cons, if_pos hd]
      exact h1
    · refine ⟨l :: ls, ?_, rfl, rfl, fun x xs e => ?_⟩
      · rw [List.dropWhile_cons, if_neg hd]
        exact .cons hi his
      · cases e
        exact fun hl => hd ((hi.done_iff L).mpr hl)

theorem RepairedSetIter.next_spec (L : LawfulStep p S idx) {it : RepairedSetIter T} {l : List T}
    (h : InclReps idx it.rangeIters l) :
    ∃ it', it.next S = .ok (l.head?, it') ∧ InclReps idx it'.rangeIters l.tail := by
  obtain ⟨ls, hls, rfl⟩ := h
  obtain ⟨ls', h1, h2, -, h4⟩ := dropDone_spec L hls
  rw [← h2, RepairedSetIter.next]
  cases e : it.rangeIters.dropWhile RangeInclusive.done with
  | nil => rw [e] at h1; cases h1; exact ⟨⟨[]⟩, rfl, [], .nil, rfl⟩
  | cons i is =>
    rw [e] at h1
    cases h1 with
    | @cons _ x _ xs hi his =>
      obtain ⟨i', e', hi'⟩ := RangeInclusive.next_spec L hi
      obtain ⟨a, x, rfl⟩ := List.exists_cons_of_ne_nil (h4 x xs rfl)
      simp only [e', Res.bind_ok]
      exact ⟨⟨i' :: is⟩, rfl, x :: xs, .cons hi' his, by simp⟩

theorem RepairedSetIter.nextBack_spec (L : LawfulStep p S idx) {it : RepairedSetIter T} {l : List T}
    (h : InclReps idx it.rangeIters l) :
    ∃ it', it.nextBack S = .ok (l.getLast?, it') ∧ InclReps idx it'.rangeIters l.dropLast := by
  obtain ⟨ls, hls, rfl⟩ := h
  obtain ⟨ls', h1, -, h3, h4⟩ := dropDone_spec L (List.rel_reverse hls)
  rw [List.reverse_reverse] at h3
  rw [← h3, RepairedSetIter.nextBack]
  cases e : it.rangeIters.reverse.dropWhile RangeInclusive.done with
  | nil => rw [e] at h1; cases h1; exact ⟨⟨[]⟩, rfl, [], .nil, rfl⟩
  | cons i is =>
    rw [e] at h1
    cases h1 with
    | @cons _ x _ xs hi his =>
      obtain ⟨i', e', hi'⟩ := RangeInclusive.nextBack_spec L hi
      have hx := h4 x xs rfl
      have ef : (x :: xs).reverse.flatten = xs.reverse.flatten ++ x := by simp
      simp only [e', Res.bind_ok]
      refine ⟨⟨(i' :: is).reverse⟩, ?_, (x.dropLast :: xs).reverse, List.rel_reverse (.cons hi' his), ?_⟩
      · rw [ef, List.getLast?_append_of_ne_nil _ hx]; rfl
      · rw [ef, List.dropLast_append_of_ne_nil hx]; simp

theorem RepairedSetIter.nth_spec (L : LawfulStep p S idx) (n : Nat) :
    ∀ {it : RepairedSetIter T} {l : List T}, InclReps idx it.rangeIters l →
    ∃ it', it.nth S n = .ok (l[n]?, it') ∧ InclReps idx it'.rangeIters (l.drop (n + 1)) := by
  induction n with
  | zero =>
    intro it l h
    simpa [List.head?_eq_getElem?, RepairedSetIter.nth] using RepairedSetIter.next_spec L h
  | succ n ih =>
    intro it l h
    obtain ⟨it', e, h'⟩ := RepairedSetIter.next_spec L h
    simp only [RepairedSetIter.nth, e, Res.bind_ok]
    cases l with
    | nil => exact ⟨it', rfl, h'⟩
    | cons a l => exact ih h'

theorem RepairedSetIter.nthBack_spec (L : LawfulStep p S idx) (n : Nat) :
    ∀ {it : RepairedSetIter T} {l : List T}, InclReps idx it.rangeIters l →
    ∃ it', it.nthBack S n = .ok (l.reverse[n]?, it') ∧
      InclReps idx it'.rangeIters (l.reverse.drop (n + 1)).reverse := by
  induction n with
  | zero =>
    intro it l h
    simpa [← List.head?_eq_getElem?, List.head?_reverse, reverse_drop_reverse, ← List.dropLast_eq_take,
      RepairedSetIter.nthBack] using RepairedSetIter.nextBack_spec L h
  | succ n ih =>
    intro it l h
    obtain ⟨it', e, h'⟩ := RepairedSetIter.nextBack_spec L h
    simp only [RepairedSetIter.nthBack, e, Res.bind_ok]
    rcases List.eq_nil_or_concat l with rfl | ⟨l, a, rfl⟩
    · exact ⟨it', rfl, h'⟩
    · simpa using ih h'

theorem RepairedSetIter.size_spec (L : LawfulStep p S idx) {its : List (RangeInclusive T)} {ls : List (List T)}
    (h : List.Forall₂ (InclRep idx) its ls) : ∀ acc : Nat, acc + ls.flatten.length < p.usizeCount →
    RepairedSetIter.size p S acc its = .ok (acc + ls.flatten.length) := by
  induction h with
  | nil => intro acc _; rfl
  | @cons i l is ls hi his ih =>
    intro acc hacc
    simp only [List.flatten_cons, List.length_append] at hacc ⊢
    simp only [RepairedSetIter.size, (RangeInclusive.sizeHint_spec L hi (p := p) (by omega)).2, Res.bind_ok,
      Platform.addUsize]
    rw [if_pos (by omega)]
    simp only [Res.bind_ok]
    rw [ih (acc + l.length) (by omega)]
    congr 1; omega

theorem RepairedSetIter.call_spec (L : LawfulStep p S idx) (it : RepairedSetIter T) (l : List T) (op : Op)
    (h : InclReps idx it.rangeIters l) (_ha : op.skipFront < p.usizeCount ∧ op.skipBack < p.usizeCount)
    (hs : op.isSize = true → l.length < p.usizeCount) :
    ∃ it', it.call p S op = .ok ((listCall l op).1, it') ∧ InclReps idx it'.rangeIters (listCall l op).2 := by
  have hsz : l.length < p.usizeCount → RepairedSetIter.size p S 0 it.rangeIters = .ok l.length := by
    obtain ⟨ls, hls, rfl⟩ := h
    intro hlt
    rw [RepairedSetIter.size_spec L hls 0 (by omega), Nat.zero_add]
  cases op with
  | next =>
    obtain ⟨r', e, hr⟩ := RepairedSetIter.next_spec L h
    exact ⟨r', by simp only [RepairedSetIter.call, e, Res.bind_ok, listCall]; rfl, hr⟩
  | nextBack =>
    obtain ⟨r', e, hr⟩ := RepairedSetIter.nextBack_spec L h
    exact ⟨r', by simp only [RepairedSetIter.call, e, Res.bind_ok, listCall]; rfl, hr⟩
  | nth n =>
    obtain ⟨r', e, hr⟩ := RepairedSetIter.nth_spec L n h
    exact ⟨r', by simp only [RepairedSetIter.call, e, Res.bind_ok, listCall]; rfl, hr⟩
  | nthBack n =>
    obtain ⟨r', e, hr⟩ := RepairedSetIter.nthBack_spec L n h
    exact ⟨r', by simp only [RepairedSetIter.call, e, Res.bind_ok, listCall]; rfl, hr⟩
  | sizeHint => exact ⟨it, by simp only [RepairedSetIter.call, hsz (hs rfl), Res.bind_ok, listCall]; rfl, h⟩
  | len => exact ⟨it, by simp only [RepairedSetIter.call, hsz (hs rfl), Res.bind_ok, listCall]; rfl, h⟩
  | count => exact ⟨it, by simp only [RepairedSetIter.call, hsz (hs rfl), Res.bind_ok, listCall]; rfl, h⟩
  | min =>
    obtain ⟨r', e, hr⟩ := RepairedSetIter.next_spec L h
    exact ⟨it, by simp only [RepairedSetIter.call, e, Res.bind_ok, listCall]; rfl, h⟩
  | max =>
    obtain ⟨r', e, hr⟩ := RepairedSetIter.nextBack_spec L h
    exact ⟨it, by simp only [RepairedSetIter.call, e, Res.bind_ok, listCall]; rfl, h⟩

/-- The repaired `into_iter` of a range never panics, and has to yield what the range contains. -/
theorem BoundedRange.intoIterRepaired_spec (L : LawfulStep p S idx) (r : BoundedRange T) :
    ∃ it l, r.intoIterRepaired S = .ok it ∧ Lists l r.contains ∧ InclRep idx it l := by
  cases he : r.isEmpty with
  | true =>
    have hl : Lists ([] : List T) r.contains := by
      refine ⟨List.Pairwise.nil, fun t => ?_⟩
      rcases r with ⟨⟨s | s⟩, ⟨e | e⟩⟩ <;>
        simp [BoundedRange.isEmpty, BoundedRange.contains] at he ⊢ <;> intro h <;>
        first
          | exact lt_of_lt_of_le he h
          | exact lt_of_le_of_lt he h
          | exact le_trans he h
          | exact le_trans he (le_of_lt h)
    rcases r with ⟨⟨s | s⟩, e⟩
    · exact ⟨⟨s, s, true⟩, [], by simp [BoundedRange.intoIterRepaired, he], hl, rfl⟩
    · exact ⟨⟨s, s, true⟩, [], by simp [BoundedRange.intoIterRepaired, he], hl, rfl⟩
  | false =>
    obtain ⟨it, e, h1, h2⟩ := r.intoIter_spec L (r.representable_of_nonempty L he)
    have hat : AtEnds idx r it := ⟨h1, h2⟩
    obtain ⟨l, hl⟩ := hat.exists_rep L
    exact ⟨⟨it.current, it.last, false⟩, l, by simp only [BoundedRange.intoIterRepaired, he, e]; rfl,
      (hat.lists_iff L l).2 hl, hl⟩

theorem intoItersRepaired_spec (L : LawfulStep p S idx) (rs : List (BoundedRange T)) :
    ∃ its ls, intoItersRepaired S rs = .ok its ∧ List.Forall₂ (fun r l => Lists l (BoundedRange.contains r)) rs ls ∧
      List.Forall₂ (InclRep idx) its ls := by
  induction rs with
  | nil => exact ⟨[], [], rfl, .nil, .nil⟩
  | cons r rs ih =>
    obtain ⟨its, ls, e, h1, h2⟩ := ih
    obtain ⟨it, l, e', h1', h2'⟩ := r.intoIterRepaired_spec L
    exact ⟨it :: its, l :: ls, by simp only [intoItersRepaired, e, e', Res.bind_ok]; rfl, .cons h1' h1, .cons h2' h2⟩

end Rangetools
