import Verif.Spec.History
import Verif.Props.Size
import Verif.Props.Sweep
import Verif.Props.Dispatch
import Verif.Props.Counting

/-!
# C92: a set that a program keeps changing
-/

namespace Rangetools
open Iv Samples
variable {T : Type} [LinearOrder T]

namespace Write

theorem lastWord_cons (w : Write T) (ws : List (Write T)) (t : T) (b : Bool) :
    lastWord (w :: ws) t b = lastWord ws t (if w.touches t then w.add else b) := by
  unfold lastWord
  by_cases h : w.touches t = true
  · rw [List.filter_cons_of_pos h, List.getLast?_cons]
    cases (ws.filter (touches t)).getLast? <;> simp [h]
  · rw [List.filter_cons_of_neg h]
    simp [h]

/-- One change. -/
theorem run_contains (w : Write T) (s : Any T) (hs : s.Fresh) (hw : (w.ty.embed w.arg).Fresh)
    (hu : w.add = false → w.ty = .ubs → ∀ i, s ≠ .inner (.lbs i)) :
    ∃ c, w.run s = .ok c ∧ c.Fresh ∧ ∀ t, c.contains t = if w.touches t then w.add else s.contains t := by
  unfold run
  cases ha : w.add
  · obtain ⟨c, hc, mc⟩ := C03_complement_contains _ hw
    obtain ⟨d, hd, md⟩ := C02_inter_contains_partial s (.inner c) hs trivial (by
      have hk := (Any.complement_comp (w.ty.embed w.arg))
      obtain ⟨c', hc', -, -, hk⟩ := hk
      rw [hc] at hc'
      injection hc' with hc'
      subst hc'
      have hu := hu ha
      unfold Lossless
      cases c with
      | lbs c =>
        have ht : w.ty = .ubs := by
          generalize w.arg = y at hk hu
          cases h : w.ty <;> first
            | rfl
            | (exfalso
               obtain ⟨add, ty, arg⟩ := w
               simp only at h
               subst h
               simp [Ty.embed, Any.toInner, Inner.kind, complKind] at hk)
        have hu := hu ht
        cases s with
        | inner i =>
          cases i with
          | lbs i => exact absurd rfl (hu i)
          | _ => trivial
        | _ => trivial
      | _ => cases s.toInner <;> trivial)
    refine ⟨.inner d, ?_, trivial, fun t => ?_⟩
    · rw [if_neg (by simp), hc, Res.bind_ok, hd]; rfl
    · rw [Any.contains_inner, md, Any.contains_inner, mc, touches, C79_contains]
      cases s.contains t <;> cases Any.contains (w.ty.embed w.arg) t <;> rfl
  · obtain ⟨c, hc, mc⟩ := C01_union_contains s _ hs hw
    obtain ⟨c', hc', -, -, hf⟩ := Any.union_comp s (w.ty.embed w.arg)
    rw [hc] at hc'
    injection hc' with hc'
    subst hc'
    refine ⟨c, by simpa using hc, ?_, fun t => ?_⟩
    · rcases hf with rfl | rfl | ⟨i, rfl⟩
      · exact hs
      · exact hw
      · trivial
    · rw [mc, touches, C79_contains]
      cases s.contains t <;> cases Any.contains (w.ty.embed w.arg) t <;> rfl

/-- One change of a set by a bounded operand leaves its type. -/
theorem run_type (w : Write T) (hw : w.Spot) (a : Ty) (ha : a.IsSet) (x : a.Val T) :
    ∃ z : a.Val T, w.run (a.embed x) = .ok (a.embed z) := by
  obtain ⟨add, b, y⟩ := w
  unfold run
  cases add
  · obtain ⟨c, hc⟩ := (C04_no_panic (b.embed y) (b.embed y)).2.2.1
    have h := C79_complement b y
    rw [hc] at h
    cases h1 : b.complementImpl.complement y with
    | panic m => rw [h1] at h; cases h
    | ok c' =>
      rw [h1] at h
      injection h with h
      obtain ⟨d, hd⟩ := (C04_no_panic (a.embed x) (.inner c)).2.1
      have h2 := C79_inter a b.complement x c'
      rw [h, hd] at h2
      cases h3 : (a.interImpl b.complement).intersection x c' with
      | panic m => rw [h3] at h2; cases h2
      | ok z =>
        rw [h3] at h2
        injection h2 with h2
        have hab : a.inter b.complement = a := by
          simp only [Spot, Ty.IsSet, List.mem_cons, List.not_mem_nil, or_false] at hw ha
          rcases hw with rfl | rfl | rfl | rfl | rfl <;> rcases ha with rfl | rfl | rfl | rfl <;> rfl
        have : ∃ z' : a.Val T, a.embed z' = .inner d := by
          rw [← h2]
          clear h2 h3
          revert z
          rw [hab]
          exact fun z => ⟨z, rfl⟩
        obtain ⟨z', hz'⟩ := this
        refine ⟨z', ?_⟩
        rw [if_neg (by simp), hc, Res.bind_ok, hd, hz']; rfl
  · obtain ⟨c, hc⟩ := (C04_no_panic (a.embed x) (b.embed y)).1
    have h := C79_union a b x y
    rw [hc] at h
    cases h1 : (a.unionImpl b).union x y with
    | panic m => rw [h1] at h; cases h
    | ok z =>
      rw [h1] at h
      injection h with h
      have hab : a.union b = a := by
        simp only [Spot, Ty.IsSet, List.mem_cons, List.not_mem_nil, or_false] at hw ha
        rcases hw with rfl | rfl | rfl | rfl | rfl <;> rcases ha with rfl | rfl | rfl | rfl <;> rfl
      have : ∃ z' : a.Val T, a.embed z' = c := by
        rw [← h]
        clear h h1
        revert z
        rw [hab]
        exact fun z => ⟨z, rfl⟩
      obtain ⟨z', hz'⟩ := this
      exact ⟨z', by rw [if_pos rfl, hc, hz']⟩

end Write

/-- C92. Start with any value and make any changes, of any types, except that no `UpperBoundedSet` is removed: nothing
panics, and an element is in the result if the last change about it was an insertion, or if there was none and it was there
from the start. -/
theorem C92_last_word (ws : List (Write T)) (s : Any T) (hs : s.Fresh) (hw : ∀ w ∈ ws, (w.ty.embed w.arg).Fresh)
    (hu : ∀ w ∈ ws, w.add = false → w.ty ≠ .ubs) :
    ∃ c, Write.runAll ws s = .ok c ∧ ∀ t, c.contains t = Write.lastWord ws t (s.contains t) := by
  induction ws generalizing s with
  | nil => exact ⟨s, rfl, fun t => rfl⟩
  | cons w ws ih =>
    obtain ⟨c, hc, fc, mc⟩ := w.run_contains s hs (hw w (by simp)) (fun h h' => absurd h' (hu w (by simp) h))
    obtain ⟨d, hd, md⟩ := ih c fc (fun w hw' => hw w (by simp [hw'])) (fun w hw' => hu w (by simp [hw']))
    refine ⟨d, by rw [Write.runAll, hc, Res.bind_ok, hd], fun t => ?_⟩
    rw [md, mc, Write.lastWord_cons]

/-- C92. With bounded operands a set of any of the four types keeps its type, so the changes can be made in a loop; the last
change about an element decides. -/
theorem C92_loop (ws : List (Write T)) (hb : ∀ w ∈ ws, w.Spot) (a : Ty) (ha : a.IsSet) (x : a.Val T)
    (hw : ∀ w ∈ ws, (w.ty.embed w.arg).Fresh) :
    ∃ z : a.Val T, Write.runAll ws (a.embed x) = .ok (a.embed z) ∧
      ∀ t, a.contains z t = Write.lastWord ws t (a.contains x t) := by
  have hx : (a.embed x).Fresh := by
    simp only [Ty.IsSet, List.mem_cons, List.not_mem_nil, or_false] at ha
    rcases ha with rfl | rfl | rfl | rfl <;> trivial
  obtain ⟨c, hc, mc⟩ := C92_last_word ws (a.embed x) hx hw (fun w hw' _ h => by
    have := hb w hw'
    simp [Write.Spot, h] at this)
  have : ∃ z : a.Val T, Write.runAll ws (a.embed x) = .ok (a.embed z) := by
    clear hc mc hx hw
    induction ws generalizing x with
    | nil => exact ⟨x, rfl⟩
    | cons w ws ih =>
      obtain ⟨y, hy⟩ := w.run_type (hb w (by simp)) a ha x
      obtain ⟨z, hz⟩ := ih (fun w hw => hb w (by simp [hw])) y
      exact ⟨z, by rw [Write.runAll, hy, Res.bind_ok, hz]⟩
  obtain ⟨z, hz⟩ := this
  refine ⟨z, hz, fun t => ?_⟩
  rw [hz] at hc
  injection hc with hc
  rw [C79_contains, C79_contains, hc, mc]

/-- C92. The invariant is kept, and each change of one range by another adds at most one piece. -/
theorem C92_pieces (ws : List (Write T)) (s : Any T) (hs : s.toInner.Normal)
    (hw : ∀ w ∈ ws, (w.ty.embed w.arg).toInner.Normal) (h1 : ∀ w ∈ ws, (w.ty.embed w.arg).toInner.size ≤ 1) :
    ∃ c, Write.runAll ws s = .ok c ∧ c.toInner.Normal ∧ c.toInner.size ≤ s.toInner.size + ws.length := by
  induction ws generalizing s with
  | nil => exact ⟨s, rfl, hs, le_rfl⟩
  | cons w ws ih =>
    have hn := hw w (by simp)
    have hz := h1 w (by simp)
    have : ∃ c, w.run s = .ok c ∧ c.toInner.Normal ∧ c.toInner.size ≤ s.toInner.size + 1 := by
      unfold Write.run
      cases w.add
      · obtain ⟨-, -, ⟨c, hc, nc⟩, -⟩ := C06_ops_preserve (w.ty.embed w.arg) s hn hs
        obtain ⟨c', hc', zc⟩ := C68_complement (w.ty.embed w.arg)
        rw [hc] at hc'; injection hc' with hc'; subst hc'
        obtain ⟨-, ⟨d, hd, nd⟩, -⟩ := C06_ops_preserve s (.inner c) hs nc
        obtain ⟨d', hd', zd⟩ := C68_inter s (.inner c) hs nc
        rw [hd] at hd'; injection hd' with hd'; subst hd'
        refine ⟨.inner d, ?_, nd, ?_⟩
        · rw [if_neg (by simp), hc, Res.bind_ok, hd]; rfl
        · simp only [Any.toInner] at zd ⊢
          omega
      · obtain ⟨⟨c, hc, nc⟩, -⟩ := C06_ops_preserve s _ hs hn
        obtain ⟨c', hc', zc⟩ := C68_union s _ hs hn
        rw [hc] at hc'; injection hc' with hc'; subst hc'
        exact ⟨c, by simpa using hc, nc, by omega⟩
    obtain ⟨c, hc, nc, zc⟩ := this
    obtain ⟨d, hd, nd, zd⟩ := ih c nc (fun w hw' => hw w (by simp [hw'])) (fun w hw' => h1 w (by simp [hw']))
    exact ⟨d, by rw [Write.runAll, hc, Res.bind_ok, hd], nd, by rw [List.length_cons]; omega⟩

/-- C92. The changes that matter are the last ones: two histories in which the same change comes last for each element give
the same members; in particular neighbouring changes that are of the same sort, or about different elements, can be
exchanged. -/
theorem C92_exchange (us vs : List (Write T)) (v w : Write T) (h : v.add = w.add ∨ ∀ t, ¬(v.touches t ∧ w.touches t))
    (t : T) (b : Bool) : Write.lastWord (us ++ v :: w :: vs) t b = Write.lastWord (us ++ w :: v :: vs) t b := by
  induction us generalizing b with
  | nil =>
    simp only [List.nil_append, Write.lastWord_cons]
    congr 1
    rcases h with h | h
    · split <;> split <;> simp [h]
    · have := h t
      split <;> split <;> simp_all
  | cons u us ih => simp only [List.cons_append, Write.lastWord_cons, ih]

example : ∃ v w : Write Int, v.add ≠ w.add ∧ (∀ t, ¬(v.touches t ∧ w.touches t)) ∧ v.touches 1 ∧ w.touches 8 := by
  refine ⟨⟨true, .range, ⟨0, 6⟩⟩, ⟨false, .range, ⟨6, 9⟩⟩, by decide, fun t h => ?_, by decide, by decide⟩
  simp only [Write.touches, Ty.contains, Range.contains, Bool.and_eq_true, decide_eq_true_eq] at h
  omega

/-- C92. So the two programs give collections with the same members. -/
theorem C92_exchange_runs (us vs : List (Write T)) (v w : Write T) (h : v.add = w.add ∨ ∀ t, ¬(v.touches t ∧ w.touches t))
    (s : Any T) (hs : s.Fresh) (hw : ∀ x ∈ us ++ v :: w :: vs, (x.ty.embed x.arg).Fresh)
    (hu : ∀ x ∈ us ++ v :: w :: vs, x.add = false → x.ty ≠ .ubs) :
    ∃ c d, Write.runAll (us ++ v :: w :: vs) s = .ok c ∧ Write.runAll (us ++ w :: v :: vs) s = .ok d ∧
      ∀ t, c.contains t = d.contains t := by
  have hmem : ∀ x, x ∈ us ++ w :: v :: vs → x ∈ us ++ v :: w :: vs := fun x hx => by
    simp only [List.mem_append, List.mem_cons] at hx ⊢
    tauto
  obtain ⟨c, hc, mc⟩ := C92_last_word _ s hs hw hu
  obtain ⟨d, hd, md⟩ := C92_last_word (us ++ w :: v :: vs) s hs (fun x hx => hw x (hmem x hx)) (fun x hx => hu x (hmem x hx))
  exact ⟨c, d, hc, hd, fun t => by rw [mc, md, C92_exchange us vs v w h]⟩

/-- Two insertions, in either order. -/
example :
    let v : Write Int := ⟨true, .range, ⟨0, 3⟩⟩
    let w : Write Int := ⟨true, .range, ⟨3, 6⟩⟩
    v.add = w.add ∧ Write.runAll [v, w] (.inner (.bs ⟨[]⟩)) = .ok (.inner (.bs ⟨[co 0 3, co 3 6]⟩)) ∧
      Write.runAll [w, v] (.inner (.bs ⟨[]⟩)) = .ok (.inner (.bs ⟨[co 0 3, co 3 6]⟩)) := by
  refine ⟨rfl, ?_, ?_⟩ <;> decide +kernel

/-- Insert 0..6, remove 2..=3, insert 5..9, remove 8..20: the `BoundedSet` keeps its type. -/
def someWrites : List (Write Int) :=
  [⟨true, .range, ⟨0, 6⟩⟩, ⟨false, .rangeInclusive, ⟨2, 3, false⟩⟩, ⟨true, .br, ⟨.included 5, .excluded 9⟩⟩,
    ⟨false, .range, ⟨8, 20⟩⟩]

example : (∀ w ∈ someWrites, w.Spot) ∧ (∀ w ∈ someWrites, (w.ty.embed w.arg).Fresh) ∧
    (∀ w ∈ someWrites, (w.ty.embed w.arg).toInner.Normal ∧ (w.ty.embed w.arg).toInner.size ≤ 1) ∧ Ty.bs.IsSet ∧
    Write.runAll someWrites (.inner (.bs ⟨[]⟩)) = .ok (.inner (.bs ⟨[co 0 2, ⟨.excluded 3, .excluded 8⟩]⟩)) ∧
    [-1, 1, 2, 3, 5, 7, 8].map (Write.lastWord someWrites · false) = [false, true, false, false, true, true, false] := by
  refine ⟨by simp [someWrites, Write.Spot], ?_, ?_, by simp [Ty.IsSet], by decide +kernel, by decide +kernel⟩
  · intro w hw
    simp only [someWrites, List.mem_cons, List.not_mem_nil, or_false] at hw
    rcases hw with rfl | rfl | rfl | rfl <;> trivial
  · intro w hw
    simp only [someWrites, List.mem_cons, List.not_mem_nil, or_false] at hw
    rcases hw with rfl | rfl | rfl | rfl <;> exact ⟨trivial, le_rfl⟩

/-- C92. Removing an `UpperBoundedSet` from a `LowerBoundedSet` goes wrong: from `[0..2, 3..]` remove
`[..1, 5..6]`, and 4 is lost too. -/
theorem C92_ubs_counterexample :
    ∃ (s : LowerBoundedSet Int) (u : UpperBoundedSet Int) (c : Inner Int), Inner.Normal (.lbs s) ∧ Inner.Normal (.ubs u) ∧
      Write.run ⟨false, .ubs, u⟩ (.inner (.lbs s)) = .ok (.inner c) ∧
      s.contains 4 = true ∧ u.contains 4 = false ∧ c.contains 4 = false :=
  ⟨⟨⟨[co 0 2]⟩, ci 3⟩, ⟨io 1, ⟨[co 5 6]⟩⟩, .lbs ⟨⟨[co 1 2]⟩, ci 6⟩, by decide, by decide, by decide +kernel, by decide, by decide,
    by decide⟩

/-! ### What removing single elements leaves behind -/

/-- Remove one element. -/
def Write.remove (x : T) : Write T := ⟨false, .rangeInclusive, ⟨x, x, false⟩⟩

/-- What is left of a range without one of its elements: the part before and the part after, if not empty. -/
def BoundedRange.without (r : BoundedRange T) (x : T) : List (BoundedRange T) :=
  [⟨r.start, .excluded x⟩, ⟨.excluded x, r.stop⟩].filter fun q => !q.isEmpty

/-- C92. Removing one element splits the piece that has it, and leaves the other pieces as they are. -/
theorem C92_hole (pre post : List (BoundedRange T)) (r : BoundedRange T) (h : Pieces (pre ++ r :: post)) (x : T)
    (hx : r.contains x = true) :
    (Write.remove x).run (.inner (.bs ⟨pre ++ r :: post⟩)) =
      .ok (.inner (.bs ⟨pre ++ r.without x ++ post⟩)) := by
  obtain ⟨hx1, hx2⟩ := (r.contains_iff x).1 hx
  have hx3 : cut x true ≤ hi r.stop := by
    rcases r with ⟨_, ⟨b | b⟩⟩ <;> simp only [hi, cut_lt, cut_le] at hx2 ⊢
    · simp at hx2
      exact .inl hx2
    · simpa [le_iff_lt_or_eq] using hx2
  have hH : ∀ q ∈ (r.without x).map BoundedRange.iv, q.1 < q.2 ∧ r.iv.1 ≤ q.1 ∧ q.2 ≤ r.iv.2 := by
    simp only [BoundedRange.without, List.mem_map, List.mem_filter, Bool.not_eq_true', List.mem_cons, List.not_mem_nil, or_false]
    rintro _ ⟨q, ⟨rfl | rfl, he⟩, rfl⟩ <;> refine ⟨(BoundedRange.isEmpty_eq_false_iff _).1 he, ?_⟩
    · exact ⟨le_rfl, hx2.le⟩
    · exact ⟨hx1.trans (cut_false_lt_true x).le, le_rfl⟩
  have hH2 : ((r.without x).map BoundedRange.iv).Pairwise (fun p q => p.2 ≤ q.1) := by
    rw [List.pairwise_map]
    refine List.Pairwise.filter _ ?_
    simp only [List.pairwise_cons, List.mem_singleton, forall_eq, List.not_mem_nil, false_imp_iff, implies_true,
      List.Pairwise.nil, and_true]
    exact (cut_false_lt_true x).le
  have hH3 : sem ((r.without x).map BoundedRange.iv) = sem1 r.iv ∩ csem1 (cut x false, cut x true) := by
    have he : ∀ q : BoundedRange T, sem (([q].filter fun q => !q.isEmpty).map BoundedRange.iv) = sem1 q.iv := by
      intro q
      by_cases h : q.isEmpty = true
      · simp [h, sem1_empty (p := q.iv) ((BoundedRange.isEmpty_iff q).1 h)]
      · simp [h]
    have : (r.without x).map BoundedRange.iv =
        (([⟨r.start, .excluded x⟩] : List (BoundedRange T)).filter fun q => !q.isEmpty).map BoundedRange.iv ++
        (([⟨.excluded x, r.stop⟩] : List (BoundedRange T)).filter fun q => !q.isEmpty).map BoundedRange.iv := by
      rw [BoundedRange.without, ← List.map_append, ← List.filter_append]
      rfl
    rw [this, sem_append, he, he, csem1, Set.inter_union_distrib_left, sem1_inter, sem1_inter]
    congr 2
    · simp only [BoundedRange.iv, Prod.mk.injEq]
      exact ⟨(max_eq_left bot_le).symm, (min_eq_right hx2.le).symm⟩
    · simp only [BoundedRange.iv, Prod.mk.injEq]
      exact ⟨(max_eq_right (hx1.trans (cut_false_lt_true x).le)).symm, (min_eq_left le_top).symm⟩
  have hc := (pieces_iff _).1 h
  simp only [List.map_append, List.map_cons] at hc
  obtain ⟨hc1, hc2⟩ := hc
  rw [List.pairwise_append, List.pairwise_cons] at hc2
  obtain ⟨hp, ⟨hr, hq⟩, hpr⟩ := hc2
  obtain ⟨c, e1, s1, -, k1⟩ := Any.complement_comp ((Write.remove x).ty.embed (Write.remove x).arg)
  obtain ⟨d, e2, s2, w2, k2⟩ := Any.inter_comp (.inner (.bs ⟨pre ++ r :: post⟩)) (.inner c)
  have w1 : c.WF := (Inner.normal_iff _).1 (by
    obtain ⟨-, -, ⟨c', e, n⟩, -⟩ := C06_ops_preserve ((Write.remove x).ty.embed (Write.remove x).arg) (.inner .er)
      (by simp [Write.remove, Ty.embed, Any.toInner, Inner.Normal]) trivial
    rw [e1] at e
    injection e with e
    exact e ▸ n)
  unfold Write.run
  rw [if_neg (by simp [Write.remove]), e1, Res.bind_ok, e2]
  show Res.ok _ = _
  have hM : Canon ((pre ++ r.without x ++ post).map BoundedRange.iv) := by
    simp only [List.map_append, List.append_assoc]
    refine ⟨fun q hq' => ?_, ?_⟩
    · rcases List.mem_append.1 hq' with h | h
      · exact hc1 q (by simp [h])
      · rcases List.mem_append.1 h with h | h
        · exact (hH q h).1
        · exact hc1 q (by simp [h])
    · refine List.pairwise_append.2 ⟨hp, List.pairwise_append.2 ⟨hH2, hq, fun a ha b hb => ?_⟩, fun a ha b hb => ?_⟩
      · exact (hH a ha).2.2.trans (hr b hb)
      · rcases List.mem_append.1 hb with h | h
        · exact (hpr a ha r.iv (by simp)).trans (hH b h).2.1
        · exact hpr a ha b (by simp [h])
  have hk : d.kind = .bs := by rw [k2]; rw [show (Any.inner c).toInner.kind = _ from k1]; rfl
  refine congrArg (fun d => Res.ok (Any.inner d)) (Inner.ivs_inj (b := .bs _) hk (canon_unique
    (Inner.canon_of_ne_br (w2 ⟨(Inner.normal_iff (.bs _)).1 h, w1⟩) (by rw [hk]; decide)) hM ?_))
  have hpre : sem (pre.map BoundedRange.iv) ⊆ csem1 (cut x false, cut x true) := by
    rintro q ⟨a, ha, hq'⟩
    refine .inl ?_
    have := (sem1_inter a (⊥, cut x false))
    rw [max_eq_left bot_le, min_eq_left ((hpr a ha r.iv (by simp)).trans hx1)] at this
    exact (this.symm ▸ hq' : q ∈ sem1 a ∩ _).2
  have hpost : sem (post.map BoundedRange.iv) ⊆ csem1 (cut x false, cut x true) := by
    rintro q ⟨a, ha, hq'⟩
    refine .inr ?_
    have := (sem1_inter a (cut x true, ⊤))
    rw [max_eq_left (hx3.trans (hr a ha)), min_eq_left le_top] at this
    exact (this.symm ▸ hq' : q ∈ sem1 a ∩ _).2
  have hcs : sem c.ivs = csem1 (cut x false, cut x true) := by
    rw [s1]
    exact csem_one _
  rw [s2, interSem_eq (by rintro ⟨h, -⟩; cases h)]
  show sem ((pre ++ r :: post).map BoundedRange.iv) ∩ sem c.ivs = sem ((pre ++ r.without x ++ post).map BoundedRange.iv)
  rw [hcs]
  simp only [List.map_append, List.map_cons, sem_append, sem_cons, hH3, Set.union_inter_distrib_right,
    Set.inter_eq_left.2 hpre, Set.inter_eq_left.2 hpost, Set.union_assoc]

example : Pieces ([co 0 2] ++ co 3 7 :: [co 9 10]) ∧ (co 3 7).contains 5 = true ∧
    (co 3 7).without 5 = [co 3 5, ⟨.excluded 5, .excluded 7⟩] ∧ (co 3 7).without 3 = [⟨.excluded 3, .excluded 7⟩] := by
  decide

/-- The open ranges between neighbours of `a`, `l`, `b`. -/
def between : T → List T → T → List (BoundedRange T)
  | a, [], b => [⟨.excluded a, .excluded b⟩]
  | a, x :: l, b => ⟨.excluded a, .excluded x⟩ :: between x l b

omit [LinearOrder T] in
theorem length_between (a : T) (l : List T) (b : T) : (between a l b).length = l.length + 1 := by
  induction l generalizing a with
  | nil => rfl
  | cons x l ih => rw [between, List.length_cons, List.length_cons, ih]

theorem removes_eq (pre : List (BoundedRange T)) (a : T) (l : List T) (b : T)
    (h : Pieces (pre ++ [⟨.excluded a, .excluded b⟩])) (hl : l.Pairwise (· < ·)) (ha : ∀ x ∈ l, a < x) (hb : ∀ x ∈ l, x < b) :
    Write.runAll (l.map Write.remove) (.inner (.bs ⟨pre ++ [⟨.excluded a, .excluded b⟩]⟩)) =
      .ok (.inner (.bs ⟨pre ++ between a l b⟩)) := by
  induction l generalizing pre a with
  | nil => rfl
  | cons x l ih =>
    have hax := ha x (by simp)
    have hxb := hb x (by simp)
    have hw : (⟨.excluded a, .excluded b⟩ : BoundedRange T).without x = [⟨.excluded a, .excluded x⟩, ⟨.excluded x, .excluded b⟩] := by
      simp [BoundedRange.without, BoundedRange.isEmpty, LowerBound.excluded, UpperBound.excluded, hax, hxb]
    have e := C92_hole pre [] _ h x (by
      simp [BoundedRange.contains, LowerBound.excluded, UpperBound.excluded, hax, hxb])
    rw [hw] at e
    have hn : Pieces (pre ++ [⟨.excluded a, .excluded x⟩] ++ [⟨.excluded x, .excluded b⟩]) := by
      obtain ⟨c, hc, nc, -⟩ := C92_pieces [Write.remove x]
        (.inner (.bs ⟨pre ++ [(⟨.excluded a, .excluded b⟩ : BoundedRange T)]⟩)) h
        (by simp [Write.remove, Ty.embed, Any.toInner, Inner.Normal]) (by simp [Write.remove, Ty.embed, Any.toInner, Inner.size])
      rw [Write.runAll, e, Res.bind_ok, Write.runAll] at hc
      injection hc with hc
      subst hc
      simpa [Any.toInner, Inner.Normal] using nc
    rw [List.map_cons, Write.runAll, e, Res.bind_ok]
    have := ih (pre ++ [⟨.excluded a, .excluded x⟩]) x hn (List.pairwise_cons.1 hl).2 (List.pairwise_cons.1 hl).1
      (fun y hy => hb y (by simp [hy]))
    simpa [between] using this

/-- C92. Removing elements one after the other from `(a, b)`, upwards, leaves a piece between each two neighbours, whether
or not there is an element there: `k` removals leave `k + 1` pieces. -/
theorem C92_debris (a : T) (l : List T) (b : T) (hl : (a :: l ++ [b]).Pairwise (· < ·)) :
    Write.runAll (l.map Write.remove) (.inner (.bs ⟨[⟨.excluded a, .excluded b⟩]⟩)) =
      .ok (.inner (.bs ⟨between a l b⟩)) ∧ (between a l b).length = l.length + 1 := by
  rw [List.cons_append, List.pairwise_cons, List.pairwise_append] at hl
  obtain ⟨h1, h2, -, h3⟩ := hl
  refine ⟨removes_eq [] a l b ⟨by simp [BoundedRange.isEmpty, LowerBound.excluded, UpperBound.excluded, h1 b], by simp⟩ h2
    (fun x hx => h1 x (by simp [hx])) (fun x hx => h3 x hx b (by simp)), length_between a l b⟩

example : (0 :: [1, 2, 3] ++ [4] : List Int).Pairwise (· < ·) ∧
    between (0 : Int) [1, 2, 3] 4 = [⟨.excluded 0, .excluded 1⟩, ⟨.excluded 1, .excluded 2⟩, ⟨.excluded 2, .excluded 3⟩,
      ⟨.excluded 3, .excluded 4⟩] := by decide

/-! ### Iterating what is left -/

section
variable {p : Platform} {S : Step T} {idx : T → Int}

/-- The first element of a normal set, where stepping past it is possible. -/
theorem takeLeast_eq (L : LawfulStep p S idx) (F : Step.Fits p idx) (s : BoundedSet T) (hs : Pieces s.ranges) (m : T)
    (hm : s.contains m = false) (hup : ∀ t, s.contains t = true → ∃ t', t < t') (l : List T) (hl : Lists l s.contains) :
    match l with
    | [] => takeLeast p S s = .ok (none, .inner (.bs s))
    | x :: l => ∃ z : BoundedSet T, takeLeast p S s = .ok (some x, .inner (.bs z)) ∧ Pieces z.ranges ∧
        Lists l z.contains := by
  obtain ⟨it, l', e1, hl', hlen, hrun⟩ := BoundedSet.iterates (p := p) L hs
  obtain rfl := hl.unique hl'
  have hlt := length_lt_of_missing L F hl.1 (t := m) (fun h => by rw [hl.2 m, hm] at h; cases h)
  have hpc : ∀ r ∈ s.ranges, ∀ t, r.contains t = true → s.contains t = true := fun r hr t ht => by
    simp only [BoundedSet.contains, List.any_eq_true]; exact ⟨r, hr, ht⟩
  obtain ⟨it', e2, -⟩ := hrun [.next]
    { args := by
        intro op h
        rw [List.mem_singleton.1 h]
        have := p.le_usizeCount
        constructor <;> simp only [Op.skipFront, Op.skipBack] <;> omega
      pieces := fun r hr => lt_of_le_of_lt (le_sum_of_mem (List.mem_map.2 ⟨r, hr, rfl⟩)) (hlen ▸ hlt)
      front := fun _ r hr => r.roomAbove_of_contains L (hs.1 r hr) (fun t ht => hup t (hpc r hr t ht))
      back := fun h => by simp [Op.isBack] at h
      sizes := fun _ => hlen ▸ hlt }
  have hnext : ∃ i, it.next p S = .ok (l.head?, i) := by
    simp only [runOps, BoundedSetIter.call] at e2
    obtain ⟨x, hx, e2⟩ := Res.bind_eq_ok.1 e2
    obtain ⟨y, hy, hx⟩ := Res.bind_eq_ok.1 hx
    cases hx
    refine ⟨y.2, ?_⟩
    rw [hy]
    have : (listRun l [Op.next]).1 = [.item l.head?] := by cases l <;> rfl
    rw [this] at e2
    obtain ⟨w, hw, e2⟩ := Res.bind_eq_ok.1 e2
    cases hw
    injection e2 with e2
    have e2 := congrArg Prod.fst e2
    simp only [List.cons.injEq, Out.item.injEq, and_true] at e2
    rw [← e2]
  obtain ⟨i, hi⟩ := hnext
  cases l with
  | nil =>
    show takeLeast p S s = _
    simp only [takeLeast, e1, Res.bind_ok, hi, List.head?_nil]
    rfl
  | cons x l =>
    obtain ⟨z, hz⟩ := Write.run_type ⟨false, .rangeInclusive, ⟨x, x, false⟩⟩ (by simp [Write.Spot]) .bs (by simp [Ty.IsSet]) s
    obtain ⟨c, hc, -, mc⟩ := Write.run_contains ⟨false, .rangeInclusive, ⟨x, x, false⟩⟩ (.inner (.bs s)) trivial rfl
      (fun _ h => by cases h)
    obtain ⟨d, hd, nd, -⟩ := C92_pieces [⟨false, .rangeInclusive, ⟨x, x, false⟩⟩] (.inner (.bs s)) hs
      (by simp [Ty.embed, Any.toInner, Inner.Normal]) (by simp [Ty.embed, Any.toInner, Inner.size])
    change Write.run _ (.inner (.bs s)) = .ok (.inner (.bs z)) at hz
    rw [hz] at hc
    injection hc with hc
    subst hc
    simp only [Write.runAll, hz, Res.bind_ok] at hd
    injection hd with hd
    subst hd
    refine ⟨z, ?_, nd, List.Pairwise.of_cons hl.1, fun t => ?_⟩
    · simp only [takeLeast, e1, Res.bind_ok, hi, List.head?_cons, hz]
      rfl
    · have := mc t
      rw [show Any.contains (.inner (.bs z)) t = z.contains t from rfl,
        show Any.contains (.inner (.bs s)) t = s.contains t from rfl] at this
      rw [this]
      have hx := (List.pairwise_cons.1 hl.1).1
      have ht := hl.2 t
      have htx : Write.touches t (⟨false, .rangeInclusive, ⟨x, x, false⟩⟩ : Write T) = decide (t = x) := by
        simp only [Write.touches, Ty.contains, RangeInclusive.contains]
        rcases lt_trichotomy t x with h | h | h
        · simp [h.ne, h.not_ge]
        · simp [h]
        · simp [h.ne', h.not_ge]
      rw [htx]
      by_cases h : t = x
      · subst h
        simp only [decide_true, if_true, Bool.false_eq_true, iff_false]
        exact fun h => lt_irrefl _ (hx t h)
      · simp only [h, decide_false, Bool.false_eq_true, if_false]
        rw [← ht, List.mem_cons]
        simp [h]

/-- C92. Taking the least element of a `BoundedSet` and removing it, `n` times, gives its `n` least elements in order,
each once, and leaves exactly the others: as iterating does, but through the set operations. -/
theorem C92_take_least (L : LawfulStep p S idx) (F : Step.Fits p idx) (n : Nat) (s : BoundedSet T) (hs : Pieces s.ranges)
    (m : T) (hm : s.contains m = false) (hup : ∀ t, s.contains t = true → ∃ t', t < t') :
    ∃ l, Lists l s.contains ∧ ∃ z : BoundedSet T, takeMany p S n (.inner (.bs s)) = .ok (l.take n, .inner (.bs z)) ∧
      Pieces z.ranges ∧ Lists (l.drop n) z.contains := by
  obtain ⟨-, l, -, hl, -⟩ := BoundedSet.iterates (p := p) L hs
  refine ⟨l, hl, ?_⟩
  induction n generalizing s l with
  | zero => exact ⟨s, rfl, hs, hl⟩
  | succ n ih =>
    have h := takeLeast_eq L F s hs m hm hup l hl
    cases l with
    | nil =>
      refine ⟨s, ?_, hs, hl⟩
      simp only [takeMany, h, Res.bind_ok]
      rfl
    | cons x l =>
      obtain ⟨z, hz, nz, lz⟩ := h
      have hsub : ∀ t, z.contains t = true → s.contains t = true := fun t ht =>
        (hl.2 t).1 (List.mem_cons_of_mem _ ((lz.2 t).2 ht))
      obtain ⟨z', hz', nz', lz'⟩ := ih z nz (by
        by_contra h
        rw [hsub m (by simpa using h)] at hm
        cases hm) (fun t ht => hup t (hsub t ht)) l lz
      refine ⟨z', ?_, nz', lz'⟩
      simp only [takeMany, hz, Res.bind_ok, hz']
      rfl

theorem takeMany_removes (n : Nat) (s : Any T) {xs : List T} {c : Any T} (h : takeMany p S n s = .ok (xs, c)) :
    Write.runAll (xs.map Write.remove) s = .ok c := by
  induction n generalizing s xs c with
  | zero =>
    simp only [takeMany] at h
    cases h
    rfl
  | succ n ih =>
    unfold takeMany at h
    split at h
    · rename_i m s heq
      obtain rfl : n = m := by omega
      obtain ⟨⟨o, s'⟩, h1, h⟩ := Res.bind_eq_ok.1 h
      cases o with
      | none =>
        cases h
        simp only [takeLeast] at h1
        obtain ⟨it, -, h1⟩ := Res.bind_eq_ok.1 h1
        obtain ⟨⟨o, it'⟩, -, h1⟩ := Res.bind_eq_ok.1 h1
        cases o with
        | none => cases h1; rfl
        | some x => obtain ⟨_, -, h1⟩ := Res.bind_eq_ok.1 h1; cases h1
      | some x =>
        obtain ⟨⟨ys, s''⟩, h2, h⟩ := Res.bind_eq_ok.1 h
        cases h
        simp only [takeLeast] at h1
        obtain ⟨it, -, h1⟩ := Res.bind_eq_ok.1 h1
        obtain ⟨⟨o, it'⟩, -, h1⟩ := Res.bind_eq_ok.1 h1
        cases o with
        | none => cases h1
        | some y =>
          obtain ⟨z, hz, h1⟩ := Res.bind_eq_ok.1 h1
          cases h1
          rw [List.map_cons, Write.runAll, show (Write.remove x).run _ = _ from hz, Res.bind_ok]
          exact ih _ h2
    · cases h
      rfl

theorem between_isEmpty (a : T) (l : List T) (b : T) (hl : (a :: l ++ [b]).Pairwise (· < ·)) :
    ∀ r ∈ between a l b, r.isEmpty = false := by
  induction l generalizing a with
  | nil => simpa [between, BoundedRange.isEmpty, LowerBound.excluded, UpperBound.excluded] using hl
  | cons x l ih =>
    intro r hr
    rw [List.cons_append, List.pairwise_cons] at hl
    rcases List.mem_cons.1 hr with rfl | hr
    · simpa [BoundedRange.isEmpty, LowerBound.excluded, UpperBound.excluded] using hl.1 x (by simp)
    · exact ih x hl.2 r hr

/-- C92. A set from which the least element is taken again and again keeps the debris: when all `k` elements of `(a, b)`
are taken, no element is left, but there are `k + 1` pieces, and `is_empty` says no. -/
theorem C92_take_all (L : LawfulStep p S idx) (F : Step.Fits p idx) (a b : T) (hab : a < b) (n : Nat) :
    ∃ l : List T, (∀ t, t ∈ l ↔ a < t ∧ t < b) ∧ l.Pairwise (· < ·) ∧ ∃ z : BoundedSet T,
      takeMany p S n (.inner (.bs ⟨[⟨.excluded a, .excluded b⟩]⟩)) = .ok (l.take n, .inner (.bs z)) ∧
      z.ranges.length = min n l.length + 1 ∧ z.isEmpty = false ∧
      (l.length ≤ n → ∀ t, z.contains t = false) := by
  have hc : ∀ t, BoundedSet.contains ⟨[⟨.excluded a, .excluded b⟩]⟩ t = true ↔ a < t ∧ t < b := by
    intro t
    simp [BoundedSet.contains, BoundedRange.contains, LowerBound.excluded, UpperBound.excluded]
  obtain ⟨l, hl, z, e, -, hz⟩ := C92_take_least L F n ⟨[⟨.excluded a, .excluded b⟩]⟩
    ⟨by simp [BoundedRange.isEmpty, LowerBound.excluded, UpperBound.excluded, hab], by simp⟩ a
    (by rw [Bool.eq_false_iff]; exact fun h => lt_irrefl _ ((hc a).1 h).1) (fun t ht => ⟨b, ((hc t).1 ht).2⟩)
  have hm : ∀ t, t ∈ l ↔ a < t ∧ t < b := fun t => (hl.2 t).trans (hc t)
  refine ⟨l, hm, hl.1, z, e, ?_⟩
  have hp : (a :: l.take n ++ [b]).Pairwise (· < ·) := by
    rw [List.cons_append, List.pairwise_cons, List.pairwise_append]
    refine ⟨fun t ht => ?_, hl.1.sublist (List.take_sublist n l), by simp, fun t ht u hu => ?_⟩
    · rcases List.mem_append.1 ht with ht | ht
      · exact ((hm t).1 (List.mem_of_mem_take ht)).1
      · rw [List.mem_singleton.1 ht]; exact hab
    · rw [List.mem_singleton.1 hu]
      exact ((hm t).1 (List.mem_of_mem_take ht)).2
  obtain ⟨e', hlen⟩ := C92_debris a (l.take n) b hp
  rw [takeMany_removes n _ e] at e'
  injection e' with e'
  injection e' with e'
  injection e' with e'
  subst e'
  refine ⟨by rw [hlen, List.length_take], ?_, fun h t => ?_⟩
  · have : ∃ r, r ∈ between a (l.take n) b := by cases l.take n <;> simp [between]
    obtain ⟨r, hr⟩ := this
    rw [Bool.eq_false_iff]
    intro h
    have := List.all_eq_true.1 h r hr
    rw [between_isEmpty a _ b hp r hr] at this
    cases this
  · have := hz.2 t
    rw [List.drop_eq_nil_of_le h] at this
    simpa using this

example : LawfulStep debug64 (IntTy.step debug64 u8) (IntTy.idx (τ := u8)) ∧ Step.Fits debug64 (IntTy.idx (τ := u8)) ∧
    Pieces s37.ranges ∧ s37.contains (byte 8) = false ∧ ∀ t, s37.contains t = true → ∃ t', t < t' :=
  ⟨IntTy.lawful _ _, IntTy.fits _ _ (by decide), by decide +kernel, by decide, fun t ht => ⟨byte 200, by
    have : ∀ r ∈ s37.ranges, r.contains t = true → t ≤ byte 12 := by
      intro r hr h
      simp only [s37, r37, List.mem_cons, List.not_mem_nil, or_false] at hr
      rcases hr with rfl | rfl
      · simp only [BoundedRange.contains, LowerBound.included, UpperBound.excluded, Bool.and_eq_true, decide_eq_true_eq] at h
        exact h.2.le.trans (by decide)
      · simp only [BoundedRange.contains, LowerBound.excluded, UpperBound.included, Bool.and_eq_true, decide_eq_true_eq] at h
        exact h.2
    obtain ⟨r, hr, h⟩ := List.any_eq_true.1 ht
    exact lt_of_le_of_lt (this r hr h) (by decide)⟩⟩

example : takeMany debug64 (IntTy.step debug64 u8) 3 (.inner (.bs s37)) =
    .ok ([byte 3, byte 4, byte 5], .inner (.bs ⟨[⟨.excluded (byte 3), .excluded (byte 4)⟩,
      ⟨.excluded (byte 4), .excluded (byte 5)⟩, ⟨.excluded (byte 5), .excluded (byte 7)⟩,
      ⟨.excluded (byte 9), .included (byte 12)⟩]⟩)) := by
  decide +kernel

end
end Rangetools
