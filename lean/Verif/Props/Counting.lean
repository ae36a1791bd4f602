import Verif.Props.Iter
import Verif.Props.IterLimits
import Verif.Props.Algebra
import Mathlib.Order.Interval.Finset.Nat
import Mathlib.Data.Int.Interval
import Mathlib.Data.Finset.Max

/-!
# C63, C64: from expressions to iterated items and their number
-/

namespace Rangetools
variable {T : Type} [LinearOrder T] {p : Platform} {S : Step T} {idx : T → Int}

/-- Running an expression over obtainable leaves gives an obtainable value. -/
theorem Expr.eval_reachable (e : Expr T) (h : e.AllLeaves Reachable) {c : Any T} (hc : e.eval = .ok c) :
    Reachable c := by
  induction e generalizing c with
  | leaf a =>
    obtain rfl : a = c := by simpa [Expr.eval] using hc
    exact h
  | toInner e ih =>
    obtain ⟨a, ha, hc⟩ := Res.bind_eq_ok.1 hc
    cases hc
    exact .toInner (ih h ha)
  | toSet e ih =>
    obtain ⟨a, ha, hc⟩ := Res.bind_eq_ok.1 hc
    cases hc
    exact .toSet (ih h ha)
  | union e f ihe ihf =>
    obtain ⟨a, ha, hc⟩ := Res.bind_eq_ok.1 hc
    obtain ⟨b, hb, hc⟩ := Res.bind_eq_ok.1 hc
    exact .union (ihe h.1 ha) (ihf h.2 hb) hc
  | inter e f ihe ihf =>
    obtain ⟨a, ha, hc⟩ := Res.bind_eq_ok.1 hc
    obtain ⟨b, hb, hc⟩ := Res.bind_eq_ok.1 hc
    obtain ⟨d, hd, hc⟩ := Res.bind_eq_ok.1 hc
    cases hc
    exact .inter (ihe h.1 ha) (ihf h.2 hb) hd
  | complement e ih =>
    obtain ⟨a, ha, hc⟩ := Res.bind_eq_ok.1 hc
    obtain ⟨d, hd, hc⟩ := Res.bind_eq_ok.1 hc
    cases hc
    exact .complement (ih h ha) hd

/-- A finite set of integers less than `n` apart has at most `n` elements. -/
theorem card_le_of_close {A : Finset Int} {n : Nat} (h : ∀ a ∈ A, ∀ b ∈ A, b - a < n) : A.card ≤ n := by
  rcases A.eq_empty_or_nonempty with rfl | hA
  · simp
  · have : A ⊆ Finset.Ico (A.min' hA) (A.min' hA + n) := fun b hb => by
      have h1 := A.min'_le b hb
      have h2 := h _ (A.min'_mem hA) b hb
      rw [Finset.mem_Ico]; omega
    simpa using Finset.card_le_card this

/-- A strictly increasing list that misses a value of a type that fits into `usize`. -/
theorem length_lt_of_missing (L : LawfulStep p S idx) (F : Step.Fits p idx) {l : List T}
    (hl : l.Pairwise (· < ·)) {t : T} (ht : t ∉ l) : l.length < p.usizeCount := by
  have hn : ((t :: l).map idx).Nodup :=
    (List.nodup_cons.2 ⟨ht, hl.imp (fun h => ne_of_lt h)⟩).map (fun _ _ => L.inj)
  have := card_le_of_close (A := ((t :: l).map idx).toFinset) (n := p.usizeCount) (by
    intro a ha b hb
    simp only [List.mem_toFinset, List.mem_map] at ha hb
    obtain ⟨x, _, rfl⟩ := ha
    obtain ⟨y, _, rfl⟩ := hb
    exact F x y)
  rw [List.toFinset_card_of_nodup hn] at this
  simpa [Nat.lt_iff_add_one_le] using this

theorem BoundedRange.roomAbove_of_contains (L : LawfulStep p S idx) {r : BoundedRange T}
    (h : r.isEmpty = false) (hup : ∀ t, r.contains t = true → ∃ t', t < t') : r.RoomAbove idx 0 := by
  rcases hr : r.stop.b with e | e
  · exact r.roomAbove_of_lt L h (c := e) (by simp [UpperBound.lastIdx, hr])
  · obtain ⟨c, hc⟩ := hup e (by
      rcases r with ⟨⟨s | s⟩, ⟨e' | e'⟩⟩ <;> cases hr <;>
        simpa [BoundedRange.isEmpty, BoundedRange.contains] using h)
    exact r.roomAbove_of_lt L h (c := c) (by
      have := (L.lt_iff _ _).1 hc; simpa [UpperBound.lastIdx, hr] using this)

theorem BoundedRange.roomBelow_of_contains (L : LawfulStep p S idx) {r : BoundedRange T}
    (h : r.isEmpty = false) (hdown : ∀ t, r.contains t = true → ∃ t', t' < t) : r.RoomBelow idx 0 := by
  have key : ∃ c, idx c < r.start.firstIdx idx := by
    rcases hr : r.start.b with s | s
    · exact ⟨s, by simp [LowerBound.firstIdx, hr]⟩
    · obtain ⟨c, hc⟩ := hdown s (by
        rcases r with ⟨⟨s' | s'⟩, ⟨e | e⟩⟩ <;> cases hr <;>
          simpa [BoundedRange.isEmpty, BoundedRange.contains] using h)
      exact ⟨c, by have := (L.lt_iff _ _).1 hc; simpa [LowerBound.firstIdx, hr] using this⟩
  obtain ⟨c, hc⟩ := key
  rcases r with ⟨⟨s | s⟩, ⟨e | e⟩⟩ <;>
    simp only [BoundedRange.isEmpty, decide_eq_false_iff_not, ge_iff_le, not_le, gt_iff_lt, not_lt,
      L.lt_iff, L.le_iff] at h <;>
    simp only [BoundedRange.RoomBelow, LowerBound.firstIdx, UpperBound.lastIdx] at * <;>
    first
    | exact L.has_between (L.has_idx s) (L.has_idx e) (by omega) (by omega)
    | exact L.has_between (L.has_idx c) (L.has_idx e) (by omega) (by omega)

/-! ## C63 -/

/-- C63. Run an expression whose result is a `BoundedSet` and iterate the result: the items are the values
for which the formula holds, in increasing order, however the iterator is driven (`listRun`).  Something
must be left out of the set, the type's greatest value if the front is moved, and its least value if the
back is. -/
theorem C63_expr_iteration (L : LawfulStep p S idx) (F : Step.Fits p idx) (e : Expr T)
    (hf : e.AllLeaves Any.Fresh) (hr : e.AllLeaves Reachable) (hn : e.LosslessInter) (s : BoundedSet T)
    (he : e.eval = .ok (.inner (.bs s))) (hmiss : ∃ t, e.denotes t = false) :
    ∃ it l, s.intoIter S = .ok it ∧ Lists l (fun t => e.denotes t) ∧
      ∀ ops, UsizeArgs p ops →
        ((∃ op ∈ ops, op.isFront = true) → ∀ t, e.denotes t = true → ∃ t', t < t') →
        ((∃ op ∈ ops, op.isBack = true) → ∀ t, e.denotes t = true → ∃ t', t' < t) →
        ∃ it', runOps (BoundedSetIter.call p S) it ops = .ok ((listRun l ops).1, it') := by
  obtain ⟨c, hc, hct⟩ := C05_expr_contains_partial e hf hn
  obtain rfl : c = .inner (.bs s) := by rw [he] at hc; injection hc with hc; exact hc.symm
  have hs : Pieces s.ranges := C06_reachable_normal (e.eval_reachable hr he)
  have hsc : ∀ t, s.contains t = e.denotes t := hct
  have hpc : ∀ r ∈ s.ranges, ∀ t, r.contains t = true → e.denotes t = true := fun r hr t ht => by
    rw [← hsc]; simp only [BoundedSet.contains, List.any_eq_true]; exact ⟨r, hr, ht⟩
  obtain ⟨it, l, e1, hl, hlen, hrun⟩ := BoundedSet.iterates (p := p) L hs
  obtain ⟨m, hm⟩ := hmiss
  have hlt := length_lt_of_missing L F hl.1 (t := m) (fun h => by
    rw [(hl.2 m), hsc, hm] at h; cases h)
  refine ⟨it, l, e1, ⟨hl.1, fun t => by rw [hl.2, hsc]⟩, fun ops ha hup hdown => ?_⟩
  obtain ⟨it', e2, _⟩ := hrun ops
    { args := ha
      pieces := fun r hr => lt_of_le_of_lt (le_sum_of_mem (List.mem_map.2 ⟨r, hr, rfl⟩)) (hlen ▸ hlt)
      front := fun h r hr => r.roomAbove_of_contains L (hs.1 r hr) (fun t ht => hup h t (hpc r hr t ht))
      back := fun h r hr => r.roomBelow_of_contains L (hs.1 r hr) (fun t ht => hdown h t (hpc r hr t ht))
      sizes := fun _ => hlen ▸ hlt }
  exact ⟨it', e2⟩

/-! ## C64 -/

/-- `a` is a bounded value and `a.into_iter().count()` is `n`. -/
def Inner.Counts (p : Platform) (S : Step T) (n : Nat) : Inner T → Prop
  | .br r => (do (← r.intoIter S).count p S) = .ok n
  | .bs s => (do (← s.intoIter S).count p S) = .ok n
  | .er => n = 0
  | _ => False

/-- With overflow checks a count that is returned is the number of elements. -/
theorem Inner.Counts.lists (L : LawfulStep p S idx) (C : S.Checked p idx) (F : Step.Fits p idx)
    (hp : p.overflowChecks = true) {a : Inner T} (ha : a.Normal) {n : Nat} (h : a.Counts p S n) :
    ∃ l, Lists l a.contains ∧ l.length = n := by
  have h1 : UsizeArgs p [.count] := fun op h => by
    rw [List.mem_singleton.1 h]
    have := p.le_usizeCount
    constructor <;> simp only [Op.skipFront, Op.skipBack] <;> omega
  cases a with
  | br r =>
    obtain ⟨it, hit, hc⟩ := Res.bind_eq_ok.1 h
    obtain ⟨l, hl, hrun⟩ := C42_range_checked L C F hp r it hit
    have := hrun [.count] [.num n] it h1 (by simp only [runOps, BoundedRangeIter.call, hc]; rfl)
    simp only [listRun, listCall, List.cons.injEq, Out.num.injEq, and_true] at this
    exact ⟨l, hl, this.symm⟩
  | bs s =>
    obtain ⟨it, hit, hc⟩ := Res.bind_eq_ok.1 h
    obtain ⟨l, hl, hrun⟩ := C42_set_checked L C F hp s ha it hit
    have := hrun [.count] [.num n] it h1 (by simp only [runOps, BoundedSetIter.call, hc]; rfl)
    simp only [listRun, listCall, List.cons.injEq, Out.num.injEq, and_true] at this
    exact ⟨l, hl, this.symm⟩
  | er => exact ⟨[], ⟨.nil, fun t => by simp [Inner.contains]⟩, h.symm⟩
  | _ => exact h.elim

theorem Lists.toFinset {l : List T} {P : T → Bool} (h : Lists l P) :
    l.toFinset.card = l.length ∧ ∀ t, t ∈ l.toFinset ↔ P t = true :=
  ⟨List.toFinset_card_of_nodup (h.1.imp fun h => ne_of_lt h), fun t => by simp [h.2]⟩

/-- A bounded value. -/
theorem Inner.Counts.lossless {a : Inner T} {n : Nat} (h : a.Counts p S n) (b : Any T) :
    Rangetools.Lossless (Any.inner a) b := by
  rcases a with _ | _ | _ | _ | _ | _ | _ | _ | _ <;> first | exact h.elim | trivial

/-- C64. Inclusion–exclusion for `count`: the counts of union and intersection add up to those of the
operands, whenever the four calls return. -/
theorem C64_inclusion_exclusion (L : LawfulStep p S idx) (C : S.Checked p idx) (F : Step.Fits p idx)
    (hp : p.overflowChecks = true) {a b u i : Inner T} (na : a.Normal) (nb : b.Normal)
    (hu : (Any.inner a).union (.inner b) = .ok (.inner u)) (hi : (Any.inner a).inter (.inner b) = .ok i)
    {ca cb cu ci : Nat} (ha : a.Counts p S ca) (hb : b.Counts p S cb) (hcu : u.Counts p S cu)
    (hci : i.Counts p S ci) : cu + ci = ca + cb := by
  obtain ⟨u', hu', hut⟩ := C01_union_contains (.inner a) (.inner b) trivial trivial
  obtain ⟨i', hi', hit⟩ := C02_inter_contains_partial (.inner a) (.inner b) trivial trivial (ha.lossless _)
  obtain rfl : Any.inner u = u' := by rw [hu] at hu'; injection hu'
  obtain rfl : i = i' := by rw [hi] at hi'; injection hi'
  obtain ⟨⟨u', hu', nu⟩, ⟨i', hi', ni⟩, _⟩ := C06_ops_preserve (.inner a) (.inner b) na nb
  obtain rfl : Any.inner u = u' := by rw [hu] at hu'; injection hu'
  obtain rfl : i = i' := by rw [hi] at hi'; injection hi'
  obtain ⟨la, hla, rfl⟩ := ha.lists L C F hp na
  obtain ⟨lb, hlb, rfl⟩ := hb.lists L C F hp nb
  obtain ⟨lu, hlu, rfl⟩ := hcu.lists L C F hp (show u.Normal from nu)
  obtain ⟨li, hli, rfl⟩ := hci.lists L C F hp ni
  obtain ⟨e1, m1⟩ := hla.toFinset
  obtain ⟨e2, m2⟩ := hlb.toFinset
  obtain ⟨e3, m3⟩ := hlu.toFinset
  obtain ⟨e4, m4⟩ := hli.toFinset
  have h1 : lu.toFinset = la.toFinset ∪ lb.toFinset := by
    ext t
    have : u.contains t = (a.contains t || b.contains t) := hut t
    rw [Finset.mem_union, m1, m2, m3, this, Bool.or_eq_true]
  have h2 : li.toFinset = la.toFinset ∩ lb.toFinset := by
    ext t
    have : i.contains t = (a.contains t && b.contains t) := hit t
    rw [Finset.mem_inter, m1, m2, m4, this, Bool.and_eq_true]
  rw [← e1, ← e2, ← e3, ← e4, h1, h2]
  exact Finset.card_union_add_card_inter _ _

/-- C64. `count` of a difference: what is in `b` and what is not add up to `a`. -/
theorem C64_difference (L : LawfulStep p S idx) (C : S.Checked p idx) (F : Step.Fits p idx)
    (hp : p.overflowChecks = true) {a b d i n : Inner T} (na : a.Normal) (nb : b.Normal)
    (hn : (Any.inner b).complement = .ok n) (hd : (Any.inner a).inter (.inner n) = .ok d)
    (hi : (Any.inner a).inter (.inner b) = .ok i)
    {ca cd ci : Nat} (ha : a.Counts p S ca) (hcd : d.Counts p S cd) (hci : i.Counts p S ci) :
    cd + ci = ca := by
  obtain ⟨n', hn', hnt⟩ := C03_complement_contains (.inner b) trivial
  obtain rfl : n = n' := by rw [hn] at hn'; injection hn'
  obtain ⟨d', hd', hdt⟩ := C02_inter_contains_partial (.inner a) (.inner n) trivial trivial (ha.lossless _)
  obtain ⟨i', hi', hit⟩ := C02_inter_contains_partial (.inner a) (.inner b) trivial trivial (ha.lossless _)
  obtain rfl : d = d' := by rw [hd] at hd'; injection hd'
  obtain rfl : i = i' := by rw [hi] at hi'; injection hi'
  obtain ⟨_, ⟨i', hi', ni⟩, _⟩ := C06_ops_preserve (.inner a) (.inner b) na nb
  obtain rfl : i = i' := by rw [hi] at hi'; injection hi'
  obtain ⟨_, _, ⟨n', hn', nn⟩, _⟩ := C06_ops_preserve (.inner b) (.inner b) nb nb
  obtain rfl : n = n' := by rw [hn] at hn'; injection hn'
  obtain ⟨_, ⟨d', hd', nd⟩, _⟩ := C06_ops_preserve (.inner a) (.inner n) na nn
  obtain rfl : d = d' := by rw [hd] at hd'; injection hd'
  obtain ⟨la, hla, rfl⟩ := ha.lists L C F hp na
  obtain ⟨ld, hld, rfl⟩ := hcd.lists L C F hp nd
  obtain ⟨li, hli, rfl⟩ := hci.lists L C F hp ni
  obtain ⟨e1, m1⟩ := hla.toFinset
  obtain ⟨e2, m2⟩ := hld.toFinset
  obtain ⟨e3, m3⟩ := hli.toFinset
  have hnt' : ∀ t, n.contains t = !b.contains t := hnt
  have hdt' : ∀ t, d.contains t = (a.contains t && n.contains t) := hdt
  have hit' : ∀ t, i.contains t = (a.contains t && b.contains t) := hit
  have h1 : ld.toFinset ∪ li.toFinset = la.toFinset := by
    ext t
    rw [Finset.mem_union, m1, m2, m3, hdt', hit', hnt']
    cases a.contains t <;> cases b.contains t <;> simp
  have h2 : Disjoint ld.toFinset li.toFinset := by
    rw [Finset.disjoint_left]
    intro t
    rw [m2, m3, hdt', hit', hnt']
    cases a.contains t <;> cases b.contains t <;> simp
  rw [← e1, ← e2, ← e3, ← h1, Finset.card_union_of_disjoint h2]

section Examples

/-- `(3..7u8).union(5..=9)`, as an expression. -/
def unionExpr : Expr u8.Val :=
  .union (.leaf (.range ⟨byte 3, byte 7⟩)) (.leaf (.rangeInclusive ⟨byte 5, byte 9, false⟩))

example : unionExpr.AllLeaves Any.Fresh ∧ unionExpr.AllLeaves Reachable ∧ unionExpr.LosslessInter ∧
    unionExpr.eval = .ok (.inner (.bs ⟨[⟨.included (byte 3), .included (byte 9)⟩]⟩)) ∧
    unionExpr.denotes (byte 2) = false :=
  ⟨⟨trivial, rfl⟩, ⟨.range _, .rangeInclusive _⟩, ⟨trivial, trivial⟩, by decide +kernel, by decide⟩

/-- `{3..=6}`, `{5..=9}`, `{3..=9}` and `{5, 6}`: 7 + 2 = 4 + 5. -/
example : (Inner.br ⟨.included (byte 3), .excluded (byte 7)⟩).Counts debug64 (IntTy.step debug64 u8) 4 ∧
    (Inner.br ⟨.included (byte 5), .included (byte 9)⟩).Counts debug64 (IntTy.step debug64 u8) 5 ∧
    (Inner.bs ⟨[⟨.included (byte 3), .included (byte 9)⟩]⟩).Counts debug64 (IntTy.step debug64 u8) 7 ∧
    (Inner.br ⟨.included (byte 5), .excluded (byte 7)⟩).Counts debug64 (IntTy.step debug64 u8) 2 ∧
    (Any.inner (.br ⟨.included (byte 3), .excluded (byte 7)⟩)).inter
      (.inner (.br ⟨.included (byte 5), .included (byte 9)⟩)) =
        .ok (.br ⟨.included (byte 5), .excluded (byte 7)⟩) := by
  unfold Inner.Counts
  decide +kernel

end Examples

end Rangetools
