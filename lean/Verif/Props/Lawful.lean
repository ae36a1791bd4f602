import Verif.Spec.Elem
import Verif.Props.Natural
import Verif.Props.Lattice
import Verif.Props.Derived

/-!
# C67: elements that compare equal need not be identical

The other property files take the element type to be a Lean `LinearOrder`, in which elements that compare
equal are equal.  Rust's `Ord` does not ask for that.  Here the main theorems are carried over to every
lawful `Ord` type: membership as it stands, equations between results up to the crate's `==`.
-/

namespace Rangetools
variable {T : Type} [LE T] [LT T] [DecidableLE T] [DecidableLT T] [Ord T] [BEq T]

/-! ### Classes of elements that compare equal -/

section
variable [L : LawfulElem T]

/-- Comparing equal. -/
def elemSetoid (T : Type) [LE T] [LT T] [DecidableLE T] [DecidableLT T] [Ord T] [BEq T] [L : LawfulElem T] :
    Setoid T where
  r a b := a ≤ b ∧ b ≤ a
  iseqv := ⟨fun a => ⟨(L.total a a).elim id id, (L.total a a).elim id id⟩, fun h => ⟨h.2, h.1⟩,
    fun h h' => ⟨L.trans _ _ _ h.1 h'.1, L.trans _ _ _ h'.2 h.2⟩⟩

/-- The classes of elements that compare equal. -/
def Class (T : Type) [LE T] [LT T] [DecidableLE T] [DecidableLT T] [Ord T] [BEq T] [LawfulElem T] : Type :=
  Quotient (elemSetoid T)

/-- The class of an element. -/
def cls (t : T) : Class T := Quotient.mk (elemSetoid T) t

open Classical in
noncomputable instance : LinearOrder (Class T) where
  le := Quotient.lift₂ (fun a b => a ≤ b) (fun a b a' b' h h' => propext
    ⟨fun e => L.trans _ _ _ h.2 (L.trans _ _ _ e h'.1), fun e => L.trans _ _ _ h.1 (L.trans _ _ _ e h'.2)⟩)
  le_refl := by rintro ⟨a⟩; exact (L.total a a).elim id id
  le_trans := by rintro ⟨a⟩ ⟨b⟩ ⟨c⟩; exact L.trans a b c
  le_antisymm := by rintro ⟨a⟩ ⟨b⟩ h h'; exact Quotient.sound ⟨h, h'⟩
  le_total := by rintro ⟨a⟩ ⟨b⟩; exact L.total a b
  toDecidableLE := Classical.decRel _

theorem cls_le (a b : T) : cls a ≤ cls b ↔ a ≤ b := Iff.rfl

theorem cls_lt (a b : T) : cls a < cls b ↔ a < b := by rw [← not_le, L.lt_iff, cls_le]

theorem cls_eq (a b : T) : cls a = cls b ↔ (a == b) = true := by
  rw [L.beq_iff]
  exact ⟨fun h => Quotient.exact h, fun h => Quotient.sound h⟩

theorem cls_compares : Compares (cls : T → Class T) where
  le := cls_le
  lt := cls_lt
  cmp a b := by
    cases h : compare a b with
    | lt => exact compare_lt_iff_lt.2 ((cls_lt a b).2 ((L.cmp_lt a b).1 h))
    | gt => exact compare_gt_iff_gt.2 ((cls_lt b a).2 ((L.cmp_gt a b).1 h))
    | eq =>
      rw [compare_eq_iff_eq]
      refine le_antisymm (not_lt.1 fun h' => ?_) (not_lt.1 fun h' => ?_)
      · rw [(L.cmp_gt a b).2 ((cls_lt b a).1 h')] at h; cases h
      · rw [(L.cmp_lt a b).2 ((cls_lt a b).1 h')] at h; cases h
  eq a b := by rw [Bool.eq_iff_iff, beq_iff_eq, cls_eq]

end

/-! ### The specification under renaming -/

section
variable {U : Type} [LE U] [LT U] [DecidableLE U] [DecidableLT U] [Ord U] [BEq U] {f : T → U}

omit [LE T] [LT T] [DecidableLE T] [DecidableLT T] [Ord T] [BEq T]
  [LE U] [LT U] [DecidableLE U] [DecidableLT U] [Ord U] [BEq U] in
theorem Any.fresh_map (a : Any T) : (a.map f).Fresh ↔ a.Fresh := by cases a <;> exact Iff.rfl

omit [LE T] [LT T] [DecidableLE T] [DecidableLT T] [Ord T] [BEq T]
  [LE U] [LT U] [DecidableLE U] [DecidableLT U] [Ord U] [BEq U] in
theorem Inner.isSet_map (a : Inner T) : (a.map f).IsSet ↔ a.IsSet := by cases a <;> exact Iff.rfl

theorem noOverlap_map (hf : Compares f) (u : UpperBound T) (l : LowerBound T) :
    NoOverlap (u.map f) (l.map f) ↔ NoOverlap u l := by
  rcases u with ⟨_ | _⟩ <;> rcases l with ⟨_ | _⟩ <;>
    simp only [NoOverlap, UpperBound.map, LowerBound.map, Bound.map, hf.le, hf.lt]

theorem pieces_map (hf : Compares f) (l : List (BoundedRange T)) :
    Pieces (l.map (·.map f)) ↔ Pieces l := by
  have h : ∀ r r' : BoundedRange T, NoOverlap (r.map f).stop (r'.map f).start ↔ NoOverlap r.stop r'.start :=
    fun r r' => noOverlap_map hf _ _
  simp only [Pieces, List.forall_mem_map, BoundedRange.isEmpty_map hf, List.pairwise_map, h]

theorem Inner.normal_map (hf : Compares f) (i : Inner T) : (i.map f).Normal ↔ i.Normal := by
  have h1 : ∀ (r : BoundedRange T) (l : LowerBound T), NoOverlap (r.map f).stop (l.map f) ↔ NoOverlap r.stop l :=
    fun r l => noOverlap_map hf _ _
  have h2 : ∀ (r : BoundedRange T) (u : UpperBound T), NoOverlap (u.map f) (r.map f).start ↔ NoOverlap u r.start :=
    fun r u => noOverlap_map hf _ _
  rcases i with _ | _ | _ | _ | _ | _ | _ | ⟨_ | _⟩ | _
  all_goals try exact Iff.rfl
  · exact pieces_map hf _
  all_goals
    simp only [Inner.map, Inner.Normal, LowerBoundedSet.map, UpperBoundedSet.map, UnboundedSet.map,
      PiecewiseUnboundedSet.map, LowerBoundedRange.map, UpperBoundedRange.map, BoundedSet.map, pieces_map hf,
      List.forall_mem_map, h1, h2, noOverlap_map hf]

theorem Any.normal_map (hf : Compares f) (a : Any T) : (a.map f).toInner.Normal ↔ a.toInner.Normal := by
  rw [Any.toInner_map, Inner.normal_map hf]

theorem lossless_map (hf : Compares f) (a b : Any T) : Lossless (a.map f) (b.map f) ↔ Lossless a b := by
  have h1 : ∀ (r : BoundedRange T) (l : LowerBound T), NoOverlap (r.map f).stop (l.map f) ↔ NoOverlap r.stop l :=
    fun r l => noOverlap_map hf _ _
  simp only [Lossless, Any.toInner_map]
  cases a.toInner <;> cases b.toInner <;>
    simp only [Inner.map, Inner.Lossless, LowerBoundedSet.map, LowerBoundedRange.map, BoundedSet.map,
      List.forall_mem_map, h1]

theorem Expr.denotes_map (hf : Compares f) (e : Expr T) (t : T) : (e.map f).denotes (f t) = e.denotes t := by
  induction e with
  | leaf a => exact Any.contains_map hf a t
  | toInner e ih => exact ih
  | toSet e ih => exact ih
  | union e e' ih ih' => simp only [Expr.map, Expr.denotes, ih, ih']
  | inter e e' ih ih' => simp only [Expr.map, Expr.denotes, ih, ih']
  | complement e ih => simp only [Expr.map, Expr.denotes, ih]

omit [LE T] [LT T] [DecidableLE T] [DecidableLT T] [Ord T] [BEq T]
  [LE U] [LT U] [DecidableLE U] [DecidableLT U] [Ord U] [BEq U] in
theorem Expr.fresh_map (e : Expr T) : (e.map f).AllLeaves Any.Fresh ↔ e.AllLeaves Any.Fresh := by
  induction e with
  | leaf a => exact Any.fresh_map a
  | toInner e ih => exact ih
  | toSet e ih => exact ih
  | union e e' ih ih' => exact and_congr ih ih'
  | inter e e' ih ih' => exact and_congr ih ih'
  | complement e ih => exact ih

theorem Expr.losslessInter_map (hf : Compares f) (e : Expr T) (h : e.LosslessInter) : (e.map f).LosslessInter := by
  induction e with
  | leaf a => trivial
  | toInner e ih => exact ih h
  | toSet e ih => exact ih h
  | union e e' ih ih' => exact ⟨ih h.1, ih' h.2⟩
  | inter e e' ih ih' =>
    refine ⟨ih h.1, ih' h.2.1, fun a b ha hb => ?_⟩
    rw [C65_expr hf] at ha hb
    obtain ⟨a', ha', rfl⟩ := Res.map_eq_ok ha
    obtain ⟨b', hb', rfl⟩ := Res.map_eq_ok hb
    exact (lossless_map hf a' b').2 (h.2.2 a' b' ha' hb')
  | complement e ih => exact ih h

theorem Reachable.map (hf : Compares f) {a : Any T} (h : Reachable a) : Reachable (a.map f) := by
  induction h with
  | range r => exact .range _
  | rangeInclusive r => exact .rangeInclusive _
  | rangeFrom r => exact .rangeFrom _
  | rangeTo r => exact .rangeTo _
  | rangeToInclusive r => exact .rangeToInclusive _
  | rangeFull => exact .rangeFull
  | boundedRange r => exact .boundedRange _
  | lowerBoundedRange r => exact .lowerBoundedRange _
  | upperBoundedRange r => exact .upperBoundedRange _
  | unboundedRange => exact .unboundedRange
  | emptyRange => exact .emptyRange
  | boundedSetEmpty => exact .boundedSetEmpty
  | unboundedSetFull => exact .unboundedSetFull
  | unboundedSetNew u l =>
    have := Reachable.unboundedSetNew (u.map f) (l.map f)
    rw [UnboundedSet.new_map hf] at this
    exact this
  | toInner h ih => have := ih.toInner; rw [Any.toInner_map] at this; exact this
  | toSet h ih => have := ih.toSet; rw [Any.toSet_map hf, SetVal.toInner_map] at this; exact this
  | union h h' e ih ih' => exact .union ih ih' (by rw [Any.union_map hf, e]; rfl)
  | inter h h' e ih ih' => exact .inter ih ih' (by rw [Any.inter_map hf, e]; rfl)
  | complement h e ih => exact .complement ih (by rw [Any.complement_map hf, e]; rfl)

end

/-! ### C67 -/

variable [L : LawfulElem T]

/-- C67. Membership: union and complement are exact, intersection is except for the two lossy
`LowerBoundedSet`s of C02, where it may lose but never gain. -/
theorem C67_contains (a b : Any T) (ha : a.Fresh) (hb : b.Fresh) :
    (∃ c, a.union b = .ok c ∧ ∀ t, c.contains t = (a.contains t || b.contains t)) ∧
    (∃ c, a.complement = .ok c ∧ ∀ t, c.contains t = !a.contains t) ∧
    ∃ c, a.inter b = .ok c ∧ (∀ t, c.contains t = true → a.contains t = true ∧ b.contains t = true) ∧
      (Lossless a b → ∀ t, c.contains t = (a.contains t && b.contains t)) := by
  have hq := cls_compares (T := T)
  have fa := (Any.fresh_map (f := cls) a).2 ha
  have fb := (Any.fresh_map (f := cls) b).2 hb
  refine ⟨?_, ?_, ?_⟩
  · obtain ⟨c, hc, ht⟩ := C01_union_contains (a.map cls) (b.map cls) fa fb
    rw [Any.union_map hq] at hc
    obtain ⟨c', hc', rfl⟩ := Res.map_eq_ok hc
    refine ⟨c', hc', fun t => ?_⟩
    have := ht (cls t)
    rwa [Any.contains_map hq, Any.contains_map hq, Any.contains_map hq] at this
  · obtain ⟨c, hc, ht⟩ := C03_complement_contains (a.map cls) fa
    rw [Any.complement_map hq] at hc
    obtain ⟨c', hc', rfl⟩ := Res.map_eq_ok hc
    refine ⟨c', hc', fun t => ?_⟩
    have := ht (cls t)
    rwa [Inner.contains_map hq, Any.contains_map hq] at this
  · obtain ⟨c, hc, ht⟩ := C02_inter_subset (a.map cls) (b.map cls) fa fb
    have hc0 := hc
    rw [Any.inter_map hq] at hc
    obtain ⟨c', hc', rfl⟩ := Res.map_eq_ok hc
    refine ⟨c', hc', fun t h => ?_, fun hl t => ?_⟩
    · have := ht (cls t)
      rw [Inner.contains_map hq, Any.contains_map hq, Any.contains_map hq] at this
      exact this h
    · obtain ⟨d, hd, ht⟩ := C02_inter_contains_partial (a.map cls) (b.map cls) fa fb ((lossless_map hq a b).2 hl)
      obtain rfl : c'.map cls = d := by rw [hc0] at hd; injection hd
      have := ht (cls t)
      rwa [Inner.contains_map hq, Any.contains_map hq, Any.contains_map hq] at this

/-- C67. Nothing panics, on any values. -/
theorem C67_no_panic (a b : Any T) (e : Expr T) :
    (∃ c, a.union b = .ok c) ∧ (∃ c, a.inter b = .ok c) ∧ (∃ c, a.complement = .ok c) ∧
      (∃ d, a.disjoint b = .ok d ∧ a.intersects b = .ok (!d)) ∧ ∃ c, e.eval = .ok c := by
  have hq := cls_compares (T := T)
  obtain ⟨⟨u, hu⟩, ⟨i, hi⟩, ⟨c, hc⟩, -, -⟩ := C04_no_panic (a.map cls) (b.map cls)
  obtain ⟨v, hv⟩ := C05_expr_no_panic (e.map cls)
  rw [Any.union_map hq] at hu
  rw [Any.inter_map hq] at hi
  rw [Any.complement_map hq] at hc
  rw [C65_expr hq] at hv
  obtain ⟨u', hu', -⟩ := Res.map_eq_ok hu
  obtain ⟨i', hi', -⟩ := Res.map_eq_ok hi
  obtain ⟨c', hc', -⟩ := Res.map_eq_ok hc
  obtain ⟨v', hv', -⟩ := Res.map_eq_ok hv
  refine ⟨⟨u', hu'⟩, ⟨i', hi'⟩, ⟨c', hc'⟩, ⟨i'.isEmpty, ?_, ?_⟩, v', hv'⟩
  · rw [Any.disjoint, hi']; rfl
  · rw [Any.intersects, Any.disjoint, hi']; rfl

/-- C67, partial as C05: whole expressions, without the two lossy `LowerBoundedSet`s of C02. -/
theorem C67_expr_contains_partial (e : Expr T) (h : e.AllLeaves Any.Fresh) (hn : e.LosslessInter) :
    ∃ c, e.eval = .ok c ∧ ∀ t, c.contains t = e.denotes t := by
  have hq := cls_compares (T := T)
  obtain ⟨c, hc, ht⟩ := C05_expr_contains_partial (e.map cls) ((Expr.fresh_map e).2 h) (e.losslessInter_map hq hn)
  rw [C65_expr hq] at hc
  obtain ⟨c', hc', rfl⟩ := Res.map_eq_ok hc
  refine ⟨c', hc', fun t => ?_⟩
  have := ht (cls t)
  rwa [Any.contains_map hq, Expr.denotes_map hq] at this

/-- C67. Every reachable set is normal. -/
theorem C67_reachable_normal {a : Any T} (h : Reachable a) : a.toInner.Normal :=
  (Any.normal_map cls_compares a).1 (C06_reachable_normal (h.map cls_compares))

/-- C67. `is_empty`, `disjoint` and `intersects` do not overlook common elements, and are symmetric. -/
theorem C67_queries (a b : Any T) :
    (a.isEmpty = true → ∀ t, a.contains t = false) ∧
    (∀ d, a.disjoint b = .ok d → d = true → ∀ t, ¬ (a.contains t = true ∧ b.contains t = true)) ∧
    a.disjoint b = b.disjoint a ∧ a.intersects b = b.intersects a := by
  have hq := cls_compares (T := T)
  refine ⟨fun h t => ?_, fun d hd ht t h => ?_, ?_, ?_⟩
  · rw [← Any.contains_map hq]
    exact C18_isEmpty_sound _ (by rw [Any.isEmpty_map hq]; exact h) _
  · obtain ⟨d', hd', -, hs, -⟩ := C20_disjoint_sound (a.map cls) (b.map cls)
    rw [Any.disjoint_map hq, hd] at hd'
    obtain rfl : d = d' := by injection hd'
    refine hs ht (cls t) ?_
    rwa [Any.contains_map hq, Any.contains_map hq]
  · rw [← Any.disjoint_map hq, ← Any.disjoint_map hq b]; exact (C23_symmetric _ _).1
  · rw [← Any.intersects_map hq, ← Any.intersects_map hq b]; exact (C23_symmetric _ _).2

/-! Equations hold up to the crate's `==`, which compares elements by their `==`. -/

/-- The crate's `==` on two results. -/
def EqUpTo (a b : Inner T) : Prop := a.eqWith (· == ·) b = true

theorem eqUpTo_iff (a b : Inner T) : EqUpTo a b ↔ a.map cls = b.map cls :=
  Inner.eqWith_iff (fun x y => (cls_eq x y).symm) a b

theorem eqUpTo_of_any {a b : Any T} (h : a.map cls = b.map cls) : EqUpTo a.toInner b.toInner := by
  rw [eqUpTo_iff, ← Any.toInner_map, ← Any.toInner_map, h]

/-- C67. `==` operands have the same members, the same emptiness, and `==` results. -/
theorem C67_eq_congr (a a' b b' : Inner T) (ha : EqUpTo a a') (hb : EqUpTo b b') :
    (∀ t, a.contains t = a'.contains t) ∧ a.isEmpty = a'.isEmpty ∧
    (∃ c c', (Any.inner a).union (.inner b) = .ok c ∧ (Any.inner a').union (.inner b') = .ok c' ∧
      EqUpTo c.toInner c'.toInner) ∧
    (∃ c c', (Any.inner a).inter (.inner b) = .ok c ∧ (Any.inner a').inter (.inner b') = .ok c' ∧ EqUpTo c c') ∧
    ∃ c c', (Any.inner a).complement = .ok c ∧ (Any.inner a').complement = .ok c' ∧ EqUpTo c c' := by
  have hq := cls_compares (T := T)
  rw [eqUpTo_iff] at ha hb
  have ea : (Any.inner a).map cls = (Any.inner a').map cls := congrArg Any.inner ha
  have eb : (Any.inner b).map cls = (Any.inner b').map cls := congrArg Any.inner hb
  refine ⟨fun t => ?_, ?_, ?_, ?_, ?_⟩
  · rw [← Inner.contains_map hq, ha, Inner.contains_map hq]
  · have := Any.isEmpty_map hq (.inner a)
    rw [ea, Any.isEmpty_map hq] at this
    exact this.symm
  · obtain ⟨⟨c, hc⟩, -⟩ := C67_no_panic (.inner a) (.inner b) (.leaf (.inner a))
    have h := Any.union_map hq (.inner a) (.inner b)
    rw [ea, eb, Any.union_map hq, hc] at h
    obtain ⟨c', hc', e⟩ := Res.map_eq_ok h
    exact ⟨c, c', hc, hc', eqUpTo_of_any e.symm⟩
  · obtain ⟨-, ⟨c, hc⟩, -⟩ := C67_no_panic (.inner a) (.inner b) (.leaf (.inner a))
    have h := Any.inter_map hq (.inner a) (.inner b)
    rw [ea, eb, Any.inter_map hq, hc] at h
    obtain ⟨c', hc', e⟩ := Res.map_eq_ok h
    exact ⟨c, c', hc, hc', (eqUpTo_iff _ _).2 e.symm⟩
  · obtain ⟨-, -, ⟨c, hc⟩, -⟩ := C67_no_panic (.inner a) (.inner b) (.leaf (.inner a))
    have h := Any.complement_map hq (.inner a)
    rw [ea, Any.complement_map hq, hc] at h
    obtain ⟨c', hc', e⟩ := Res.map_eq_ok h
    exact ⟨c, c', hc, hc', (eqUpTo_iff _ _).2 e.symm⟩

/-- C67. If two expressions have the same value when equal elements are identified, their values are `==`. -/
theorem C67_transfer (e e' : Expr T) (h : (e.map cls).eval = (e'.map cls).eval) :
    ∃ c c', e.eval = .ok c ∧ e'.eval = .ok c' ∧ EqUpTo c.toInner c'.toInner := by
  have hq := cls_compares (T := T)
  rw [C65_expr hq, C65_expr hq] at h
  obtain ⟨-, -, -, -, c, hc⟩ := C67_no_panic (.rangeFull : Any T) .rangeFull e
  rw [hc] at h
  obtain ⟨c', hc', e⟩ := Res.map_eq_ok h.symm
  exact ⟨c, c', hc, hc', eqUpTo_of_any e.symm⟩

/-- C67. Union is commutative and associative up to `==`. -/
theorem C67_union_laws (a b c : Any T) (ha : a.toInner.Normal) (hb : b.toInner.Normal) (hc : c.toInner.Normal) :
    (∃ x y, a.union b = .ok x ∧ b.union a = .ok y ∧ EqUpTo x.toInner y.toInner) ∧
    ∃ ab bc x y, a.union b = .ok ab ∧ b.union c = .ok bc ∧ ab.union c = .ok x ∧ a.union bc = .ok y ∧
      EqUpTo x.toInner y.toInner := by
  have hq := cls_compares (T := T)
  rw [← Any.normal_map hq] at ha hb hc
  constructor
  · exact C67_transfer (.union (.leaf a) (.leaf b)) (.union (.leaf b) (.leaf a)) (C07_union_comm _ _ ha hb)
  · obtain ⟨ab, hab⟩ := (C67_no_panic a b (.leaf a)).1
    obtain ⟨bc, hbc⟩ := (C67_no_panic b c (.leaf a)).1
    obtain ⟨x', y', hx', hy', e, -⟩ := C08_union_assoc _ _ _ ha hb hc
    rw [Any.union_map hq, hab] at hx'
    rw [Any.union_map hq, hbc] at hy'
    obtain rfl : ab.map cls = x' := by injection hx'
    obtain rfl : bc.map cls = y' := by injection hy'
    obtain ⟨x, y, hx, hy, h⟩ := C67_transfer (.union (.leaf ab) (.leaf c)) (.union (.leaf a) (.leaf bc)) e
    exact ⟨ab, bc, x, y, hab, hbc, hx, hy, h⟩

/-- C67, partial as C10 and C11: intersection is commutative and associative up to `==` where it is lossless. -/
theorem C67_inter_laws_partial (a b c : Any T) (ha : a.toInner.Normal) (hb : b.toInner.Normal) (hc : c.toInner.Normal)
    (hab : Lossless a b) :
    (Lossless b a → ∃ x y, a.inter b = .ok x ∧ b.inter a = .ok y ∧ EqUpTo x y) ∧
    ∃ ab bc x y, a.inter b = .ok ab ∧ b.inter c = .ok bc ∧ (Any.inner ab).inter c = .ok x ∧
      a.inter (.inner bc) = .ok y ∧
      (Lossless b c → Lossless (.inner ab) c → Lossless a (.inner bc) → EqUpTo x y) := by
  have hq := cls_compares (T := T)
  have na := (Any.normal_map hq a).2 ha
  have nb := (Any.normal_map hq b).2 hb
  have nc := (Any.normal_map hq c).2 hc
  have lab := (lossless_map hq a b).2 hab
  obtain ⟨-, ⟨ab, h1⟩, -⟩ := C67_no_panic a b (.leaf a)
  obtain ⟨-, ⟨bc, h2⟩, -⟩ := C67_no_panic b c (.leaf a)
  obtain ⟨-, ⟨x, hx⟩, -⟩ := C67_no_panic (.inner ab) c (.leaf a)
  obtain ⟨-, ⟨y, hy⟩, -⟩ := C67_no_panic a (.inner bc) (.leaf a)
  constructor
  · intro hba
    have e := C10_inter_comm_partial _ _ na nb lab ((lossless_map hq b a).2 hba)
    obtain ⟨-, ⟨y, hy⟩, -⟩ := C67_no_panic b a (.leaf a)
    rw [Any.inter_map hq, Any.inter_map hq, h1, hy] at e
    exact ⟨ab, y, h1, hy, (eqUpTo_iff _ _).2 (by injection e)⟩
  · refine ⟨ab, bc, x, y, h1, h2, hx, hy, fun hbc l1 l2 => ?_⟩
    have m1 : (a.map cls).inter (b.map cls) = .ok (ab.map cls) := by rw [Any.inter_map hq, h1]; rfl
    have m2 : (b.map cls).inter (c.map cls) = .ok (bc.map cls) := by rw [Any.inter_map hq, h2]; rfl
    obtain ⟨x', y', hx', hy', e, -⟩ := C11_inter_assoc_partial _ _ _ na nb nc lab ((lossless_map hq b c).2 hbc)
      (fun z hz => by
        obtain rfl : ab.map cls = z := by rw [m1] at hz; injection hz
        exact (lossless_map hq (.inner ab) c).2 l1)
      (fun z hz => by
        obtain rfl : bc.map cls = z := by rw [m2] at hz; injection hz
        exact (lossless_map hq a (.inner bc)).2 l2)
    obtain rfl : ab.map cls = x' := by rw [m1] at hx'; injection hx'
    obtain rfl : bc.map cls = y' := by rw [m2] at hy'; injection hy'
    have f1 := Any.inter_map hq (.inner ab) c
    have f2 := Any.inter_map hq a (.inner bc)
    rw [hx] at f1
    rw [hy] at f2
    refine (eqUpTo_iff _ _).2 ?_
    have : Res.map (Inner.map cls) (.ok x) = Res.map (Inner.map cls) (.ok y) := by rw [← f1, ← f2]; exact e
    injection this

/-- C67. Idempotence, absorption and triple complement for the four set types. -/
theorem C67_set_laws (a : Inner T) (b : Any T) (hs : a.IsSet) (na : a.Normal) (nb : b.toInner.Normal) :
    (∃ u, (Any.inner a).union (.inner a) = .ok (.inner u) ∧ EqUpTo u a) ∧
    (∃ i, (Any.inner a).inter (.inner a) = .ok i ∧ EqUpTo i a) ∧
    (∃ i u, (Any.inner a).inter b = .ok i ∧ (Any.inner a).union (.inner i) = .ok (.inner u) ∧ EqUpTo u a) ∧
    ∃ c d e, (Any.inner a).complement = .ok c ∧ (Any.inner c).complement = .ok d ∧
      (Any.inner d).complement = .ok e ∧ EqUpTo e c := by
  have hq := cls_compares (T := T)
  have hs' := (Inner.isSet_map (f := cls) a).2 hs
  have na' := (Inner.normal_map hq a).2 na
  have nb' := (Any.normal_map hq b).2 nb
  refine ⟨?_, ?_, ?_, ?_⟩
  · have h := (C09_union_self (a.map cls) hs' na').1
    have e := Any.union_map hq (.inner a) (.inner a)
    rw [show (Any.inner a).map cls = .inner (a.map cls) from rfl, h] at e
    obtain ⟨u, hu, e'⟩ := Res.map_eq_ok e.symm
    rcases u with _ | _ | _ | _ | _ | _ | u <;> try cases e'
    exact ⟨u, hu, (eqUpTo_iff _ _).2 (by injection e')⟩
  · have h := (C12_inter_self (a.map cls) hs' na').1
    have e := Any.inter_map hq (.inner a) (.inner a)
    rw [show (Any.inner a).map cls = .inner (a.map cls) from rfl, h] at e
    obtain ⟨u, hu, e'⟩ := Res.map_eq_ok e.symm
    exact ⟨u, hu, (eqUpTo_iff _ _).2 e'⟩
  · obtain ⟨i, hi, hu⟩ := C55_union_inter_absorb (a.map cls) (b.map cls) hs' na' nb'
    have e := Any.inter_map hq (.inner a) b
    rw [show (Any.inner a).map cls = .inner (a.map cls) from rfl, hi] at e
    obtain ⟨i', hi', rfl⟩ := Res.map_eq_ok e.symm
    have e2 := Any.union_map hq (.inner a) (.inner i')
    rw [show (Any.inner a).map cls = .inner (a.map cls) from rfl,
      show (Any.inner i').map cls = .inner (i'.map cls) from rfl, hu] at e2
    obtain ⟨u, hu', e'⟩ := Res.map_eq_ok e2.symm
    rcases u with _ | _ | _ | _ | _ | _ | u <;> try cases e'
    exact ⟨i', u, hi', hu', (eqUpTo_iff _ _).2 (by injection e')⟩
  · obtain ⟨c, d, hc, hd, he⟩ := C15_triple_complement (a.map cls) hs' na'
    have e1 := Any.complement_map hq (.inner a)
    rw [show (Any.inner a).map cls = .inner (a.map cls) from rfl, hc] at e1
    obtain ⟨c', hc', rfl⟩ := Res.map_eq_ok e1.symm
    have e2 := Any.complement_map hq (.inner c')
    rw [show (Any.inner c').map cls = .inner (c'.map cls) from rfl, hd] at e2
    obtain ⟨d', hd', rfl⟩ := Res.map_eq_ok e2.symm
    have e3 := Any.complement_map hq (.inner d')
    rw [show (Any.inner d').map cls = .inner (d'.map cls) from rfl, he] at e3
    obtain ⟨e', he', h⟩ := Res.map_eq_ok e3.symm
    exact ⟨c', d', e', hc', hd', he', (eqUpTo_iff _ _).2 h⟩

/-! ### Lawful element types -/

/-- C67. Linear orders are lawful, so C67 covers every element type of the other files. -/
theorem C67_linearOrder (U : Type) [LinearOrder U] : LawfulElem U where
  total := le_total
  trans _ _ _ := le_trans
  lt_iff _ _ := not_le.symm
  cmp_lt _ _ := compare_lt_iff_lt
  cmp_gt _ _ := compare_gt_iff_gt
  beq_iff _ _ := by rw [beq_iff_eq]; exact ⟨fun h => ⟨h.le, h.ge⟩, fun h => le_antisymm h.1 h.2⟩

/-- A record ordered by its key alone. -/
structure Keyed where
  key : Int
  tag : Int
  deriving DecidableEq, Repr

namespace Keyed
instance : LE Keyed := ⟨fun a b => a.key ≤ b.key⟩
instance : LT Keyed := ⟨fun a b => a.key < b.key⟩
instance : DecidableLE Keyed := fun a b => inferInstanceAs (Decidable (a.key ≤ b.key))
instance : DecidableLT Keyed := fun a b => inferInstanceAs (Decidable (a.key < b.key))
instance : Ord Keyed := ⟨fun a b => compare a.key b.key⟩
instance (priority := high) : BEq Keyed := ⟨fun a b => a.key == b.key⟩

instance : LawfulElem Keyed where
  total a b := le_total a.key b.key
  trans a b c := le_trans (a := a.key) (b := b.key) (c := c.key)
  lt_iff a b := (not_le (a := b.key) (b := a.key)).symm
  cmp_lt a b := compare_lt_iff_lt (a := a.key) (b := b.key)
  cmp_gt a b := compare_gt_iff_gt (a := a.key) (b := b.key)
  beq_iff a b := by
    change (a.key == b.key) = true ↔ a.key ≤ b.key ∧ b.key ≤ a.key
    rw [beq_iff_eq]; exact ⟨fun h => ⟨h.le, h.ge⟩, fun h => le_antisymm h.1 h.2⟩
end Keyed

/-- `key 1, tag x` up to `key 5, tag x`. -/
def keyedPiece (x : Int) : Inner Keyed := .bs ⟨[⟨⟨.included ⟨1, x⟩⟩, ⟨.excluded ⟨5, x⟩⟩⟩]⟩

/-- C67. "Up to `==`" cannot be dropped: on records told apart by more than their key, the two orders of a
union differ as values while comparing `==`. -/
theorem C67_needs_upto : ∃ x y : Inner Keyed,
    (Any.inner (keyedPiece 0)).union (.inner (keyedPiece 1)) = .ok (.inner x) ∧
    (Any.inner (keyedPiece 1)).union (.inner (keyedPiece 0)) = .ok (.inner y) ∧ x ≠ y ∧ EqUpTo x y := by
  refine ⟨.bs ⟨[⟨⟨.included ⟨1, 1⟩⟩, ⟨.excluded ⟨5, 0⟩⟩⟩]⟩, .bs ⟨[⟨⟨.included ⟨1, 0⟩⟩, ⟨.excluded ⟨5, 1⟩⟩⟩]⟩, ?_, ?_, ?_, ?_⟩
  · decide +kernel
  · decide +kernel
  · decide
  · unfold EqUpTo; decide +kernel

/-- The hypotheses of C67 on records that compare equal without being identical. -/
example : (⟨1, 0⟩ : Keyed) ≠ ⟨1, 1⟩ ∧ ((⟨1, 0⟩ : Keyed) == ⟨1, 1⟩) = true := by decide

example : (Any.inner (keyedPiece 0)).Fresh ∧ (keyedPiece 0).IsSet ∧ (keyedPiece 0).Normal ∧
    EqUpTo (keyedPiece 0) (keyedPiece 1) ∧ keyedPiece 0 ≠ keyedPiece 1 ∧
    Lossless (Any.inner (keyedPiece 0)) (.inner (keyedPiece 1)) ∧ Reachable (Any.range (⟨⟨1, 0⟩, ⟨5, 0⟩⟩ : Range Keyed)) ∧
    (keyedPiece 0).contains ⟨1, 7⟩ = true ∧ (keyedPiece 0).contains ⟨5, 7⟩ = false := by
  refine ⟨trivial, trivial, ⟨?_, ?_⟩, ?_, ?_, trivial, .range _, ?_, ?_⟩
  · intro r hr
    obtain rfl := List.mem_singleton.1 hr
    decide +kernel
  · exact List.pairwise_singleton _ _
  · unfold EqUpTo; decide +kernel
  all_goals decide

end Rangetools
