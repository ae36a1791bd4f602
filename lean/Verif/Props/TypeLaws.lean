import Verif.Spec.TypeLaws
import Verif.Spec.Samples
import Verif.Props.Lattice
import Verif.Props.Region

/-!
# C117: for which operand types the laws always hold
-/

namespace Rangetools
open Iv

section Samples
open Samples

example : AssocFails (.lbs ⟨⟨[]⟩, ci 0⟩) (.lbr (ci 0)) (.us .full) = true := by decide
example : AssocFails lbs lbs' (.lbr (ci 0)) = false ∧ InterUnionFails us lbs lbs' = false := by decide
end Samples

variable {T : Type} [LinearOrder T]

/-! ## The laws hold outside the tables -/

theorem InterFails.lossless {a b : Inner T} (h : InterFails a b = false) : a.Lossless b := by
  refine .of_not_both ?_
  cases a <;> cases b <;> first | (rintro ⟨h1, h2⟩; first | exact h1.elim | exact h2.elim | cases h)

/-- C117. Outside the table intersections have the right members. -/
theorem C117_inter_members (a b : Any T) (ha : a.Fresh) (hb : b.Fresh)
    (h : InterFails a.toInner b.toInner = false) : MeetsRight a b :=
  C02_inter_contains_partial a b ha hb (InterFails.lossless h)

example : InterFails (Any.inner Samples.lbs).toInner (Any.inner Samples.us).toInner = false ∧
    (Any.inner Samples.lbs).Fresh ∧ (Any.inner Samples.us).Fresh := ⟨rfl, trivial, trivial⟩

omit [LinearOrder T] in
theorem InterFails.swap {a b : Inner T} (h : InterFails a b = false) : InterFails b a = false := by
  cases a <;> cases b <;> first | rfl | cases h

/-- C117. Outside the table intersections do not depend on the order of the operands. -/
theorem C117_inter_comm (a b : Any T) (ha : a.toInner.Normal) (hb : b.toInner.Normal)
    (h : InterFails a.toInner b.toInner = false) : a.inter b = b.inter a :=
  C10_inter_comm_partial a b ha hb (InterFails.lossless h) (InterFails.lossless (InterFails.swap h))

example : Samples.lbs.Normal ∧ Samples.us.Normal ∧ InterFails Samples.lbs Samples.us = false := by decide

/-- C117. Outside the table `a.intersection(b.complement())` is the difference. -/
theorem C117_difference (a b : Any T) (ha : a.Fresh) (hb : b.Fresh)
    (h : DiffFails a.toInner b.toInner = false) : DiffRight a b := by
  obtain ⟨c, d, h1, h2, h3, h4, -⟩ := C58_difference_partial a b ha hb
  refine ⟨c, d, h1, h2, h3 (h4 ?_)⟩
  generalize a.toInner = i at h
  generalize b.toInner = j at h
  rintro ⟨h5, h6⟩
  cases i <;> first | exact h5.elim | skip
  cases j <;> first | exact h6.elim | cases h

example : DiffFails Samples.lbs Samples.lbs' = false ∧ (Any.inner Samples.lbs).Fresh := ⟨rfl, trivial⟩

/-! ### Associativity -/

/-- A region without an upper end is its own last stretch. -/
theorem tail_lbr (r : LowerBoundedRange T) : tail (Inner.lbr r).inside = (Inner.lbr r).inside :=
  Set.Subset.antisymm (tail_subset _) fun _ hp _ hq => lt_of_lt_of_le hp hq

theorem tail_univ : tail (Set.univ : Set (Spot T)) = Set.univ :=
  Set.eq_univ_of_forall fun _ _ _ => trivial

theorem tail_inter (A B : Set (Spot T)) : tail (A ∩ B) = tail A ∩ tail B := by
  ext p
  exact ⟨fun h => ⟨fun q hq => (h q hq).1, fun q hq => (h q hq).2⟩, fun h q hq => ⟨h.1 q hq, h.2 q hq⟩⟩

/-- The three ways to put a half-line (or everything) between two `LowerBoundedSet`s. -/
theorem assoc_sets {A B C : Set (Spot T)} (hA : tail A = A) :
    ((A ∩ B) ∩ C) \ (tail (A ∩ B) \ tail C) = A ∩ ((B ∩ C) \ (tail B \ tail C)) ∧
    ((B ∩ A) ∩ C) \ (tail (B ∩ A) \ tail C) = (B ∩ (A ∩ C)) \ (tail B \ tail (A ∩ C)) ∧
    ((B ∩ C) \ (tail B \ tail C)) ∩ A = (B ∩ (C ∩ A)) \ (tail B \ tail (C ∩ A)) := by
  simp only [tail_inter, hA]
  refine ⟨?_, ?_, ?_⟩ <;> ext p <;> simp only [Set.mem_sdiff, Set.mem_inter_iff] <;> tauto

theorem associates_of_region {a b c : Inner T} (ha : a.Normal) (hb : b.Normal) (hc : c.Normal)
    (hk : (Expr.inter (.inter (.leaf (.inner a)) (.leaf (.inner b))) (.leaf (.inner c))).region.shape ≠
      some ⟨false, true, true⟩)
    (h : (Expr.inter (.inter (.leaf (.inner a)) (.leaf (.inner b))) (.leaf (.inner c))).region =
      (Expr.inter (.leaf (.inner a)) (.inter (.leaf (.inner b)) (.leaf (.inner c)))).region) :
    Associates (.inner a) (.inner b) (.inner c) := by
  obtain ⟨v, w, hv, hw, he⟩ := (C77_equal_iff
    (.inter (.inter (.leaf (.inner a)) (.leaf (.inner b))) (.leaf (.inner c)))
    (.inter (.leaf (.inner a)) (.inter (.leaf (.inner b)) (.leaf (.inner c))))
    ⟨⟨ha, hb⟩, hc⟩ ⟨ha, hb, hc⟩ hk).mpr h
  obtain ⟨x, hx⟩ := (C04_no_panic (.inner a) (.inner b)).2.1
  obtain ⟨y, hy⟩ := (C04_no_panic (.inner b) (.inner c)).2.1
  obtain ⟨u, hu⟩ := (C04_no_panic (.inner x) (.inner c)).2.1
  obtain ⟨z, hz⟩ := (C04_no_panic (.inner a) (.inner y)).2.1
  have hv' : (Expr.inter (.inter (.leaf (.inner a)) (.leaf (.inner b))) (.leaf (.inner c))).eval =
      .ok (.inner u) := by simp [Expr.eval, hx, hu]
  have hw' : (Expr.inter (.leaf (.inner a)) (.inter (.leaf (.inner b)) (.leaf (.inner c)))).eval =
      .ok (.inner z) := by simp [Expr.eval, hy, hz]
  rw [hv'] at hv
  rw [hw'] at hw
  cases hv
  cases hw
  simp only [Any.toInner_inner] at he
  exact ⟨x, y, z, hx, hy, by rw [hu, he], hz⟩

theorem Inner.associates (a b c : Inner T) (ha : a.Normal) (hb : b.Normal) (hc : c.Normal)
    (h : AssocFails a b c = false) : Associates (.inner a) (.inner b) (.inner c) := by
  by_cases her : a.kind = .er ∨ b.kind = .er ∨ c.kind = .er
  · obtain ⟨x, hx, -, -, kx⟩ := Any.inter_comp (.inner a) (.inner b)
    obtain ⟨y, hy, -, -, ky⟩ := Any.inter_comp (.inner b) (.inner c)
    obtain ⟨u, hu, -, -, ku⟩ := Any.inter_comp (.inner x) (.inner c)
    obtain ⟨z, hz, -, -, kz⟩ := Any.inter_comp (.inner a) (.inner y)
    simp only [Any.toInner_inner] at kx ky ku kz
    have e : ∀ i j k : Kind, i = .er ∨ j = .er ∨ k = .er →
        interKind (interKind i j) k = .er ∧ interKind i (interKind j k) = .er := by
      intro i j k; cases i <;> cases j <;> cases k <;> simp [interKind]
    obtain ⟨e1, e2⟩ := e _ _ _ her
    have : u = z := by
      rw [Inner.eq_er (a := u) (by rw [ku, kx, e1]), Inner.eq_er (a := z) (by rw [kz, ky, e2])]
    exact ⟨x, y, z, hx, hy, this ▸ hu, hz⟩
  by_cases hl : (a.kind = .lbs ∧ b.kind = .lbs) ∨ (b.kind = .lbs ∧ c.kind = .lbs) ∨
      (interKind a.kind b.kind = .lbs ∧ c.kind = .lbs) ∨ (a.kind = .lbs ∧ interKind b.kind c.kind = .lbs)
  · cases a with
    | lbs a =>
      cases b with
      | lbs b =>
        cases c with
        | lbr c =>
          refine associates_of_region ha hb hc (show some Shape.lbs ≠ _ by decide) ?_
          exact congrArg (Region.ofSet (some Shape.lbs)) (assoc_sets (tail_lbr c)).2.2
        | ur =>
          refine associates_of_region ha hb hc (show some Shape.lbs ≠ _ by decide) ?_
          exact congrArg (Region.ofSet (some Shape.lbs)) (assoc_sets tail_univ).2.2
        | er => exact absurd (.inr (.inr rfl)) her
        | _ => cases h
      | lbr b =>
        cases c with
        | lbs c =>
          refine associates_of_region ha hb hc (show some Shape.lbs ≠ _ by decide) ?_
          exact congrArg (Region.ofSet (some Shape.lbs)) (assoc_sets (tail_lbr b)).2.1
        | us c => cases h
        | _ => revert hl; simp [Inner.kind, interKind]
      | ur =>
        cases c with
        | lbs c =>
          refine associates_of_region ha hb hc (show some Shape.lbs ≠ _ by decide) ?_
          exact congrArg (Region.ofSet (some Shape.lbs)) (assoc_sets tail_univ).2.1
        | _ => revert hl; simp [Inner.kind, interKind]
      | us b => cases c <;> first | (exfalso; revert hl; simp [Inner.kind, interKind]; done) | cases h
      | _ => cases c <;> (exfalso; revert hl; simp [Inner.kind, interKind])
    | lbr a =>
      cases c with
      | lbs c =>
        cases b with
        | lbs b =>
          refine associates_of_region ha hb hc (show some Shape.lbs ≠ _ by decide) ?_
          exact congrArg (Region.ofSet (some Shape.lbs)) (assoc_sets (tail_lbr a)).1
        | us b => cases h
        | _ => exfalso; revert hl; simp [Inner.kind, interKind]
      | _ => cases b <;> (exfalso; revert hl; simp [Inner.kind, interKind])
    | ur =>
      cases c with
      | lbs c =>
        cases b with
        | lbs b =>
          refine associates_of_region ha hb hc (show some Shape.lbs ≠ _ by decide) ?_
          exact congrArg (Region.ofSet (some Shape.lbs)) (assoc_sets tail_univ).1
        | _ => exfalso; revert hl; simp [Inner.kind, interKind]
      | _ => cases b <;> (exfalso; revert hl; simp [Inner.kind, interKind])
    | er => exact absurd (.inl rfl) her
    | _ =>
      cases c with
      | lbs c => cases b <;> first | (exfalso; revert hl; simp [Inner.kind, interKind]; done) | cases h
      | _ => cases b <;> (exfalso; revert hl; simp [Inner.kind, interKind])
  · have nb : ∀ {i j : Inner T}, ¬ (i.kind = .lbs ∧ j.kind = .lbs) → i.Lossless j := fun hn =>
      .of_not_both fun ⟨h1, h2⟩ => hn ⟨(Inner.isLBS_iff _).mp h1, (Inner.isLBS_iff _).mp h2⟩
    obtain ⟨x, hx, -, -, kx⟩ := Any.inter_comp (.inner a) (.inner b)
    obtain ⟨y, hy, -, -, ky⟩ := Any.inter_comp (.inner b) (.inner c)
    obtain ⟨x', y', h1, h2, h3, z, h4⟩ := C11_inter_assoc_partial (.inner a) (.inner b) (.inner c) ha hb hc
      (nb fun h => hl (.inl h)) (nb fun h => hl (.inr (.inl h)))
      (fun x' h' => nb fun h => hl (.inr (.inr (.inl ⟨by
        rw [hx] at h'; cases h'; rw [← h.1]; exact kx.symm, h.2⟩))))
      (fun y' h' => nb fun h => hl (.inr (.inr (.inr ⟨h.1, by
        rw [hy] at h'; cases h'; rw [← h.2]; exact ky.symm⟩))))
    exact ⟨x', y', z, h1, h2, h4, h3 ▸ h4⟩

/-- C117. Outside the table intersection is associative, for all nine types and the std ranges. -/
theorem C117_inter_assoc (a b c : Any T) (ha : a.toInner.Normal) (hb : b.toInner.Normal) (hc : c.toInner.Normal)
    (h : AssocFails a.toInner b.toInner c.toInner = false) : Associates a b c := by
  obtain ⟨x, y, z, h1, h2, h3, h4⟩ := Inner.associates _ _ _ ha hb hc h
  have hb' := (Inner.normal_iff _).mp hb
  have hc' := (Inner.normal_iff _).mp hc
  have wy : (Any.inner y).toInner.WF := by
    obtain ⟨y', hy', -, wy, -⟩ := Any.inter_comp (.inner b.toInner) (.inner c.toInner)
    rw [h2] at hy'
    cases hy'
    exact wy ⟨hb', hc'⟩
  have e : ∀ {a b : Any T}, b.toInner.WF → a.inter b = (Any.inner a.toInner).inter (.inner b.toInner) := by
    intro a b hw
    rw [Any.inter_eq hw, Any.inter_eq (b := .inner b.toInner) hw, Any.toInner_inner, Any.toInner_inner]
  exact ⟨x, y, z, (e hb').trans h1, (e hc').trans h2, (e hc').trans h3, (e wy).trans h4⟩

-- lossy, yet associative
example : Samples.lbs.Normal ∧ Samples.lbs'.Normal ∧ (Inner.lbr (Samples.ci 0)).Normal ∧
    AssocFails Samples.lbs Samples.lbs' (.lbr (Samples.ci 0)) = false ∧
    ¬ Lossless (.inner Samples.lbs) (.inner Samples.lbs') := by decide

/-! ### Distributivity -/

/-- C117. Outside the table intersection distributes over union. -/
theorem C117_inter_union (a b c : Inner T) (ha : a.IsSet) (hb : b.IsSet) (hc : c.IsSet) (na : a.Normal)
    (nb : b.Normal) (nc : c.Normal) (h : InterUnionFails a b c = false) :
    InterUnion (.inner a) (.inner b) (.inner c) := by
  obtain ⟨x, hx, -, -, kx, -⟩ := Any.union_sets hb hc ((Inner.normal_iff _).mp nb) ((Inner.normal_iff _).mp nc)
  have nbl : ∀ {i j : Inner T}, ¬ (i.kind = .lbs ∧ j.kind = .lbs) → i.Lossless j := fun hn =>
    .of_not_both fun ⟨h1, h2⟩ => hn ⟨(Inner.isLBS_iff _).mp h1, (Inner.isLBS_iff _).mp h2⟩
  have key : ¬ (a.kind = .lbs ∧ b.kind = .lbs) ∧ ¬ (a.kind = .lbs ∧ c.kind = .lbs) ∧
      ¬ (a.kind = .lbs ∧ unionKind b.kind c.kind = .lbs) := by
    clear hx kx na nb nc nbl
    cases a <;> first | exact ha.elim | (refine ⟨?_, ?_, ?_⟩ <;> rintro ⟨h1, -⟩ <;> cases h1; done) | skip
    cases b <;> first | exact hb.elim | cases h | skip
    all_goals cases c <;> first | exact hc.elim | (simp [Inner.kind, unionKind]; done) | cases h
  obtain ⟨bc, ab, ac, r, h1, h2, h3, h4, h5⟩ := C13_inter_union_distrib_partial a b c ha hb hc na nb nc
    (nbl key.1) (nbl key.2.1) (fun y hy => nbl fun h => key.2.2 ⟨h.1, by
      rw [hx] at hy; cases hy; rw [← kx]; exact h.2⟩)
  exact ⟨_, ab, ac, r, h1, h2, h3, h4, h5⟩

example : Samples.us.IsSet ∧ Samples.lbs.IsSet ∧ Samples.lbs'.IsSet ∧ Samples.us.Normal ∧ Samples.lbs.Normal ∧
    Samples.lbs'.Normal ∧ InterUnionFails Samples.us Samples.lbs Samples.lbs' = false := by decide

/-- C117. Outside the table union distributes over intersection. -/
theorem C117_union_inter (a b c : Inner T) (ha : a.IsSet) (hb : b.IsSet) (hc : c.IsSet) (na : a.Normal)
    (nb : b.Normal) (nc : c.Normal) (h : UnionInterFails a b c = false) :
    UnionInter (.inner a) (.inner b) (.inner c) := by
  rw [Inner.normal_iff] at na nb nc
  obtain ⟨x, hx, -, -, kx, -⟩ := Any.union_sets ha hb na nb
  obtain ⟨y, hy, -, -, ky, -⟩ := Any.union_sets ha hc na nc
  rw [← Inner.normal_iff] at na nb nc
  have nbl : ∀ {i j : Inner T}, ¬ (i.kind = .lbs ∧ j.kind = .lbs) → i.Lossless j := fun hn =>
    .of_not_both fun ⟨h1, h2⟩ => hn ⟨(Inner.isLBS_iff _).mp h1, (Inner.isLBS_iff _).mp h2⟩
  have key : ¬ (b.kind = .lbs ∧ c.kind = .lbs) ∧
      ¬ (unionKind a.kind b.kind = .lbs ∧ unionKind a.kind c.kind = .lbs) := by
    clear hx kx hy ky na nb nc nbl
    cases a <;> first | exact ha.elim | skip
    all_goals cases b <;> first | exact hb.elim | skip
    all_goals cases c <;> first | exact hc.elim | cases h; done | simp [Inner.kind, unionKind]
  obtain ⟨bc, ab, ac, r, h1, h2, h3, h4, h5⟩ := C13_union_inter_distrib_partial a b c ha hb hc na nb nc
    (nbl key.1) (fun x' y' hx' hy' => nbl fun h => key.2 ⟨by
      rw [hx] at hx'; cases hx'; rw [← kx]; exact h.1, by
      rw [hy] at hy'; cases hy'; rw [← ky]; exact h.2⟩)
  exact ⟨bc, _, _, r, h1, h2, h3, h4, h5⟩

example : Samples.lbs.IsSet ∧ Samples.us.IsSet ∧ Samples.bs.IsSet ∧ Samples.us.Normal ∧ Samples.lbs.Normal ∧
    Samples.bs.Normal ∧ UnionInterFails Samples.lbs Samples.us Samples.bs = false := by decide

/-! ## No entry can be left out -/

section Samples
open Samples

/-- Some normal values of the type of the argument. -/
def someOf : Inner Int → List (Inner Int)
  | .br _ => [.br (co 0 10), .br (co 3 20)]
  | .bs _ => [.bs ⟨[co 5 11]⟩, .bs ⟨[co 6 7]⟩, .bs ⟨[co 0 30]⟩]
  | .lbr _ => [.lbr (ci 0), .lbr (ci 5), .lbr (ci 50)]
  | .lbs _ => [.lbs ⟨⟨[co 2 4]⟩, ci 10⟩, .lbs ⟨⟨[]⟩, ci 0⟩, .lbs ⟨⟨[co 5 9]⟩, ci 20⟩, .lbs ⟨⟨[]⟩, ci 8⟩]
  | .ubr _ => [.ubr (io 20), .ubr (io 3)]
  | .ubs _ => [.ubs ⟨io 0, ⟨[co 1 9]⟩⟩, .ubs ⟨io 2, ⟨[co 4 20]⟩⟩]
  | .us _ => [.us .full, .us (.piecewise ⟨io 0, ⟨[co 1 9]⟩, ci 30⟩), .us (.piecewise ⟨io 0, ⟨[]⟩, ci 7⟩)]
  | .ur => [.ur]
  | .er => [.er]

theorem someOf_type (i : Inner Int) : ∀ x ∈ someOf i, x.SameType i := by
  cases i <;> simp [someOf, Inner.SameType]

theorem someOf_normal (i : Inner Int) : ∀ x ∈ someOf i, x.Normal := by
  cases i <;> simp only [someOf] <;> decide
end Samples

theorem witness2 {P : Any Int → Any Int → Prop} (q : Inner Int → Inner Int → Bool)
    (hq : ∀ x y, q x y = true → ¬ P (.inner x) (.inner y)) (a b : Inner Int)
    (h : (someOf a).any (fun x => (someOf b).any (q x)) = true) :
    ∃ x y : Inner Int, x.SameType a ∧ y.SameType b ∧ x.Normal ∧ y.Normal ∧ ¬ P (.inner x) (.inner y) := by
  simp only [List.any_eq_true] at h
  obtain ⟨x, hx, y, hy, h⟩ := h
  exact ⟨x, y, someOf_type a x hx, someOf_type b y hy, someOf_normal a x hx, someOf_normal b y hy, hq x y h⟩

theorem witness3 {P : Any Int → Any Int → Any Int → Prop} (q : Inner Int → Inner Int → Inner Int → Bool)
    (hq : ∀ x y z, q x y z = true → ¬ P (.inner x) (.inner y) (.inner z)) (a b c : Inner Int)
    (h : (someOf a).any (fun x => (someOf b).any fun y => (someOf c).any (q x y)) = true) :
    ∃ x y z : Inner Int, x.SameType a ∧ y.SameType b ∧ z.SameType c ∧ x.Normal ∧ y.Normal ∧ z.Normal ∧
      ¬ P (.inner x) (.inner y) (.inner z) := by
  simp only [List.any_eq_true] at h
  obtain ⟨x, hx, y, hy, z, hz, h⟩ := h
  exact ⟨x, y, z, someOf_type a x hx, someOf_type b y hy, someOf_type c z hz, someOf_normal a x hx,
    someOf_normal b y hy, someOf_normal c z hz, hq x y z h⟩

/-- C117. An intersection of normal values of two given types can have wrong members exactly for the types in
the table. -/
theorem C117_inter_members_iff (a b : Inner Int) :
    InterFails a b = true ↔ ∃ x y : Inner Int, x.SameType a ∧ y.SameType b ∧ x.Normal ∧ y.Normal ∧
      ¬ MeetsRight (.inner x) (.inner y) := by
  constructor
  · intro h
    refine witness2 (fun x y => match (Any.inner x).inter (.inner y) with
      | .ok c => c.contains 2 != (x.contains 2 && y.contains 2)
      | _ => false) ?_ a b ?_
    · rintro x y h ⟨c, h1, h2⟩
      simp only [h1] at h
      rw [h2] at h
      simp [Any.contains_inner] at h
    · cases a <;> cases b <;> first | cases h; done | (simp only [someOf]; decide +kernel)
  · rintro ⟨x, y, h1, h2, h3, h4, h5⟩
    by_contra h
    refine h5 (C117_inter_members _ _ trivial trivial (Bool.eq_false_iff.mpr ?_))
    cases x <;> cases a <;> first | exact h1.elim | skip
    all_goals cases y <;> cases b <;> first | exact h2.elim | exact h

/-- C117. An intersection of normal values of two given types can depend on the order of the operands exactly
for the types in the table. -/
theorem C117_inter_comm_iff (a b : Inner Int) :
    InterFails a b = true ↔ ∃ x y : Inner Int, x.SameType a ∧ y.SameType b ∧ x.Normal ∧ y.Normal ∧
      (Any.inner x).inter (.inner y) ≠ (Any.inner y).inter (.inner x) := by
  constructor
  · intro h
    refine witness2 (P := fun x y => x.inter y = y.inter x)
      (fun x y => decide ((Any.inner x).inter (.inner y) ≠ (Any.inner y).inter (.inner x))) ?_ a b ?_
    · exact fun x y h => of_decide_eq_true h
    · cases a <;> cases b <;> first | cases h; done | (simp only [someOf]; decide +kernel)
  · rintro ⟨x, y, h1, h2, h3, h4, h5⟩
    by_contra h
    refine h5 (C117_inter_comm _ _ h3 h4 (Bool.eq_false_iff.mpr ?_))
    cases x <;> cases a <;> first | exact h1.elim | skip
    all_goals cases y <;> cases b <;> first | exact h2.elim | exact h

/-- C117. The difference of normal values of two given types can be wrong exactly for the types in the
table. -/
theorem C117_difference_iff (a b : Inner Int) :
    DiffFails a b = true ↔ ∃ x y : Inner Int, x.SameType a ∧ y.SameType b ∧ x.Normal ∧ y.Normal ∧
      ¬ DiffRight (.inner x) (.inner y) := by
  constructor
  · intro h
    refine witness2 (fun x y => match (Any.inner y).complement with
      | .ok c => match (Any.inner x).inter (.inner c) with
        | .ok d => d.contains 3 != (x.contains 3 && !y.contains 3)
        | _ => false
      | _ => false) ?_ a b ?_
    · rintro x y h ⟨c, d, h1, h2, h3⟩
      simp only [h1, h2] at h
      rw [h3] at h
      simp [Any.contains_inner] at h
    · cases a <;> cases b <;> first | cases h; done | (simp only [someOf]; decide +kernel)
  · rintro ⟨x, y, h1, h2, h3, h4, h5⟩
    by_contra h
    refine h5 (C117_difference _ _ trivial trivial (Bool.eq_false_iff.mpr ?_))
    cases x <;> cases a <;> first | exact h1.elim | skip
    all_goals cases y <;> cases b <;> first | exact h2.elim | exact h

/-- C117. Intersection of normal values of three given types can fail to associate exactly for the types in
the table. -/
theorem C117_inter_assoc_iff (a b c : Inner Int) :
    AssocFails a b c = true ↔ ∃ x y z : Inner Int, x.SameType a ∧ y.SameType b ∧ z.SameType c ∧ x.Normal ∧
      y.Normal ∧ z.Normal ∧ ¬ Associates (.inner x) (.inner y) (.inner z) := by
  constructor
  · intro h
    refine witness3 (fun x y z => decide
      ((do (Any.inner (← (Any.inner x).inter (.inner y))).inter (.inner z)) ≠
        (do (Any.inner x).inter (.inner (← (Any.inner y).inter (.inner z)))))) ?_ a b c ?_
    · rintro x y z h ⟨u, v, w, h1, h2, h3, h4⟩
      exact of_decide_eq_true h (by simp only [h1, h2, h3, h4, Res.ok_bind])
    · cases a <;> cases b <;> first
        | (cases c <;> cases h; done)
        | (cases c <;> first | cases h; done | (simp only [someOf]; decide +kernel))
  · rintro ⟨x, y, z, h1, h2, h3, n1, n2, n3, h5⟩
    by_contra h
    refine h5 (C117_inter_assoc _ _ _ n1 n2 n3 (Bool.eq_false_iff.mpr ?_))
    cases x <;> cases a <;> first | exact h1.elim | skip
    all_goals cases y <;> cases b <;> first | exact h2.elim | skip
    all_goals cases z <;> cases c <;> first | exact h3.elim | exact h

/-- C117. Intersection can fail to distribute over union, for normal sets of three given types, exactly for the
types in the table. -/
theorem C117_inter_union_iff (a b c : Inner Int) (ha : a.IsSet) (hb : b.IsSet) (hc : c.IsSet) :
    InterUnionFails a b c = true ↔ ∃ x y z : Inner Int, x.SameType a ∧ y.SameType b ∧ z.SameType c ∧ x.Normal ∧
      y.Normal ∧ z.Normal ∧ ¬ InterUnion (.inner x) (.inner y) (.inner z) := by
  constructor
  · intro h
    refine witness3 (fun x y z => decide
      ((do let r ← (Any.inner x).inter (← (Any.inner y).union (.inner z)); return Any.inner r) ≠
        (do let u ← (Any.inner x).inter (.inner y)
            let v ← (Any.inner x).inter (.inner z)
            (Any.inner u).union (.inner v)))) ?_ a b c ?_
    · rintro x y z h ⟨u, v, w, r, h1, h2, h3, h4, h5⟩
      exact of_decide_eq_true h (by simp only [h1, h2, h3, h4, h5, Res.ok_bind]; rfl)
    · cases a <;> first | exact ha.elim | skip
      all_goals cases b <;> first | exact hb.elim | skip
      all_goals cases c <;> first | exact hc.elim | cases h; done | (simp only [someOf]; decide +kernel)
  · rintro ⟨x, y, z, h1, h2, h3, n1, n2, n3, h5⟩
    by_contra h
    cases x <;> cases a <;> first | exact h1.elim | exact ha.elim | skip
    all_goals cases y <;> cases b <;> first | exact h2.elim | exact hb.elim | skip
    all_goals cases z <;> cases c <;> first
      | exact h3.elim
      | exact hc.elim
      | exact h5 (C117_inter_union _ _ _ trivial trivial trivial n1 n2 n3 (Bool.eq_false_iff.mpr h))

/-- C117. Union can fail to distribute over intersection, for normal sets of three given types, exactly for the
types in the table. -/
theorem C117_union_inter_iff (a b c : Inner Int) (ha : a.IsSet) (hb : b.IsSet) (hc : c.IsSet) :
    UnionInterFails a b c = true ↔ ∃ x y z : Inner Int, x.SameType a ∧ y.SameType b ∧ z.SameType c ∧ x.Normal ∧
      y.Normal ∧ z.Normal ∧ ¬ UnionInter (.inner x) (.inner y) (.inner z) := by
  constructor
  · intro h
    refine witness3 (fun x y z => decide
      ((do (Any.inner x).union (.inner (← (Any.inner y).inter (.inner z)))) ≠
        (do let r ← (← (Any.inner x).union (.inner y)).inter (← (Any.inner x).union (.inner z))
            return Any.inner r))) ?_ a b c ?_
    · rintro x y z h ⟨u, v, w, r, h1, h2, h3, h4, h5⟩
      exact of_decide_eq_true h (by simp only [h1, h2, h3, h4, h5, Res.ok_bind]; rfl)
    · cases a <;> first | exact ha.elim | skip
      all_goals cases b <;> first | exact hb.elim | skip
      all_goals cases c <;> first | exact hc.elim | cases h; done | (simp only [someOf]; decide +kernel)
  · rintro ⟨x, y, z, h1, h2, h3, n1, n2, n3, h5⟩
    by_contra h
    cases x <;> cases a <;> first | exact h1.elim | exact ha.elim | skip
    all_goals cases y <;> cases b <;> first | exact h2.elim | exact hb.elim | skip
    all_goals cases z <;> cases c <;> first
      | exact h3.elim
      | exact hc.elim
      | exact h5 (C117_union_inter _ _ _ trivial trivial trivial n1 n2 n3 (Bool.eq_false_iff.mpr h))

example : (Inner.lbs ⟨⟨[]⟩, Samples.ci 0⟩).IsSet ∧ (Inner.bs ⟨[Samples.co 0 1]⟩).IsSet ∧
    UnionInterFails (.lbs ⟨⟨[]⟩, Samples.ci 0⟩) (.bs ⟨[Samples.co 0 1]⟩) (.bs ⟨[]⟩) = true := ⟨trivial, trivial, rfl⟩

end Rangetools
