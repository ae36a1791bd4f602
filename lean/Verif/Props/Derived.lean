import Mathlib.Tactic.Ring
import Verif.Model.Derive
import Verif.Spec.Hash
import Verif.Spec.Map
import Verif.Props.Emptiness

/-!
# C17, C59: the derived `==` and `Hash`
-/

namespace Rangetools
open Samples

section
variable {T U E : Type}

/-! ### `==` in terms of `map` -/

theorem Bound.eqWith_iff {eq : T → T → Bool} {q : T → U} (h : ∀ x y, eq x y = true ↔ q x = q y)
    (a b : Bound T) : a.eqWith eq b = true ↔ a.map q = b.map q := by
  cases a <;> cases b <;> simp [Bound.eqWith, Bound.map, h]

theorem LowerBound.eqWith_iff {eq : T → T → Bool} {q : T → U}
    (h : ∀ x y, eq x y = true ↔ q x = q y) (a b : LowerBound T) :
    a.eqWith eq b = true ↔ a.map q = b.map q := by
  simp [LowerBound.eqWith, LowerBound.map, Bound.eqWith_iff h]

theorem UpperBound.eqWith_iff {eq : T → T → Bool} {q : T → U}
    (h : ∀ x y, eq x y = true ↔ q x = q y) (a b : UpperBound T) :
    a.eqWith eq b = true ↔ a.map q = b.map q := by
  simp [UpperBound.eqWith, UpperBound.map, Bound.eqWith_iff h]

theorem BoundedRange.eqWith_iff {eq : T → T → Bool} {q : T → U}
    (h : ∀ x y, eq x y = true ↔ q x = q y) (a b : BoundedRange T) :
    a.eqWith eq b = true ↔ a.map q = b.map q := by
  simp [BoundedRange.eqWith, BoundedRange.map, LowerBound.eqWith_iff h, UpperBound.eqWith_iff h]

theorem LowerBoundedRange.eqWith_iff {eq : T → T → Bool} {q : T → U}
    (h : ∀ x y, eq x y = true ↔ q x = q y) (a b : LowerBoundedRange T) :
    a.eqWith eq b = true ↔ a.map q = b.map q := by
  simp [LowerBoundedRange.eqWith, LowerBoundedRange.map, LowerBound.eqWith_iff h]

theorem UpperBoundedRange.eqWith_iff {eq : T → T → Bool} {q : T → U}
    (h : ∀ x y, eq x y = true ↔ q x = q y) (a b : UpperBoundedRange T) :
    a.eqWith eq b = true ↔ a.map q = b.map q := by
  simp [UpperBoundedRange.eqWith, UpperBoundedRange.map, UpperBound.eqWith_iff h]

theorem dequeEqWith_iff {α β : Type} {eq : α → α → Bool} {q : α → β}
    (h : ∀ x y, eq x y = true ↔ q x = q y) (a b : List α) :
    dequeEqWith eq a b = true ↔ a.map q = b.map q := by
  induction a generalizing b with
  | nil => cases b <;> simp [dequeEqWith]
  | cons x a ih =>
    cases b with
    | nil => simp [dequeEqWith]
    | cons y b =>
      have := ih b
      simp only [dequeEqWith, Bool.and_eq_true, beq_iff_eq] at this
      simp only [dequeEqWith, Bool.and_eq_true, List.length_cons, beq_iff_eq, Nat.add_right_cancel_iff,
        List.zip_cons_cons, List.all_cons, h, List.map_cons, List.cons.injEq, ← this]
      tauto

theorem BoundedSet.eqWith_iff {eq : T → T → Bool} {q : T → U}
    (h : ∀ x y, eq x y = true ↔ q x = q y) (a b : BoundedSet T) :
    a.eqWith eq b = true ↔ a.map q = b.map q := by
  simp only [BoundedSet.eqWith, BoundedSet.map, BoundedSet.mk.injEq]
  exact dequeEqWith_iff (fun x y => BoundedRange.eqWith_iff h x y) _ _

theorem Inner.eqWith_iff {eq : T → T → Bool} {q : T → U} (h : ∀ x y, eq x y = true ↔ q x = q y)
    (a b : Inner T) : a.eqWith eq b = true ↔ a.map q = b.map q := by
  have us : ∀ a b : UnboundedSet T, a.eqWith eq b = true ↔ a.map q = b.map q := by
    intro a b
    cases a <;> cases b <;> simp [UnboundedSet.eqWith, UnboundedSet.map, PiecewiseUnboundedSet.map,
      PiecewiseUnboundedSet.eqWith, UpperBoundedRange.eqWith_iff h, BoundedSet.eqWith_iff h,
      LowerBoundedRange.eqWith_iff h, and_assoc]
  cases a <;> cases b <;> simp [Inner.eqWith, Inner.map, LowerBoundedSet.eqWith,
    LowerBoundedSet.map, UpperBoundedSet.eqWith, UpperBoundedSet.map, us, BoundedRange.eqWith_iff h,
    LowerBoundedRange.eqWith_iff h, UpperBoundedRange.eqWith_iff h, BoundedSet.eqWith_iff h]

theorem Bound.map_id (b : Bound T) : b.map id = b := by cases b <;> rfl

theorem BoundedRange.map_id (r : BoundedRange T) : r.map id = r := by
  obtain ⟨⟨a⟩, ⟨b⟩⟩ := r
  simp [BoundedRange.map, LowerBound.map, UpperBound.map, Bound.map_id]

theorem LowerBoundedRange.map_id (r : LowerBoundedRange T) : r.map id = r := by
  obtain ⟨⟨a⟩⟩ := r
  simp [LowerBoundedRange.map, LowerBound.map, Bound.map_id]

theorem UpperBoundedRange.map_id (r : UpperBoundedRange T) : r.map id = r := by
  obtain ⟨⟨a⟩⟩ := r
  simp [UpperBoundedRange.map, UpperBound.map, Bound.map_id]

theorem BoundedSet.map_id (s : BoundedSet T) : s.map id = s := by
  obtain ⟨l⟩ := s
  simp [BoundedSet.map, BoundedRange.map_id]

theorem Inner.map_id (a : Inner T) : a.map id = a := by
  cases a with
  | us s => cases s <;> simp [Inner.map, UnboundedSet.map, PiecewiseUnboundedSet.map, BoundedSet.map_id,
      LowerBoundedRange.map_id, UpperBoundedRange.map_id]
  | _ => simp [Inner.map, LowerBoundedSet.map, UpperBoundedSet.map, BoundedSet.map_id,
      BoundedRange.map_id, LowerBoundedRange.map_id, UpperBoundedRange.map_id]

/-- A Boolean relation that is an equivalence, as `Eq` demands. -/
structure IsEquiv {α : Type} (eq : α → α → Bool) : Prop where
  refl : ∀ a, eq a a = true
  symm : ∀ a b, eq a b = eq b a
  trans : ∀ a b c, eq a b = true → eq b c = true → eq a c = true

theorem IsEquiv.exists_quotient {eq : T → T → Bool} (h : IsEquiv eq) :
    ∃ (Q : Type) (q : T → Q), ∀ x y, eq x y = true ↔ q x = q y := by
  let s : Setoid T := ⟨fun x y => eq x y = true, h.refl, fun {x y} e => (h.symm y x).trans e,
    fun {x y z} => h.trans x y z⟩
  exact ⟨Quotient s, Quotient.mk s, fun x y => ⟨fun e => Quotient.sound e, fun e => Quotient.exact e⟩⟩

/-- C59. The derived `==` is an equivalence on all nine types whenever the element type's is. -/
theorem C59_eq_equiv (eq : T → T → Bool) (h : IsEquiv eq) : IsEquiv (Inner.eqWith eq) := by
  obtain ⟨Q, q, hq⟩ := h.exists_quotient
  refine ⟨fun a => (Inner.eqWith_iff hq a a).mpr rfl, fun a b => ?_, fun a b c h1 h2 => ?_⟩
  · rw [Bool.eq_iff_iff, Inner.eqWith_iff hq, Inner.eqWith_iff hq, eq_comm]
  · rw [Inner.eqWith_iff hq] at *
    exact h1.trans h2

-- an element type whose `==` identifies different values
example : IsEquiv (fun x y : Int => x % 5 == y % 5) :=
  ⟨fun a => by simp, fun a b => Bool.beq_comm, fun a b c h1 h2 => by
    simp only [beq_iff_eq] at *; omega⟩

/-- C59. If `==` on elements is equality, so is the derived `==`: two values are `==` exactly when they
have the same type and the same fields, and in particular the same pieces in the same order. -/
theorem C59_eq_structural (eq : T → T → Bool) (h : ∀ x y, eq x y = true ↔ x = y) (a b : Inner T) :
    a.eqWith eq b = true ↔ a = b := by
  rw [Inner.eqWith_iff (q := id) (fun x y => h x y), Inner.map_id, Inner.map_id]

example : ∀ x y : Int, decide (x = y) = true ↔ x = y := by simp
example : Inner.eqWith (fun x y : Int => decide (x = y)) bs bs = true ∧
    Inner.eqWith (fun x y : Int => decide (x = y)) bs (.bs ⟨[co 0 3, cc 5 8]⟩) = false := by decide

/-! ### `Hash` -/

theorem BoundedSet.hashWith_map (q : T → U) (h : U → List (HashWrite E)) (s : BoundedSet T) :
    (s.map q).hashWith h = s.hashWith (h ∘ q) := by
  have b : ∀ r : BoundedRange T, (r.map q).hashWith h = r.hashWith (h ∘ q) := by
    rintro ⟨⟨a | a⟩, ⟨b | b⟩⟩ <;> rfl
  simp only [BoundedSet.hashWith, BoundedSet.map, List.length_map, List.map_map]
  congr 3
  exact funext b

theorem Inner.hashWith_map (q : T → U) (h : U → List (HashWrite E)) (a : Inner T) :
    (a.map q).hashWith h = a.hashWith (h ∘ q) := by
  have lb : ∀ r : LowerBoundedRange T, (r.map q).hashWith h = r.hashWith (h ∘ q) := by
    rintro ⟨⟨a | a⟩⟩ <;> rfl
  have ub : ∀ r : UpperBoundedRange T, (r.map q).hashWith h = r.hashWith (h ∘ q) := by
    rintro ⟨⟨a | a⟩⟩ <;> rfl
  cases a with
  | br r => obtain ⟨⟨a | a⟩, ⟨b | b⟩⟩ := r <;> rfl
  | us s => cases s <;> simp [Inner.map, Inner.hashWith, UnboundedSet.map, PiecewiseUnboundedSet.map, UnboundedSet.hashWith,
      PiecewiseUnboundedSet.hashWith, lb, ub, BoundedSet.hashWith_map]
  | _ => simp [Inner.map, Inner.hashWith, LowerBoundedSet.map, LowerBoundedSet.hashWith,
      UpperBoundedSet.map, UpperBoundedSet.hashWith, lb, ub, BoundedSet.hashWith_map]

/-- C59. Values that are `==` feed a hasher the same data, provided `==` elements do: `Hash` and `Eq`
agree as std requires of keys. -/
theorem C59_hash_eq (eq : T → T → Bool) (he : IsEquiv eq) (h : T → List (HashWrite E))
    (hh : ∀ x y, eq x y = true → h x = h y) (a b : Inner T) (hab : a.eqWith eq b = true) :
    a.hashWith h = b.hashWith h := by
  let s : Setoid T := ⟨fun x y => eq x y = true, he.refl, fun {x y} e => (he.symm y x).trans e,
    fun {x y z} => he.trans x y z⟩
  let h' : Quotient s → List (HashWrite E) := Quotient.lift h hh
  have hq : ∀ x y, eq x y = true ↔ Quotient.mk s x = Quotient.mk s y :=
    fun x y => ⟨fun e => Quotient.sound e, fun e => Quotient.exact e⟩
  have e := (Inner.eqWith_iff hq a b).mp hab
  have := congrArg (Inner.hashWith h') e
  rwa [Inner.hashWith_map, Inner.hashWith_map] at this

-- elements compared and hashed by their remainder
example : let eq : Int → Int → Bool := fun x y => x % 5 == y % 5
    (∀ x y, eq x y = true → [HashWrite.elem (x % 5)] = [HashWrite.elem (y % 5)]) ∧
      Inner.eqWith eq (.bs ⟨[co 0 3]⟩) (.bs ⟨[co 5 13]⟩) = true := ⟨by simp, by decide⟩

theorem Bound.hashWith_length {h : T → List (HashWrite E)} {n : Nat} (hn : ∀ t, (h t).length = n) (b : Bound T) :
    (b.hashWith h).length = n + 1 := by
  cases b <;> simp [Bound.hashWith, hn]

theorem BoundedSet.hashWith_length {h : T → List (HashWrite E)} {n : Nat} (hn : ∀ t, (h t).length = n) (s : BoundedSet T) :
    (s.hashWith h).length = 2 * s.ranges.length * (n + 1) + 1 := by
  obtain ⟨l⟩ := s
  simp only [BoundedSet.hashWith, List.length_cons, Nat.add_right_cancel_iff]
  induction l with
  | nil => simp
  | cons r l ih =>
    simp only [List.map_cons, List.flatten_cons, List.length_append, ih, List.length_cons, BoundedRange.hashWith,
      LowerBound.hashWith, UpperBound.hashWith, Bound.hashWith_length hn]
    ring

/-- C59. A hasher is told one variant number and the element for every bound stored, a length if there is a list, a variant
number if the type is an enum, and nothing else. -/
theorem C59_hash_length (h : T → List (HashWrite E)) (n : Nat) (hn : ∀ t, (h t).length = n) (i : Inner T) :
    (i.hashWith h).length = i.storedBounds * (n + 1) + i.storesList.toNat + i.isEnum.toNat := by
  have hb := Bound.hashWith_length hn
  cases i with
  | us s =>
    cases s <;> simp [Inner.hashWith, UnboundedSet.hashWith, PiecewiseUnboundedSet.hashWith, UpperBoundedRange.hashWith,
      LowerBoundedRange.hashWith, LowerBound.hashWith, UpperBound.hashWith, hb, BoundedSet.hashWith_length hn,
      Inner.storedBounds, Inner.storesList, Inner.isEnum]
    ring
  | _ =>
    simp [Inner.hashWith, LowerBoundedSet.hashWith, UpperBoundedSet.hashWith, UpperBoundedRange.hashWith,
      LowerBoundedRange.hashWith, BoundedRange.hashWith, LowerBound.hashWith, UpperBound.hashWith, hb,
      BoundedSet.hashWith_length hn, Inner.storedBounds, Inner.storesList, Inner.isEnum]
    try ring

-- one word for each element
example : (∀ t : Int, [HashWrite.elem t].length = 1) ∧
    (Inner.bs ⟨[co 0 3, co 5 7]⟩ : Inner Int).hashWith (fun t => [HashWrite.elem t]) =
      [.len 2, .variant 1, .elem 0, .variant 0, .elem 3, .variant 1, .elem 5, .variant 0, .elem 7] := ⟨fun _ => rfl, rfl⟩

/-- No encoding continues another, and different values have different encodings. -/
def PrefixFree {α β : Type} (h : α → List β) : Prop :=
  ∀ x y l m, h x ++ l = h y ++ m → x = y ∧ l = m

theorem PrefixFree.append {α α' β γ : Type} {f : γ → α} {g : γ → α'} {h : α → List β}
    {k : α' → List β} (hh : PrefixFree h) (hk : PrefixFree k)
    (inj : ∀ x y, f x = f y → g x = g y → x = y) : PrefixFree fun c => h (f c) ++ k (g c) := by
  intro x y l m e
  simp only [List.append_assoc] at e
  obtain ⟨h1, e⟩ := hh _ _ _ _ e
  obtain ⟨h2, e⟩ := hk _ _ _ _ e
  exact ⟨inj x y h1 h2, e⟩

theorem PrefixFree.comp {α β γ : Type} {f : γ → α} {h : α → List β} (hh : PrefixFree h)
    (inj : ∀ x y, f x = f y → x = y) : PrefixFree fun c => h (f c) := by
  intro x y l m e
  obtain ⟨h1, e⟩ := hh _ _ _ _ e
  exact ⟨inj x y h1, e⟩

theorem Bound.hashWith_free {h : T → List (HashWrite E)} (hh : PrefixFree h) :
    PrefixFree (Bound.hashWith h) := by
  intro x y l m e
  cases x <;> cases y <;> simp [Bound.hashWith] at e <;> obtain ⟨rfl, e'⟩ := hh _ _ _ _ e <;>
    exact ⟨rfl, e'⟩

theorem LowerBound.hashWith_free {h : T → List (HashWrite E)} (hh : PrefixFree h) :
    PrefixFree (LowerBound.hashWith h) :=
  (Bound.hashWith_free hh).comp fun x y e => by cases x; cases y; simp_all

theorem UpperBound.hashWith_free {h : T → List (HashWrite E)} (hh : PrefixFree h) :
    PrefixFree (UpperBound.hashWith h) :=
  (Bound.hashWith_free hh).comp fun x y e => by cases x; cases y; simp_all

theorem BoundedRange.hashWith_free {h : T → List (HashWrite E)} (hh : PrefixFree h) :
    PrefixFree (BoundedRange.hashWith h) :=
  (LowerBound.hashWith_free hh).append (UpperBound.hashWith_free hh)
    fun x y e e' => by cases x; cases y; simp_all

theorem LowerBoundedRange.hashWith_free {h : T → List (HashWrite E)} (hh : PrefixFree h) :
    PrefixFree (LowerBoundedRange.hashWith h) :=
  (LowerBound.hashWith_free hh).comp fun x y e => by cases x; cases y; simp_all

theorem UpperBoundedRange.hashWith_free {h : T → List (HashWrite E)} (hh : PrefixFree h) :
    PrefixFree (UpperBoundedRange.hashWith h) :=
  (UpperBound.hashWith_free hh).comp fun x y e => by cases x; cases y; simp_all

theorem BoundedSet.hashWith_free {h : T → List (HashWrite E)} (hh : PrefixFree h) :
    PrefixFree (BoundedSet.hashWith h) := by
  rintro ⟨x⟩ ⟨y⟩ l m e
  simp only [BoundedSet.hashWith, List.cons_append, List.cons.injEq, HashWrite.len.injEq] at e
  obtain ⟨hlen, e⟩ := e
  have hb := BoundedRange.hashWith_free hh
  induction x generalizing y with
  | nil =>
    obtain rfl : y = [] := List.length_eq_zero_iff.mp hlen.symm
    exact ⟨rfl, by simpa using e⟩
  | cons a x ih =>
    cases y with
    | nil => simp at hlen
    | cons b y =>
      simp only [List.map_cons, List.flatten_cons, List.append_assoc] at e
      obtain ⟨rfl, e'⟩ := hb _ _ _ _ e
      obtain ⟨h1, h2⟩ := ih y (by simpa using hlen) e'
      simp only [BoundedSet.mk.injEq] at h1 ⊢
      exact ⟨by rw [h1], h2⟩

/-- C59. If the elements' hash data determine them and never run into what follows, the hash data of
two values of one type determine the value: a good hasher tells different ranges and sets apart. -/
theorem C59_hash_injective (h : T → List (HashWrite E)) (hh : PrefixFree h) (a b : Inner T)
    (hk : a.SameType b) (e : a.hashWith h = b.hashWith h) : a = b := by
  have bs := BoundedSet.hashWith_free hh
  have lb := LowerBoundedRange.hashWith_free hh
  have ub := UpperBoundedRange.hashWith_free hh
  have lbs : PrefixFree (LowerBoundedSet.hashWith h) := bs.append lb
    fun x y e e' => by cases x; cases y; simp_all
  have ubs : PrefixFree (UpperBoundedSet.hashWith h) := ub.append bs
    fun x y e e' => by cases x; cases y; simp_all
  have pus : PrefixFree (PiecewiseUnboundedSet.hashWith h) :=
    ub.append (g := fun x : PiecewiseUnboundedSet T => (x.ranges, x.lowerBoundedRange))
      (bs.append (f := Prod.fst) (g := Prod.snd) lb fun x y e e' => Prod.ext e e')
      fun x y e e' => by cases x; cases y; simp_all
  have key : ∀ {α : Type} {g : α → List (HashWrite E)}, PrefixFree g → ∀ {x y : α},
      g x = g y → x = y := fun hg x y e => (hg x y [] [] (by rw [e])).1
  cases a <;> cases b <;> first | exact hk.elim | skip
  case br.br => exact congrArg _ (key (BoundedRange.hashWith_free hh) e)
  case bs.bs => exact congrArg _ (key bs e)
  case lbr.lbr => exact congrArg _ (key lb e)
  case lbs.lbs => exact congrArg _ (key lbs e)
  case ubr.ubr => exact congrArg _ (key ub e)
  case ubs.ubs => exact congrArg _ (key ubs e)
  case ur.ur => rfl
  case us.us x y =>
    cases x <;> cases y <;> simp only [Inner.hashWith, UnboundedSet.hashWith] at e
    · rfl
    · simp at e
    · simp at e
    · simp only [List.cons.injEq, true_and] at e
      rw [key pus e]
  case er.er => rfl

-- fixed-width integers write one word each
example : PrefixFree fun x : Int => [HashWrite.elem x] := by
  intro x y l m e
  simpa using e
example : (Inner.bs ⟨[co 0 3]⟩).SameType bs := trivial

end

/-! ### `==` and the other operations -/

variable {T : Type} [LinearOrder T]

/-- C59. Values that are `==` cannot be told apart by membership, `is_empty` or any operation. -/
theorem C59_eq_congr (a a' b b' : Inner T) (ha : a.eqWith elemEq a' = true)
    (hb : b.eqWith elemEq b' = true) :
    (∀ t, a.contains t = a'.contains t) ∧ a.isEmpty = a'.isEmpty ∧
      (Any.inner a).union (.inner b) = (Any.inner a').union (.inner b') ∧
      (Any.inner a).inter (.inner b) = (Any.inner a').inter (.inner b') ∧
      (Any.inner a).complement = (Any.inner a').complement := by
  have h : ∀ x y : T, elemEq x y = true ↔ x = y := fun x y => decide_eq_true_iff
  obtain rfl := (C59_eq_structural _ h a a').mp ha
  obtain rfl := (C59_eq_structural _ h b b').mp hb
  exact ⟨fun _ => rfl, rfl, rfl, rfl, rfl⟩

/-- C17, the first half: values that are `==`, as derived, have the same members. -/
theorem C17_eq_members (a b : Inner T) (h : a.eqWith elemEq b = true) (t : T) :
    a.contains t = b.contains t :=
  (C59_eq_congr a b b b h ((C59_eq_structural _ (fun _ _ => decide_eq_true_iff) b b).mpr rfl)).1 t

example : bs.eqWith elemEq bs = true ∧ lbs.eqWith elemEq lbs = true := by decide

/-- C59. On bounds, `cmp` answers `Equal` exactly when `==` answers `true`, as `Ord` requires. -/
theorem C59_cmp_eq (a b : LowerBound T) (c d : UpperBound T) :
    (a.cmp b = .eq ↔ a.eqWith elemEq b = true) ∧ (c.cmp d = .eq ↔ c.eqWith elemEq d = true) := by
  have h : ∀ x y : T, elemEq x y = true ↔ id x = id y := fun x y => decide_eq_true_iff
  have hm : ∀ x : LowerBound T, x.map id = x := fun x => by
    cases x; simp [LowerBound.map, Bound.map_id]
  have hm' : ∀ x : UpperBound T, x.map id = x := fun x => by
    cases x; simp [UpperBound.map, Bound.map_id]
  rw [LowerBound.eqWith_iff h, UpperBound.eqWith_iff h, hm, hm, hm', hm', LowerBound.cmp_eq,
    UpperBound.cmp_eq, compare_eq_iff_eq, compare_eq_iff_eq]
  exact ⟨lo_inj, hi_inj⟩

end Rangetools
