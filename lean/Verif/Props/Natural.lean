import Verif.Proofs.Natural
import Verif.Props.Algebra

/-!
# C65 and C66: the operations only compare

C65: every operation commutes with every map of the element type that keeps the outcomes of comparisons,
panics included.  So nothing in the crate's set algebra looks at an element other than by comparing it: `u8`
ranges behave as the same ranges over `u64`, a newtype as its content, and no result depends on how far
apart two elements are.  Nothing is assumed of `<=`, `<`, `cmp` and `==` of the element types here; they may
even be inconsistent.  Strictly increasing maps of linear orders are an instance.

C66: the operations invent no endpoints: every endpoint of a result is an endpoint of an operand.
-/

namespace Rangetools

section
variable {T U : Type} [LE T] [LT T] [DecidableLE T] [DecidableLT T] [Ord T] [BEq T]
  [LE U] [LT U] [DecidableLE U] [DecidableLT U] [Ord U] [BEq U] {f : T → U}

/-- C65. `union` commutes with a map that keeps comparisons, also on sets that break the invariant. -/
theorem C65_union (hf : Compares f) (a b : Any T) :
    (a.map f).union (b.map f) = Res.map (Any.map f) (a.union b) := Any.union_map hf a b

/-- C65. `intersection`. -/
theorem C65_inter (hf : Compares f) (a b : Any T) :
    (a.map f).inter (b.map f) = Res.map (Inner.map f) (a.inter b) := Any.inter_map hf a b

/-- C65. `complement`. -/
theorem C65_complement (hf : Compares f) (a : Any T) :
    (a.map f).complement = Res.map (Inner.map f) a.complement := Any.complement_map hf a

theorem Any.disjoint_map (hf : Compares f) (a b : Any T) : (a.map f).disjoint (b.map f) = a.disjoint b := by
  rw [Any.disjoint, Any.disjoint, Any.inter_map hf, Res.bind_map]
  have : ∀ i : Inner T, (i.map f).isEmpty = i.isEmpty := fun i => Any.isEmpty_map hf (.inner i)
  simp only [this]

theorem Any.intersects_map (hf : Compares f) (a b : Any T) :
    (a.map f).intersects (b.map f) = a.intersects b := by
  rw [Any.intersects, Any.intersects, Any.disjoint_map hf]

/-- C65. `is_empty`, `contains`, `disjoint` and `intersects` give the same answers. -/
theorem C65_queries (hf : Compares f) (a b : Any T) (t : T) :
    (a.map f).isEmpty = a.isEmpty ∧ (a.map f).contains (f t) = a.contains t ∧
    (a.map f).disjoint (b.map f) = a.disjoint b ∧ (a.map f).intersects (b.map f) = a.intersects b :=
  ⟨Any.isEmpty_map hf a, Any.contains_map hf a t, Any.disjoint_map hf a b, Any.intersects_map hf a b⟩

/-- C65. `to_inner` and `to_set`. -/
theorem C65_conversions (hf : Compares f) (a : Any T) :
    (a.map f).toInner = a.toInner.map f ∧ (a.map f).toSet = a.toSet.map f :=
  ⟨Any.toInner_map a, Any.toSet_map hf a⟩

/-- C65. Whole expressions. -/
theorem C65_expr (hf : Compares f) (e : Expr T) : (e.map f).eval = Res.map (Any.map f) e.eval := by
  induction e with
  | leaf a => rfl
  | toInner e ih =>
    simp only [Expr.map, Expr.eval, ih, Res.bind_map, Res.map_bind, Any.toInner_map]; rfl
  | toSet e ih =>
    simp only [Expr.map, Expr.eval, ih, Res.bind_map, Res.map_bind, Any.toSet_map hf, SetVal.toInner_map]; rfl
  | union e e' ih ih' =>
    simp only [Expr.map, Expr.eval, ih, ih', Res.bind_map, Res.map_bind, Any.union_map hf]
  | inter e e' ih ih' =>
    simp only [Expr.map, Expr.eval, ih, ih', Res.bind_map, Res.map_bind, Any.inter_map hf]; rfl
  | complement e ih =>
    simp only [Expr.map, Expr.eval, ih, Res.bind_map, Res.map_bind, Any.complement_map hf]; rfl

end

section
variable {T U : Type} [LinearOrder T] [LinearOrder U] {f : T → U}

theorem compare_map (hf : StrictMono f) (a b : T) : compare (f a) (f b) = compare a b := by
  rcases lt_trichotomy a b with h | rfl | h
  · rw [compare_lt_iff_lt.2 h, compare_lt_iff_lt.2 (hf h)]
  · rw [compare_eq_iff_eq.2 rfl, compare_eq_iff_eq.2 rfl]
  · rw [compare_gt_iff_gt.2 h, compare_gt_iff_gt.2 (hf h)]

/-- C65. A strictly increasing map of linear orders keeps the outcomes of comparisons. -/
theorem C65_strictMono (hf : StrictMono f) : Compares f :=
  ⟨fun _ _ => hf.le_iff_le, fun _ _ => hf.lt_iff_lt, compare_map hf,
    fun a b => by rw [Bool.eq_iff_iff, beq_iff_eq, beq_iff_eq, hf.injective.eq_iff]⟩

-- doubling stretches every gap and changes no answer
example : StrictMono (fun x : Int => 2 * x) ∧ (Any.inner Samples.us).map (fun x : Int => 2 * x) ≠ .inner Samples.us :=
  ⟨fun _ _ h => by simp only; omega, by decide⟩

/-- C65 fails for maps that are only weakly increasing: a map that merges two elements merges pieces that did
not meet. -/
theorem C65_needs_strict : ∃ (f : Int → Int) (a : Any Int), Monotone f ∧
    (a.map f).isEmpty ≠ a.isEmpty :=
  ⟨fun _ => 0, .range ⟨0, 5⟩, fun _ _ _ => le_refl _, by decide⟩

end

/-! ### Endpoints -/

section
variable {T U : Type}

/-! Endpoints and renaming. -/

theorem Bound.value_map (f : T → U) (b : Bound T) : (b.map f).value = f b.value := by cases b <;> rfl

theorem endpointsOf_map (f : T → U) (l : List (BoundedRange T)) :
    endpointsOf (l.map (·.map f)) = (endpointsOf l).map f := by
  induction l with
  | nil => rfl
  | cons r l ih =>
    simp only [endpointsOf, List.map_cons, List.flatMap_cons, List.map_append] at ih ⊢
    rw [ih]
    congr 1
    simp only [BoundedRange.map, LowerBound.map, UpperBound.map, Bound.value_map, List.map_nil]

theorem Inner.endpoints_map (f : T → U) (i : Inner T) : (i.map f).endpoints = i.endpoints.map f := by
  have h := endpointsOf_map f
  simp only [BoundedRange.map, LowerBound.map, UpperBound.map] at h
  rcases i with _ | _ | _ | _ | _ | _ | _ | ⟨_ | _⟩ | _ <;>
    simp only [Inner.map, Inner.endpoints, BoundedRange.map, BoundedSet.map, LowerBoundedRange.map,
      LowerBoundedSet.map, UpperBoundedRange.map, UpperBoundedSet.map, UnboundedSet.map, PiecewiseUnboundedSet.map,
      LowerBound.map, UpperBound.map, Bound.value_map, h, List.map_cons, List.map_append, List.map_nil]

theorem Any.endpoints_map (f : T → U) (a : Any T) : (a.map f).endpoints = a.endpoints.map f := by
  cases a <;> first | rfl | exact Inner.endpoints_map f _

/-- The elements that satisfy `P`, compared as they are. -/
structure Sub (P : T → Prop) where
  val : T
  property : P val

variable {P : T → Prop}

theorem Res.map_eq_ok {α β : Type} {g : α → β} {x : Res α} {b : β} (h : Res.map g x = .ok b) :
    ∃ a, x = .ok a ∧ g a = b := by
  cases x with
  | ok a => exact ⟨a, rfl, by injection h⟩
  | panic m => cases h

/-! A value whose endpoints satisfy `P` is a renamed value over the subtype. -/

theorem Bound.lift (b : Bound T) (h : P b.value) : ∃ b' : Bound (Sub P), b'.map Sub.val = b := by
  cases b with
  | excluded t => exact ⟨.excluded ⟨t, h⟩, rfl⟩
  | included t => exact ⟨.included ⟨t, h⟩, rfl⟩

theorem BoundedRange.lift (r : BoundedRange T) (h1 : P r.start.b.value) (h2 : P r.stop.b.value) :
    ∃ r' : BoundedRange (Sub P), r'.map Sub.val = r := by
  obtain ⟨b, hb⟩ := r.start.b.lift h1
  obtain ⟨c, hc⟩ := r.stop.b.lift h2
  refine ⟨⟨⟨b⟩, ⟨c⟩⟩, ?_⟩
  simp only [BoundedRange.map, LowerBound.map, UpperBound.map, hb, hc]

theorem LowerBoundedRange.lift (r : LowerBoundedRange T) (h : P r.start.b.value) :
    ∃ r' : LowerBoundedRange (Sub P), r'.map Sub.val = r := by
  obtain ⟨b, hb⟩ := r.start.b.lift h
  exact ⟨⟨⟨b⟩⟩, by simp only [LowerBoundedRange.map, LowerBound.map, hb]⟩

theorem UpperBoundedRange.lift (r : UpperBoundedRange T) (h : P r.stop.b.value) :
    ∃ r' : UpperBoundedRange (Sub P), r'.map Sub.val = r := by
  obtain ⟨b, hb⟩ := r.stop.b.lift h
  exact ⟨⟨⟨b⟩⟩, by simp only [UpperBoundedRange.map, UpperBound.map, hb]⟩

theorem BoundedSet.lift (s : BoundedSet T) (h : ∀ x ∈ endpointsOf s.ranges, P x) :
    ∃ s' : BoundedSet (Sub P), s'.map Sub.val = s := by
  obtain ⟨l⟩ := s
  induction l with
  | nil => exact ⟨⟨[]⟩, rfl⟩
  | cons r l ih =>
    obtain ⟨⟨l'⟩, hl⟩ := ih (fun x hx => h x (by simp only [endpointsOf, List.flatMap_cons] at hx ⊢; exact List.mem_append_right _ hx))
    obtain ⟨r', hr⟩ := r.lift (P := P) (h _ (by simp [endpointsOf])) (h _ (by simp [endpointsOf]))
    refine ⟨⟨r' :: l'⟩, ?_⟩
    simp only [BoundedSet.map, List.map_cons, hr, BoundedSet.mk.injEq] at hl ⊢
    rw [hl]

theorem Inner.lift (i : Inner T) (h : ∀ x ∈ i.endpoints, P x) :
    ∃ i' : Inner (Sub P), i'.map Sub.val = i := by
  rcases i with r | s | r | ⟨s, r⟩ | r | ⟨r, s⟩ | _ | ⟨_ | ⟨u, s, l⟩⟩ | _ <;> simp only [Inner.endpoints, List.mem_cons, List.mem_append,
    List.not_mem_nil, or_false, forall_eq, or_imp, forall_and] at h
  · obtain ⟨r', h'⟩ := r.lift h.1 h.2; exact ⟨.br r', by simp only [Inner.map, h']⟩
  · obtain ⟨s', h'⟩ := s.lift h; exact ⟨.bs s', by simp only [Inner.map, h']⟩
  · obtain ⟨r', h'⟩ := r.lift h; exact ⟨.lbr r', by simp only [Inner.map, h']⟩
  · obtain ⟨s', hs⟩ := s.lift h.1
    obtain ⟨r', hr⟩ := r.lift h.2
    exact ⟨.lbs ⟨s', r'⟩, by simp only [Inner.map, LowerBoundedSet.map, hs, hr]⟩
  · obtain ⟨r', h'⟩ := r.lift h; exact ⟨.ubr r', by simp only [Inner.map, h']⟩
  · obtain ⟨r', hr⟩ := r.lift h.1
    obtain ⟨s', hs⟩ := s.lift h.2
    exact ⟨.ubs ⟨r', s'⟩, by simp only [Inner.map, UpperBoundedSet.map, hs, hr]⟩
  · exact ⟨.ur, rfl⟩
  · exact ⟨.us .full, rfl⟩
  · obtain ⟨u', hu⟩ := u.lift h.1
    obtain ⟨s', hs⟩ := s.lift h.2.1
    obtain ⟨l', hl⟩ := l.lift h.2.2
    exact ⟨.us (.piecewise ⟨u', s', l'⟩),
      by simp only [Inner.map, UnboundedSet.map, PiecewiseUnboundedSet.map, hs, hl, hu]⟩
  · exact ⟨.er, rfl⟩

theorem Any.lift (a : Any T) (h : ∀ x ∈ a.endpoints, P x) : ∃ a' : Any (Sub P), a'.map Sub.val = a := by
  rcases a with r | r | r | r | r | _ | i
  · exact ⟨.range ⟨⟨r.start, h _ (by simp [Any.endpoints])⟩, ⟨r.stop, h _ (by simp [Any.endpoints])⟩⟩, rfl⟩
  · exact ⟨.rangeInclusive ⟨⟨r.start, h _ (by simp [Any.endpoints])⟩, ⟨r.stop, h _ (by simp [Any.endpoints])⟩, r.exhausted⟩,
      rfl⟩
  · exact ⟨.rangeFrom ⟨⟨r.start, h _ (by simp [Any.endpoints])⟩⟩, rfl⟩
  · exact ⟨.rangeTo ⟨⟨r.stop, h _ (by simp [Any.endpoints])⟩⟩, rfl⟩
  · exact ⟨.rangeToInclusive ⟨⟨r.stop, h _ (by simp [Any.endpoints])⟩⟩, rfl⟩
  · exact ⟨.rangeFull, rfl⟩
  · obtain ⟨i', hi⟩ := i.lift h
    exact ⟨.inner i', by simp only [Any.map, hi]⟩

end

section
variable {T : Type} [LE T] [LT T] [DecidableLE T] [DecidableLT T] [Ord T] [BEq T]

instance (P : T → Prop) : LE (Sub P) := ⟨fun a b => a.val ≤ b.val⟩
instance (P : T → Prop) : LT (Sub P) := ⟨fun a b => a.val < b.val⟩
instance (P : T → Prop) : DecidableLE (Sub P) := fun a b => inferInstanceAs (Decidable (a.val ≤ b.val))
instance (P : T → Prop) : DecidableLT (Sub P) := fun a b => inferInstanceAs (Decidable (a.val < b.val))
instance (P : T → Prop) : Ord (Sub P) := ⟨fun a b => compare a.val b.val⟩
instance (P : T → Prop) : BEq (Sub P) := ⟨fun a b => a.val == b.val⟩

theorem Sub.compares (P : T → Prop) : Compares (Sub.val : Sub P → T) :=
  ⟨fun _ _ => Iff.rfl, fun _ _ => Iff.rfl, fun _ _ => rfl, fun _ _ => rfl⟩

/-- C66. Every endpoint of a union is an endpoint of an operand. -/
theorem C66_union (a b c : Any T) (h : a.union b = .ok c) : ∀ x ∈ c.endpoints, x ∈ a.endpoints ∨ x ∈ b.endpoints := by
  obtain ⟨a', ha⟩ := a.lift (P := fun x => x ∈ a.endpoints ∨ x ∈ b.endpoints) (fun _ h => .inl h)
  obtain ⟨b', hb⟩ := b.lift (P := fun x => x ∈ a.endpoints ∨ x ∈ b.endpoints) (fun _ h => .inr h)
  have e := C65_union (Sub.compares (fun x => x ∈ a.endpoints ∨ x ∈ b.endpoints)) a' b'
  rw [ha, hb, h] at e
  obtain ⟨c', -, rfl⟩ := Res.map_eq_ok e.symm
  intro x hx
  rw [Any.endpoints_map, List.mem_map] at hx
  obtain ⟨y, -, rfl⟩ := hx
  exact y.property

/-- C66. Every endpoint of an intersection is an endpoint of an operand. -/
theorem C66_inter (a b : Any T) (c : Inner T) (h : a.inter b = .ok c) :
    ∀ x ∈ c.endpoints, x ∈ a.endpoints ∨ x ∈ b.endpoints := by
  obtain ⟨a', ha⟩ := a.lift (P := fun x => x ∈ a.endpoints ∨ x ∈ b.endpoints) (fun _ h => .inl h)
  obtain ⟨b', hb⟩ := b.lift (P := fun x => x ∈ a.endpoints ∨ x ∈ b.endpoints) (fun _ h => .inr h)
  have e := C65_inter (Sub.compares (fun x => x ∈ a.endpoints ∨ x ∈ b.endpoints)) a' b'
  rw [ha, hb, h] at e
  obtain ⟨c', -, rfl⟩ := Res.map_eq_ok e.symm
  intro x hx
  rw [Inner.endpoints_map, List.mem_map] at hx
  obtain ⟨y, -, rfl⟩ := hx
  exact y.property

/-- C66. Every endpoint of a complement is an endpoint of the operand. -/
theorem C66_complement (a : Any T) (c : Inner T) (h : a.complement = .ok c) : ∀ x ∈ c.endpoints, x ∈ a.endpoints := by
  obtain ⟨a', ha⟩ := a.lift (P := fun x => x ∈ a.endpoints) (fun _ h => h)
  have e := C65_complement (Sub.compares (fun x => x ∈ a.endpoints)) a'
  rw [ha, h] at e
  obtain ⟨c', -, rfl⟩ := Res.map_eq_ok e.symm
  intro x hx
  rw [Inner.endpoints_map, List.mem_map] at hx
  obtain ⟨y, -, rfl⟩ := hx
  exact y.property

/-- C66. Every endpoint of the value of an expression is an endpoint of a leaf. -/
theorem C66_expr {P : T → Prop} (e : Expr T) (he : e.AllLeaves (fun a => ∀ x ∈ a.endpoints, P x)) (c : Any T)
    (h : e.eval = .ok c) : ∀ x ∈ c.endpoints, P x := by
  obtain ⟨e', rfl⟩ : ∃ e' : Expr (Sub P), e'.map Sub.val = e := by
    clear h c
    induction e with
    | leaf a => obtain ⟨a', ha⟩ := a.lift he; exact ⟨.leaf a', by simp only [Expr.map, ha]⟩
    | toInner e ih => obtain ⟨e', h'⟩ := ih he; exact ⟨.toInner e', by simp only [Expr.map, h']⟩
    | toSet e ih => obtain ⟨e', h'⟩ := ih he; exact ⟨.toSet e', by simp only [Expr.map, h']⟩
    | union e f ih ih' =>
      obtain ⟨e', h1⟩ := ih he.1
      obtain ⟨f', h2⟩ := ih' he.2
      exact ⟨.union e' f', by simp only [Expr.map, h1, h2]⟩
    | inter e f ih ih' =>
      obtain ⟨e', h1⟩ := ih he.1
      obtain ⟨f', h2⟩ := ih' he.2
      exact ⟨.inter e' f', by simp only [Expr.map, h1, h2]⟩
    | complement e ih => obtain ⟨e', h'⟩ := ih he; exact ⟨.complement e', by simp only [Expr.map, h']⟩
  rw [C65_expr (Sub.compares P)] at h
  obtain ⟨c', -, rfl⟩ := Res.map_eq_ok h
  intro x hx
  rw [Any.endpoints_map, List.mem_map] at hx
  obtain ⟨y, -, rfl⟩ := hx
  exact y.property

-- the union of `0..5` and `3..9` has the endpoints 0 and 9
example : (Any.range (⟨0, 5⟩ : Range Int)).union (.range ⟨3, 9⟩) = .ok (.inner (.bs ⟨[Samples.co 0 9]⟩)) ∧
    (Any.inner (.bs ⟨[Samples.co 0 9]⟩) : Any Int).endpoints = [0, 9] := by decide +kernel
-- the complement of `..-20 | 2..=4 | 30..` is `-20..2 | (4, 30)`
example : (Any.inner Samples.us).complement = .ok (.bs ⟨[Samples.co (-20) 2, ⟨.excluded 4, .excluded 30⟩]⟩) ∧
    (Any.inner Samples.us).endpoints = [-20, 2, 4, 30] := by decide +kernel

end
end Rangetools
