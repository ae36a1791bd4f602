import Mathlib.Order.Max
import Verif.Props.Members
import Verif.Props.Size

/-!
# C81: complement leaves no needless pieces
-/

namespace Rangetools
open Iv Samples

section
variable {α : Type} [LinearOrder α]

/-- In a canonical list without touching intervals, between two intervals there is a gap that meets none. -/
theorem gap_between {L : List (α × α)} (h : Canon L) (ht : ∀ p ∈ L, ∀ q ∈ L, p.2 ≠ q.1) :
    L.Pairwise (fun p q => ∃ x y, p.2 ≤ x ∧ x < y ∧ y ≤ q.1 ∧ ∀ r ∈ L, r.2 ≤ x ∨ y ≤ r.1) := by
  suffices H : ∀ L1 L2, L = L1 ++ L2 → L2.Pairwise (fun p q => ∃ x y, p.2 ≤ x ∧ x < y ∧ y ≤ q.1 ∧
      ∀ r ∈ L, r.2 ≤ x ∨ y ≤ r.1) from H [] L rfl
  intro L1 L2
  induction L2 generalizing L1 with
  | nil => exact fun _ => List.Pairwise.nil
  | cons p L2 ih =>
    intro e
    refine List.Pairwise.cons (fun q hq => ?_) (ih (L1 ++ [p]) (by simp [e]))
    cases L2 with
    | nil => cases hq
    | cons r L3 =>
      have hL := h.2
      rw [e, List.pairwise_append] at hL
      obtain ⟨_, h2, h3⟩ := hL
      rw [List.pairwise_cons, List.pairwise_cons] at h2
      have hpos : ∀ o ∈ L1 ++ p :: r :: L3, o.1 < o.2 := fun o ho => h.1 o (e ▸ ho)
      have hpr : p.2 < r.1 := lt_of_le_of_ne (h2.1 r (by simp)) (ht p (by simp [e]) r (by simp [e]))
      refine ⟨p.2, r.1, le_rfl, hpr, ?_, fun o ho => ?_⟩
      · rcases List.mem_cons.1 hq with rfl | hq
        · exact le_rfl
        · exact (hpos r (by simp)).le.trans (h2.2.1 q hq)
      · rw [e] at ho
        rcases List.mem_append.1 ho with ho | ho
        · exact .inl ((h3 o ho p (by simp)).trans (hpos p (by simp)).le)
        · rcases List.mem_cons.1 ho with rfl | ho
          · exact .inl le_rfl
          · rcases List.mem_cons.1 ho with rfl | ho
            · exact .inr le_rfl
            · exact .inr ((hpos r (by simp)).le.trans (h2.2.1 o ho))

end

/-- Members no two of which lie in one interval need as many intervals. -/
theorem length_le_of_separated {T β : Type} [LinearOrder T] (P : T → Prop) (f : β → T → Prop) (M : List β)
    (hf : ∀ b, ∀ ⦃x s y⦄, f b x → f b y → x < s → s < y → f b s) (hP : ∀ t, P t ↔ ∃ b ∈ M, f b t) (ts : List T)
    (hts : ∀ t ∈ ts, P t) (hsep : ts.Pairwise (fun x y => ∃ s, x < s ∧ s < y ∧ ¬ P s)) : ts.length ≤ M.length := by
  classical
  have hch : ∀ t : {t // t ∈ ts}, ∃ b ∈ M, f b t.1 := fun t => (hP t.1).1 (hts t.1 t.2)
  choose g hg using hch
  have hsep' : ts.attach.Pairwise (fun x y => ∃ s, x.1 < s ∧ s < y.1 ∧ ¬ P s) :=
    List.pairwise_map.1 (by rwa [List.attach_map_subtype_val])
  have hn : (ts.attach.map g).Nodup := List.pairwise_map.2 (hsep'.imp fun {x y} ⟨s, h1, h2, h3⟩ e =>
    h3 ((hP s).2 ⟨g x, (hg x).1, hf _ (hg x).2 (e ▸ (hg y).2) h1 h2⟩))
  have := (hn.subperm (l₂ := M) (fun b hb => by
    obtain ⟨t, _, rfl⟩ := List.mem_map.1 hb
    exact (hg t).1)).length_le
  simpa using this

variable {T : Type} [LinearOrder T]

/-- C81. On a dense order without end points, no value has the members of a complement in fewer pieces than the
complement. -/
theorem C81_complement [DenselyOrdered T] [NoMinOrder T] [NoMaxOrder T] [Nonempty T] (a : Inner T) (na : a.Normal)
    (ha : ∀ r, a = .br r → r.isEmpty = false) :
    ∃ c, (Any.inner a).complement = .ok c ∧
      ∀ b : Inner T, (∀ t, b.contains t = c.contains t) → c.size ≤ b.size := by
  obtain ⟨c, hc, hs, hw, hk⟩ := Any.complement_comp (.inner a)
  refine ⟨c, hc, fun b hb => ?_⟩
  have hkc : c.kind ≠ .br := by rw [hk]; cases (Any.inner a).toInner.kind <;> decide
  have hcan := Inner.canon (hw trivial) hkc
  have hpos : ∀ p ∈ a.ivs, p.1 < p.2 := by
    rw [Inner.normal_iff] at na
    by_cases hka : a.kind = .br
    · cases a with
      | br r =>
        intro p hp
        rw [List.mem_singleton.1 hp]
        exact (BoundedRange.isEmpty_eq_false_iff r).1 (ha r rfl)
      | _ => cases hka
    · exact (Inner.canon na hka).1
  rw [show (Any.inner a).toInner = a from rfl, csem_eq hpos] at hs
  have htouch : ∀ p ∈ c.ivs, ∀ q ∈ c.ivs, p.2 ≠ q.1 := by
    intro p hp q hq e
    have h1 := hcan.1 p hp
    have h2 := hcan.1 q hq
    have m1 : (p.2, Side.before) ∈ sem c.ivs := ⟨p, hp, mem_before.2 ⟨h1, le_rfl⟩⟩
    have m2 : (p.2, Side.after) ∈ sem c.ivs := ⟨q, hq, mem_after.2 ⟨e.ge, e ▸ h2⟩⟩
    rw [hs] at m1 m2
    have m3 : (p.2, Side.at) ∈ sem c.ivs := by
      rw [hs]
      exact ⟨mem_at.2 ⟨lt_of_le_of_lt bot_le h1, lt_of_lt_of_le (e ▸ h2) le_top⟩, m2.2, m1.2⟩
    obtain ⟨o, ho, h3⟩ := m3
    rw [mem_at] at h3
    have htri : p = o ∨ p.2 ≤ o.1 ∨ o.2 ≤ p.1 := by
      have : Std.Symm (fun p o : ECut T × ECut T => p = o ∨ p.2 ≤ o.1 ∨ o.2 ≤ p.1) :=
        ⟨fun x y h => h.elim (fun h => .inl h.symm) fun h => .inr h.symm⟩
      exact List.Pairwise.forall_of_forall (R := fun p o : ECut T × ECut T => p = o ∨ p.2 ≤ o.1 ∨ o.2 ≤ p.1)
        (fun _ _ => .inl rfl) (hcan.2.imp fun h => .inr (.inl h)) hp ho
    rcases htri with rfl | h | h
    · exact absurd h3.2 (lt_irrefl _)
    · exact absurd h3.1 h.not_gt
    · exact absurd (h3.2.trans_le h) h1.not_gt
  rw [Inner.size_eq, Inner.size_eq]
  have hmem : ∀ p : {p // p ∈ c.ivs}, ∃ t, p.1.1 ≤ cut t false ∧ cut t false < p.1.2 := fun p =>
    exists_elem_between (hcan.1 p.1 p.2)
  choose g hg using hmem
  have hgap : c.ivs.attach.Pairwise (fun p q => ∃ x y, p.1.2 ≤ x ∧ x < y ∧ y ≤ q.1.1 ∧ ∀ r ∈ c.ivs, r.2 ≤ x ∨ y ≤ r.1) :=
    (List.pairwise_map (f := Subtype.val) (R := fun p q : ECut T × ECut T =>
      ∃ x y, p.2 ≤ x ∧ x < y ∧ y ≤ q.1 ∧ ∀ r ∈ c.ivs, r.2 ≤ x ∨ y ≤ r.1)).1 (by
        rw [List.attach_map_subtype_val]; exact gap_between hcan htouch)
  refine le_trans (by simp) (length_le_of_separated (fun t => c.contains t = true)
    (fun (p : ECut T × ECut T) t => (cut t false, Side.after) ∈ sem1 p) b.ivs
    (fun p x s y hx hy h1 h2 => ?_) (fun t => by rw [← hb, Inner.contains_probe]; rfl) (c.ivs.attach.map g)
    (fun t ht => ?_) (List.pairwise_map.2 (hgap.imp ?_)))
  · rw [mem_after] at hx hy ⊢
    exact ⟨hx.1.trans (cut_lt.2 (.inl h1)).le, (cut_lt.2 (.inl h2)).trans hy.2⟩
  · obtain ⟨p, _, rfl⟩ := List.mem_map.1 ht
    rw [Inner.contains_probe]
    exact ⟨p.1, p.2, mem_after.2 (hg p)⟩
  · rintro p q ⟨x, y, h1, h2, h3, h4⟩
    obtain ⟨s, h5, h6⟩ := exists_elem_between h2
    have h7 := ((hg p).2.trans_le h1).trans_le h5
    have h8 := h6.trans_le (h3.trans (hg q).1)
    refine ⟨s, ?_, ?_, fun h => ?_⟩
    · simpa [cut_lt] using h7
    · simpa [cut_lt] using h8
    · rw [Inner.contains_probe] at h
      obtain ⟨r, hr, h⟩ := h
      rw [mem_after] at h
      rcases h4 r hr with h' | h'
      · exact absurd h.2 (h'.trans h5).not_gt
      · exact absurd h6 (h'.trans h.1).not_gt

/-- C81. So complementing twice turns a set into one with the same members and the fewest pieces. -/
theorem C81_twice [DenselyOrdered T] [NoMinOrder T] [NoMaxOrder T] [Nonempty T] (a : Inner T) :
    ∃ c d, (Any.inner a).complement = .ok c ∧ (Any.inner c).complement = .ok d ∧
      (∀ t, d.contains t = a.contains t) ∧ d.Normal ∧
      ∀ b : Inner T, (∀ t, b.contains t = a.contains t) → d.size ≤ b.size := by
  obtain ⟨c, d, hc, hd, e⟩ := C15_complement_complement (.inner a) trivial
  obtain ⟨c', hc', nc⟩ := C57_complement_normal (.inner a)
  obtain rfl : c = c' := by rw [hc] at hc'; injection hc'
  obtain ⟨d', hd', nd⟩ := C57_complement_normal (.inner c)
  obtain rfl : d = d' := by rw [hd] at hd'; injection hd'
  obtain ⟨d', hd', hmin⟩ := C81_complement c nc (fun r hr => by
    obtain ⟨c', hc', _, _, hk⟩ := Any.complement_comp (.inner a)
    obtain rfl : c = c' := by rw [hc] at hc'; injection hc'
    rw [hr] at hk
    revert hk
    cases (Any.inner a).toInner.kind <;> intro hk <;> cases hk)
  obtain rfl : d = d' := by rw [hd] at hd'; injection hd'
  exact ⟨c, d, hc, hd, e, nd, fun b hb => hmin b fun t => (hb t).trans (e t).symm⟩

/-- `0..1` and `1..2` over the rationals. -/
def halves : Inner ℚ := .bs ⟨[⟨.included 0, .excluded 1⟩, ⟨.included 1, .excluded 2⟩]⟩

/-- `0..2`. -/
def whole : Inner ℚ := .bs ⟨[⟨.included 0, .excluded 2⟩]⟩

/-- C81. Union does not do this: `(0..1).union(1..2)` keeps two pieces, complementing it twice leaves one. -/
theorem C81_union_counterexample :
    (Any.range ⟨0, 1⟩ : Any ℚ).union (.range ⟨1, 2⟩) = .ok (.inner halves) ∧
    halves.size = 2 ∧ whole.size = 1 ∧ (∀ t, whole.contains t = halves.contains t) ∧
    ∃ c, (Any.inner halves).complement = .ok c ∧ (Any.inner c).complement = .ok whole := by
  refine ⟨by decide +kernel, rfl, rfl, fun t => ?_, .us (.piecewise ⟨⟨.excluded 0⟩, ⟨[]⟩, ⟨.included 2⟩⟩),
    by decide +kernel, by decide +kernel⟩
  rw [Bool.eq_iff_iff, whole, halves, (C60_sets _ ⟨.excluded 0⟩ ⟨.included 0⟩ t).1,
    (C60_sets _ ⟨.excluded 0⟩ ⟨.included 0⟩ t).1]
  simp only [List.mem_cons, List.not_mem_nil, or_false, exists_eq_or_imp, exists_eq_left, (C60_ranges _ _ t).2.1]
  constructor
  · rintro ⟨h1, h2⟩
    rcases lt_or_ge t 1 with h | h
    · exact .inl ⟨h1, h⟩
    · exact .inr ⟨h, h2⟩
  · rintro (⟨h1, h2⟩ | ⟨h1, h2⟩)
    · exact ⟨h1, h2.trans (by decide)⟩
    · exact ⟨le_trans (by decide) h1, h2⟩

/-- C81. Density matters: over the integers the complement of `..=2` and `3..` has a piece without members. -/
theorem C81_discrete_counterexample :
    (Any.inner (.us (.piecewise ⟨⟨.included 2⟩, ⟨[]⟩, ⟨.included 3⟩⟩)) : Any Int).complement =
        .ok (.bs ⟨[⟨.excluded 2, .excluded 3⟩]⟩) ∧
    (∀ t, (Inner.er : Inner Int).contains t = (Inner.bs ⟨[⟨.excluded 2, .excluded 3⟩]⟩).contains t) ∧
    (Inner.er : Inner Int).size < (Inner.bs ⟨[⟨.excluded (2 : Int), .excluded 3⟩]⟩).size := by
  refine ⟨by decide +kernel, fun t => ?_, by decide⟩
  rw [Bool.eq_iff_iff, (C60_sets _ ⟨.excluded 0⟩ ⟨.included 0⟩ t).1]
  simp only [List.mem_singleton, exists_eq_left, (C60_ranges _ _ t).2.2.2.1]
  simp only [Inner.contains, Bool.false_eq_true, false_iff]
  omega

example : DenselyOrdered ℚ ∧ NoMinOrder ℚ ∧ NoMaxOrder ℚ ∧ Nonempty ℚ :=
  ⟨inferInstance, inferInstance, inferInstance, inferInstance⟩
example : halves.Normal ∧ ∀ r, halves = .br r → r.isEmpty = false :=
  ⟨by decide +kernel, fun _ h => by cases h⟩

end Rangetools
