import Verif.Spec.Sweep
import Verif.Proofs.Region

/-!
# The textbook algorithms on probes
-/

namespace Rangetools.Sweep
open Iv

section
variable {α : Type} [LinearOrder α]

theorem fuse_spec : ∀ (n : Nat) (l : List (α × α)), l.length ≤ n → (∀ p ∈ l, p.1 < p.2) → l.Pairwise (fun p q => p.1 ≤ q.1) →
    Canon (fuse l) ∧ sem (fuse l) = sem l ∧ ∀ x ∈ fuse l, ∃ p ∈ l, p.1 ≤ x.1 := by
  intro n
  induction n with
  | zero =>
    intro l hl _ _
    obtain rfl : l = [] := List.length_eq_zero_iff.mp (by omega)
    rw [fuse]; exact ⟨canon_nil, rfl, by simp⟩
  | succ n ih =>
    intro l hl hne hs
    match l with
    | [] => rw [fuse]; exact ⟨canon_nil, rfl, by simp⟩
    | [p] => rw [fuse]; exact ⟨canon_singleton.mpr (hne p (by simp)), rfl, fun x hx => ⟨x, hx, le_rfl⟩⟩
    | p :: q :: l =>
      have hp := hne p (by simp)
      have hq := hne q (by simp)
      rw [List.pairwise_cons, List.pairwise_cons] at hs
      obtain ⟨hs1, hs2, hs3⟩ := hs
      have hpq := hs1 q (by simp)
      rw [fuse]
      split
      · rename_i h
        obtain ⟨h1, h2, h3⟩ := ih ((p.1, max p.2 q.2) :: l) (by simp at hl ⊢; omega)
          (by
            intro r hr
            rcases List.mem_cons.mp hr with rfl | hr
            · exact hp.trans_le (le_max_left _ _)
            · exact hne r (by simp [hr]))
          (by
            rw [List.pairwise_cons]
            exact ⟨fun r hr => hs1 r (by simp [hr]), hs3⟩)
        refine ⟨h1, ?_, ?_⟩
        · rw [h2, sem_cons, sem_cons, sem_cons, ← Set.union_assoc, sem1_merge (p := p) (q := q), min_eq_left hpq]
          rw [max_eq_right hpq]
          exact lt_min h hq
        · intro x hx
          obtain ⟨r, hr, hrx⟩ := h3 x hx
          rcases List.mem_cons.mp hr with rfl | hr
          · exact ⟨p, by simp, hrx⟩
          · exact ⟨r, by simp [hr], hrx⟩
      · rename_i h
        rw [not_lt] at h
        obtain ⟨h1, h2, h3⟩ := ih (q :: l) (by simp at hl ⊢; omega) (fun r hr => hne r (by simp [List.mem_cons.mp hr]))
          (List.pairwise_cons.mpr ⟨hs2, hs3⟩)
        refine ⟨canon_cons.mpr ⟨hp, fun x hx => ?_, h1⟩, ?_, ?_⟩
        · obtain ⟨r, hr, hrx⟩ := h3 x hx
          rcases List.mem_cons.mp hr with rfl | hr
          · exact h.trans hrx
          · exact (h.trans (hs2 r hr)).trans hrx
        · rw [sem_cons, h2, sem_cons, sem_cons, sem_cons]
        · intro x hx
          rcases List.mem_cons.mp hx with rfl | hx
          · exact ⟨x, by simp, le_rfl⟩
          · obtain ⟨r, hr, hrx⟩ := h3 x hx
            exact ⟨r, List.mem_cons_of_mem _ hr, hrx⟩

theorem Canon.sorted {l : List (α × α)} (h : Canon l) : l.Pairwise (fun p q => p.1 ≤ q.1) :=
  (List.pairwise_iff_forall_sublist.mpr fun {a b} hs =>
    (h.1 a (hs.subset (by simp))).le.trans (List.pairwise_iff_forall_sublist.mp h.2 hs))

theorem union_spec {l m : List (α × α)} (hl : Canon l) (hm : Canon m) :
    Canon (union l m) ∧ sem (union l m) = sem l ∪ sem m := by
  have hs : (l.merge m fun p q => decide (p.1 ≤ q.1)).Pairwise (fun p q => p.1 ≤ q.1) := by
    have := List.pairwise_merge (le := fun p q : α × α => decide (p.1 ≤ q.1))
      (fun a b c h1 h2 => by simp only [decide_eq_true_eq] at *; exact h1.trans h2)
      (fun a b => by simpa using le_total a.1 b.1) l m
      ((Canon.sorted hl).imp fun h => by simpa using h) ((Canon.sorted hm).imp fun h => by simpa using h)
    exact this.imp fun h => by simpa using h
  obtain ⟨h1, h2, -⟩ := fuse_spec _ _ le_rfl (fun p hp => by
    rcases List.mem_merge.mp hp with hp | hp
    · exact hl.1 p hp
    · exact hm.1 p hp) hs
  refine ⟨h1, h2.trans ?_⟩
  rw [← sem_append]
  ext q
  refine exists_congr fun p => and_congr_left fun _ => ?_
  rw [List.mem_merge, List.mem_append]

theorem inter_spec : ∀ (n : Nat) (l m : List (α × α)), l.length + m.length ≤ n → Canon l → Canon m →
    Canon (inter l m) ∧ sem (inter l m) = sem l ∩ sem m ∧
      ∀ x ∈ inter l m, (∃ p ∈ l, p.1 ≤ x.1) ∧ ∃ p ∈ m, p.1 ≤ x.1 := by
  intro n
  induction n with
  | zero =>
    intro l m hl _ _
    obtain rfl : l = [] := List.length_eq_zero_iff.mp (by omega)
    rw [inter]; exact ⟨canon_nil, by simp, by simp⟩
  | succ n ih =>
    intro l m hn hl hm
    match l, m with
    | [], m => rw [inter]; exact ⟨canon_nil, by simp, by simp⟩
    | p :: l, [] => rw [inter]; exact ⟨canon_nil, by simp, by simp⟩
    | p :: l, q :: m =>
      rw [inter]
      obtain ⟨hp, hpl, hl'⟩ := canon_cons.mp hl
      obtain ⟨hq, hqm, hm'⟩ := canon_cons.mp hm
      -- the recursive call
      obtain ⟨rest, hrest, h1, h2, h3, h4⟩ : ∃ rest, (if p.2 ≤ q.2 then inter l (q :: m) else inter (p :: l) m) = rest ∧
          Canon rest ∧ sem (p :: l) ∩ sem (q :: m) = (sem1 p ∩ sem1 q) ∪ sem rest ∧
          (∀ x ∈ rest, (∃ r ∈ p :: l, r.1 ≤ x.1) ∧ ∃ r ∈ q :: m, r.1 ≤ x.1) ∧ ∀ x ∈ rest, min p.2 q.2 ≤ x.1 := by
        split
        · rename_i h
          obtain ⟨h1, h2, h3⟩ := ih l (q :: m) (by simp at hn ⊢; omega) hl' hm
          refine ⟨_, rfl, h1, ?_, fun x hx => ?_, fun x hx => ?_⟩
          · rw [h2, sem_cons, sem_cons]
            ext z
            have := sem_disjoint_of_le (p := p) (L := m) (fun r hr => h.trans (hqm r hr)) z
            simp only [Set.mem_inter_iff, Set.mem_union]
            tauto
          · obtain ⟨⟨r, hr, hrx⟩, h⟩ := h3 x hx
            exact ⟨⟨r, List.mem_cons_of_mem _ hr, hrx⟩, h⟩
          · obtain ⟨⟨r, hr, hrx⟩, -⟩ := h3 x hx
            exact (min_le_left _ _).trans ((hpl r hr).trans hrx)
        · rename_i h
          rw [not_le] at h
          obtain ⟨h1, h2, h3⟩ := ih (p :: l) m (by simp at hn ⊢; omega) hl hm'
          refine ⟨_, rfl, h1, ?_, fun x hx => ?_, fun x hx => ?_⟩
          · rw [h2, sem_cons, sem_cons]
            ext z
            have := sem_disjoint_of_le (p := q) (L := l) (fun r hr => h.le.trans (hpl r hr)) z
            simp only [Set.mem_inter_iff, Set.mem_union]
            tauto
          · obtain ⟨h, ⟨r, hr, hrx⟩⟩ := h3 x hx
            exact ⟨h, ⟨r, List.mem_cons_of_mem _ hr, hrx⟩⟩
          · obtain ⟨-, ⟨r, hr, hrx⟩⟩ := h3 x hx
            exact (min_le_right _ _).trans ((hqm r hr).trans hrx)
      simp only [hrest]
      rw [h2, sem1_inter]
      split
      · rename_i h
        refine ⟨canon_cons.mpr ⟨h, h4, h1⟩, sem_cons _ _, fun x hx => ?_⟩
        rcases List.mem_cons.mp hx with rfl | hx
        · exact ⟨⟨p, by simp, le_max_left _ _⟩, ⟨q, by simp, le_max_right _ _⟩⟩
        · exact h3 x hx
      · rename_i h
        rw [sem1_empty (not_lt.mp h), Set.empty_union]
        exact ⟨h1, rfl, h3⟩

end

variable {T : Type} [LinearOrder T]

theorem gapsFrom_spec (x : ECut T) (l : List (ECut T × ECut T)) (hl : Canon l) (hx : ∀ p ∈ l, x ≤ p.1) :
    Canon (gapsFrom x l) ∧ sem (gapsFrom x l) = sem1 (x, ⊤) ∩ csem l ∧ ∀ y ∈ gapsFrom x l, x ≤ y.1 := by
  induction l generalizing x with
  | nil =>
    have e : sem1 (x, (⊤ : ECut T)) ∩ csem [] = sem1 (x, ⊤) := by
      ext ⟨z, s⟩
      refine ⟨And.left, fun h => ⟨h, ?_, by simp⟩⟩
      cases s
      · exact ⟨bot_le.trans_lt h.1, h.2⟩
      · exact ⟨bot_le.trans_lt h.1, h.2⟩
      · exact ⟨bot_le, h.2⟩
    rw [gapsFrom, e]
    split
    · rename_i h
      exact ⟨canon_singleton.mpr h, by simp, by simp⟩
    · rename_i h
      exact ⟨canon_nil, by rw [sem1_empty (not_lt.mp h), sem_nil], by simp⟩
  | cons p l ih =>
    obtain ⟨hp, hpl, hl'⟩ := canon_cons.mp hl
    have hxp := hx p (by simp)
    obtain ⟨h1, h2, h3⟩ := ih p.2 hl' hpl
    have e : sem1 (x, (⊤ : ECut T)) ∩ csem (p :: l) = sem1 (x, p.1) ∪ sem (gapsFrom p.2 l) := by
      rw [h2]
      ext ⟨z, s⟩
      have hr : ∀ r ∈ l, p.1 ≤ r.1 := fun r hr => hp.le.trans (hpl r hr)
      show (_ ∧ _ ∧ ∀ r ∈ p :: l, _) ↔ (_ ∨ _ ∧ _ ∧ ∀ r ∈ l, _)
      rw [List.forall_mem_cons]
      cases s
      · simp only [csem1, Set.mem_union, mem_before, le_top, and_true, bot_lt_iff_ne_bot]
        constructor
        · rintro ⟨a, b, c | c, d⟩
          · exact Or.inl ⟨a, c.2⟩
          · exact Or.inr ⟨c, b, d⟩
        · rintro (⟨a, b⟩ | ⟨a, b, c⟩)
          · refine ⟨a, (bot_le.trans_lt a).ne', Or.inl ⟨(bot_le.trans_lt a).ne', b⟩, fun r hr' => Or.inl ⟨(bot_le.trans_lt a).ne', b.trans (hr r hr')⟩⟩
          · exact ⟨hxp.trans_lt (hp.trans a), b, Or.inr a, c⟩
      · simp only [csem1, Set.mem_union, mem_at]
        constructor
        · rintro ⟨a, b, c | c, d⟩
          · exact Or.inl ⟨a.1, c.2⟩
          · exact Or.inr ⟨c, b, d⟩
        · rintro (⟨a, b⟩ | ⟨a, b, c⟩)
          · have h0 := bot_le.trans_lt a
            have ht := b.trans_le le_top
            exact ⟨⟨a, ht⟩, ⟨h0, ht⟩, Or.inl ⟨h0, b⟩, fun r hr' => Or.inl ⟨h0, b.trans_le (hr r hr')⟩⟩
          · exact ⟨⟨hxp.trans_lt (hp.trans a.1), a.2⟩, b, Or.inr a, c⟩
      · simp only [csem1, Set.mem_union, mem_after, bot_le, true_and]
        constructor
        · rintro ⟨a, b, c | c, d⟩
          · exact Or.inl ⟨a.1, c⟩
          · exact Or.inr ⟨c, b, d⟩
        · rintro (⟨a, b⟩ | ⟨a, b, c⟩)
          · have ht := b.trans_le le_top
            exact ⟨⟨a, ht⟩, ht, Or.inl b, fun r hr' => Or.inl (b.trans_le (hr r hr'))⟩
          · exact ⟨⟨hxp.trans (hp.le.trans a.1), a.2⟩, b, Or.inr a, c⟩
    rw [gapsFrom, e]
    split
    · rename_i h
      refine ⟨canon_cons.mpr ⟨h, fun y hy => hp.le.trans (h3 y hy), h1⟩, sem_cons _ _, fun y hy => ?_⟩
      rcases List.mem_cons.mp hy with rfl | hy
      · exact le_rfl
      · exact hxp.trans (hp.le.trans (h3 y hy))
    · rename_i h
      rw [sem1_empty (not_lt.mp h), Set.empty_union]
      exact ⟨h1, rfl, fun y hy => hxp.trans (hp.le.trans (h3 y hy))⟩

theorem gaps_spec (l : List (ECut T × ECut T)) (hl : Canon l) : Canon (gaps l) ∧ sem (gaps l) = csem l := by
  obtain ⟨h1, h2, -⟩ := gapsFrom_spec ⊥ l hl fun _ _ => bot_le
  exact ⟨h1, h2.trans (Set.inter_eq_right.mpr fun _ h => h.1)⟩

end Rangetools.Sweep
