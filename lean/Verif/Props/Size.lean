import Verif.Spec.Size
import Verif.Props.Lattice
import Mathlib.Data.List.Perm.Subperm

/-!
# C68: results stay small

A piece of a result starts where a piece of an operand starts (or, for complements, ends), and no two pieces
of a normal set start at the same cut.
-/

namespace Rangetools
open Iv Samples

/-! ### Starts of pieces -/

section
variable {α : Type} [LinearOrder α]

/-- The cuts at which a set of probes starts. -/
def Starts (S : Set (α × Side)) (x : α) : Prop := (x, Side.after) ∈ S ∧ (x, Side.at) ∉ S

theorem starts_sem {L : List (α × α)} {x : α} (h : Starts (sem L) x) : x ∈ L.map Prod.fst := by
  obtain ⟨⟨p, hp, h1⟩, h2⟩ := h
  rw [mem_after] at h1
  refine List.mem_map.mpr ⟨p, hp, le_antisymm h1.1 (not_lt.mp fun h => h2 ⟨p, hp, mem_at.mpr ⟨h, h1.2⟩⟩)⟩

theorem starts_of_canon : ∀ {L : List (α × α)}, Canon L → ∀ {p}, p ∈ L → Starts (sem L) p.1 := by
  intro L h p hp
  refine ⟨⟨p, hp, mem_after.mpr ⟨le_rfl, h.1 p hp⟩⟩, ?_⟩
  rintro ⟨q, hq, hx⟩
  rw [mem_at] at hx
  by_cases e : p = q
  · subst e; exact lt_irrefl _ hx.1
  · have hs : L.Pairwise (fun a b : α × α => a.2 ≤ b.1 ∨ b.2 ≤ a.1) := h.2.imp Or.inl
    have : Std.Symm (fun a b : α × α => a.2 ≤ b.1 ∨ b.2 ≤ a.1) := ⟨fun _ _ h => h.symm⟩
    rcases hs.forall hp hq e with h' | h'
    · exact absurd (h'.trans_lt hx.1) (h.1 p hp).not_gt
    · exact absurd hx.2 h'.not_gt

theorem starts_nodup {L : List (α × α)} (h : Canon L) : (L.map Prod.fst).Nodup := by
  rw [List.Nodup, List.pairwise_map]
  exact h.2.imp_of_mem fun {p q} hp _ hle => ((h.1 p hp).trans_le hle).ne

/-- A canonical list has no more pieces than there are cuts to start at. -/
theorem length_le_of_starts {L : List (α × α)} (h : Canon L) {M : List α}
    (hs : ∀ x, Starts (sem L) x → x ∈ M) : L.length ≤ M.length := by
  have := (starts_nodup h).subperm (l₂ := M) (fun x hx => by
    obtain ⟨p, hp, rfl⟩ := List.mem_map.mp hx
    exact hs _ (starts_of_canon h hp))
  simpa using this.length_le

/-- A list has at least as many pieces as it has starts. -/
theorem le_length_of_starts {L : List (α × α)} {M : List α} (hn : M.Nodup)
    (hs : ∀ x ∈ M, Starts (sem L) x) : M.length ≤ L.length := by
  have := hn.subperm (l₂ := L.map Prod.fst) fun x hx => starts_sem (hs x hx)
  simpa using this.length_le

end

variable {T : Type} [LinearOrder T]

omit [LinearOrder T] in
theorem Inner.size_eq (a : Inner T) : a.size = a.ivs.length := by
  rcases a with _ | _ | _ | _ | _ | _ | _ | ⟨_ | _⟩ | _ <;>
    simp [Inner.size, Inner.ivs, BoundedSet.ivs, LowerBoundedSet.ivs, UpperBoundedSet.ivs, UnboundedSet.ivs,
      PiecewiseUnboundedSet.ivs]

theorem Inner.canon {a : Inner T} (h : a.WF) (hk : a.kind ≠ .br) : Canon a.ivs := by
  cases a with
  | br r => exact absurd rfl hk
  | bs s => exact h
  | lbr r => exact canon_singleton.mpr (lo_lt_top _)
  | lbs s => exact h
  | ubr r => exact canon_singleton.mpr (bot_lt_hi _)
  | ubs s => exact h
  | ur => exact canon_singleton.mpr bot_lt_top
  | us s => exact h
  | er => exact canon_nil

/-- The first piece starts first. -/
theorem Inner.head_le {a : Inner T} (h : a.WF) {p : ECut T × ECut T} {L : List (ECut T × ECut T)}
    (e : a.ivs = p :: L) : ∀ q ∈ a.ivs, p.1 ≤ q.1 := by
  by_cases hk : a.kind = .br
  · cases a with
    | br r =>
      intro q hq
      simp only [Inner.ivs, List.cons.injEq, List.mem_singleton] at e hq
      rw [hq, e.1]
    | _ => simp [Inner.kind] at hk
  · have hc := Inner.canon h hk
    rw [e] at hc ⊢
    rw [canon_cons] at hc
    intro q hq
    rcases List.mem_cons.mp hq with rfl | hq
    · exact le_rfl
    · exact hc.1.le.trans (hc.2.1 q hq)

/-- C68. A union has at most as many pieces as its operands together. -/
theorem C68_union (a b : Any T) (ha : a.toInner.Normal) (hb : b.toInner.Normal) :
    ∃ c, a.union b = .ok c ∧ c.toInner.size ≤ a.toInner.size + b.toInner.size := by
  by_cases hea : a.isER = true
  · rcases Any.union_cases a b with ⟨_, h⟩ | ⟨_, h⟩ | ⟨h, _⟩
    · exact ⟨b, h, by omega⟩
    · exact ⟨a, h, by omega⟩
    · rw [h] at hea; cases hea
  by_cases heb : b.isER = true
  · rcases Any.union_cases a b with ⟨_, h⟩ | ⟨_, h⟩ | ⟨_, h, _⟩
    · exact ⟨b, h, by omega⟩
    · exact ⟨a, h, by omega⟩
    · rw [h] at heb; cases heb
  obtain ⟨c, hc, hs, hw, hk⟩ := Any.union_spec ha hb (by simpa using hea) (by simpa using heb)
  refine ⟨_, hc, ?_⟩
  have hkc : c.toInner.kind ≠ .br := by
    rw [hk]; cases a.toInner.kind <;> cases b.toInner.kind <;> decide
  rw [Any.toInner_inner, Inner.size_eq, Inner.size_eq, Inner.size_eq]
  have := length_le_of_starts (Inner.canon hw hkc) (M := a.toInner.ivs.map Prod.fst ++ b.toInner.ivs.map Prod.fst)
    (fun x hx => by
      rw [hs] at hx
      rcases hx with ⟨h | h, h'⟩
      · exact List.mem_append_left _ (starts_sem ⟨h, fun k => h' (Or.inl k)⟩)
      · exact List.mem_append_right _ (starts_sem ⟨h, fun k => h' (Or.inr k)⟩))
  simpa using this

example : (Any.inner lbs).toInner.Normal ∧ (Any.inner us).toInner.Normal ∧ lbs.size = 2 ∧ us.size = 3 ∧
    (Any.inner lbs).union (.inner us) = .ok (.inner (.us (.piecewise ⟨io (-20), ⟨[co (-5) (-3)]⟩, ci 0⟩))) := by
  decide +kernel

theorem starts_interSem {a b : Inner T} {x : ECut T} (h : Starts (interSem a b) x) :
    x ∈ a.ivs.map Prod.fst ∨ x ∈ b.ivs.map Prod.fst := by
  by_cases hl : BothLBS a b
  · cases a with
    | lbs a =>
      cases b with
      | lbs b =>
        rw [Inner.ivs, Inner.ivs]
        obtain ⟨h1, h2⟩ := h
        rcases h1 with ⟨ha, hb⟩ | ⟨ha, hb⟩
        · by_cases k : (x, Side.at) ∈ sem a.ivs
          · have := starts_sem (L := [b.lowerBoundedRange.iv]) (x := x)
              ⟨by rwa [sem_one], fun k' => h2 (Or.inl ⟨k, by rwa [sem_one] at k'⟩)⟩
            right
            rw [LowerBoundedSet.ivs, List.map_append]
            exact List.mem_append_right _ this
          · exact Or.inl (starts_sem ⟨ha, k⟩)
        · by_cases k : (x, Side.at) ∈ sem a.ranges.ivs
          · exact Or.inr (starts_sem ⟨hb, fun k' => h2 (Or.inr ⟨k, k'⟩)⟩)
          · left
            rw [LowerBoundedSet.ivs, List.map_append]
            exact List.mem_append_left _ (starts_sem ⟨ha, k⟩)
      | _ => simp [BothLBS, Inner.kind] at hl
    | _ => simp [BothLBS, Inner.kind] at hl
  · rw [interSem_eq hl] at h
    by_cases k : (x, Side.at) ∈ sem a.ivs
    · exact Or.inr (starts_sem ⟨h.1.2, fun k' => h.2 ⟨k, k'⟩⟩)
    · exact Or.inl (starts_sem ⟨h.1.1, k⟩)

/-- C68. An intersection has fewer pieces than its operands together. -/
theorem C68_inter (a b : Any T) (ha : a.toInner.Normal) (hb : b.toInner.Normal) :
    ∃ c, a.inter b = .ok c ∧ c.size ≤ a.toInner.size + b.toInner.size - 1 := by
  rw [Inner.normal_iff] at ha hb
  obtain ⟨c, hc, hs, hw, hk⟩ := Any.inter_comp a b
  refine ⟨c, hc, ?_⟩
  rw [Inner.size_eq, Inner.size_eq, Inner.size_eq]
  have hsub : ∀ x, Starts (sem c.ivs) x → (x, Side.after) ∈ sem a.toInner.ivs ∧ (x, Side.after) ∈ sem b.toInner.ivs :=
    fun x hx => interSem_subset _ _ (hs ▸ hx.1)
  by_cases hkc : c.kind = .br
  · have hr := interKind_isRange (j := a.toInner.kind) (k := b.toInner.kind) (by rw [← hk, hkc]; rfl)
    have one : ∀ i : Inner T, i.kind.isRange = true → i.ivs.length = 1 := by
      intro i hi; cases i <;> simp [Inner.kind, Kind.isRange] at hi <;> rfl
    rw [one c (by rw [hkc]; rfl), one _ hr.1, one _ hr.2]
  · have hcan := Inner.canon (hw ⟨ha, hb⟩) hkc
    rcases ea : a.toInner.ivs with _ | ⟨p, L⟩
    · have := length_le_of_starts hcan (M := []) (fun x hx => by
        have := (hsub x hx).1; rw [ea] at this; simp at this)
      simp at this; simp [this]
    rcases eb : b.toInner.ivs with _ | ⟨q, M⟩
    · have := length_le_of_starts hcan (M := []) (fun x hx => by
        have := (hsub x hx).2; rw [eb] at this; simp at this)
      simp at this; simp [this]
    have lea := Inner.head_le ha ea
    have leb := Inner.head_le hb eb
    have hst : ∀ x, Starts (sem c.ivs) x → x ∈ (p :: L).map Prod.fst ∨ x ∈ (q :: M).map Prod.fst := by
      intro x hx
      rw [hs] at hx
      have := starts_interSem hx
      rwa [ea, eb] at this
    rcases le_total p.1 q.1 with hpq | hpq
    · have := length_le_of_starts hcan (M := L.map Prod.fst ++ (q :: M).map Prod.fst) (fun x hx => by
        rcases hst x hx with h | h
        · rw [List.map_cons, List.mem_cons] at h
          rcases h with rfl | h
          · obtain ⟨r, hr, h⟩ := (hsub _ hx).2
            have : q.1 = p.1 := le_antisymm ((leb r hr).trans (mem_after.mp h).1) hpq
            rw [← this]; simp
          · exact List.mem_append_left _ h
        · exact List.mem_append_right _ h)
      simp only [List.length_append, List.length_map, List.length_cons] at this ⊢
      omega
    · have := length_le_of_starts hcan (M := (p :: L).map Prod.fst ++ M.map Prod.fst) (fun x hx => by
        rcases hst x hx with h | h
        · exact List.mem_append_left _ h
        · rw [List.map_cons, List.mem_cons] at h
          rcases h with rfl | h
          · obtain ⟨r, hr, h⟩ := (hsub _ hx).1
            have : p.1 = q.1 := le_antisymm ((lea r hr).trans (mem_after.mp h).1) hpq
            rw [← this]; simp
          · exact List.mem_append_right _ h)
      simp only [List.length_append, List.length_map, List.length_cons] at this ⊢
      omega

-- three pieces and two give three
example : us.Normal ∧ ubs.Normal ∧ us.size + ubs.size - 1 = 4 ∧
    ((Any.inner us).inter (.inner ubs)) = .ok (.ubs ⟨io (-20), ⟨[cc 2 4]⟩⟩) := by decide +kernel

/-- C68. A complement has at most one piece more, whether or not the operand is normal. -/
theorem C68_complement (a : Any T) : ∃ c, a.complement = .ok c ∧ c.size ≤ a.toInner.size + 1 := by
  obtain ⟨c, hc, hs, hw, hk⟩ := Any.complement_comp a
  refine ⟨c, hc, ?_⟩
  rw [Inner.size_eq, Inner.size_eq]
  have hkc : c.kind ≠ .br := by rw [hk]; cases a.toInner.kind <;> decide
  have := length_le_of_starts (Inner.canon (hw trivial) hkc) (M := ⊥ :: a.toInner.ivs.map Prod.snd) (fun x hx => by
    rw [hs] at hx
    obtain ⟨⟨h1, h2⟩, h3⟩ := hx
    rw [mem_after] at h1
    by_cases hb : x = ⊥
    · rw [hb]; exact List.mem_cons_self
    by_contra hn
    refine h3 ⟨mem_at.mpr ⟨bot_lt_iff_ne_bot.mpr hb, h1.2⟩, fun p hp => ?_⟩
    rcases h2 p hp with h | h
    · exact Or.inl (mem_at.mpr ⟨bot_lt_iff_ne_bot.mpr hb, (mem_after.mp h).2⟩)
    · refine Or.inr (mem_at.mpr ⟨lt_of_le_of_ne (mem_after.mp h).1 fun e => hn ?_, h1.2⟩)
      exact List.mem_cons_of_mem _ (List.mem_map.mpr ⟨p, hp, e⟩))
  simpa using this

example : us.size = 3 ∧ (Any.inner bs).complement =
    .ok (.us (.piecewise ⟨io 0, ⟨[co 3 5]⟩, ⟨.excluded 9⟩⟩)) := by decide +kernel

/-- C68. The value of an expression has at most as many pieces as its leaves together, and one more for each
complement. -/
theorem C68_expr (e : Expr T) (h : e.AllLeaves (fun a => a.toInner.Normal)) :
    ∃ c, e.eval = .ok c ∧ c.toInner.Normal ∧ c.toInner.size ≤ e.size + e.complements := by
  induction e with
  | leaf a => exact ⟨a, rfl, h, le_rfl⟩
  | toInner e ih =>
    obtain ⟨c, hc, hn, hl⟩ := ih h
    exact ⟨.inner c.toInner, by simp [Expr.eval, hc], hn, hl⟩
  | toSet e ih =>
    obtain ⟨c, hc, hn, hl⟩ := ih h
    refine ⟨.inner c.toSet.toInner, by simp [Expr.eval, hc], ?_, ?_⟩
    · rw [Inner.normal_iff] at hn ⊢
      rw [Any.toInner_inner, Any.toSet_eq]
      exact Inner.toSet_WF hn
    · refine le_trans ?_ hl
      rw [Any.toInner_inner, Any.toSet_eq, Inner.size_eq, Inner.size_eq]
      rw [Inner.normal_iff] at hn
      have := length_le_of_starts (Inner.canon (Inner.toSet_WF hn)
        (by rw [Inner.toSet_kind]; cases c.toInner.kind <;> decide)) (M := c.toInner.ivs.map Prod.fst)
        (fun x hx => by rw [Inner.toSet_sem] at hx; exact starts_sem hx)
      simpa using this
  | union e f ihe ihf =>
    obtain ⟨a, ha, na, la⟩ := ihe h.1
    obtain ⟨b, hb, nb, lb⟩ := ihf h.2
    obtain ⟨c, hc, lc⟩ := C68_union a b na nb
    obtain ⟨c', hc', -, hw, -⟩ := Any.union_comp a b
    obtain rfl : c = c' := by rw [hc] at hc'; injection hc'
    rw [Inner.normal_iff] at na nb
    refine ⟨c, by simp [Expr.eval, ha, hb, hc], (Inner.normal_iff _).mpr (hw na nb), ?_⟩
    simp only [Expr.size, Expr.complements]; omega
  | inter e f ihe ihf =>
    obtain ⟨a, ha, na, la⟩ := ihe h.1
    obtain ⟨b, hb, nb, lb⟩ := ihf h.2
    obtain ⟨c, hc, lc⟩ := C68_inter a b na nb
    obtain ⟨c', hc', -, hw, -⟩ := Any.inter_comp a b
    obtain rfl : c = c' := by rw [hc] at hc'; injection hc'
    rw [Inner.normal_iff] at na nb
    refine ⟨.inner c, by simp [Expr.eval, ha, hb, hc], (Inner.normal_iff _).mpr (hw ⟨na, nb⟩), ?_⟩
    simp only [Expr.size, Expr.complements, Any.toInner_inner]; omega
  | complement e ih =>
    obtain ⟨a, ha, na, la⟩ := ih h
    obtain ⟨c, hc, lc⟩ := C68_complement a
    obtain ⟨c', hc', -, hw, -⟩ := Any.complement_comp a
    obtain rfl : c = c' := by rw [hc] at hc'; injection hc'
    refine ⟨.inner c, by simp [Expr.eval, ha, hc], (Inner.normal_iff _).mpr (hw trivial), ?_⟩
    simp only [Expr.size, Expr.complements, Any.toInner_inner]; omega

example : let e : Expr Int := .complement (.union (.leaf (.inner us)) (.complement (.leaf (.range ⟨0, 9⟩))))
    e.AllLeaves (fun a => a.toInner.Normal) ∧ e.size = 4 ∧ e.complements = 2 :=
  ⟨⟨show us.Normal by decide, trivial⟩, rfl, rfl⟩

/-! ### The bounds are attained -/

/-- The set of the half-open ranges in a list. -/
def ofPairs (l : List (Int × Int)) : BoundedSet Int := ⟨l.map fun p => co p.1 p.2⟩

/-- The `n` pieces `k..k+1`, `k+2..k+3`, ... -/
def comb (k : Int) (n : Nat) : List (Int × Int) :=
  (List.range n).map fun i : Nat => (k + 2 * i, k + 2 * i + 1)

/-- The `m` pieces `0..1`, ..., `m-2..m-1` and `m-1..m+n-1`. -/
def stairL (m n : Nat) : List (Int × Int) :=
  (List.range (m - 1)).map (fun i : Nat => ((i : Int), (i + 1 : Int))) ++ [((m - 1 : Int), (m + n - 1 : Int))]

/-- The `n` pieces `0..m`, `m..m+1`, ..., `m+n-2..m+n-1`. -/
def stairR (m n : Nat) : List (Int × Int) :=
  (0, (m : Int)) :: (List.range (n - 1)).map (fun i : Nat => ((m + i : Int), (m + i + 1 : Int)))

example : (ofPairs (comb 0 3)).ranges = [co 0 1, co 2 3, co 4 5] ∧
    (ofPairs (stairL 3 2)).ranges = [co 0 1, co 1 2, co 2 4] ∧
    (ofPairs (stairR 3 2)).ranges = [co 0 3, co 3 4] := by decide

theorem ofPairs_normal {l : List (Int × Int)} (h : Canon l) : (Inner.bs (ofPairs l)).Normal := by
  refine ⟨fun r hr => ?_, List.pairwise_map.mpr (h.2.imp fun {p q} hpq => hpq)⟩
  obtain ⟨p, hp, rfl⟩ := List.mem_map.mp hr
  exact decide_eq_false (not_le.mpr (h.1 p hp))

theorem cut_false_le {x y : Int} : cut x false ≤ cut y false ↔ x ≤ y := by
  rw [cut_le, le_iff_lt_or_eq (a := x)]; simp

theorem cut_false_lt {x y : Int} : cut x false < cut y false ↔ x < y := by rw [cut_lt]; simp

theorem mem_ofPairs {l : List (Int × Int)} {x : Int} {s : Side} :
    (cut x false, s) ∈ sem (ofPairs l).ivs ↔ (x, s) ∈ sem l := by
  rw [BoundedSet.mem_sem_ivs, mem_sem]
  simp only [ofPairs, List.mem_map, exists_exists_and_eq_and]
  refine exists_congr fun p => and_congr_right fun _ => ?_
  have e : (co p.1 p.2).iv = (cut p.1 false, cut p.2 false) := rfl
  rw [e]
  cases s
  · rw [mem_before, mem_before, cut_false_le, cut_false_lt]
  · rw [mem_at, mem_at, cut_false_lt, cut_false_lt]
  · rw [mem_after, mem_after, cut_false_le, cut_false_lt]

theorem canon_comb (k : Int) (n : Nat) : Canon (comb k n) := by
  refine ⟨fun p hp => ?_, List.pairwise_map.mpr (List.pairwise_lt_range.imp fun {i j} h => ?_)⟩
  · obtain ⟨i, -, rfl⟩ := List.mem_map.mp hp
    dsimp only; omega
  · dsimp only; omega

theorem canon_stairL {m : Nat} (n : Nat) (hm : 0 < m) (hn : 0 < n) : Canon (stairL m n) := by
  rw [stairL, canon_append, canon_singleton]
  refine ⟨⟨fun p hp => ?_, List.pairwise_map.mpr (List.pairwise_lt_range.imp fun {i j} h => ?_)⟩, ?_, ?_⟩
  · obtain ⟨i, -, rfl⟩ := List.mem_map.mp hp
    dsimp only; omega
  · dsimp only; omega
  · dsimp only; omega
  · intro p hp q hq
    obtain ⟨i, hi, rfl⟩ := List.mem_map.mp hp
    obtain rfl := List.mem_singleton.mp hq
    rw [List.mem_range] at hi
    dsimp only; omega

theorem canon_stairR {m : Nat} (n : Nat) (hm : 0 < m) : Canon (stairR m n) := by
  rw [stairR, canon_cons]
  refine ⟨by dsimp only; omega, fun q hq => ?_, ⟨fun p hp => ?_, List.pairwise_map.mpr (List.pairwise_lt_range.imp
    fun {i j} h => ?_)⟩⟩
  · obtain ⟨i, -, rfl⟩ := List.mem_map.mp hq
    dsimp only; omega
  · obtain ⟨i, -, rfl⟩ := List.mem_map.mp hp
    dsimp only; omega
  · dsimp only; omega

theorem cuts_nodup {g : Nat → Int} (hg : ∀ i j, i < j → g i < g j) (n : Nat) :
    ((List.range n).map fun i => cut (g i) false).Nodup := by
  refine List.pairwise_map.mpr (List.pairwise_lt_range.imp fun {i j} h => ?_)
  rw [ne_eq, cut_inj]
  have := hg i j h
  omega

/-- C68. The bounds are attained by sets of every size. -/
theorem C68_sharp (m n : Nat) (hm : 0 < m) (hn : 0 < n) :
    (∃ a b c : Inner Int, a.Normal ∧ b.Normal ∧ a.size = m ∧ b.size = n ∧
      (Any.inner a).union (.inner b) = .ok (.inner c) ∧ c.size = m + n) ∧
    (∃ a b c : Inner Int, a.Normal ∧ b.Normal ∧ a.size = m ∧ b.size = n ∧
      (Any.inner a).inter (.inner b) = .ok c ∧ c.size = m + n - 1) ∧
    ∃ a c : Inner Int, a.Normal ∧ a.size = n ∧ (Any.inner a).complement = .ok c ∧ c.size = n + 1 := by
  refine ⟨?_, ?_, ?_⟩
  · have na := ofPairs_normal (canon_comb 0 m)
    have nb := ofPairs_normal (canon_comb (2 * m) n)
    have sa : (Inner.bs (ofPairs (comb 0 m))).size = m := by simp [Inner.size, ofPairs, comb]
    have sb : (Inner.bs (ofPairs (comb (2 * m) n))).size = n := by simp [Inner.size, ofPairs, comb]
    obtain ⟨c, hc, hs, hw, hk⟩ := Any.union_spec (a := .inner (.bs (ofPairs (comb 0 m))))
      (b := .inner (.bs (ofPairs (comb (2 * m) n)))) na nb rfl rfl
    refine ⟨_, _, c.toInner, na, nb, sa, sb, hc, le_antisymm ?_ ?_⟩
    · obtain ⟨c', hc', hl⟩ := C68_union (.inner (.bs (ofPairs (comb 0 m)))) (.inner (.bs (ofPairs (comb (2 * m) n)))) na nb
      rw [hc] at hc'
      injection hc' with e
      subst e
      rw [Any.toInner_inner, Any.toInner_inner, Any.toInner_inner, sa, sb] at hl
      exact hl
    · have h := le_length_of_starts (L := c.toInner.ivs)
        (cuts_nodup (g := fun i => 2 * (i : Int)) (fun i j h => by omega) (m + n)) ?_
      · simpa [Inner.size_eq] using h
      · intro x hx
        obtain ⟨i, hi, rfl⟩ := List.mem_map.mp hx
        rw [List.mem_range] at hi
        rw [hs]
        simp only [Any.toInner_inner, Inner.ivs]
        constructor
        · by_cases him : i < m
          · exact Or.inl (mem_ofPairs.mpr ⟨_, List.mem_map.mpr ⟨i, List.mem_range.mpr him, rfl⟩,
              mem_after.mpr (by dsimp only; omega)⟩)
          · exact Or.inr (mem_ofPairs.mpr ⟨_, List.mem_map.mpr ⟨i - m, List.mem_range.mpr (by omega), rfl⟩,
              mem_after.mpr (by dsimp only; omega)⟩)
        · rintro (h | h) <;> obtain ⟨p, hp, h⟩ := mem_ofPairs.mp h <;>
            obtain ⟨j, hj, rfl⟩ := List.mem_map.mp hp <;> rw [mem_at] at h <;> dsimp only at h <;> omega
  · have na := ofPairs_normal (canon_stairL n hm hn)
    have nb := ofPairs_normal (canon_stairR n hm)
    have sa : (Inner.bs (ofPairs (stairL m n))).size = m := by simp [Inner.size, ofPairs, stairL]; omega
    have sb : (Inner.bs (ofPairs (stairR m n))).size = n := by simp [Inner.size, ofPairs, stairR]; omega
    obtain ⟨c, hc, hs, hw, hk⟩ := Any.inter_comp (.inner (.bs (ofPairs (stairL m n))))
      (.inner (.bs (ofPairs (stairR m n))))
    refine ⟨_, _, c, na, nb, sa, sb, hc, le_antisymm ?_ ?_⟩
    · obtain ⟨c', hc', hl⟩ := C68_inter (.inner (.bs (ofPairs (stairL m n)))) (.inner (.bs (ofPairs (stairR m n)))) na nb
      obtain rfl : c = c' := by rw [hc] at hc'; injection hc'
      rw [Any.toInner_inner, Any.toInner_inner, sa, sb] at hl
      exact hl
    · have h := le_length_of_starts (L := c.ivs)
        (cuts_nodup (g := fun i => (i : Int)) (fun i j h => by omega) (m + n - 1)) ?_
      · simpa [Inner.size_eq] using h
      · intro x hx
        obtain ⟨i, hi, rfl⟩ := List.mem_map.mp hx
        rw [List.mem_range] at hi
        rw [hs]
        change Starts (sem (ofPairs (stairL m n)).ivs ∩ sem (ofPairs (stairR m n)).ivs) _
        refine ⟨⟨mem_ofPairs.mpr ?_, mem_ofPairs.mpr ?_⟩, ?_⟩
        · by_cases him : i < m - 1
          · exact ⟨_, List.mem_append_left _ (List.mem_map.mpr ⟨i, List.mem_range.mpr him, rfl⟩),
              mem_after.mpr (by dsimp only; omega)⟩
          · exact ⟨_, List.mem_append_right _ (List.mem_singleton.mpr rfl), mem_after.mpr (by dsimp only; omega)⟩
        · by_cases him : i < m
          · exact ⟨_, List.mem_cons_self, mem_after.mpr (by dsimp only; omega)⟩
          · exact ⟨_, List.mem_cons_of_mem _ (List.mem_map.mpr ⟨i - m, List.mem_range.mpr (by omega), rfl⟩),
              mem_after.mpr (by dsimp only; omega)⟩
        · rintro ⟨h1, h2⟩
          obtain ⟨p, hp, h1⟩ := mem_ofPairs.mp h1
          obtain ⟨q, hq, h2⟩ := mem_ofPairs.mp h2
          rw [mem_at] at h1 h2
          rcases List.mem_append.mp hp with hp | hp
          · obtain ⟨j, hj, rfl⟩ := List.mem_map.mp hp
            dsimp only at h1; omega
          · obtain rfl := List.mem_singleton.mp hp
            rcases List.mem_cons.mp hq with rfl | hq
            · dsimp only at h1 h2; omega
            · obtain ⟨j, hj, rfl⟩ := List.mem_map.mp hq
              dsimp only at h2; omega
  · have na := ofPairs_normal (canon_comb 0 n)
    have sa : (Inner.bs (ofPairs (comb 0 n))).size = n := by simp [Inner.size, ofPairs, comb]
    obtain ⟨c, hc, hs, hw, hk⟩ := Any.complement_comp (.inner (.bs (ofPairs (comb 0 n))))
    refine ⟨_, c, na, sa, hc, le_antisymm ?_ ?_⟩
    · obtain ⟨c', hc', hl⟩ := C68_complement (.inner (.bs (ofPairs (comb 0 n))))
      obtain rfl : c = c' := by rw [hc] at hc'; injection hc'
      rw [Any.toInner_inner, sa] at hl
      exact hl
    · have h := le_length_of_starts (L := c.ivs) (M := ⊥ :: (List.range n).map fun i : Nat => cut (2 * (i : Int) + 1) false)
        (List.nodup_cons.mpr ⟨?_, cuts_nodup (g := fun i => 2 * (i : Int) + 1) (fun i j h => by omega) n⟩) ?_
      · simpa [Inner.size_eq] using h
      · intro h
        obtain ⟨i, -, e⟩ := List.mem_map.mp h
        exact absurd e bot_lt_cut.ne'
      · intro x hx
        rw [hs]
        have mem : ∀ p ∈ (Any.inner (.bs (ofPairs (comb 0 n)))).toInner.ivs,
            ∃ j < n, p = (cut (2 * (j : Int)) false, cut (2 * (j : Int) + 1) false) := by
          intro p hp
          obtain ⟨r, hr, rfl⟩ := List.mem_map.mp hp
          obtain ⟨q, hq, rfl⟩ := List.mem_map.mp hr
          obtain ⟨j, hj, rfl⟩ := List.mem_map.mp hq
          refine ⟨j, List.mem_range.mp hj, ?_⟩
          rw [zero_add]; rfl
        rcases List.mem_cons.mp hx with rfl | hx
        · refine ⟨⟨mem_after.mpr ⟨le_rfl, bot_lt_top⟩, fun p hp => ?_⟩, fun h => ?_⟩
          · obtain ⟨j, -, rfl⟩ := mem p hp
            exact Or.inl (mem_after.mpr ⟨le_rfl, bot_lt_cut⟩)
          · exact lt_irrefl _ (mem_at.mp h.1).1
        · obtain ⟨i, hi, rfl⟩ := List.mem_map.mp hx
          rw [List.mem_range] at hi
          refine ⟨⟨mem_after.mpr ⟨bot_le, cut_lt_top⟩, fun p hp => ?_⟩, fun h => ?_⟩
          · obtain ⟨j, -, rfl⟩ := mem p hp
            by_cases hij : i < j
            · exact Or.inl (mem_after.mpr ⟨bot_le, cut_false_lt.mpr (by omega)⟩)
            · exact Or.inr (mem_after.mpr ⟨cut_false_le.mpr (by omega), cut_lt_top⟩)
          · have := h.2 (cut (2 * (i : Int)) false, cut (2 * (i : Int) + 1) false) (List.mem_map.mpr
              ⟨co (2 * i) (2 * i + 1), List.mem_map.mpr ⟨(2 * i, 2 * i + 1), List.mem_map.mpr
                ⟨i, List.mem_range.mpr hi, by rw [zero_add]⟩, rfl⟩, rfl⟩)
            rcases this with h | h
            · have := cut_false_lt.mp (mem_at.mp h).2; omega
            · exact lt_irrefl _ (mem_at.mp h).1

end Rangetools
