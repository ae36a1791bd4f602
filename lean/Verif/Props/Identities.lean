import Verif.Spec.Identities
import Verif.Props.Within

/-!
# C120: which identities between formulas hold
-/

namespace Rangetools
open Iv

variable {T : Type} [LinearOrder T]

namespace Germ

theorem middle_of (l m r : Bool) : (of l m r).middle = m := by cases l <;> cases m <;> cases r <;> rfl

theorem left_union (a b : Germ) : (a.union b).left = (a.left || b.left) := by cases a <;> cases b <;> rfl
theorem right_union (a b : Germ) : (a.union b).right = (a.right || b.right) := by cases a <;> cases b <;> rfl
theorem middle_union (a b : Germ) : (a.union b).middle = (a.middle || b.middle) := middle_of _ _ _
theorem left_inter (a b : Germ) : (a.inter b).left = (a.left && b.left) := by cases a <;> cases b <;> rfl
theorem right_inter (a b : Germ) : (a.inter b).right = (a.right && b.right) := by cases a <;> cases b <;> rfl
theorem middle_inter (a b : Germ) : (a.inter b).middle = (a.middle && b.middle) := middle_of _ _ _
theorem left_complement (a : Germ) : a.complement.left = !a.left := by cases a <;> rfl
theorem right_complement (a : Germ) : a.complement.right = !a.right := by cases a <;> rfl
theorem middle_complement (a : Germ) : a.complement.middle = (!a.left && !a.right) := middle_of _ _ _

theorem ext' {a b : Germ} (h1 : a.left = b.left) (h2 : a.middle = b.middle) (h3 : a.right = b.right) : a = b := by
  revert h1 h2 h3; cases a <;> cases b <;> decide

theorem exists_of {l m r : Prop} (h1 : m → l) (h2 : m → r) :
    ∃ g : Germ, (l ↔ g.left = true) ∧ (m ↔ g.middle = true) ∧ (r ↔ g.right = true) := by
  by_cases hm : m
  · exact ⟨.everything, by simp [left, h1 hm], by simp [middle, hm], by simp [right, h2 hm]⟩
  · by_cases hl : l <;> by_cases hr : r
    · exact ⟨.sides, by simp [left, hl], by simp [middle, hm], by simp [right, hr]⟩
    · exact ⟨.before, by simp [left, hl], by simp [middle, hm], by simp [right, hr]⟩
    · exact ⟨.after, by simp [left, hl], by simp [middle, hm], by simp [right, hr]⟩
    · exact ⟨.nothing, by simp [left, hl], by simp [middle, hm], by simp [right, hr]⟩

end Germ

open Formula

/-! ### Trying all choices -/

theorem Formula.mem_choices {α : Type} {l : List α} {n : Nat} {xs : List α} :
    xs ∈ choices l n ↔ xs.length = n ∧ ∀ x ∈ xs, x ∈ l := by
  induction n generalizing xs with
  | zero =>
    simp only [choices, List.mem_singleton]
    constructor
    · rintro rfl; simp
    · exact fun h => List.length_eq_zero_iff.mp h.1
  | succ n ih =>
    simp only [choices, List.mem_flatMap, List.mem_map, ih]
    constructor
    · rintro ⟨ys, ⟨h1, h2⟩, y, hy, rfl⟩
      exact ⟨by simp [h1], by simpa [hy] using h2⟩
    · rintro ⟨h1, h2⟩
      cases xs with
      | nil => cases h1
      | cons y ys =>
        exact ⟨ys, ⟨by simpa using h1, fun x hx => h2 x (by simp [hx])⟩, y, h2 y (by simp), rfl⟩

theorem Formula.germ_congr {v w : Nat → Germ} (e : Formula) (h : ∀ n < e.vars, v n = w n) : e.germ v = e.germ w := by
  induction e with
  | var n => exact h n (Nat.lt_succ_self n)
  | union e f ihe ihf | inter e f ihe ihf =>
    simp only [germ]
    rw [ihe fun n hn => h n (hn.trans_le (Nat.le_max_left _ _)), ihf fun n hn => h n (hn.trans_le (Nat.le_max_right _ _))]
  | complement e ih => simp only [germ]; rw [ih h]

theorem Formula.truth_congr {v w : Nat → Bool} (e : Formula) (h : ∀ n < e.vars, v n = w n) : e.truth v = e.truth w := by
  induction e with
  | var n => exact h n (Nat.lt_succ_self n)
  | union e f ihe ihf | inter e f ihe ihf =>
    simp only [truth]
    rw [ihe fun n hn => h n (hn.trans_le (Nat.le_max_left _ _)), ihf fun n hn => h n (hn.trans_le (Nat.le_max_right _ _))]
  | complement e ih => simp only [truth]; rw [ih h]

theorem Formula.getD_range {α : Type} (v : Nat → α) (d : α) {k n : Nat} (h : n < k) :
    ((List.range k).map v).getD n d = v n := by
  simp [List.getD, h]

/-- C120. Trying finitely many choices is enough: the five values. -/
theorem C120_sameValues (e f : Formula) : e.sameValues f = true ↔ ∀ v, e.germ v = f.germ v := by
  simp only [sameValues, List.all_eq_true, beq_iff_eq, mem_choices]
  constructor
  · intro h v
    have := h ((List.range (max e.vars f.vars)).map v) ⟨by simp, fun x _ => by cases x <;> decide⟩
    rw [e.germ_congr (w := v) fun n hn => getD_range v _ (hn.trans_le (Nat.le_max_left _ _)),
      f.germ_congr (w := v) fun n hn => getD_range v _ (hn.trans_le (Nat.le_max_right _ _))] at this
    exact this
  · exact fun h xs _ => h _

/-- C120. Trying finitely many choices is enough: truth values. -/
theorem C120_sameMembers (e f : Formula) : e.sameMembers f = true ↔ ∀ v, e.truth v = f.truth v := by
  simp only [sameMembers, List.all_eq_true, beq_iff_eq, mem_choices]
  constructor
  · intro h v
    have := h ((List.range (max e.vars f.vars)).map v) ⟨by simp, fun x _ => by cases x <;> decide⟩
    rw [e.truth_congr (w := v) fun n hn => getD_range v _ (hn.trans_le (Nat.le_max_left _ _)),
      f.truth_congr (w := v) fun n hn => getD_range v _ (hn.trans_le (Nat.le_max_right _ _))] at this
    exact this
  · exact fun h xs _ => h _

theorem Formula.right_germ (v : Nat → Germ) (e : Formula) : (e.germ v).right = e.truth fun n => (v n).right := by
  induction e with
  | var n => rfl
  | union e f ihe ihf => rw [germ, Germ.right_union, ihe, ihf, truth]
  | inter e f ihe ihf => rw [germ, Germ.right_inter, ihe, ihf, truth]
  | complement e ih => rw [germ, Germ.right_complement, ih, truth]

/-- C120. What holds of the five values holds of truth values. -/
theorem C120_values_members (e f : Formula) (h : e.sameValues f = true) : e.sameMembers f = true := by
  rw [C120_sameMembers]
  intro v
  have := congrArg Germ.right ((C120_sameValues e f).mp h fun n => if v n then .everything else .nothing)
  rw [right_germ, right_germ] at this
  have hv : (fun n => (if v n then Germ.everything else .nothing).right) = v := by
    funext n; cases v n <;> rfl
  rwa [hv] at this

/-! ### Formulas of probe sets -/

/-- The formula with sets of probes for the variables. -/
def Formula.sets (S : Nat → Set (ECut T × Side)) : Formula → Set (ECut T × Side)
  | var n => S n
  | union e f => e.sets S ∪ f.sets S
  | inter e f => e.sets S ∩ f.sets S
  | complement e => csemOf (e.sets S)

theorem Formula.sets_full {S : Nat → Set (ECut T × Side)} (h : ∀ n, S n ⊆ sem1 ((⊥, ⊤) : ECut T × ECut T)) (e : Formula) :
    e.sets S ⊆ sem1 ((⊥, ⊤) : ECut T × ECut T) := by
  induction e with
  | var n => exact h n
  | union e f ihe ihf => exact Set.union_subset ihe ihf
  | inter e f ihe _ => exact Set.inter_subset_left.trans ihe
  | complement e _ => exact fun q hq => hq.1

theorem Formula.sets_after {S : Nat → Set (ECut T × Side)} {x : ECut T} (hx : x < ⊤) {v : Nat → Bool}
    (h : ∀ n, (x, Side.after) ∈ S n ↔ v n = true) (e : Formula) : (x, Side.after) ∈ e.sets S ↔ e.truth v = true := by
  induction e with
  | var n => exact h n
  | union e f ihe ihf => rw [sets, Set.mem_union, ihe, ihf, truth, Bool.or_eq_true]
  | inter e f ihe ihf => rw [sets, Set.mem_inter_iff, ihe, ihf, truth, Bool.and_eq_true]
  | complement e ih =>
    rw [sets, truth]
    have : (x, Side.after) ∈ csemOf (e.sets S) ↔ (x, Side.after) ∉ e.sets S :=
      ⟨fun h => h.2, fun h => ⟨⟨bot_le, hx⟩, h⟩⟩
    rw [this, ih]
    cases e.truth v <;> simp

theorem Formula.sets_before {S : Nat → Set (ECut T × Side)} {x : ECut T} (hx : ⊥ < x) {v : Nat → Bool}
    (h : ∀ n, (x, Side.before) ∈ S n ↔ v n = true) (e : Formula) :
    (x, Side.before) ∈ e.sets S ↔ e.truth v = true := by
  induction e with
  | var n => exact h n
  | union e f ihe ihf => rw [sets, Set.mem_union, ihe, ihf, truth, Bool.or_eq_true]
  | inter e f ihe ihf => rw [sets, Set.mem_inter_iff, ihe, ihf, truth, Bool.and_eq_true]
  | complement e ih =>
    rw [sets, truth]
    have : (x, Side.before) ∈ csemOf (e.sets S) ↔ (x, Side.before) ∉ e.sets S :=
      ⟨fun h => h.2, fun h => ⟨⟨hx, le_top⟩, h⟩⟩
    rw [this, ih]
    cases e.truth v <;> simp

/-- The probes around an inner cut and one of the five values agree. -/
def Formula.Agree (S : Set (ECut T × Side)) (x : ECut T) (g : Germ) : Prop :=
  ((x, Side.before) ∈ S ↔ g.left = true) ∧ ((x, Side.at) ∈ S ↔ g.middle = true) ∧
    ((x, Side.after) ∈ S ↔ g.right = true)

theorem Formula.sets_agree {S : Nat → Set (ECut T × Side)} {x : ECut T} (h0 : ⊥ < x) (h1 : x < ⊤) {v : Nat → Germ}
    (h : ∀ n, Agree (S n) x (v n)) (e : Formula) : Agree (e.sets S) x (e.germ v) := by
  induction e with
  | var n => exact h n
  | union e f ihe ihf =>
    refine ⟨?_, ?_, ?_⟩
    · rw [sets, Set.mem_union, ihe.1, ihf.1, germ, Germ.left_union, Bool.or_eq_true]
    · rw [sets, Set.mem_union, ihe.2.1, ihf.2.1, germ, Germ.middle_union, Bool.or_eq_true]
    · rw [sets, Set.mem_union, ihe.2.2, ihf.2.2, germ, Germ.right_union, Bool.or_eq_true]
  | inter e f ihe ihf =>
    refine ⟨?_, ?_, ?_⟩
    · rw [sets, Set.mem_inter_iff, ihe.1, ihf.1, germ, Germ.left_inter, Bool.and_eq_true]
    · rw [sets, Set.mem_inter_iff, ihe.2.1, ihf.2.1, germ, Germ.middle_inter, Bool.and_eq_true]
    · rw [sets, Set.mem_inter_iff, ihe.2.2, ihf.2.2, germ, Germ.right_inter, Bool.and_eq_true]
  | complement e ih =>
    refine ⟨?_, ?_, ?_⟩
    · have : (x, Side.before) ∈ csemOf (e.sets S) ↔ (x, Side.before) ∉ e.sets S :=
        ⟨fun h => h.2, fun h => ⟨⟨h0, le_top⟩, h⟩⟩
      rw [sets, this, ih.1, germ, Germ.left_complement]
      cases (e.germ v).left <;> simp
    · have : (x, Side.at) ∈ csemOf (e.sets S) ↔ (x, Side.after) ∉ e.sets S ∧ (x, Side.before) ∉ e.sets S :=
        ⟨fun h => h.2, fun h => ⟨⟨h0, h1⟩, h⟩⟩
      rw [sets, this, ih.1, ih.2.2, germ, Germ.middle_complement]
      cases (e.germ v).left <;> cases (e.germ v).right <;> simp
    · have : (x, Side.after) ∈ csemOf (e.sets S) ↔ (x, Side.after) ∉ e.sets S :=
        ⟨fun h => h.2, fun h => ⟨⟨bot_le, h1⟩, h⟩⟩
      rw [sets, this, ih.2.2, germ, Germ.right_complement]
      cases (e.germ v).right <;> simp

/-- Formulas that agree on the five values agree on sets of probes that are open. -/
theorem Formula.sets_congr {S : Nat → Set (ECut T × Side)} (hf : ∀ n, S n ⊆ sem1 ((⊥, ⊤) : ECut T × ECut T))
    (ho : ∀ n x, (x, Side.at) ∈ S n → (x, Side.before) ∈ S n ∧ (x, Side.after) ∈ S n) {e f : Formula}
    (h : ∀ v, e.germ v = f.germ v) : e.sets S = f.sets S := by
  classical
  have ht := (C120_sameMembers e f).mp (C120_values_members e f ((C120_sameValues e f).mpr h))
  ext ⟨x, s⟩
  by_cases hx : ((x, s) : ECut T × Side) ∈ sem1 ((⊥, ⊤) : ECut T × ECut T)
  · cases s with
    | before =>
      have hv : ∀ n, (x, Side.before) ∈ S n ↔ decide ((x, Side.before) ∈ S n) = true := fun n => by simp
      rw [sets_before hx.1 hv, sets_before hx.1 hv, ht]
    | after =>
      have hv : ∀ n, (x, Side.after) ∈ S n ↔ decide ((x, Side.after) ∈ S n) = true := fun n => by simp
      rw [sets_after hx.2 hv, sets_after hx.2 hv, ht]
    | «at» =>
      have hv : ∀ n, ∃ g, Agree (S n) x g := fun n =>
        Germ.exists_of (fun h => (ho n x h).1) fun h => (ho n x h).2
      choose v hv using hv
      rw [(sets_agree hx.1 hx.2 hv e).2.1, (sets_agree hx.1 hx.2 hv f).2.1, h]
  · exact ⟨fun h' => absurd (sets_full hf e h') hx, fun h' => absurd (sets_full hf f h') hx⟩

/-! ### Formulas of values -/

theorem Inner.sem_full (a : Inner T) : sem a.ivs ⊆ sem1 ((⊥, ⊤) : ECut T × ECut T) := by
  rintro ⟨x, s⟩ ⟨p, _, h⟩
  cases s
  · exact ⟨bot_le.trans_lt h.1, h.2.trans le_top⟩
  · exact ⟨bot_le.trans_lt h.1, h.2.trans_le le_top⟩
  · exact ⟨bot_le, h.2.trans_le le_top⟩

theorem Formula.sem_open {l : List (ECut T × ECut T)} {x : ECut T} (h : (x, Side.at) ∈ sem l) :
    (x, Side.before) ∈ sem l ∧ (x, Side.after) ∈ sem l := by
  obtain ⟨p, hp, h1, h2⟩ := h
  exact ⟨⟨p, hp, h1, h2.le⟩, ⟨p, hp, h1.le, h2⟩⟩

theorem Formula.below_probe {a : Inner T} (ha : a.IsSet) : (⊥, Side.after) ∈ sem a.ivs ↔ ¬ a.BoundedBelow := by
  rw [stretches_below ha, ivs_eq_stretches ha]
  push Not
  constructor
  · rintro ⟨p, hp, h1, -⟩
    obtain ⟨⟨q1, q2⟩, hq, rfl⟩ := List.mem_map.mp hp
    refine ⟨_, hq, ?_⟩
    cases q1 with
    | none => rfl
    | some l => exact absurd h1 (bot_lt_lo l).not_ge
  · rintro ⟨⟨q1, q2⟩, hq, rfl⟩
    refine ⟨_, List.mem_map.mpr ⟨_, hq, rfl⟩, le_rfl, ?_⟩
    cases q2 with
    | none => exact bot_lt_top
    | some u => exact bot_lt_hi u

theorem Formula.above_probe {a : Inner T} (ha : a.IsSet) : (⊤, Side.before) ∈ sem a.ivs ↔ ¬ a.BoundedAbove := by
  rw [stretches_above ha, ivs_eq_stretches ha]
  push Not
  constructor
  · rintro ⟨p, hp, -, h1⟩
    obtain ⟨⟨q1, q2⟩, hq, rfl⟩ := List.mem_map.mp hp
    refine ⟨_, hq, ?_⟩
    cases q2 with
    | none => rfl
    | some l => exact absurd h1 (hi_lt_top l).not_ge
  · rintro ⟨⟨q1, q2⟩, hq, rfl⟩
    refine ⟨_, List.mem_map.mpr ⟨_, hq, rfl⟩, ?_, le_rfl⟩
    cases q1 with
    | none => exact bot_lt_top
    | some u => exact lo_lt_top u

theorem Formula.goesDown_probe {a : Inner T} (ha : a.IsSet) : (⊥, Side.after) ∈ sem a.ivs ↔ a.goesDown = true := by
  rw [below_probe ha]
  cases a <;> first | exact ha.elim | simp [Inner.BoundedBelow, Inner.goesDown]

theorem Formula.goesUp_probe {a : Inner T} (ha : a.IsSet) : (⊤, Side.before) ∈ sem a.ivs ↔ a.goesUp = true := by
  rw [above_probe ha]
  cases a <;> first | exact ha.elim | simp [Inner.BoundedAbove, Inner.goesUp]

/-- The value of a formula of sets. -/
theorem Formula.eval_sets (σ : Nat → Inner T) (hs : ∀ n, (σ n).IsSet) (hn : ∀ n, (σ n).WF) (e : Formula)
    (hi : e.Safe (fun n => (σ n).goesDown) fun n => (σ n).goesUp) :
    ∃ i, (e.expr fun n => .inner (σ n)).eval = .ok (.inner i) ∧ i.IsSet ∧ i.WF ∧
      sem i.ivs = e.sets fun n => sem (σ n).ivs := by
  induction e with
  | var n => exact ⟨σ n, rfl, hs n, hn n, rfl⟩
  | union e f ihe ihf =>
    obtain ⟨i, h1, h2, h3, h5⟩ := ihe hi.1
    obtain ⟨j, g1, g2, g3, g5⟩ := ihf hi.2
    obtain ⟨c, hc, sc, wc, kc, ic⟩ := Any.union_sets h2 g2 h3 g3
    exact ⟨c, by simp only [expr, Expr.eval, h1, g1, Res.ok_bind, hc], ic, wc, by rw [sc, h5, g5, sets]⟩
  | inter e f ihe ihf =>
    obtain ⟨i, h1, h2, h3, h5⟩ := ihe hi.1
    obtain ⟨j, g1, g2, g3, g5⟩ := ihf hi.2.1
    have e1 := goesDown_probe h2
    have e2 := goesUp_probe h2
    have f1 := goesDown_probe g2
    have f2 := goesUp_probe g2
    rw [h5, sets_after bot_lt_top (fun n => goesDown_probe (hs n))] at e1
    rw [h5, sets_before bot_lt_top (fun n => goesUp_probe (hs n))] at e2
    rw [g5, sets_after bot_lt_top (fun n => goesDown_probe (hs n))] at f1
    rw [g5, sets_before bot_lt_top (fun n => goesUp_probe (hs n))] at f2
    rw [← Bool.eq_iff_iff] at e1 e2 f1 f2
    have hi := hi.2.2
    rw [e1, e2, f1, f2] at hi
    obtain ⟨c, hc, sc, wc, kc⟩ := Any.inter_comp (.inner i) (.inner j)
    simp only [Any.toInner_inner] at sc wc kc
    have hb : ¬ BothLBS i j := by
      rintro ⟨hb, hb'⟩
      cases i <;> try cases hb
      cases j <;> try cases hb'
      exact hi ⟨rfl, rfl, rfl, rfl⟩
    rw [interSem_eq hb] at sc
    refine ⟨c, by simp only [expr, Expr.eval, h1, g1, Res.ok_bind, hc]; rfl, ?_, wc ⟨h3, g3⟩, by rw [sc, h5, g5, sets]⟩
    cases i <;> first | exact h2.elim | skip
    all_goals cases j <;> first | exact g2.elim | skip
    all_goals cases c <;> trivial
  | complement e ih =>
    obtain ⟨i, h1, h2, h3, h5⟩ := ih hi
    obtain ⟨c, hc, sc, wc, kc, ic⟩ := Any.complement_set h2 h3
    exact ⟨c, by simp only [expr, Expr.eval, h1, Res.ok_bind, hc]; rfl, ic, wc, by rw [sc, h5, sets]⟩

/-- A set is known by its probes, type included. -/
theorem Formula.eq_of_probes {a b : Inner T} (ha : a.IsSet) (hb : b.IsSet) (na : a.WF) (nb : b.WF)
    (h : sem a.ivs = sem b.ivs) : a = b := by
  have h1 := below_probe ha
  have h2 := above_probe ha
  rw [h, below_probe hb] at h1
  rw [h, above_probe hb] at h2
  refine Inner.eq_of_sem ?_ (Inner.isSet_iff.mp ha) na nb h
  clear h na nb
  cases a <;> first | exact ha.elim | skip
  all_goals cases b <;> first | exact hb.elim | rfl | skip
  all_goals simp [Inner.BoundedBelow, Inner.BoundedAbove] at h1 h2

/-! ### Values -/

/-- C120. Formulas that agree on the five values have equal values, of the same type, for all normal sets of types with
which no intersection is of two `LowerBoundedSet`s. -/
theorem C120_values (e f : Formula) (h : e.sameValues f = true) (σ : Nat → Inner T) (hs : ∀ n, (σ n).IsSet)
    (hn : ∀ n, (σ n).Normal) (he : e.Safe (fun n => (σ n).goesDown) fun n => (σ n).goesUp)
    (hf : f.Safe (fun n => (σ n).goesDown) fun n => (σ n).goesUp) :
    ∃ i, (e.expr fun n => .inner (σ n)).eval = .ok (.inner i) ∧
      (f.expr fun n => .inner (σ n)).eval = .ok (.inner i) := by
  have hn' := fun n => (Inner.normal_iff _).mp (hn n)
  obtain ⟨i, h1, h2, h3, h5⟩ := eval_sets σ hs hn' e he
  obtain ⟨j, g1, g2, g3, g5⟩ := eval_sets σ hs hn' f hf
  refine ⟨i, h1, ?_⟩
  rw [g1]
  congr 2
  refine eq_of_probes g2 h2 g3 h3 ?_
  rw [h5, g5]
  exact (sets_congr (fun n => Inner.sem_full _) (fun n x hx => sem_open hx) ((C120_sameValues e f).mp h)).symm

/-- A `BoundedSet` for each of the five values at the cut before 0. -/
def Germ.sample : Germ → BoundedSet Int
  | .nothing => ⟨[]⟩
  | .before => ⟨[Samples.co (-1) 0]⟩
  | .after => ⟨[Samples.co 0 1]⟩
  | .sides => ⟨[Samples.co (-1) 0, Samples.co 0 1]⟩
  | .everything => ⟨[Samples.co (-1) 1]⟩

/-- The same with half-lines. -/
def Germ.sampleOf (g : Germ) : Bool → Bool → Inner Int
  | false, false => .bs g.sample
  | false, true => .lbs ⟨g.sample, Samples.ci 10⟩
  | true, false => .ubs ⟨Samples.io (-10), g.sample⟩
  | true, true => .us (.piecewise ⟨Samples.io (-10), g.sample, Samples.ci 10⟩)

theorem Germ.sampleOf_set (g : Germ) (d u : Bool) : (g.sampleOf d u).IsSet ∧ (g.sampleOf d u).Normal ∧
    (g.sampleOf d u).goesDown = d ∧ (g.sampleOf d u).goesUp = u := by
  refine ⟨by cases d <;> cases u <;> trivial, ?_, by cases d <;> cases u <;> rfl, by cases d <;> cases u <;> rfl⟩
  cases d <;> cases u <;> cases g <;> decide

theorem Germ.sampleOf_agree (g : Germ) (d u : Bool) : Formula.Agree (sem (g.sampleOf d u).ivs) (cut 0 false) g := by
  cases d <;> cases u <;> cases g <;>
    simp [Formula.Agree, Germ.sampleOf, Germ.sample, Inner.ivs, BoundedSet.ivs, LowerBoundedSet.ivs, UpperBoundedSet.ivs,
      UnboundedSet.ivs, PiecewiseUnboundedSet.ivs, BoundedRange.iv, LowerBoundedRange.iv,
      UpperBoundedRange.iv, Samples.co, Samples.ci, Samples.io, lo, hi, LowerBound.included, UpperBound.excluded, mem_before, mem_after, mem_at, cut_lt, cut_le, Germ.left,
      Germ.right, Germ.middle]

/-- C120. Formulas that differ on the five values differ for some normal sets of integers, of any types for which no
intersection is of two `LowerBoundedSet`s. -/
theorem C120_values_complete (e f : Formula) (h : e.sameValues f = false) (down up : Nat → Bool)
    (he : e.Safe down up) (hf : f.Safe down up) :
    ∃ σ : Nat → Inner Int, (∀ n, (σ n).IsSet ∧ (σ n).Normal ∧ (σ n).goesDown = down n ∧ (σ n).goesUp = up n) ∧
      (e.expr fun n => .inner (σ n)).eval ≠ (f.expr fun n => .inner (σ n)).eval := by
  have h : ¬ ∀ v, e.germ v = f.germ v := by rw [← C120_sameValues, h]; decide
  obtain ⟨v, hv⟩ := not_forall.mp h
  have hσ := fun n => (v n).sampleOf_set (down n) (up n)
  refine ⟨fun n => (v n).sampleOf (down n) (up n), hσ, fun heq => hv ?_⟩
  have hn' := fun n => (Inner.normal_iff _).mp (hσ n).2.1
  have hd : (fun n => ((v n).sampleOf (down n) (up n)).goesDown) = down := funext fun n => (hσ n).2.2.1
  have hu : (fun n => ((v n).sampleOf (down n) (up n)).goesUp) = up := funext fun n => (hσ n).2.2.2
  obtain ⟨i, h1, -, -, h5⟩ := eval_sets _ (fun n => (hσ n).1) hn' e (by rw [hd, hu]; exact he)
  obtain ⟨j, g1, -, -, g5⟩ := eval_sets _ (fun n => (hσ n).1) hn' f (by rw [hd, hu]; exact hf)
  rw [h1, g1] at heq
  injection heq with heq
  injection heq with heq
  subst heq
  have a1 := sets_agree bot_lt_cut cut_lt_top (fun n => (v n).sampleOf_agree (down n) (up n)) e
  have a2 := sets_agree bot_lt_cut cut_lt_top (fun n => (v n).sampleOf_agree (down n) (up n)) f
  rw [← h5] at a1
  rw [← g5] at a2
  refine Germ.ext' ?_ ?_ ?_
  · rw [Bool.eq_iff_iff, ← a1.1, ← a2.1]
  · rw [Bool.eq_iff_iff, ← a1.2.1, ← a2.2.1]
  · rw [Bool.eq_iff_iff, ← a1.2.2, ← a2.2.2]

/-! ### Members -/

/-- C120. Formulas that are equivalent in propositional logic have values with the same members, under the same
conditions. -/
theorem C120_members (e f : Formula) (h : e.sameMembers f = true) (σ : Nat → Inner T) (hs : ∀ n, (σ n).IsSet)
    (hn : ∀ n, (σ n).Normal) (he : e.Safe (fun n => (σ n).goesDown) fun n => (σ n).goesUp)
    (hf : f.Safe (fun n => (σ n).goesDown) fun n => (σ n).goesUp) :
    ∃ i j, (e.expr fun n => .inner (σ n)).eval = .ok (.inner i) ∧
      (f.expr fun n => .inner (σ n)).eval = .ok (.inner j) ∧ ∀ t, i.contains t = j.contains t := by
  have hn' := fun n => (Inner.normal_iff _).mp (hn n)
  obtain ⟨i, h1, -, -, h5⟩ := eval_sets σ hs hn' e he
  obtain ⟨j, g1, -, -, g5⟩ := eval_sets σ hs hn' f hf
  refine ⟨i, j, h1, g1, fun t => ?_⟩
  have hv : ∀ n, (cut t false, Side.after) ∈ sem (σ n).ivs ↔ (σ n).contains t = true :=
    fun n => (Inner.contains_probe _ _).symm
  rw [Bool.eq_iff_iff, Inner.contains_probe, Inner.contains_probe, h5, g5, sets_after cut_lt_top hv,
    sets_after cut_lt_top hv, (C120_sameMembers e f).mp h]

/-- C120. Formulas that are not equivalent in propositional logic have different members for some normal sets of
integers, of any types for which no intersection is of two `LowerBoundedSet`s. -/
theorem C120_members_complete (e f : Formula) (h : e.sameMembers f = false) (down up : Nat → Bool)
    (he : e.Safe down up) (hf : f.Safe down up) :
    ∃ (σ : Nat → Inner Int) (i j : Inner Int),
      (∀ n, (σ n).IsSet ∧ (σ n).Normal ∧ (σ n).goesDown = down n ∧ (σ n).goesUp = up n) ∧
      (e.expr fun n => .inner (σ n)).eval = .ok (.inner i) ∧
      (f.expr fun n => .inner (σ n)).eval = .ok (.inner j) ∧ i.contains 0 ≠ j.contains 0 := by
  have h : ¬ ∀ v, e.truth v = f.truth v := by rw [← C120_sameMembers, h]; decide
  obtain ⟨v, hv⟩ := not_forall.mp h
  let g : Nat → Germ := fun n => if v n then .everything else .nothing
  have hσ := fun n => (g n).sampleOf_set (down n) (up n)
  have hn' := fun n => (Inner.normal_iff _).mp (hσ n).2.1
  have hd : (fun n => ((g n).sampleOf (down n) (up n)).goesDown) = down := funext fun n => (hσ n).2.2.1
  have hu : (fun n => ((g n).sampleOf (down n) (up n)).goesUp) = up := funext fun n => (hσ n).2.2.2
  obtain ⟨i, h1, -, -, h5⟩ := eval_sets _ (fun n => (hσ n).1) hn' e (by rw [hd, hu]; exact he)
  obtain ⟨j, g1, -, -, g5⟩ := eval_sets _ (fun n => (hσ n).1) hn' f (by rw [hd, hu]; exact hf)
  refine ⟨fun n => (g n).sampleOf (down n) (up n), i, j, hσ, h1, g1, fun heq => hv ?_⟩
  have hg : ∀ n, (cut 0 false, Side.after) ∈ sem ((g n).sampleOf (down n) (up n)).ivs ↔ v n = true := by
    intro n
    rw [((g n).sampleOf_agree (down n) (up n)).2.2]
    simp only [g]
    cases v n <;> decide
  rw [Bool.eq_iff_iff, Inner.contains_probe, Inner.contains_probe, h5, g5, sets_after cut_lt_top hg,
    sets_after cut_lt_top hg] at heq
  rwa [Bool.eq_iff_iff]

/-- C120. The condition on the types holds for `BoundedSet`s and `UnboundedSet`s, and for formulas without an
intersection. -/
theorem C120_safe (e : Formula) (down up : Nat → Bool) (h : e.NoInter ∨ down = up) : e.Safe down up := by
  induction e with
  | var n => trivial
  | union e f ihe ihf => exact ⟨ihe (h.imp And.left id), ihf (h.imp And.right id)⟩
  | inter e f ihe ihf =>
    have h := h.resolve_left id
    refine ⟨ihe (.inr h), ihf (.inr h), fun h' => ?_⟩
    rw [h, h'.2.1] at h'
    exact Bool.noConfusion h'.1
  | complement e ih => exact ih h

/-- C120. The condition on the types is needed: two `LowerBoundedSet`s for which `a ∩ b` and `b ∩ a` have different
members, though the formulas pass both tests. -/
theorem C120_counterexample :
    (inter (var 0) (var 1)).sameValues (inter (var 1) (var 0)) = true ∧
      (inter (var 0) (var 1)).sameMembers (inter (var 1) (var 0)) = true ∧
      ∃ (σ : Nat → Inner Int) (i j : Inner Int), (∀ n, (σ n).IsSet) ∧ (∀ n, (σ n).Normal) ∧
        ((inter (var 0) (var 1)).expr fun n => .inner (σ n)).eval = .ok (.inner i) ∧
        ((inter (var 1) (var 0)).expr fun n => .inner (σ n)).eval = .ok (.inner j) ∧ i.contains 1 ≠ j.contains 1 := by
  refine ⟨by decide, by decide, fun n => if n = 0 then Samples.lbs else Samples.lbs', .lbs ⟨⟨[]⟩, Samples.ci 10⟩, Samples.lbs',
    fun n => ?_, fun n => ?_, by decide +kernel, by decide +kernel, by decide⟩
  · by_cases h : n = 0 <;> simp only [h, if_true, if_false] <;> trivial
  · by_cases h : n = 0 <;> simp only [h, if_true, if_false] <;> decide

/-! ### Some laws -/

section Samples

private def a : Formula := .var 0
private def b : Formula := .var 1
private def c : Formula := .var 2

-- laws of values: distributivity, absorption, one of De Morgan's, triple complement, and the law of Lee
example : (inter a (union b c)).sameValues (union (inter a b) (inter a c)) = true := by decide
example : (union a (inter b c)).sameValues (inter (union a b) (union a c)) = true := by decide
example : (union a (inter a b)).sameValues a = true := by decide
example : (complement (union a b)).sameValues (inter (complement a) (complement b)) = true := by decide
example : (complement (complement (complement a))).sameValues (complement a) = true := by decide
example : (union (complement (inter a b)) (union (complement (inter (complement a) b))
    (complement (inter a (complement b))))).sameValues (complement (inter a (complement a))) = true := by decide

-- laws of members only: the other of De Morgan's, double complement, excluded middle
example : (complement (inter a b)).sameValues (union (complement a) (complement b)) = false ∧
    (complement (inter a b)).sameMembers (union (complement a) (complement b)) = true := by decide
example : (complement (complement a)).sameValues a = false ∧
    (complement (complement a)).sameMembers a = true := by decide
example : (union a (complement a)).sameValues (complement (inter a (complement a))) = false ∧
    (union a (complement a)).sameMembers (complement (inter a (complement a))) = true := by decide

-- a condition that holds although there are intersections and `LowerBoundedSet`s: `a ∩ ¬b` and `¬(¬a ∪ b)`
example : (inter a (complement b)).sameValues (complement (union (complement a) b)) = false ∧
    (inter a (complement b)).sameMembers (complement (union (complement a) b)) = true ∧
    (inter a (complement b)).Safe (fun _ => false) (fun _ => true) ∧
    (complement (union (complement a) b)).Safe (fun _ => false) fun _ => true :=
  ⟨by decide, by decide, ⟨trivial, trivial, by decide⟩, trivial, trivial⟩

example : Samples.lbs.IsSet ∧ Samples.lbs.Normal ∧ Samples.lbs.goesDown = false ∧ Samples.lbs.goesUp = true := by
  refine ⟨?_, ?_, ?_, ?_⟩ <;> trivial

end Samples

end Rangetools
