import Verif.Proofs.ScanLine

/-!
# C122: which identities between formulas hold, `LowerBoundedSet`s included
-/

namespace Rangetools
open Iv

variable {T : Type} [LinearOrder T]

open Formula

/-! ### The value of a formula -/

omit [LinearOrder T] in
theorem Inner.shape_set {i : Inner T} (h : i.IsSet) : i.shape = some ⟨true, !i.goesDown, !i.goesUp⟩ := by
  cases i <;> first | exact h.elim | rfl

omit [LinearOrder T] in
theorem Inner.shape_goes {i : Inner T} (h : i.IsSet) {d u : Bool} (hs : i.shape = some ⟨true, !d, !u⟩) :
    i.goesDown = d ∧ i.goesUp = u := by
  rw [Inner.shape_set h] at hs
  simpa using hs

theorem Inner.outside_set {i : Inner T} (h : i.IsSet) : i.outside = exterior i.inside := by
  cases i <;> first | exact h.elim | rfl

/-- The value of a formula of normal sets: a normal set, of the type and covering the spots the formula says. -/
theorem Formula.eval_spots (σ : Nat → Inner T) (hs : ∀ n, (σ n).IsSet) (hn : ∀ n, (σ n).WF) (e : Formula) :
    ∃ i, (e.expr fun n => .inner (σ n)).eval = .ok (.inner i) ∧ i.IsSet ∧ i.WF ∧
      i.goesDown = e.truth (fun n => (σ n).goesDown) ∧ i.goesUp = e.truth (fun n => (σ n).goesUp) ∧
      i.inside = e.spots (fun n => (σ n).goesDown) (fun n => (σ n).goesUp) fun n => (σ n).inside := by
  induction e with
  | var n => exact ⟨σ n, rfl, hs n, hn n, rfl, rfl, rfl⟩
  | union e f ihe ihf =>
    obtain ⟨i, h1, h2, h3, h4, h5, h6⟩ := ihe
    obtain ⟨j, g1, g2, g3, g4, g5, g6⟩ := ihf
    obtain ⟨c, hc, -, wc, -, ic⟩ := Any.union_sets h2 g2 h3 g3
    have hr : c.region = i.region.union j.region := Any.union_region (a := .inner i) (b := .inner j) h3 g3 hc
    have hr' : i.region.union j.region =
        .ofSet (some ⟨true, !(i.goesDown || j.goesDown), !(i.goesUp || j.goesUp)⟩) (i.inside ∪ j.inside) := by
      simp only [Region.union, Inner.region, Inner.shape_set h2, Inner.shape_set g2]
      simp
    rw [hr'] at hr
    obtain ⟨k1, k2⟩ := Inner.shape_goes ic (congrArg Region.shape hr)
    refine ⟨c, by simp only [expr, Expr.eval, h1, g1, Res.ok_bind, hc], ic, wc, by rw [k1, h4, g4, truth],
      by rw [k2, h5, g5, truth], ?_⟩
    have := congrArg Region.inside hr
    rw [spots, ← h6, ← g6]
    exact this
  | inter e f ihe ihf =>
    obtain ⟨i, h1, h2, h3, h4, h5, h6⟩ := ihe
    obtain ⟨j, g1, g2, g3, g4, g5, g6⟩ := ihf
    obtain ⟨c, hc, -, wc, -⟩ := Any.inter_comp (.inner i) (.inner j)
    simp only [Any.toInner_inner] at wc
    have hr : c.region = i.region.inter j.region := Any.inter_region (a := .inner i) (b := .inner j) h3 g3 hc
    have hr' : i.region.inter j.region =
        .ofSet (some ⟨true, !(i.goesDown && j.goesDown), !(i.goesUp && j.goesUp)⟩)
          (if !i.goesDown && i.goesUp && !j.goesDown && j.goesUp then
            (i.inside ∩ j.inside) \ (tail i.inside \ tail j.inside) else i.inside ∩ j.inside) := by
      simp only [Region.inter, Inner.region, Inner.shape_set h2, Inner.shape_set g2]
      cases i.goesDown <;> cases i.goesUp <;> cases j.goesDown <;> cases j.goesUp <;> rfl
    rw [hr'] at hr
    have ic : c.IsSet := by
      have := congrArg Region.shape hr
      cases c <;> first | trivial | cases this
    obtain ⟨k1, k2⟩ := Inner.shape_goes ic (congrArg Region.shape hr)
    refine ⟨c, by simp only [expr, Expr.eval, h1, g1, Res.ok_bind, hc]; rfl, ic, wc ⟨h3, g3⟩, by rw [k1, h4, g4, truth],
      by rw [k2, h5, g5, truth], ?_⟩
    have := congrArg Region.inside hr
    rw [spots, ← h6, ← g6, loses, ← h4, ← h5, ← g4, ← g5]
    exact this
  | complement e ih =>
    obtain ⟨i, h1, h2, h3, h4, h5, h6⟩ := ih
    obtain ⟨c, hc, -, wc, -, ic⟩ := Any.complement_set h2 h3
    have hr : c.region = i.region.complement := Any.complement_region (a := .inner i) h3 hc
    have hr' : i.region.complement.shape = some ⟨true, !!i.goesDown, !!i.goesUp⟩ := by
      simp only [Region.complement, Inner.region, Inner.shape_set h2, Shape.complement]
      simp
    obtain ⟨k1, k2⟩ := Inner.shape_goes ic ((congrArg Region.shape hr).trans hr')
    refine ⟨c, by simp only [expr, Expr.eval, h1, Res.ok_bind, hc]; rfl, ic, wc, by rw [k1, h4, truth],
      by rw [k2, h5, truth], ?_⟩
    have := congrArg Region.inside hr
    rw [spots, ← h6, ← Inner.outside_set h2]
    exact this

/-- A set is known by its type and its spots. -/
theorem Formula.eq_of_spots {a b : Inner T} (ha : a.IsSet) (hb : b.IsSet) (na : a.WF) (nb : b.WF)
    (hd : a.goesDown = b.goesDown) (hu : a.goesUp = b.goesUp) (h : a.inside = b.inside) : a = b := by
  refine Inner.eq_of_region na nb ?_ ?_
  · intro hk; cases a <;> first | exact ha.elim | cases hk
  · rw [Inner.region, Inner.region, Inner.shape_set ha, Inner.shape_set hb, Inner.outside_set ha, Inner.outside_set hb,
      hd, hu, h]

theorem Formula.contains_spot (i : Inner T) (t : T) : i.contains t = true ↔ spot t 2 ∈ i.inside := by
  rw [Inner.contains_probe, Inner.mem_inside]; rfl

/-! ### The cuts of a set -/

/-- The bounds of the stretches, as spots. -/
def Inner.cutSpots (i : Inner T) : List (Spot T) :=
  i.stretches.flatMap fun s => s.1.toList.map (·.spot) ++ s.2.toList.map (·.spot)

omit [LinearOrder T] in
theorem LowerBound.isCut (l : LowerBound T) : IsCut l.spot := by
  rcases l with ⟨_ | _⟩
  · exact .inr rfl
  · exact .inl rfl

omit [LinearOrder T] in
theorem UpperBound.isCut (l : UpperBound T) : IsCut l.spot := by
  rcases l with ⟨_ | _⟩
  · exact .inl rfl
  · exact .inr rfl

omit [LinearOrder T] in
theorem Inner.cutSpots_isCut {i : Inner T} : ∀ c ∈ i.cutSpots, IsCut c := by
  intro c hc
  obtain ⟨s, -, hc⟩ := List.mem_flatMap.mp hc
  rcases List.mem_append.mp hc with hc | hc <;> obtain ⟨l, -, rfl⟩ := List.mem_map.mp hc
  · exact l.isCut
  · exact l.isCut

omit [LinearOrder T] in
theorem Inner.lower_mem {i : Inner T} {s : Option (LowerBound T) × Option (UpperBound T)} (hs : s ∈ i.stretches)
    {l : LowerBound T} (hl : s.1 = some l) : l.spot ∈ i.cutSpots :=
  List.mem_flatMap.mpr ⟨s, hs, List.mem_append.mpr (.inl (List.mem_map.mpr ⟨l, by simp [hl], rfl⟩))⟩

omit [LinearOrder T] in
theorem Inner.upper_mem {i : Inner T} {s : Option (LowerBound T) × Option (UpperBound T)} (hs : s ∈ i.stretches)
    {l : UpperBound T} (hl : s.2 = some l) : l.spot ∈ i.cutSpots :=
  List.mem_flatMap.mpr ⟨s, hs, List.mem_append.mpr (.inr (List.mem_map.mpr ⟨l, by simp [hl], rfl⟩))⟩

theorem Inner.mem_inside_stretches {i : Inner T} (h : i.IsSet) (p : Spot T) :
    p ∈ i.inside ↔ ∃ s ∈ i.stretches, (∀ l, s.1 = some l → l.spot < p) ∧ ∀ u, s.2 = some u → p < u.spot := by
  rw [Inner.mem_inside, ivs_eq_stretches h]
  constructor
  · rintro ⟨q, hq, hp⟩
    obtain ⟨⟨s1, s2⟩, hs, rfl⟩ := List.mem_map.mp hq
    obtain ⟨h1, h2⟩ := mem_sem1_iff.mp hp
    refine ⟨_, hs, ?_, ?_⟩
    · rintro l rfl; exact (above_lo l p).mp h1
    · rintro u rfl; exact (below_hi u p).mp h2
  · rintro ⟨⟨s1, s2⟩, hs, h1, h2⟩
    refine ⟨_, List.mem_map.mpr ⟨_, hs, rfl⟩, mem_sem1_iff.mpr ⟨?_, ?_⟩⟩
    · cases s1 with
      | none => exact above_bot p
      | some l => exact (above_lo l p).mpr (h1 l rfl)
    · cases s2 with
      | none => exact below_top p
      | some u => exact (below_hi u p).mpr (h2 u rfl)

/-- Between two cuts nothing changes. -/
theorem Inner.inside_const {i : Inner T} (h : i.IsSet) {p q : Spot T} (hpq : p ≤ q)
    (hc : ∀ c ∈ i.cutSpots, ¬ (p ≤ c ∧ c ≤ q)) : p ∈ i.inside ↔ q ∈ i.inside := by
  rw [Inner.mem_inside_stretches h, Inner.mem_inside_stretches h]
  refine exists_congr fun s => and_congr_right fun hs => and_congr ?_ ?_
  · refine forall_congr' fun l => forall_congr' fun hl => ⟨fun h' => h'.trans_le hpq, fun h' => ?_⟩
    by_contra hn
    exact hc _ (lower_mem hs hl) ⟨not_lt.mp hn, h'.le⟩
  · refine forall_congr' fun l => forall_congr' fun hl => ⟨fun h' => ?_, fun h' => hpq.trans_lt h'⟩
    by_contra hn
    exact hc _ (upper_mem hs hl) ⟨h'.le, not_lt.mp hn⟩

/-- Above all cuts the type says it all. -/
theorem Inner.inside_top {i : Inner T} (h : i.IsSet) {p : Spot T} (hc : ∀ c ∈ i.cutSpots, c < p) :
    p ∈ i.inside ↔ i.goesUp = true := by
  have : i.goesUp = true ↔ ¬ i.BoundedAbove := by
    cases i <;> first | exact h.elim | simp [Inner.BoundedAbove, Inner.goesUp]
  rw [this, stretches_above h, Inner.mem_inside_stretches h]
  push Not
  refine exists_congr fun s => and_congr_right fun hs => ⟨fun h' => ?_, fun h' => ⟨fun l hl => hc _ (lower_mem hs hl), ?_⟩⟩
  · cases hu : s.2 with
    | none => rfl
    | some u => exact absurd (h'.2 u hu) (hc _ (upper_mem hs hu)).not_gt
  · intro u hu
    rw [h'] at hu
    cases hu

/-- A cut covered is covered on both sides. -/
theorem Inner.inside_open {i : Inner T} (h : i.IsSet) {p c n : Spot T} (ha : Around p c n) (hc : c ∈ i.inside) :
    p ∈ i.inside ∧ n ∈ i.inside := by
  rw [Inner.mem_inside_stretches h] at hc
  obtain ⟨s, hs, h1, h2⟩ := hc
  constructor
  · refine (Inner.mem_inside_stretches h p).mpr ⟨s, hs, fun l hl => ?_, fun u hu => ha.lt.trans (h2 u hu)⟩
    refine (ha.le_of_lt _ (h1 l hl)).lt_of_ne fun e => ha.before ?_
    rw [← e]; exact l.isCut
  · refine (Inner.mem_inside_stretches h n).mpr ⟨s, hs, fun l hl => (h1 l hl).trans ha.gt, fun u hu => ?_⟩
    refine (ha.le_of_gt _ (h2 u hu)).lt_of_ne fun e => ha.after ?_
    rw [e]; exact u.isCut

/-! ### Formulas that pass the test -/

/-- The cuts of the first `k` variables. -/
def Formula.allCuts (σ : Nat → Inner T) (k : Nat) : List (Spot T) := (List.range k).flatMap fun n => (σ n).cutSpots

omit [LinearOrder T] in
theorem Formula.mem_allCuts {σ : Nat → Inner T} {k n : Nat} (h : n < k) {c : Spot T} (hc : c ∈ (σ n).cutSpots) :
    c ∈ allCuts σ k := List.mem_flatMap.mpr ⟨n, List.mem_range.mpr h, hc⟩

omit [LinearOrder T] in
theorem Formula.allCuts_isCut {σ : Nat → Inner T} {k : Nat} : ∀ c ∈ allCuts σ k, IsCut c := by
  intro c hc
  obtain ⟨n, -, hc⟩ := List.mem_flatMap.mp hc
  exact Inner.cutSpots_isCut c hc

theorem Formula.exists_fits_of (σ : Nat → Inner T) (hs : ∀ n, (σ n).IsSet) (k : Nat) (p : Spot T)
    (hp : p ∉ allCuts σ k) :
    ∃ m, Scanned k (fun n => (σ n).goesDown) (fun n => (σ n).goesUp) m ∧
      Fits (fun n => (σ n).goesDown) (fun n => (σ n).goesUp) (fun n => (σ n).inside) k m p := by
  refine exists_fits (K := allCuts σ k) allCuts_isCut ?_ ?_ ?_ p hp
  · exact fun n hn p q hpq hc => Inner.inside_const (hs n) hpq fun c h => hc c (mem_allCuts hn h)
  · exact fun n hn p hc => Inner.inside_top (hs n) fun c h => hc c (mem_allCuts hn h)
  · exact fun n hn p c q ha hc => Inner.inside_open (hs n) ha hc

theorem Germ.right_of (d u : Bool) : (Germ.of d false u).right = u := by cases d <;> cases u <;> rfl
theorem Germ.left_of (d u : Bool) : (Germ.of d false u).left = d := by cases d <;> cases u <;> rfl

/-- C122. What passes the test for values passes the one for members. -/
theorem C122_values_members (e f : Formula) (down up : Nat → Bool) (h : e.sameValuesFor f down up = true) :
    e.sameMembersFor f down up = true := by
  rw [sameMembersFor_iff]
  rw [sameValuesFor_iff] at h
  intro m hm
  have hv : ∀ n < max e.vars f.vars, (Germ.of false false (m (var n)).1).right = (m (var n)).1 :=
    fun n _ => Germ.right_of _ _
  have := congrArg Germ.right (h m hm (fun n => Germ.of false false (m (var n)).1) hv)
  rwa [right_atCut hm hv e (Nat.le_max_left _ _), right_atCut hm hv f (Nat.le_max_right _ _)] at this

/-- C122. Formulas that pass the test for the types of the variables have equal values, of the same type. -/
theorem C122_values (e f : Formula) (σ : Nat → Inner T) (hs : ∀ n, (σ n).IsSet) (hn : ∀ n, (σ n).Normal)
    (h : e.sameValuesFor f (fun n => (σ n).goesDown) (fun n => (σ n).goesUp) = true) :
    ∃ i, (e.expr fun n => .inner (σ n)).eval = .ok (.inner i) ∧
      (f.expr fun n => .inner (σ n)).eval = .ok (.inner i) := by
  have hn' := fun n => (Inner.normal_iff _).mp (hn n)
  have hm := sameMembersFor_iff.mp (C122_values_members e f _ _ h)
  rw [sameValuesFor_iff] at h
  obtain ⟨i, h1, h2, h3, h4, h5, h6⟩ := eval_spots σ hs hn' e
  obtain ⟨j, g1, g2, g3, g4, g5, g6⟩ := eval_spots σ hs hn' f
  refine ⟨i, h1, ?_⟩
  rw [g1]
  congr 2
  refine eq_of_spots g2 h2 g3 h3 ?_ ?_ ?_
  · rw [g4, h4]
    have := congrArg Germ.left (h _ .start (fun n => Germ.of (σ n).goesDown false (σ n).goesUp)
      fun n _ => Germ.right_of _ _)
    rw [left_atCut (k := max e.vars f.vars) _ (fun n _ => Germ.left_of _ _) e (Nat.le_max_left _ _),
      left_atCut (k := max e.vars f.vars) _ (fun n _ => Germ.left_of _ _) f (Nat.le_max_right _ _)] at this
    exact this.symm
  · rw [g5, h5]
    exact (hm _ .start).symm
  · rw [g6, h6]
    ext p
    by_cases hp : p ∈ allCuts σ (max e.vars f.vars)
    · obtain ⟨b, a, har⟩ := (allCuts_isCut p hp).around
      obtain ⟨m, hsc, hf⟩ := exists_fits_of σ hs (max e.vars f.vars) a fun h => har.after (allCuts_isCut a h)
      have hv : ∀ n, ∃ g, SpotAgree (σ n).inside b p a g := fun n =>
        Germ.exists_of (fun h' => (Inner.inside_open (hs n) har h').1) fun h' => (Inner.inside_open (hs n) har h').2
      choose v hv using hv
      rw [(atCut_agree har hf (fun i _ => hv i) f (Nat.le_max_right _ _)).2.1,
        (atCut_agree har hf (fun i _ => hv i) e (Nat.le_max_left _ _)).2.1, h m hsc v fun n hn => ?_]
      rw [Bool.eq_iff_iff, ← (hv n).2.2, ← (hf (var n) hn).1]; rfl
    · obtain ⟨m, hsc, hf⟩ := exists_fits_of σ hs (max e.vars f.vars) p hp
      rw [(hf f (Nat.le_max_right _ _)).1, (hf e (Nat.le_max_left _ _)).1, hm m hsc]

/-- C122. Formulas that pass the test for members have values with the same members. -/
theorem C122_members (e f : Formula) (σ : Nat → Inner T) (hs : ∀ n, (σ n).IsSet) (hn : ∀ n, (σ n).Normal)
    (h : e.sameMembersFor f (fun n => (σ n).goesDown) (fun n => (σ n).goesUp) = true) :
    ∃ i j, (e.expr fun n => .inner (σ n)).eval = .ok (.inner i) ∧
      (f.expr fun n => .inner (σ n)).eval = .ok (.inner j) ∧ ∀ t, i.contains t = j.contains t := by
  have hn' := fun n => (Inner.normal_iff _).mp (hn n)
  obtain ⟨i, h1, -, -, -, -, h6⟩ := eval_spots σ hs hn' e
  obtain ⟨j, g1, -, -, -, -, g6⟩ := eval_spots σ hs hn' f
  refine ⟨i, j, h1, g1, fun t => ?_⟩
  rw [Bool.eq_iff_iff, contains_spot, contains_spot, h6, g6]
  obtain ⟨m, hsc, hf⟩ := exists_fits_of σ hs (max e.vars f.vars) (spot t 2)
    fun h => not_isCut t (by decide) (by decide) (allCuts_isCut _ h)
  rw [(hf f (Nat.le_max_right _ _)).1, (hf e (Nat.le_max_left _ _)).1, sameMembersFor_iff.mp h m hsc]

/-! ### Formulas that fail -/

/-- The memory after so many cuts. -/
def Formula.run (down up : Nat → Bool) (w : Nat → Nat → Germ) : Nat → Memory
  | 0 => aboveAll up
  | i + 1 => belowCut down up (run down up w i) (w i)

/-- What a variable covers above a cut is what it covers below the one before. -/
def Formula.Chain (up : Nat → Bool) (k : Nat) (w : Nat → Nat → Germ) (L : Nat) : Prop :=
  ∀ i < L, ∀ n < k, (w i n).right = match i with
    | 0 => up n
    | j + 1 => (w j n).left

theorem Formula.run_congr {down up : Nat → Bool} {w w' : Nat → Nat → Germ} {L : Nat} (h : ∀ i < L, w i = w' i) :
    run down up w L = run down up w' L := by
  induction L with
  | zero => rfl
  | succ L ih => rw [run, run, ih fun i hi => h i (hi.trans (Nat.lt_succ_self _)), h L (Nat.lt_succ_self _)]

theorem Formula.run_var (down up : Nat → Bool) (w : Nat → Nat → Germ) (L n : Nat) :
    (run down up w L (var n)).1 = match L with
    | 0 => up n
    | j + 1 => (w j n).left := by
  cases L <;> rfl

theorem Formula.chain_append {down up : Nat → Bool} {k L : Nat} {w : Nat → Nat → Germ} (hw : Chain up k w L)
    {v : Nat → Germ} (hv : ∀ n < k, (v n).right = (run down up w L (var n)).1) :
    ∃ w', Chain up k w' (L + 1) ∧ run down up w' L = run down up w L ∧ w' L = v := by
  let w' : Nat → Nat → Germ := fun i => if i = L then v else w i
  have h0 : ∀ i < L, w' i = w i := fun i hi => if_neg hi.ne
  have h1 : w' L = v := if_pos rfl
  refine ⟨w', ?_, run_congr h0, h1⟩
  intro i hi n hn
  rcases Nat.lt_succ_iff_lt_or_eq.mp hi with hi | rfl
  · have := hw i hi n hn
    rw [h0 i hi, this]
    cases i with
    | zero => rfl
    | succ j => simp only; rw [h0 j (Nat.lt_of_succ_lt hi)]
  · rw [h1, hv n hn, run_var]
    cases i with
    | zero => rfl
    | succ j => simp only; rw [h0 j (Nat.lt_succ_self j)]

theorem Formula.exists_run {down up : Nat → Bool} {k : Nat} {m : Memory} (h : Scanned k down up m) :
    ∃ L w, Chain up k w L ∧ run down up w L = m := by
  induction h with
  | start => exact ⟨0, fun _ _ => .nothing, fun i hi => absurd hi (Nat.not_lt_zero i), rfl⟩
  | @step m v _ hv ih =>
    obtain ⟨L, w, hw, rfl⟩ := ih
    obtain ⟨w', h1, h2, h3⟩ := chain_append hw hv
    exact ⟨L + 1, w', h1, by rw [run, h2, h3]⟩

/-- The cut before a number. -/
def Formula.before (z : Int) : Spot Int := spot z 1

theorem Formula.before_lt {y z : Int} : before y < before z ↔ y < z := by simp [before, spot_lt]
theorem Formula.before_le {y z : Int} : before y ≤ before z ↔ y ≤ z := by
  rw [← not_lt, before_lt, not_lt]

/-- Add ranges to a set. -/
theorem Formula.add_ranges {a : Inner Int} (ha : a.IsSet) (na : a.WF) (l : List (Int × Int)) (hl : ∀ r ∈ l, r.1 < r.2) :
    ∃ i : Inner Int, i.IsSet ∧ i.WF ∧ i.goesDown = a.goesDown ∧ i.goesUp = a.goesUp ∧
      ∀ p, p ∈ i.inside ↔ p ∈ a.inside ∨ ∃ r ∈ l, before r.1 < p ∧ p < before r.2 := by
  induction l with
  | nil => exact ⟨a, ha, na, rfl, rfl, by simp⟩
  | cons r l ih =>
    obtain ⟨i, h1, h2, h3, h4, h5⟩ := ih fun r hr => hl r (List.mem_cons_of_mem _ hr)
    have hr := hl r (List.mem_cons_self ..)
    let σ : Nat → Inner Int := fun n => if n = 0 then i else .bs ⟨[Samples.co r.1 r.2]⟩
    have hb : (Inner.bs ⟨[Samples.co r.1 r.2]⟩).WF := by
      rw [← Inner.normal_iff]
      refine ⟨?_, ?_⟩
      · simpa [Samples.co, BoundedRange.isEmpty, LowerBound.included, UpperBound.excluded] using hr
      · simp
    obtain ⟨j, -, g2, g3, g4, g5, g6⟩ := eval_spots σ (fun n => by by_cases h : n = 0 <;> simp [σ, h, h1]; trivial)
      (fun n => by by_cases h : n = 0 <;> simp [σ, h, h2]; exact hb) (.union (.var 0) (.var 1))
    refine ⟨j, g2, g3, ?_, ?_, fun p => ?_⟩
    · rw [g4, ← h3]; simp [truth, σ, Inner.goesDown]
    · rw [g5, ← h4]; simp [truth, σ, Inner.goesUp]
    · rw [g6]
      simp only [spots, Set.mem_union]
      have e0 : σ 0 = i := rfl
      have e1 : p ∈ (σ 1).inside ↔ before r.1 < p ∧ p < before r.2 := by
        show (∃ q ∈ [Samples.co r.1 r.2], p ∈ q.spots) ↔ _
        simp only [List.mem_singleton, exists_eq_left]
        rfl
      rw [e0, e1, h5, List.exists_mem_cons_iff, or_assoc, or_comm (a := ∃ r ∈ l, _)]

/-- The sets to start from: nothing between the numbers -/
def Formula.ends (d : Bool) (u : Bool) (z : Int) : Inner Int :=
  match d, u with
  | false, false => .bs ⟨[]⟩
  | false, true => .lbs ⟨⟨[]⟩, Samples.ci 0⟩
  | true, false => .ubs ⟨Samples.io z, ⟨[]⟩⟩
  | true, true => .us (.piecewise ⟨Samples.io z, ⟨[]⟩, Samples.ci 0⟩)

theorem Formula.ends_set (d u : Bool) {z : Int} (hz : z ≤ 0) : (ends d u z).IsSet ∧ (ends d u z).WF ∧
    (ends d u z).goesDown = d ∧ (ends d u z).goesUp = u ∧
    ∀ p, p ∈ (ends d u z).inside ↔ (d = true ∧ p < before z) ∨ (u = true ∧ before 0 < p) := by
  refine ⟨by cases d <;> cases u <;> trivial, ?_, by cases d <;> cases u <;> rfl, by cases d <;> cases u <;> rfl, ?_⟩
  · rw [← Inner.normal_iff]
    have h0 : Pieces ([] : List (BoundedRange Int)) := ⟨by simp, by simp⟩
    cases d <;> cases u
    · exact h0
    · exact ⟨h0, by simp⟩
    · exact ⟨h0, by simp⟩
    · exact ⟨h0, by simp, by simp, hz⟩
  · intro p
    have h0 : p ∉ (⟨[]⟩ : BoundedSet Int).spots := fun ⟨r, hr, _⟩ => List.not_mem_nil hr
    have h1 : p ∈ (Samples.ci 0).spots ↔ before 0 < p := Iff.rfl
    have h2 : p ∈ (Samples.io z).spots ↔ p < before z := Iff.rfl
    cases d <;> cases u <;> simp [ends, Inner.inside, h0, h1, h2]

/-- Sets of integers with given values around the cuts before `0`, `-1`, ... -/
theorem Formula.exists_sets (down up : Nat → Bool) {k L : Nat} {w : Nat → Nat → Germ} (hw : Chain up k w (L + 1)) :
    ∃ σ : Nat → Inner Int, (∀ n, (σ n).IsSet ∧ (σ n).Normal ∧ (σ n).goesDown = down n ∧ (σ n).goesUp = up n) ∧
      ∀ n < k, (∀ p, before 0 < p → (p ∈ (σ n).inside ↔ up n = true)) ∧
        (∀ i : Nat, i ≤ L → ∀ p, before (-i - 1) < p → p < before (-i) → (p ∈ (σ n).inside ↔ (w i n).left = true)) ∧
        (∀ i : Nat, i ≤ L → (before (-i) ∈ (σ n).inside ↔ (w i n).middle = true)) ∧
        ((w L n).left = down n → ∀ p, p < before (-L) → (p ∈ (σ n).inside ↔ down n = true)) := by
  let z : Nat → Int := fun n => if (w L n).left = down n then -L else -L - 1
  let l : Nat → List (Int × Int) := fun n => (List.range (L + 1)).flatMap fun i =>
    (if (w i n).left then [(-(i : Int) - 1, -(i : Int))] else []) ++
      if (w i n).middle then [(-(i : Int) - 1, -(i : Int) + 1)] else []
  have hl : ∀ n r, r ∈ l n ↔ ∃ i ≤ L, ((w i n).left = true ∧ r = (-(i : Int) - 1, -(i : Int))) ∨
      ((w i n).middle = true ∧ r = (-(i : Int) - 1, -(i : Int) + 1)) := by
    intro n r
    simp only [l, List.mem_flatMap, List.mem_range, Nat.lt_succ_iff, List.mem_append]
    refine exists_congr fun i => and_congr_right fun _ => or_congr ?_ ?_
    · cases (w i n).left <;> simp
    · cases (w i n).middle <;> simp
  have hz : ∀ n, z n = -L ∧ (w L n).left = down n ∨ z n = -L - 1 ∧ (w L n).left ≠ down n := by
    intro n
    by_cases h : (w L n).left = down n
    · exact .inl ⟨if_pos h, h⟩
    · exact .inr ⟨if_neg h, h⟩
  have key : ∀ n, ∃ i : Inner Int, i.IsSet ∧ i.WF ∧ i.goesDown = down n ∧ i.goesUp = up n ∧
      ∀ p, p ∈ i.inside ↔ ((down n = true ∧ p < before (z n)) ∨ (up n = true ∧ before 0 < p)) ∨
        ∃ r ∈ l n, before r.1 < p ∧ p < before r.2 := by
    intro n
    obtain ⟨a1, a2, a3, a4, a5⟩ := ends_set (down n) (up n) (z := z n) (by have := hz n; omega)
    obtain ⟨i, h1, h2, h3, h4, h5⟩ := add_ranges a1 a2 (l n) (by
      intro r hr
      obtain ⟨i, -, ⟨-, rfl⟩ | ⟨-, rfl⟩⟩ := (hl n r).mp hr <;> simp only <;> omega)
    exact ⟨i, h1, h2, h3.trans a3, h4.trans a4, fun p => by rw [h5, a5]⟩
  choose σ s1 s2 s3 s4 s5 using key
  refine ⟨σ, fun n => ⟨s1 n, (Inner.normal_iff _).mpr (s2 n), s3 n, s4 n⟩, fun n hn => ⟨?_, ?_, ?_, ?_⟩⟩
  · intro p hp
    have hz := hz n
    rw [s5]
    constructor
    · rintro ((⟨-, h⟩ | h) | ⟨r, hr, h1, h2⟩)
      · exact absurd (before_lt.mp (hp.trans h)) (by omega)
      · exact h.1
      · obtain ⟨i, hi, ⟨h3, rfl⟩ | ⟨h3, rfl⟩⟩ := (hl n r).mp hr
        · exact absurd (before_lt.mp (hp.trans h2)) (by omega)
        · have := before_lt.mp (hp.trans h2)
          obtain rfl : i = 0 := by omega
          refine (hw 0 (Nat.succ_pos L) n hn).symm.trans ?_
          revert h3; cases w 0 n <;> decide
    · exact fun h => .inl (.inr ⟨h, hp⟩)
  · intro i hi p h1 h2
    have hz := hz n
    rw [s5]
    constructor
    · rintro ((⟨hd, h⟩ | ⟨-, h⟩) | ⟨r, hr, h3, h4⟩)
      · have := before_lt.mp (h1.trans h)
        rcases hz with ⟨e, hz⟩ | ⟨e, hz⟩
        · obtain rfl : i = L := by omega
          rw [hz, hd]
        · omega
      · exact absurd (before_lt.mp (h.trans h2)) (by omega)
      · obtain ⟨j, hj, ⟨h5, rfl⟩ | ⟨h5, rfl⟩⟩ := (hl n r).mp hr
        · have e1 := before_lt.mp (h3.trans h2)
          have e2 := before_lt.mp (h1.trans h4)
          simp only at e1 e2
          obtain rfl : i = j := by omega
          exact h5
        · have e1 := before_lt.mp (h3.trans h2)
          have e2 := before_lt.mp (h1.trans h4)
          simp only at e1 e2
          obtain rfl | rfl : i = j ∨ j = i + 1 := by omega
          · revert h5; cases w i n <;> decide
          · have := hw (i + 1) (by omega) n hn
            simp only at this
            rw [← this]
            revert h5; cases w (i + 1) n <;> decide
    · exact fun h => .inr ⟨_, (hl n _).mpr ⟨i, hi, .inl ⟨h, rfl⟩⟩, h1, h2⟩
  · intro i hi
    have hz := hz n
    rw [s5]
    constructor
    · rintro ((⟨-, h⟩ | ⟨-, h⟩) | ⟨r, hr, h3, h4⟩)
      · exact absurd (before_lt.mp h) (by omega)
      · exact absurd (before_lt.mp h) (by omega)
      · rw [before_lt] at h3 h4
        obtain ⟨j, hj, ⟨h5, rfl⟩ | ⟨h5, rfl⟩⟩ := (hl n r).mp hr
        · simp only at h3 h4; omega
        · simp only at h3 h4
          obtain rfl : i = j := by omega
          exact h5
    · exact fun h => .inr ⟨_, (hl n _).mpr ⟨i, hi, .inr ⟨h, rfl⟩⟩, before_lt.mpr (by omega), before_lt.mpr (by omega)⟩
  · intro he p hp
    have hzn : z n = -L := if_pos he
    rw [s5, hzn]
    constructor
    · rintro ((⟨h, -⟩ | ⟨-, h⟩) | ⟨r, hr, h1, h2⟩)
      · exact h
      · exact absurd (before_lt.mp (h.trans hp)) (by omega)
      · obtain ⟨i, hi, ⟨h3, rfl⟩ | ⟨h3, rfl⟩⟩ := (hl n r).mp hr <;>
        · have := before_lt.mp (h1.trans hp)
          simp only at this
          obtain rfl : i = L := by omega
          rw [← he]
          revert h3; cases w i n <;> decide
    · exact fun h => .inl (.inl ⟨h, hp⟩)

/-- Each path of the scan is that of some sets of integers. -/
theorem Formula.exists_path (down up : Nat → Bool) {k : Nat} {m : Memory} (hm : Scanned k down up m) {v : Nat → Germ}
    (hv : ∀ n < k, (v n).right = (m (var n)).1) :
    ∃ (σ : Nat → Inner Int) (z : Int),
      (∀ n, (σ n).IsSet ∧ (σ n).Normal ∧ (σ n).goesDown = down n ∧ (σ n).goesUp = up n) ∧
      Fits down up (fun n => (σ n).inside) k m (spot z 2) ∧
      ∀ n < k, SpotAgree (σ n).inside (spot z 0) (spot z 1) (spot z 2) (v n) := by
  obtain ⟨L, w₀, hw₀, rfl⟩ := exists_run hm
  obtain ⟨w, hw, hr, rfl⟩ := chain_append hw₀ hv
  obtain ⟨σ, h1, h2⟩ := exists_sets down up hw
  have hlt : ∀ i : Nat, before (-i - 1) < spot (-(i : Int)) 0 ∧ spot (-(i : Int)) 0 < before (-i) := fun i => by
    simp [before, spot_lt]
  have hgt : ∀ i : Nat, before (-i) < spot (-(i : Int)) 2 ∧ spot (-(i : Int)) 2 < before (-i + 1) := fun i => by
    simp [before, spot_lt]
  have agree : ∀ i ≤ L, ∀ n < k, SpotAgree (σ n).inside (spot (-(i : Int)) 0) (spot (-i) 1) (spot (-i) 2) (w i n) := by
    intro i hi n hn
    refine ⟨(h2 n hn).2.1 i hi _ (hlt i).1 (hlt i).2, (h2 n hn).2.2.1 i hi, ?_⟩
    rw [hw i (Nat.lt_succ_of_le hi) n hn]
    cases i with
    | zero => exact (h2 n hn).1 _ (hgt 0).1
    | succ j =>
      have a := (hgt (j + 1)).1
      have b := (hgt (j + 1)).2
      refine (h2 n hn).2.1 j (Nat.le_of_succ_le hi) _ ?_ ?_
      · convert a using 2; push_cast; omega
      · convert b using 2; push_cast; omega
  have fits : ∀ i ≤ L, Fits down up (fun n => (σ n).inside) k (run down up w i) (spot (-(i : Int)) 2) := by
    intro i
    induction i with
    | zero =>
      intro _
      refine fits_above (I := {q | before 0 < q}) (nearClosed_gt (.inl rfl)) (fun p hp q hq => lt_of_lt_of_le hp hq)
        (fun n hn p hp => (h2 n hn).1 p hp) (hgt 0).1
    | succ i ih =>
      intro hi
      have hi' := Nat.le_of_succ_le hi
      have hc : ∀ q, before (-i - 1) < q → q < before (-i) → ∀ n < k, q ∈ (σ n).inside ↔ (w i n).left = true :=
        fun q a b n hn => (h2 n hn).2.1 i hi' q a b
      refine fits_below (around_one _) (ih hi') (agree i hi') (I := {q | before (-i - 1) < q ∧ q < before (-i)})
        (fun q hq r hr => ⟨nearClosed_gt (.inl rfl) q hq.1 r hr, nearClosed_lt (.inl rfl) q hq.2 r hr⟩) (hlt i)
        (fun q hq => hq.2) (fun q hq r hr hrc => ⟨lt_of_lt_of_le hq.1 hr, hrc⟩)
        (fun n hn q hq => by rw [hc q hq.1 hq.2 n hn, hc _ (hlt i).1 (hlt i).2 n hn]) ⟨?_, ?_⟩
      · have a := (hgt (i + 1)).1
        convert a using 2; push_cast; omega
      · have b := (hgt (i + 1)).2
        convert b using 2; push_cast; omega
  refine ⟨σ, -(L : Int), h1, ?_, agree L le_rfl⟩
  rw [← hr]
  exact fits L le_rfl

/-- C122. Formulas that fail the test have different values for some normal sets of integers of the types in question. -/
theorem C122_values_complete (e f : Formula) (down up : Nat → Bool) (h : e.sameValuesFor f down up = false) :
    ∃ σ : Nat → Inner Int, (∀ n, (σ n).IsSet ∧ (σ n).Normal ∧ (σ n).goesDown = down n ∧ (σ n).goesUp = up n) ∧
      (e.expr fun n => .inner (σ n)).eval ≠ (f.expr fun n => .inner (σ n)).eval := by
  have h : ¬ e.sameValuesFor f down up = true := by rw [h]; decide
  rw [sameValuesFor_iff] at h
  push Not at h
  obtain ⟨m, hm, v, hv, hne⟩ := h
  obtain ⟨σ, z, hσ, hf, ha⟩ := exists_path down up hm hv
  refine ⟨σ, hσ, fun heq => hne ?_⟩
  have hd : (fun n => (σ n).goesDown) = down := funext fun n => (hσ n).2.2.1
  have hu : (fun n => (σ n).goesUp) = up := funext fun n => (hσ n).2.2.2
  have hn' := fun n => (Inner.normal_iff _).mp (hσ n).2.1
  obtain ⟨i, h1, -, -, -, -, h6⟩ := eval_spots σ (fun n => (hσ n).1) hn' e
  obtain ⟨j, g1, -, -, -, -, g6⟩ := eval_spots σ (fun n => (hσ n).1) hn' f
  rw [h1, g1] at heq
  injection heq with heq
  injection heq with heq
  subst heq
  rw [hd, hu] at h6 g6
  have a1 := atCut_agree (around_one z) hf ha e (Nat.le_max_left _ _)
  have a2 := atCut_agree (around_one z) hf ha f (Nat.le_max_right _ _)
  rw [← h6] at a1
  rw [← g6] at a2
  refine Germ.ext' ?_ ?_ ?_
  · rw [Bool.eq_iff_iff, ← a1.1, ← a2.1]
  · rw [Bool.eq_iff_iff, ← a1.2.1, ← a2.2.1]
  · rw [Bool.eq_iff_iff, ← a1.2.2, ← a2.2.2]

/-- C122. Formulas that fail the test for members have values with different members for some normal sets of integers of
the types in question. -/
theorem C122_members_complete (e f : Formula) (down up : Nat → Bool) (h : e.sameMembersFor f down up = false) :
    ∃ (σ : Nat → Inner Int) (i j : Inner Int) (t : Int),
      (∀ n, (σ n).IsSet ∧ (σ n).Normal ∧ (σ n).goesDown = down n ∧ (σ n).goesUp = up n) ∧
      (e.expr fun n => .inner (σ n)).eval = .ok (.inner i) ∧
      (f.expr fun n => .inner (σ n)).eval = .ok (.inner j) ∧ i.contains t ≠ j.contains t := by
  have h : ¬ e.sameMembersFor f down up = true := by rw [h]; decide
  rw [sameMembersFor_iff] at h
  push Not at h
  obtain ⟨m, hm, hne⟩ := h
  obtain ⟨σ, z, hσ, hf, -⟩ := exists_path down up hm (v := fun n => .of false false (m (var n)).1)
    fun n _ => Germ.right_of _ _
  have hd : (fun n => (σ n).goesDown) = down := funext fun n => (hσ n).2.2.1
  have hu : (fun n => (σ n).goesUp) = up := funext fun n => (hσ n).2.2.2
  have hn' := fun n => (Inner.normal_iff _).mp (hσ n).2.1
  obtain ⟨i, h1, -, -, -, -, h6⟩ := eval_spots σ (fun n => (hσ n).1) hn' e
  obtain ⟨j, g1, -, -, -, -, g6⟩ := eval_spots σ (fun n => (hσ n).1) hn' f
  refine ⟨σ, i, j, z, hσ, h1, g1, fun heq => hne ?_⟩
  rw [hd, hu] at h6 g6
  rw [Bool.eq_iff_iff, contains_spot, contains_spot, h6, g6, (hf e (Nat.le_max_left _ _)).1,
    (hf f (Nat.le_max_right _ _)).1] at heq
  rwa [Bool.eq_iff_iff]

/-! ### For all types at once -/

omit [LinearOrder T] in
theorem Formula.expr_congr {σ τ : Nat → Any T} (e : Formula) (h : ∀ n < e.vars, σ n = τ n) : e.expr σ = e.expr τ := by
  induction e with
  | var n => exact congrArg Expr.leaf (h n (Nat.lt_succ_self n))
  | union e f ihe ihf | inter e f ihe ihf =>
    simp only [expr]
    rw [ihe fun n hn => h n (hn.trans_le (Nat.le_max_left _ _)), ihf fun n hn => h n (hn.trans_le (Nat.le_max_right _ _))]
  | complement e ih => simp only [expr]; rw [ih h]

theorem Formula.forAllTypes_iff (test : (Nat → Bool) → (Nat → Bool) → Bool) (k : Nat) :
    forAllTypes test k = true ↔
      ∀ down up, (∀ n, k ≤ n → down n = false ∧ up n = false) → test down up = true := by
  simp only [forAllTypes, kinds, List.all_eq_true, mem_choices]
  constructor
  · intro h down up hk
    have := h ((List.range k).map fun n => (down n, up n)) ⟨by simp, fun x _ => by
      rcases x with ⟨_ | _, _ | _⟩ <;> simp⟩
    have e : ∀ n, ((List.range k).map fun n => (down n, up n)).getD n (false, false) = (down n, up n) := by
      intro n
      by_cases hn : n < k
      · exact getD_range (fun n => (down n, up n)) _ hn
      · rw [(hk n (not_lt.mp hn)).1, (hk n (not_lt.mp hn)).2]
        simp [List.getD, hn]
    simpa only [e] using this
  · intro h t ht
    refine h _ _ fun n hn => ?_
    have : t.getD n (false, false) = (false, false) := by
      simp [List.getD, ht.1 ▸ hn]
    rw [this]
    exact ⟨rfl, rfl⟩

/-- The variables above `k` made empty. -/
def Formula.cutOff (σ : Nat → Inner T) (k : Nat) : Nat → Inner T := fun n => if n < k then σ n else .bs ⟨[]⟩

theorem Formula.cutOff_set {σ : Nat → Inner T} (hs : ∀ n, (σ n).IsSet) (hn : ∀ n, (σ n).Normal) (k : Nat) :
    (∀ n, (cutOff σ k n).IsSet) ∧ (∀ n, (cutOff σ k n).Normal) ∧
      ∀ n, k ≤ n → (cutOff σ k n).goesDown = false ∧ (cutOff σ k n).goesUp = false := by
  refine ⟨fun n => ?_, fun n => ?_, fun n h => ?_⟩
  · by_cases h : n < k
    · simp only [cutOff, if_pos h]; exact hs n
    · simp only [cutOff, if_neg h]; trivial
  · by_cases h : n < k
    · simp only [cutOff, if_pos h]; exact hn n
    · simp only [cutOff, if_neg h]; exact ⟨by simp, by simp⟩
  · simp only [cutOff, if_neg (not_lt.mpr h)]
    exact ⟨rfl, rfl⟩

omit [LinearOrder T] in
theorem Formula.cutOff_expr (σ : Nat → Inner T) {k : Nat} (e : Formula) (he : e.vars ≤ k) :
    (e.expr fun n => .inner (cutOff σ k n)) = e.expr fun n => .inner (σ n) :=
  expr_congr e fun n hn => by simp only [cutOff, if_pos (hn.trans_le he)]

/-- C122. Passing the test for all types is having equal values for all normal sets of integers. -/
theorem C122_values_all (e f : Formula) :
    forAllTypes (e.sameValuesFor f) (max e.vars f.vars) = true ↔
      ∀ σ : Nat → Inner Int, (∀ n, (σ n).IsSet) → (∀ n, (σ n).Normal) →
        (e.expr fun n => .inner (σ n)).eval = (f.expr fun n => .inner (σ n)).eval := by
  rw [forAllTypes_iff]
  constructor
  · intro h σ hs hn
    obtain ⟨h1, h2, h3⟩ := cutOff_set hs hn (max e.vars f.vars)
    obtain ⟨i, g1, g2⟩ := C122_values e f _ h1 h2 (h _ _ h3)
    rw [cutOff_expr σ e (Nat.le_max_left _ _)] at g1
    rw [cutOff_expr σ f (Nat.le_max_right _ _)] at g2
    rw [g1, g2]
  · intro h down up _
    by_contra hn
    obtain ⟨σ, hσ, hne⟩ := C122_values_complete e f down up (by simpa using hn)
    exact hne (h σ (fun n => (hσ n).1) fun n => (hσ n).2.1)

/-- C122. Formulas that pass the test for all types have equal values for all normal sets of any type of element. -/
theorem C122_values_any (e f : Formula) (h : forAllTypes (e.sameValuesFor f) (max e.vars f.vars) = true)
    (σ : Nat → Inner T) (hs : ∀ n, (σ n).IsSet) (hn : ∀ n, (σ n).Normal) :
    ∃ i, (e.expr fun n => .inner (σ n)).eval = .ok (.inner i) ∧
      (f.expr fun n => .inner (σ n)).eval = .ok (.inner i) := by
  rw [forAllTypes_iff] at h
  obtain ⟨h1, h2, h3⟩ := cutOff_set hs hn (max e.vars f.vars)
  have := C122_values e f _ h1 h2 (h _ _ h3)
  rwa [cutOff_expr σ e (Nat.le_max_left _ _), cutOff_expr σ f (Nat.le_max_right _ _)] at this

/-- C122. The same with members. -/
theorem C122_members_any (e f : Formula) (h : forAllTypes (e.sameMembersFor f) (max e.vars f.vars) = true)
    (σ : Nat → Inner T) (hs : ∀ n, (σ n).IsSet) (hn : ∀ n, (σ n).Normal) :
    ∃ i j, (e.expr fun n => .inner (σ n)).eval = .ok (.inner i) ∧
      (f.expr fun n => .inner (σ n)).eval = .ok (.inner j) ∧ ∀ t, i.contains t = j.contains t := by
  rw [forAllTypes_iff] at h
  obtain ⟨h1, h2, h3⟩ := cutOff_set hs hn (max e.vars f.vars)
  have := C122_members e f _ h1 h2 (h _ _ h3)
  rwa [cutOff_expr σ e (Nat.le_max_left _ _), cutOff_expr σ f (Nat.le_max_right _ _)] at this

/-- C122. Passing the test for members for all types is having the same members for all normal sets of integers. -/
theorem C122_members_all (e f : Formula) :
    forAllTypes (e.sameMembersFor f) (max e.vars f.vars) = true ↔
      ∀ (σ : Nat → Inner Int) (i j : Inner Int), (∀ n, (σ n).IsSet) → (∀ n, (σ n).Normal) →
        (e.expr fun n => .inner (σ n)).eval = .ok (.inner i) →
        (f.expr fun n => .inner (σ n)).eval = .ok (.inner j) → ∀ t, i.contains t = j.contains t := by
  constructor
  · intro h σ i j hs hn hi hj
    obtain ⟨i', j', h1, h2, h3⟩ := C122_members_any e f h σ hs hn
    rw [hi] at h1
    rw [hj] at h2
    injection h1 with h1; injection h1 with h1
    injection h2 with h2; injection h2 with h2
    subst h1 h2
    exact h3
  · intro h
    rw [forAllTypes_iff]
    intro down up _
    by_contra hn
    obtain ⟨σ, i, j, t, hσ, h1, h2, hne⟩ := C122_members_complete e f down up (by simpa using hn)
    exact hne (h σ i j (fun n => (hσ n).1) (fun n => (hσ n).2.1) h1 h2 t)

/-! ### Inclusions -/

/-- C122. Inclusions are decided as well: if `e ∪ f` passes the test against `f`, then all members of the value of `e` are
members of the value of `f`. -/
theorem C122_subset (e f : Formula) (σ : Nat → Inner T) (hs : ∀ n, (σ n).IsSet) (hn : ∀ n, (σ n).Normal)
    (h : (union e f).sameMembersFor f (fun n => (σ n).goesDown) (fun n => (σ n).goesUp) = true) :
    ∃ i j, (e.expr fun n => .inner (σ n)).eval = .ok (.inner i) ∧
      (f.expr fun n => .inner (σ n)).eval = .ok (.inner j) ∧ ∀ t, i.contains t = true → j.contains t = true := by
  have hn' := fun n => (Inner.normal_iff _).mp (hn n)
  obtain ⟨i, h1, -, -, -, -, h6⟩ := eval_spots σ hs hn' e
  obtain ⟨u, u1, -, -, -, -, u6⟩ := eval_spots σ hs hn' (union e f)
  obtain ⟨u', j, g1, g2, g3⟩ := C122_members _ f σ hs hn h
  rw [u1] at g1
  injection g1 with g1; injection g1 with g1
  subst g1
  refine ⟨i, j, h1, g2, fun t ht => ?_⟩
  rw [contains_spot, h6] at ht
  rw [← g3, contains_spot, u6]
  exact Or.inl ht

/-- C122. If it does not pass, there are normal sets of integers of these types and a member of the value of `e` that is
not in the value of `f`. -/
theorem C122_subset_complete (e f : Formula) (down up : Nat → Bool)
    (h : (union e f).sameMembersFor f down up = false) :
    ∃ (σ : Nat → Inner Int) (i j : Inner Int) (t : Int),
      (∀ n, (σ n).IsSet ∧ (σ n).Normal ∧ (σ n).goesDown = down n ∧ (σ n).goesUp = up n) ∧
      (e.expr fun n => .inner (σ n)).eval = .ok (.inner i) ∧
      (f.expr fun n => .inner (σ n)).eval = .ok (.inner j) ∧ i.contains t = true ∧ j.contains t = false := by
  obtain ⟨σ, u, j, t, hσ, h1, h2, hne⟩ := C122_members_complete _ f down up h
  have hn' := fun n => (Inner.normal_iff _).mp (hσ n).2.1
  obtain ⟨i, i1, -, -, -, -, i6⟩ := eval_spots σ (fun n => (hσ n).1) hn' e
  obtain ⟨u', u1, -, -, -, -, u6⟩ := eval_spots σ (fun n => (hσ n).1) hn' (union e f)
  obtain ⟨j', j1, -, -, -, -, j6⟩ := eval_spots σ (fun n => (hσ n).1) hn' f
  rw [h1] at u1
  injection u1 with u1; injection u1 with u1
  rw [h2] at j1
  injection j1 with j1; injection j1 with j1
  subst u1 j1
  have hor : u.contains t = true ↔ i.contains t = true ∨ j.contains t = true := by
    rw [contains_spot, contains_spot, contains_spot, u6, i6, j6]; rfl
  refine ⟨σ, i, j, t, hσ, i1, h2, ?_⟩
  revert hne hor
  cases i.contains t <;> cases j.contains t <;> cases u.contains t <;> simp

/-! ### Some laws -/

/-- C122. What one order of an intersection drops, the other keeps: together they have exactly the elements of both, for
normal sets of all types. -/
theorem C122_both_orders (a b : Inner T) (ha : a.IsSet) (hb : b.IsSet) (na : a.Normal) (nb : b.Normal) :
    ∃ c d u : Inner T, (Any.inner a).inter (.inner b) = .ok c ∧ (Any.inner b).inter (.inner a) = .ok d ∧
      (Any.inner c).union (.inner d) = .ok (.inner u) ∧ ∀ t, u.contains t = (a.contains t && b.contains t) := by
  let σ : Nat → Inner T := fun n => if n = 0 then a else b
  have hs : ∀ n, (σ n).IsSet := fun n => by by_cases h : n = 0 <;> simp [σ, h, ha, hb]
  have hn : ∀ n, (σ n).WF := fun n => by
    rw [← Inner.normal_iff]; by_cases h : n = 0 <;> simp [σ, h, na, nb]
  obtain ⟨c, hc, -⟩ := Any.inter_comp (.inner a) (.inner b)
  obtain ⟨d, hd, -⟩ := Any.inter_comp (.inner b) (.inner a)
  obtain ⟨u, hu, -, -, -, -, h6⟩ := eval_spots σ hs hn (.union (.inter (.var 0) (.var 1)) (.inter (.var 1) (.var 0)))
  have hu : (Any.inner c).union (.inner d) = .ok (.inner u) := by
    rw [← hu]
    simp only [expr, Expr.eval, Res.ok_bind, σ]
    simp [hc, hd, pure, bind]
    rfl
  refine ⟨c, d, u, hc, hd, hu, fun t => ?_⟩
  rw [Bool.eq_iff_iff, Bool.and_eq_true, contains_spot, contains_spot, contains_spot, h6]
  have e0 : σ 0 = a := rfl
  have e1 : σ 1 = b := rfl
  simp only [spots, Set.mem_union, e0, e1]
  have key : ∀ (x y : Bool) (A B : Set (Spot T)) (p : Spot T),
      p ∈ (if x then (A ∩ B) \ (tail A \ tail B) else A ∩ B) ∨ p ∈ (if y then (B ∩ A) \ (tail B \ tail A) else B ∩ A) ↔
        p ∈ A ∧ p ∈ B := by
    intro x y A B p
    cases x <;> cases y <;>
      simp only [if_true, if_false, Bool.false_eq_true, Set.mem_sdiff, Set.mem_inter_iff] <;> tauto
  exact key _ _ _ _ _

/-- C122. Absorption holds for normal sets of all types, even where the intersection drops members; with the operands of the
outer intersection exchanged it does not (C119). -/
theorem C122_absorption (a b : Inner T) (ha : a.IsSet) (hb : b.IsSet) (na : a.Normal) (nb : b.Normal) :
    ∃ c u : Inner T, (Any.inner a).inter (.inner b) = .ok c ∧ (Any.inner a).union (.inner c) = .ok (.inner a) ∧
      (Any.inner a).union (.inner b) = .ok (.inner u) ∧ (Any.inner a).inter (.inner u) = .ok a := by
  let σ : Nat → Inner T := fun n => if n = 0 then a else b
  have hs : ∀ n, (σ n).IsSet := fun n => by by_cases h : n = 0 <;> simp [σ, h, ha, hb]
  have hn : ∀ n, (σ n).Normal := fun n => by by_cases h : n = 0 <;> simp [σ, h, na, nb]
  obtain ⟨c, hc, -⟩ := Any.inter_comp (.inner a) (.inner b)
  obtain ⟨u, hu, -⟩ := eval_spots σ hs (fun n => (Inner.normal_iff _).mp (hn n)) (.union (.var 0) (.var 1))
  have hu : (Any.inner a).union (.inner b) = .ok (.inner u) := hu
  obtain ⟨i, h1, h2⟩ := C122_values_any (.union (.var 0) (.inter (.var 0) (.var 1))) (.var 0) (by decide +kernel) σ hs hn
  obtain ⟨j, g1, g2⟩ := C122_values_any (.inter (.var 0) (.union (.var 0) (.var 1))) (.var 0) (by decide +kernel) σ hs hn
  rw [← h2] at h1
  rw [← g2] at g1
  simp only [expr, Expr.eval, Res.ok_bind, σ] at h1 g1
  simp [hc, pure, bind, Res.bind] at h1
  simp [hu, pure, bind, Res.bind] at g1
  refine ⟨c, u, hc, h1, hu, ?_⟩
  cases h : (Any.inner a).inter (.inner u) with
  | panic m => rw [h] at g1; cases g1
  | ok d => rw [h] at g1; injection g1 with g1; injection g1 with g1; rw [g1]

section Samples

private def a : Formula := .var 0
private def b : Formula := .var 1
private def c : Formula := .var 2
private def no : Nat → Bool := fun _ => false
private def yes : Nat → Bool := fun _ => true

-- laws of `LowerBoundedSet`s: absorption, and intersecting again with what was intersected before
example : (union a (inter a b)).sameValuesFor a no yes = true := by decide +kernel
example : (inter a (union a b)).sameValuesFor a no yes = true := by decide +kernel
example : (inter (inter a b) b).sameValuesFor (inter a b) no yes = true := by decide +kernel
example : (inter (inter a b) a).sameValuesFor (inter a b) no yes = true := by decide +kernel
example : (inter a (inter a b)).sameValuesFor (inter a b) no yes = true := by decide +kernel

-- not laws: the same with the second set first, and the other absorption
example : (inter b (inter a b)).sameMembersFor (inter a b) no yes = false := by decide +kernel
example : (inter (union a b) a).sameMembersFor a no yes = false := by decide +kernel
example : (inter a b).sameMembersFor (inter b a) no yes = false := by decide +kernel

-- inclusions: what is dropped only ever makes results smaller, until they are complemented
example : forAllTypes ((union (inter a b) b).sameMembersFor b) 2 = true := by decide +kernel
example : (union (complement (union (complement a) (complement b))) (inter a b)).sameMembersFor (inter a b) no yes = false := by
  decide +kernel

-- all types at once
example : forAllTypes ((union a (inter a b)).sameValuesFor a) 2 = true := by decide +kernel
example : forAllTypes ((inter a (union a b)).sameValuesFor a) 2 = true := by decide +kernel
example : forAllTypes ((inter a b).sameMembersFor (inter b a)) 2 = false := by decide +kernel
example : forAllTypes ((union (inter a b) (inter b a)).sameMembersFor
    (complement (union (complement a) (complement b)))) 2 = true := by decide +kernel

-- values the theorems are about
example : Samples.lbs.IsSet ∧ Samples.lbs.Normal ∧ Samples.lbs.goesDown = false ∧ Samples.lbs.goesUp = true ∧
    Samples.lbs'.IsSet ∧ Samples.lbs'.Normal ∧ (Any.inner Samples.lbs).inter (.inner Samples.lbs') ≠
      (Any.inner Samples.lbs').inter (.inner Samples.lbs) := by
  refine ⟨trivial, by decide, rfl, rfl, trivial, by decide, by decide +kernel⟩

end Samples

end Rangetools
