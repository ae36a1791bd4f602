import Verif.Proofs.TermsValue
import Verif.Props.Scan

/-!
# C123: which identities between expressions hold, for all types of variables
-/

namespace Rangetools
open Iv
open Formula (IsCut Around SpotAgree)

variable {T : Type} [LinearOrder T]

/-! ### The cuts of a value -/

/-- The bounds, as spots. -/
def Inner.bends : Inner T → List (Spot T)
  | .br r => [r.start.spot, r.stop.spot]
  | .lbr r => [r.start.spot]
  | .ubr r => [r.stop.spot]
  | .er | .ur => []
  | i => i.cutSpots

omit [LinearOrder T] in
theorem Inner.bends_isCut {i : Inner T} : ∀ c ∈ i.bends, IsCut c := by
  intro c hc
  cases i with
  | br r =>
    rcases List.mem_cons.mp hc with rfl | hc
    · exact r.start.isCut
    · rw [List.mem_singleton.mp hc]; exact r.stop.isCut
  | lbr r => rw [List.mem_singleton.mp hc]; exact r.start.isCut
  | ubr r => rw [List.mem_singleton.mp hc]; exact r.stop.isCut
  | er => cases hc
  | ur => cases hc
  | bs s => exact Inner.cutSpots_isCut c hc
  | lbs s => exact Inner.cutSpots_isCut c hc
  | ubs s => exact Inner.cutSpots_isCut c hc
  | us s => exact Inner.cutSpots_isCut c hc

/-- What is drawn for a variable. -/
inductive Term.Drawing (K : List (Spot T)) : Line → Set (Spot T) → Prop
  | unused : Drawing K .unused ∅
  | set {i : Inner T} (h : i.IsSet) (hK : ∀ c ∈ i.cutSpots, c ∈ K) : Drawing K (.set i.goesDown i.goesUp) i.inside
  | rising {c : Spot T} (h : IsCut c) (hK : c ∈ K) : Drawing K .rising {p | c < p}
  | falling {c : Spot T} (h : IsCut c) (hK : c ∈ K) : Drawing K .falling {p | p < c}

theorem Term.drawing (κ : Nat → Option Shape) (ι : Nat → Inner T) (hκ : ∀ n, (ι n).shape = κ n) (m : Nat) :
    Drawing (ι (m / 2)).bends (Shape.line κ m) (drawn κ ι m) := by
  have hl : Shape.line κ m = match (ι (m / 2)).shape with
    | none => .unused
    | some k =>
      if k.set then (if m % 2 = 0 then .set (!k.below) (!k.above) else .unused)
      else if m % 2 = 0 then (if k.below then .rising else .unused) else (if k.above then .falling else .unused) := by
    rw [hκ]; rfl
  unfold drawn
  rw [hl]
  clear hl
  generalize ι (m / 2) = i
  rcases Nat.mod_two_eq_zero_or_one m with h | h <;> rw [h]
  · cases i <;> simp only [Inner.shape, if_true, if_false, Bool.false_eq_true, reduceCtorEq]
    · exact .rising (LowerBound.isCut _) (by simp [Inner.bends])
    · exact .set (i := .bs _) trivial fun c hc => hc
    · exact .rising (LowerBound.isCut _) (by simp [Inner.bends])
    · exact .set (i := .lbs _) trivial fun c hc => hc
    · exact .unused
    · exact .set (i := .ubs _) trivial fun c hc => hc
    · exact .unused
    · exact .set (i := .us _) trivial fun c hc => hc
    · exact .unused
  · cases i <;> simp only [Inner.shape, if_true, if_false, Bool.false_eq_true, reduceCtorEq, Nat.one_ne_zero]
    · exact .falling (UpperBound.isCut _) (by simp [Inner.bends])
    · exact .unused
    · exact .unused
    · exact .unused
    · exact .falling (UpperBound.isCut _) (by simp [Inner.bends])
    · exact .unused
    · exact .unused
    · exact .unused
    · exact .unused

namespace Term.Drawing
variable {K : List (Spot T)} {l : Line} {A : Set (Spot T)}

theorem mono {K' : List (Spot T)} (h : Drawing K l A) (hK : ∀ c ∈ K, c ∈ K') : Drawing K' l A := by
  cases h with
  | unused => exact .unused
  | set h h' => exact .set h fun c hc => hK c (h' c hc)
  | rising h h' => exact .rising h (hK _ h')
  | falling h h' => exact .falling h (hK _ h')

theorem const (h : Drawing K l A) {p q : Spot T} (hpq : p ≤ q) (hc : ∀ c ∈ K, ¬ (p ≤ c ∧ c ≤ q)) : p ∈ A ↔ q ∈ A := by
  cases h with
  | unused => exact Iff.rfl
  | set h h' => exact Inner.inside_const h hpq fun c hc' => hc c (h' c hc')
  | @rising c h h' =>
    exact ⟨fun h : c < p => h.trans_le hpq, fun h : c < q => not_le.mp fun h'' => hc c h' ⟨h'', h.le⟩⟩
  | @falling c h h' =>
    exact ⟨fun h : p < c => not_le.mp fun h'' => hc c h' ⟨h.le, h''⟩, fun h : q < c => hpq.trans_lt h⟩

theorem top (h : Drawing K l A) {p : Spot T} (hc : ∀ c ∈ K, c < p) : p ∈ A ↔ l.up = true := by
  cases h with
  | unused => simp [Line.up]
  | set h h' => exact Inner.inside_top h fun c hc' => hc c (h' c hc')
  | @rising c h h' => exact ⟨fun _ => rfl, fun _ => hc c h'⟩
  | @falling c h h' => exact ⟨fun h : p < c => absurd (hc c h') h.not_gt, fun h => by simp [Line.up] at h⟩

theorem open' (h : Drawing K l A) {p c q : Spot T} (ha : Around p c q) (hc : c ∈ A) : p ∈ A ∧ q ∈ A := by
  cases h with
  | unused => cases hc
  | set h h' => exact Inner.inside_open h ha hc
  | @rising d h h' =>
    have hc : d < c := hc
    refine ⟨(ha.le_of_lt d hc).lt_of_ne ?_, hc.trans ha.gt⟩
    rintro rfl
    exact ha.before h
  | @falling d h h' =>
    have hc : c < d := hc
    refine ⟨ha.lt.trans hc, (ha.le_of_gt d hc).lt_of_ne ?_⟩
    rintro rfl
    exact ha.after h

theorem germ (h : Drawing K l A) {p c q : Spot T} {g : Germ} (ha : Around p c q) (hg : SpotAgree A p c q g) :
    g ∈ l.moves g.right := by
  cases h with
  | unused =>
    have h1 := hg.1.mpr
    have h2 := hg.2.1.mpr
    have h3 := hg.2.2.mpr
    cases g with
    | nothing => exact List.mem_singleton.mpr rfl
    | before => exact (h1 rfl).elim
    | after => exact (h3 rfl).elim
    | sides => exact (h1 rfl).elim
    | everything => exact (h1 rfl).elim
  | set h h' => exact Formula.mem_follow.mpr rfl
  | @rising d h h' =>
    have h1 : g.left = true → g.middle = true := fun h => hg.2.1.mp ((hg.1.mpr h : d < p).trans ha.lt)
    have h2 : g.middle = true → g.right = true := fun h => hg.2.2.mp ((hg.2.1.mpr h : d < c).trans ha.gt)
    cases g <;> simp_all [Line.moves, Germ.left, Germ.middle, Germ.right]
  | @falling d h h' =>
    have h1 : g.right = true → g.middle = true := fun h => hg.2.1.mp (ha.gt.trans (hg.2.2.mpr h : q < d))
    have h2 : g.middle = true → g.left = true := fun h => hg.1.mp (ha.lt.trans (hg.2.1.mpr h : c < d))
    cases g <;> simp_all [Line.moves, Germ.left, Germ.middle, Germ.right]

end Term.Drawing

/-! ### Expressions that pass the test -/

/-- The cuts of the first variables. -/
def Term.allCuts (ι : Nat → Inner T) (k : Nat) : List (Spot T) := (List.range k).flatMap fun n => (ι n).bends

omit [LinearOrder T] in
theorem Term.allCuts_isCut {ι : Nat → Inner T} {k : Nat} : ∀ c ∈ allCuts ι k, IsCut c := by
  intro c hc
  obtain ⟨n, -, hc⟩ := List.mem_flatMap.mp hc
  exact Inner.bends_isCut c hc

theorem Term.drawing_all (κ : Nat → Option Shape) (ι : Nat → Inner T) (hκ : ∀ n, (ι n).shape = κ n) {k m : Nat}
    (h : m < 2 * k) : Drawing (allCuts ι k) (Shape.line κ m) (drawn κ ι m) :=
  (drawing κ ι hκ m).mono fun _ hc => List.mem_flatMap.mpr ⟨m / 2, List.mem_range.mpr (by omega), hc⟩

theorem Term.exists_fits_of (κ : Nat → Option Shape) (ι : Nat → Inner T) (hκ : ∀ n, (ι n).shape = κ n) (k : Nat)
    (p : Spot T) (hp : p ∉ allCuts ι k) :
    ∃ m, Core.Scanned (2 * k) (Shape.line κ) m ∧ Core.Fits (drawn κ ι) (2 * k) m p :=
  Core.exists_fits (K := allCuts ι k) allCuts_isCut
    (fun _ hn _ _ hpq hc => (drawing_all κ ι hκ hn).const hpq hc) (fun _ hn _ hc => (drawing_all κ ι hκ hn).top hc)
    (fun _ hn _ _ _ ha hc => (drawing_all κ ι hκ hn).open' ha hc)
    (fun _ hn _ _ _ _ ha hg => (drawing_all κ ι hκ hn).germ ha hg) p hp

/-- Drawings that agree at all cuts the search finds agree. -/
theorem Term.spots_eq (κ : Nat → Option Shape) (ι : Nat → Inner T) (hκ : ∀ n, (ι n).shape = κ n) {k : Nat} {a b : Core}
    (ha : a.Below (2 * k)) (hb : b.Below (2 * k))
    (h : ∀ m, Core.Scanned (2 * k) (Shape.line κ) m → ∀ v : Nat → Germ,
      (∀ n < 2 * k, v n ∈ (Shape.line κ n).moves (m (.var n)).1) → a.atCut m v = b.atCut m v) :
    a.spots (drawn κ ι) = b.spots (drawn κ ι) := by
  ext p
  by_cases hp : p ∈ allCuts ι k
  · obtain ⟨x, y, har⟩ := (allCuts_isCut p hp).around
    obtain ⟨m, hsc, hf⟩ := exists_fits_of κ ι hκ k y fun h => har.after (allCuts_isCut y h)
    have hv : ∀ n, n < 2 * k → ∃ g, SpotAgree (drawn κ ι n) x p y g := fun n hn =>
      Germ.exists_of (fun h' => ((drawing_all κ ι hκ hn).open' har h').1)
        fun h' => ((drawing_all κ ι hκ hn).open' har h').2
    have : Nonempty Germ := ⟨.nothing⟩
    choose! v hv using hv
    rw [(Core.atCut_agree har hf hv a ha).2.1, (Core.atCut_agree har hf hv b hb).2.1, h m hsc v fun n hn => ?_]
    have h1 := (drawing_all κ ι hκ hn).germ har (hv n hn)
    have h2 : (v n).right = (m (.var n)).1 := by
      rw [Bool.eq_iff_iff, ← (hv n hn).2.2, ← (hf (.var n) (Core.below_var.mpr hn)).1]; rfl
    rwa [h2] at h1
  · obtain ⟨m, hsc, hf⟩ := exists_fits_of κ ι hκ k p hp
    have hst : ∀ n < 2 * k, (Shape.line κ n).stay (m (.var n)).1 ∈ (Shape.line κ n).moves (m (.var n)).1 :=
      fun n _ => Line.stay_mem _ _
    have hr := Core.right_of_mem hsc (v := fun n => (Shape.line κ n).stay (m (.var n)).1) hst
    rw [(hf a ha).1, (hf b hb).1, ← Core.right_atCut hsc hr a ha, ← Core.right_atCut hsc hr b hb, h m hsc _ hst]

/-- C123. Expressions that pass the test for the types of the variables have equal values, of the same type. -/
theorem C123_values (e f : Term) (σ : Nat → Any T) (hn : ∀ n, (σ n).toInner.Normal)
    (h : e.sameValues (fun n => (σ n).toInner.shape) f = true) :
    ∃ v w, (e.expr σ).eval = .ok v ∧ (f.expr σ).eval = .ok w ∧ v.toInner = w.toInner := by
  have hn' := fun n => (Inner.normal_iff _).mp (hn n)
  obtain ⟨v, v1, v2, v3, v4, v5⟩ := Term.eval_drawn _ σ (fun _ => rfl) hn' e
  obtain ⟨w, w1, w2, w3, w4, w5⟩ := Term.eval_drawn _ σ (fun _ => rfl) hn' f
  obtain ⟨hs, hc⟩ := Term.sameValues_iff.mp h
  have be := Term.below_core (fun n => (σ n).toInner.shape) e (Nat.le_max_left e.vars f.vars)
  have bf := Term.below_core (fun n => (σ n).toInner.shape) f (Nat.le_max_right e.vars f.vars)
  refine ⟨v, w, v1, w1, Inner.eq_of_drawings v2 w2 (by rw [v3, w3, hs]) ?_ ?_⟩
  · rw [v4, w4]
    exact Term.spots_eq _ _ (fun _ => rfl) be.1 bf.1 fun m hm v hv => (hc m hm v hv).1
  · rw [v5, w5]
    exact Term.spots_eq _ _ (fun _ => rfl) be.2 bf.2 fun m hm v hv => (hc m hm v hv).2

omit [LinearOrder T] in
theorem Term.allLeaves {P : Any T → Prop} (σ : Nat → Any T) (h : ∀ n, P (σ n)) (e : Term) : (e.expr σ).AllLeaves P := by
  induction e with
  | var n => exact h n
  | toInner e ih => exact ih
  | toSet e ih => exact ih
  | union e f ihe ihf => exact ⟨ihe, ihf⟩
  | inter e f ihe ihf => exact ⟨ihe, ihf⟩
  | complement e ih => exact ih

/-- The members of the value of an expression. -/
theorem Term.contains_iff (κ : Nat → Option Shape) (σ : Nat → Any T) (hκ : ∀ n, (σ n).toInner.shape = κ n)
    (hn : ∀ n, (σ n).toInner.WF) (hf : ∀ n, (σ n).Fresh) (e : Term) :
    ∃ v, (e.expr σ).eval = .ok v ∧ ∀ t, v.contains t = true ↔ spot t 2 ∈ (e.inside κ).spots (drawn κ fun n => (σ n).toInner) := by
  obtain ⟨v, v1, v2, v3, v4, v5⟩ := Term.eval_drawn κ σ hκ hn e
  refine ⟨v, v1, fun t => ?_⟩
  rw [v.contains_probe ((e.expr σ).eval_fresh (allLeaves σ hf e) v1), inside, Core.spots_meet, ← v4, ← v5, ← Inner.inside_eq]
  exact (v.toInner.mem_inside (spot t 2)).symm

/-- C123. Expressions that pass the test for members have values with the same members. -/
theorem C123_members (e f : Term) (σ : Nat → Any T) (hn : ∀ n, (σ n).toInner.Normal) (hf : ∀ n, (σ n).Fresh)
    (h : e.sameMembers (fun n => (σ n).toInner.shape) f = true) :
    ∃ v w, (e.expr σ).eval = .ok v ∧ (f.expr σ).eval = .ok w ∧ ∀ t, v.contains t = w.contains t := by
  have hn' := fun n => (Inner.normal_iff _).mp (hn n)
  obtain ⟨v, v1, v2⟩ := Term.contains_iff _ σ (fun _ => rfl) hn' hf e
  obtain ⟨w, w1, w2⟩ := Term.contains_iff _ σ (fun _ => rfl) hn' hf f
  refine ⟨v, w, v1, w1, fun t => ?_⟩
  rw [Bool.eq_iff_iff, v2, w2]
  obtain ⟨m, hsc, hfit⟩ := Term.exists_fits_of _ (fun n => (σ n).toInner) (fun _ => rfl) (max e.vars f.vars) (spot t 2)
    fun h => Formula.not_isCut t (by decide) (by decide) (Term.allCuts_isCut _ h)
  rw [(hfit _ (Term.below_inside _ e (Nat.le_max_left _ _))).1, (hfit _ (Term.below_inside _ f (Nat.le_max_right _ _))).1,
    Term.sameMembers_iff.mp h m hsc]

/-! ### Expressions that fail -/

/-- The memory after so many cuts. -/
def Core.run (ℓ : Nat → Line) (w : Nat → Nat → Germ) : Nat → Core.Memory
  | 0 => Core.aboveAll ℓ
  | i + 1 => Core.belowCut (run ℓ w i) (w i)

/-- What is drawn at a cut is allowed by what is drawn below the one before. -/
def Core.Chain (ℓ : Nat → Line) (k : Nat) (w : Nat → Nat → Germ) (L : Nat) : Prop :=
  ∀ i < L, ∀ n < k, w i n ∈ (ℓ n).moves (match i with
    | 0 => (ℓ n).up
    | j + 1 => (w j n).left)

theorem Core.run_congr {ℓ : Nat → Line} {w w' : Nat → Nat → Germ} {L : Nat} (h : ∀ i < L, w i = w' i) :
    run ℓ w L = run ℓ w' L := by
  induction L with
  | zero => rfl
  | succ L ih => rw [run, run, ih fun i hi => h i (hi.trans (Nat.lt_succ_self _)), h L (Nat.lt_succ_self _)]

theorem Core.run_var (ℓ : Nat → Line) (w : Nat → Nat → Germ) (L n : Nat) :
    (run ℓ w L (var n)).1 = match L with
    | 0 => (ℓ n).up
    | j + 1 => (w j n).left := by
  cases L <;> rfl

theorem Core.chain_append {ℓ : Nat → Line} {k L : Nat} {w : Nat → Nat → Germ} (hw : Chain ℓ k w L) {v : Nat → Germ}
    (hv : ∀ n < k, v n ∈ (ℓ n).moves (run ℓ w L (var n)).1) :
    ∃ w', Chain ℓ k w' (L + 1) ∧ run ℓ w' L = run ℓ w L ∧ w' L = v := by
  let w' : Nat → Nat → Germ := fun i => if i = L then v else w i
  have h0 : ∀ i < L, w' i = w i := fun i hi => if_neg hi.ne
  have h1 : w' L = v := if_pos rfl
  refine ⟨w', ?_, run_congr h0, h1⟩
  intro i hi n hn
  rcases Nat.lt_succ_iff_lt_or_eq.mp hi with hi | rfl
  · have := hw i hi n hn
    rw [h0 i hi]
    cases i with
    | zero => exact this
    | succ j => simp only at this ⊢; rwa [h0 j (Nat.lt_of_succ_lt hi)]
  · have := hv n hn
    rw [run_var] at this
    rw [h1]
    cases i with
    | zero => exact this
    | succ j => simp only at this ⊢; rwa [h0 j (Nat.lt_succ_self j)]

theorem Core.exists_run {ℓ : Nat → Line} {k : Nat} {m : Memory} (h : Scanned k ℓ m) :
    ∃ L w, Chain ℓ k w L ∧ run ℓ w L = m := by
  induction h with
  | start => exact ⟨0, fun _ _ => .nothing, fun i hi => absurd hi (Nat.not_lt_zero i), rfl⟩
  | @step m v _ hv ih =>
    obtain ⟨L, w, hw, rfl⟩ := ih
    obtain ⟨w', h1, h2, h3⟩ := chain_append hw hv
    exact ⟨L + 1, w', h1, by rw [run, h2, h3]⟩

/-- What is unused is never drawn. -/
theorem Core.Chain.nothing {ℓ : Nat → Line} {k L : Nat} {w : Nat → Nat → Germ} (hw : Chain ℓ k w L) {i n : Nat} (hi : i < L)
    (hn : n < k) (h : ℓ n = .unused) : w i n = .nothing := by
  have := hw i hi n hn
  rwa [h, Line.moves, List.mem_singleton] at this

theorem Core.Chain.formula {ℓ : Nat → Line} {k L : Nat} {w : Nat → Nat → Germ} (hw : Chain ℓ k w L) :
    Formula.Chain (fun n => (ℓ n).up) k w L := by
  intro i hi n hn
  refine Line.right_of_mem (hw i hi n hn) fun h => ?_
  cases i with
  | zero => simp only [h]; rfl
  | succ j => simp only; rw [hw.nothing (Nat.lt_of_succ_lt hi) hn h]; rfl

/-- A half-line upwards comes to an end once. -/
theorem Line.rising_path {w : Nat → Germ} {L : Nat} (h : ∀ i < L, w i ∈ Line.rising.moves (match i with
      | 0 => true
      | j + 1 => (w j).left)) :
    ∃ j ≤ L, ∀ i < L, ((w i).left = true ↔ i < j) ∧ ((w i).middle = true ↔ i < j) := by
  induction L with
  | zero => exact ⟨0, le_rfl, fun i hi => absurd hi (Nat.not_lt_zero i)⟩
  | succ L ih =>
    obtain ⟨j, hj, hp⟩ := ih fun i hi => h i (hi.trans (Nat.lt_succ_self _))
    have hL : w L ∈ Line.rising.moves (decide (j = L)) := by
      have := h L (Nat.lt_succ_self _)
      cases L with
      | zero => rwa [decide_eq_true (by omega : j = 0)]
      | succ M =>
        have e : (w M).left = decide (j = M + 1) := by
          rw [Bool.eq_iff_iff, (hp M (Nat.lt_succ_self M)).1, decide_eq_true_iff]
          omega
        simp only [e] at this
        exact this
    by_cases hjL : j = L
    · subst hjL
      rw [decide_eq_true rfl] at hL
      simp only [Line.moves, if_true, List.mem_cons, List.not_mem_nil, or_false] at hL
      rcases hL with hL | hL
      · refine ⟨j, Nat.le_succ j, fun i hi => ?_⟩
        rcases Nat.lt_succ_iff_lt_or_eq.mp hi with hi | rfl
        · exact hp i hi
        · rw [hL]; simp [Germ.left, Germ.middle]
      · refine ⟨j + 1, le_rfl, fun i hi => ?_⟩
        rcases Nat.lt_succ_iff_lt_or_eq.mp hi with hi' | rfl
        · have := hp i hi'
          rw [this.1, this.2]; constructor <;> omega
        · rw [hL]; simp [Germ.left, Germ.middle]
    · rw [decide_eq_false hjL] at hL
      simp only [Line.moves, Bool.false_eq_true, if_false, List.mem_singleton] at hL
      refine ⟨j, hj.trans (Nat.le_succ L), fun i hi => ?_⟩
      rcases Nat.lt_succ_iff_lt_or_eq.mp hi with hi' | rfl
      · exact hp i hi'
      · rw [hL]
        simp only [Germ.left, Germ.middle, Bool.false_eq_true, false_iff]
        omega

/-- A half-line downwards begins once. -/
theorem Line.falling_path {w : Nat → Germ} {L : Nat} (h : ∀ i < L, w i ∈ Line.falling.moves (match i with
      | 0 => false
      | j + 1 => (w j).left)) :
    ∃ j ≤ L, ∀ i < L, ((w i).left = true ↔ j ≤ i) ∧ ((w i).middle = true ↔ j < i) := by
  induction L with
  | zero => exact ⟨0, le_rfl, fun i hi => absurd hi (Nat.not_lt_zero i)⟩
  | succ L ih =>
    obtain ⟨j, hj, hp⟩ := ih fun i hi => h i (hi.trans (Nat.lt_succ_self _))
    have hL : w L ∈ Line.falling.moves (decide (j < L)) := by
      have := h L (Nat.lt_succ_self _)
      cases L with
      | zero => rwa [decide_eq_false (Nat.not_lt_zero j)]
      | succ M =>
        have e : (w M).left = decide (j < M + 1) := by
          rw [Bool.eq_iff_iff, (hp M (Nat.lt_succ_self M)).1, decide_eq_true_iff]
          omega
        simp only [e] at this
        exact this
    by_cases hjL : j < L
    · rw [decide_eq_true hjL] at hL
      simp only [Line.moves, if_true, List.mem_singleton] at hL
      refine ⟨j, hj.trans (Nat.le_succ L), fun i hi => ?_⟩
      rcases Nat.lt_succ_iff_lt_or_eq.mp hi with hi' | rfl
      · exact hp i hi'
      · rw [hL]
        simp only [Germ.left, Germ.middle, true_iff]
        omega
    · obtain rfl : j = L := by omega
      rw [decide_eq_false (Nat.lt_irrefl j)] at hL
      simp only [Line.moves, Bool.false_eq_true, if_false, List.mem_cons, List.not_mem_nil, or_false] at hL
      rcases hL with hL | hL
      · refine ⟨j + 1, le_rfl, fun i hi => ?_⟩
        rcases Nat.lt_succ_iff_lt_or_eq.mp hi with hi' | rfl
        · have := hp i hi'
          rw [this.1, this.2]; constructor <;> omega
        · rw [hL]; simp [Germ.left, Germ.middle]
      · refine ⟨j, Nat.le_succ j, fun i hi => ?_⟩
        rcases Nat.lt_succ_iff_lt_or_eq.mp hi with hi | rfl
        · exact hp i hi
        · rw [hL]; simp [Germ.left, Germ.middle]

open Formula (before before_lt before_le)

/-- The drawing has these values around the cuts before `0`, `-1`, ... and comes to an end if it can. -/
def Term.Follows (l : Line) (w : Nat → Germ) (L : Nat) (A : Set (Spot Int)) : Prop :=
  (∀ p, before 0 < p → (p ∈ A ↔ l.up = true)) ∧
    (∀ i : Nat, i ≤ L → ∀ p, before (-i - 1) < p → p < before (-i) → (p ∈ A ↔ (w i).left = true)) ∧
    (∀ i : Nat, i ≤ L → (before (-i) ∈ A ↔ (w i).middle = true)) ∧
    ((w L).left = l.down → ∀ p, p < before (-L) → (p ∈ A ↔ l.down = true))

theorem Term.follows_rising {w : Nat → Germ} {L : Nat} (h : ∀ i < L + 1, w i ∈ Line.rising.moves (match i with
      | 0 => true
      | j + 1 => (w j).left)) : ∃ z : Int, Follows .rising w L {p | before z < p} := by
  obtain ⟨j, hj, hp⟩ := Line.rising_path h
  refine ⟨-j, fun p hp => ⟨fun _ => rfl, fun _ => lt_of_le_of_lt (before_le.mpr (by omega)) hp⟩, ?_, ?_, ?_⟩
  · intro i hi p h1 h2
    rw [(hp i (by omega)).1]
    constructor
    · intro h3
      have := before_lt.mp (lt_trans h3 h2)
      omega
    · intro h3
      exact lt_of_le_of_lt (before_le.mpr (by omega)) h1
  · intro i hi
    rw [(hp i (by omega)).2]
    show before _ < before _ ↔ _
    rw [before_lt]
    omega
  · intro he p h1
    have hj : ¬ L < j := fun h => by
      have := (hp L (Nat.lt_succ_self L)).1.mpr h
      rw [he] at this
      exact Bool.noConfusion this
    refine ⟨fun h => ?_, fun h => Bool.noConfusion h⟩
    have := before_lt.mp (lt_trans h h1)
    omega

theorem Term.follows_falling {w : Nat → Germ} {L : Nat} (h : ∀ i < L + 1, w i ∈ Line.falling.moves (match i with
      | 0 => false
      | j + 1 => (w j).left)) : ∃ z : Int, Follows .falling w L {p | p < before z} := by
  obtain ⟨j, hj, hp⟩ := Line.falling_path h
  refine ⟨-j, fun p hp => ⟨fun h => ?_, fun h => Bool.noConfusion h⟩, ?_, ?_, ?_⟩
  · have := before_lt.mp (lt_trans hp h)
    omega
  · intro i hi p h1 h2
    rw [(hp i (by omega)).1]
    constructor
    · intro h3
      have := before_lt.mp (lt_trans h1 h3)
      omega
    · intro h3
      exact lt_of_lt_of_le h2 (before_le.mpr (by omega))
  · intro i hi
    rw [(hp i (by omega)).2]
    show before _ < before _ ↔ _
    rw [before_lt]
    omega
  · intro he p h1
    have hj := (hp L (Nat.lt_succ_self L)).1.mp (by rw [he]; rfl)
    exact ⟨fun _ => rfl, fun _ => lt_of_lt_of_le h1 (before_le.mpr (by omega))⟩

/-- Integer values of given types with given values around the cuts before `0`, `-1`, ... -/
theorem Term.exists_values (κ : Nat → Option Shape) {k L : Nat} {w : Nat → Nat → Germ}
    (hw : Core.Chain (Shape.line κ) (2 * k) w (L + 1)) :
    ∃ ι : Nat → Inner Int, (∀ n, (ι n).shape = κ n ∧ (ι n).Normal) ∧
      ∀ m < 2 * k, Follows (Shape.line κ m) (fun i => w i m) L (drawn κ ι m) := by
  let down : Nat → Bool := fun m => match Shape.line κ m with
    | .set d _ => d
    | _ => false
  obtain ⟨σ, hσ, hf⟩ := Formula.exists_sets down (fun n => (Shape.line κ n).up) hw.formula
  have key : ∀ n, ∃ i : Inner Int, i.shape = κ n ∧ i.Normal ∧ ∀ m < 2 * k, m / 2 = n →
      Follows (Shape.line κ m) (fun i => w i m) L (drawn κ (fun _ => i) m) := by
    intro n
    have d0 : (2 * n) / 2 = n := by omega
    have d1 : (2 * n + 1) / 2 = n := by omega
    have m0 : (2 * n) % 2 = 0 := by omega
    have m1 : (2 * n + 1) % 2 = 1 := by omega
    have k0 : Shape.line κ (2 * n) = match κ n with
        | none => .unused
        | some k => if k.set then .set (!k.below) (!k.above) else if k.below then .rising else .unused := by
      simp only [Shape.line, m0, d0, if_true]; rfl
    have k1 : Shape.line κ (2 * n + 1) = match κ n with
        | none => .unused
        | some k => if k.set then .unused else if k.above then .falling else .unused := by
      simp only [Shape.line, m1, d1, Nat.one_ne_zero, if_false]; rfl
    have split : ∀ i : Inner Int,
        (2 * n < 2 * k → Follows (Shape.line κ (2 * n)) (fun i => w i (2 * n)) L (drawn κ (fun _ => i) (2 * n))) →
        (2 * n + 1 < 2 * k →
          Follows (Shape.line κ (2 * n + 1)) (fun i => w i (2 * n + 1)) L (drawn κ (fun _ => i) (2 * n + 1))) →
        ∀ m < 2 * k, m / 2 = n → Follows (Shape.line κ m) (fun i => w i m) L (drawn κ (fun _ => i) m) := by
      intro i h1 h2 m hm hmn
      rcases (by omega : m = 2 * n ∨ m = 2 * n + 1) with rfl | rfl
      · exact h1 hm
      · exact h2 hm
    have nothing : ∀ (i : Inner Int) m, m < 2 * k → Shape.line κ m = .unused →
        Follows (Shape.line κ m) (fun i => w i m) L (drawn κ (fun _ => i) m) := by
      intro i m hm hl
      have e : drawn κ (fun _ => i) m = ∅ := if_pos hl
      rw [e, hl]
      refine ⟨fun p _ => by simp [Line.up], fun j hj p _ _ => ?_, fun j hj => ?_, fun _ p _ => by simp [Line.down]⟩
      · simp [hw.nothing (Nat.lt_succ_of_le hj) hm hl, Germ.left]
      · simp [hw.nothing (Nat.lt_succ_of_le hj) hm hl, Germ.middle]
    have rise : Shape.line κ (2 * n) = .rising → ∃ z : Int, 2 * n < 2 * k →
        Follows (Shape.line κ (2 * n)) (fun i => w i (2 * n)) L {p | before z < p} := by
      intro hl
      by_cases hm : 2 * n < 2 * k
      · obtain ⟨z, hz⟩ := follows_rising (w := fun i => w i (2 * n)) (L := L) (by
          intro i hi
          have := hw i hi (2 * n) hm
          rw [hl] at this
          cases i <;> exact this)
        exact ⟨z, fun _ => by rw [hl]; exact hz⟩
      · exact ⟨0, fun h => absurd h hm⟩
    have fall : Shape.line κ (2 * n + 1) = .falling → ∃ z : Int, 2 * n + 1 < 2 * k →
        Follows (Shape.line κ (2 * n + 1)) (fun i => w i (2 * n + 1)) L {p | p < before z} := by
      intro hl
      by_cases hm : 2 * n + 1 < 2 * k
      · obtain ⟨z, hz⟩ := follows_falling (w := fun i => w i (2 * n + 1)) (L := L) (by
          intro i hi
          have := hw i hi (2 * n + 1) hm
          rw [hl] at this
          cases i <;> exact this)
        exact ⟨z, fun _ => by rw [hl]; exact hz⟩
      · exact ⟨0, fun h => absurd h hm⟩
    have dr0 : ∀ i : Inner Int, Shape.line κ (2 * n) ≠ .unused → drawn κ (fun _ => i) (2 * n) = i.rise := by
      intro i h; simp only [drawn, if_neg h, m0, if_true]
    have dr1 : ∀ i : Inner Int, Shape.line κ (2 * n + 1) ≠ .unused → drawn κ (fun _ => i) (2 * n + 1) = i.fall := by
      intro i h; simp only [drawn, if_neg h, m1, Nat.one_ne_zero, if_false]
    rcases hκ : κ n with _ | ⟨s, b, a⟩
    · rw [hκ] at k0 k1
      exact ⟨.er, rfl, trivial, split _ (fun h => nothing _ _ h k0) fun h => nothing _ _ h k1⟩
    · rw [hκ] at k0 k1
      cases s with
      | true =>
        simp only [if_true] at k0 k1
        refine ⟨σ (2 * n), ?_, (hσ _).2.1, split _ (fun h => ?_) fun h => nothing _ _ h k1⟩
        · rw [Inner.shape_set (hσ _).1, (hσ _).2.2.1, (hσ _).2.2.2]
          simp [down, k0, Line.up]
        · rw [dr0 _ (by rw [k0]; simp)]
          have hr : (σ (2 * n)).rise = (σ (2 * n)).inside := (Inner.plain (by
            rw [Inner.shape_set (hσ _).1]; simp)).1
          have hd : down (2 * n) = (Shape.line κ (2 * n)).down := by simp [down, k0, Line.down]
          rw [hr, Follows, ← hd]
          exact hf _ h
      | false =>
        simp only [Bool.false_eq_true, if_false] at k0 k1
        cases b with
        | false =>
          cases a with
          | false => exact ⟨.ur, rfl, trivial, split _ (fun h => nothing _ _ h k0) fun h => nothing _ _ h k1⟩
          | true =>
            obtain ⟨y, hy⟩ := fall k1
            refine ⟨.ubr ⟨.excluded y⟩, rfl, trivial, split _ (fun h => nothing _ _ h k0) fun h => ?_⟩
            rw [dr1 _ (by rw [k1]; simp)]
            exact hy h
        | true =>
          obtain ⟨z, hz⟩ := rise k0
          cases a with
          | false =>
            refine ⟨.lbr ⟨.included z⟩, rfl, trivial, split _ (fun h => ?_) fun h => nothing _ _ h k1⟩
            rw [dr0 _ (by rw [k0]; simp)]
            exact hz h
          | true =>
            obtain ⟨y, hy⟩ := fall k1
            refine ⟨.br ⟨.included z, .excluded y⟩, rfl, trivial, split _ (fun h => ?_) fun h => ?_⟩
            · rw [dr0 _ (by rw [k0]; simp)]
              exact hz h
            · rw [dr1 _ (by rw [k1]; simp)]
              exact hy h
  choose ι h1 h2 h3 using key
  refine ⟨ι, fun n => ⟨h1 n, h2 n⟩, fun m hm => ?_⟩
  exact h3 (m / 2) m hm rfl

/-- Each path of the scan is that of some integer values. -/
theorem Term.exists_path (κ : Nat → Option Shape) {k : Nat} {m : Core.Memory} (hm : Core.Scanned (2 * k) (Shape.line κ) m)
    {v : Nat → Germ} (hv : ∀ n < 2 * k, v n ∈ (Shape.line κ n).moves (m (.var n)).1) :
    ∃ (ι : Nat → Inner Int) (z : Int), (∀ n, (ι n).shape = κ n ∧ (ι n).Normal) ∧
      Core.Fits (drawn κ ι) (2 * k) m (spot z 2) ∧
      ∀ n < 2 * k, SpotAgree (drawn κ ι n) (spot z 0) (spot z 1) (spot z 2) (v n) := by
  obtain ⟨L, w₀, hw₀, rfl⟩ := Core.exists_run hm
  obtain ⟨w, hw, hr, rfl⟩ := Core.chain_append hw₀ hv
  obtain ⟨ι, h1, h2⟩ := exists_values κ hw
  have hlt : ∀ i : Nat, before (-i - 1) < spot (-(i : Int)) 0 ∧ spot (-(i : Int)) 0 < before (-i) := fun i => by
    simp [before, spot_lt]
  have hgt : ∀ i : Nat, before (-i) < spot (-(i : Int)) 2 ∧ spot (-(i : Int)) 2 < before (-i + 1) := fun i => by
    simp [before, spot_lt]
  have agree : ∀ i ≤ L, ∀ n < 2 * k,
      SpotAgree (drawn κ ι n) (spot (-(i : Int)) 0) (spot (-i) 1) (spot (-i) 2) (w i n) := by
    intro i hi n hn
    refine ⟨(h2 n hn).2.1 i hi _ (hlt i).1 (hlt i).2, (h2 n hn).2.2.1 i hi, ?_⟩
    rw [hw.formula i (Nat.lt_succ_of_le hi) n hn]
    cases i with
    | zero => exact (h2 n hn).1 _ (hgt 0).1
    | succ j =>
      have a := (hgt (j + 1)).1
      have b := (hgt (j + 1)).2
      refine (h2 n hn).2.1 j (Nat.le_of_succ_le hi) _ ?_ ?_
      · convert a using 2; push_cast; omega
      · convert b using 2; push_cast; omega
  have fits : ∀ i ≤ L, Core.Fits (drawn κ ι) (2 * k) (Core.run (Shape.line κ) w i) (spot (-(i : Int)) 2) := by
    intro i
    induction i with
    | zero =>
      intro _
      refine Core.fits_above (I := {q | before 0 < q}) (Formula.nearClosed_gt (.inl rfl))
        (fun p hp q hq => lt_of_lt_of_le hp hq) (fun n hn p hp => (h2 n hn).1 p hp) (hgt 0).1
    | succ i ih =>
      intro hi
      have hi' := Nat.le_of_succ_le hi
      have hc : ∀ q, before (-i - 1) < q → q < before (-i) → ∀ n < 2 * k, q ∈ drawn κ ι n ↔ (w i n).left = true :=
        fun q a b n hn => (h2 n hn).2.1 i hi' q a b
      refine Core.fits_below (Formula.around_one _) (ih hi') (agree i hi')
        (I := {q | before (-i - 1) < q ∧ q < before (-i)})
        (fun q hq r hr => ⟨Formula.nearClosed_gt (.inl rfl) q hq.1 r hr, Formula.nearClosed_lt (.inl rfl) q hq.2 r hr⟩)
        (hlt i) (fun q hq => hq.2) (fun q hq r hr hrc => ⟨lt_of_lt_of_le hq.1 hr, hrc⟩)
        (fun n hn q hq => by rw [hc q hq.1 hq.2 n hn, hc _ (hlt i).1 (hlt i).2 n hn]) ⟨?_, ?_⟩
      · have a := (hgt (i + 1)).1
        convert a using 2; push_cast; omega
      · have b := (hgt (i + 1)).2
        convert b using 2; push_cast; omega
  refine ⟨ι, -(L : Int), h1, ?_, agree L le_rfl⟩
  rw [← hr]
  exact fits L le_rfl

/-- C123. Expressions that fail the test have different values for some normal values of the types in question, with
integers as elements. -/
theorem C123_values_complete (e f : Term) (κ : Nat → Option Shape) (h : e.sameValues κ f = false) :
    ∃ ι : Nat → Inner Int, (∀ n, (ι n).shape = κ n ∧ (ι n).Normal) ∧
      ∃ v w, (e.expr fun n => .inner (ι n)).eval = .ok v ∧ (f.expr fun n => .inner (ι n)).eval = .ok w ∧
        v.toInner ≠ w.toInner := by
  have h : ¬ e.sameValues κ f = true := by rw [h]; decide
  rw [Term.sameValues_iff] at h
  have eval : ∀ (ι : Nat → Inner Int), (∀ n, (ι n).shape = κ n ∧ (ι n).Normal) → ∀ e : Term, _ := fun ι hι e =>
    Term.eval_drawn κ (fun n => Any.inner (ι n)) (fun n => (hι n).1) (fun n => (Inner.normal_iff _).mp (hι n).2) e
  by_cases hs : e.shape κ = f.shape κ
  · have h : ¬ _ := fun h' => h ⟨hs, h'⟩
    push Not at h
    obtain ⟨m, hm, v, hv, hne⟩ := h
    obtain ⟨ι, z, hι, hf, ha⟩ := Term.exists_path κ hm hv
    refine ⟨ι, hι, ?_⟩
    obtain ⟨x, x1, -, -, x4, x5⟩ := eval ι hι e
    obtain ⟨y, y1, -, -, y4, y5⟩ := eval ι hι f
    refine ⟨x, y, x1, y1, fun heq => ?_⟩
    have be := Term.below_core κ e (Nat.le_max_left e.vars f.vars)
    have bf := Term.below_core κ f (Nat.le_max_right e.vars f.vars)
    have ext : ∀ {a b : Core}, a.Below (2 * max e.vars f.vars) → b.Below (2 * max e.vars f.vars) →
        a.spots (Term.drawn κ ι) = b.spots (Term.drawn κ ι) → a.atCut m v = b.atCut m v := by
      intro a b ba bb hab
      have a1 := Core.atCut_agree (Formula.around_one z) hf ha a ba
      have a2 := Core.atCut_agree (Formula.around_one z) hf ha b bb
      rw [hab] at a1
      refine Germ.ext' ?_ ?_ ?_
      · rw [Bool.eq_iff_iff, ← a1.1, ← a2.1]
      · rw [Bool.eq_iff_iff, ← a1.2.1, ← a2.2.1]
      · rw [Bool.eq_iff_iff, ← a1.2.2, ← a2.2.2]
    refine hne (ext be.1 bf.1 ?_) (ext be.2 bf.2 ?_)
    · exact x4.symm.trans ((congrArg Inner.rise heq).trans y4)
    · exact x5.symm.trans ((congrArg Inner.fall heq).trans y5)
  · obtain ⟨ι, z, hι, -, -⟩ := Term.exists_path κ (k := 0) .start (v := fun _ => .nothing)
      fun n hn => absurd hn (Nat.not_lt_zero n)
    refine ⟨ι, hι, ?_⟩
    obtain ⟨x, x1, -, x3, -⟩ := eval ι hι e
    obtain ⟨y, y1, -, y3, -⟩ := eval ι hι f
    refine ⟨x, y, x1, y1, fun heq => hs ?_⟩
    rw [← x3, ← y3, heq]

/-- C123. Expressions that fail the test for members have values with different members for some normal values of the
types in question, with integers as elements. -/
theorem C123_members_complete (e f : Term) (κ : Nat → Option Shape) (h : e.sameMembers κ f = false) :
    ∃ (ι : Nat → Inner Int) (t : Int), (∀ n, (ι n).shape = κ n ∧ (ι n).Normal) ∧
      ∃ v w, (e.expr fun n => .inner (ι n)).eval = .ok v ∧ (f.expr fun n => .inner (ι n)).eval = .ok w ∧
        v.contains t ≠ w.contains t := by
  have h : ¬ e.sameMembers κ f = true := by rw [h]; decide
  rw [Term.sameMembers_iff] at h
  push Not at h
  obtain ⟨m, hm, hne⟩ := h
  obtain ⟨ι, z, hι, hf, -⟩ := Term.exists_path κ hm (v := fun n => (Shape.line κ n).stay (m (.var n)).1)
    fun n _ => Line.stay_mem _ _
  refine ⟨ι, z, hι, ?_⟩
  have hn' : ∀ n, (Any.inner (ι n)).toInner.WF := fun n => (Inner.normal_iff _).mp (hι n).2
  obtain ⟨x, x1, x2⟩ := Term.contains_iff κ (fun n => Any.inner (ι n)) (fun n => (hι n).1) hn' (fun _ => trivial) e
  obtain ⟨y, y1, y2⟩ := Term.contains_iff κ (fun n => Any.inner (ι n)) (fun n => (hι n).1) hn' (fun _ => trivial) f
  refine ⟨x, y, x1, y1, fun heq => hne ?_⟩
  rw [Bool.eq_iff_iff, ← (hf _ (Term.below_inside κ e (Nat.le_max_left _ _))).1,
    ← (hf _ (Term.below_inside κ f (Nat.le_max_right _ _))).1]
  exact (x2 z).symm.trans ((Bool.eq_iff_iff.mp heq).trans (y2 z))

/-! ### For all types at once -/

omit [LinearOrder T] in
theorem Term.expr_congr {σ τ : Nat → Any T} (e : Term) (h : ∀ n < e.vars, σ n = τ n) : e.expr σ = e.expr τ := by
  induction e with
  | var n => exact congrArg Expr.leaf (h n (Nat.lt_succ_self n))
  | union e f ihe ihf | inter e f ihe ihf =>
    simp only [expr]
    rw [ihe fun n hn => h n (hn.trans_le (Nat.le_max_left _ _)), ihf fun n hn => h n (hn.trans_le (Nat.le_max_right _ _))]
  | complement e ih | toInner e ih | toSet e ih => simp only [expr]; rw [ih h]

/-- There are no other types. -/
theorem Term.mem_types (k : Option Shape) : k ∈ types := by
  rcases k with _ | ⟨_ | _, _ | _, _ | _⟩ <;> decide

theorem Term.forAllTypes_iff (test : (Nat → Option Shape) → Bool) (k : Nat) :
    forAllTypes test k = true ↔ ∀ κ, (∀ n, k ≤ n → κ n = none) → test κ = true := by
  simp only [forAllTypes, List.all_eq_true, Formula.mem_choices]
  constructor
  · intro h κ hk
    have := h ((List.range k).map κ) ⟨by simp, fun x _ => mem_types x⟩
    have e : ∀ n, ((List.range k).map κ).getD n none = κ n := by
      intro n
      by_cases hn : n < k
      · exact Formula.getD_range κ _ hn
      · rw [hk n (not_lt.mp hn)]
        simp [List.getD, hn]
    simpa only [e] using this
  · intro h t ht
    refine h _ fun n hn => ?_
    simp [List.getD, ht.1 ▸ hn]

/-- The variables from `k` on made empty. -/
def Term.cutOff (σ : Nat → Any T) (k : Nat) : Nat → Any T := fun n => if n < k then σ n else .inner .er

omit [LinearOrder T] in
theorem Term.cutOff_all {P : Any T → Prop} (h0 : P (.inner .er)) {σ : Nat → Any T} {k : Nat} (h : ∀ n < k, P (σ n)) (n : Nat) :
    P (cutOff σ k n) := by
  by_cases hn : n < k
  · simp only [cutOff, if_pos hn]; exact h n hn
  · simp only [cutOff, if_neg hn]; exact h0

omit [LinearOrder T] in
theorem Term.cutOff_shape (σ : Nat → Any T) {k n : Nat} (h : k ≤ n) : (cutOff σ k n).toInner.shape = none := by
  simp only [cutOff, if_neg (not_lt.mpr h)]; rfl

omit [LinearOrder T] in
theorem Term.cutOff_expr (σ : Nat → Any T) {k : Nat} (e : Term) (he : e.vars ≤ k) : e.expr (cutOff σ k) = e.expr σ :=
  expr_congr e fun n hn => by simp only [cutOff, if_pos (hn.trans_le he)]

/-- C123. Expressions that pass the test for all types have equal values, of the same type, for all normal values of any
type of element. -/
theorem C123_values_any (e f : Term) (h : Term.forAllTypes (fun κ => e.sameValues κ f) (max e.vars f.vars) = true)
    (σ : Nat → Any T) (hn : ∀ n < max e.vars f.vars, (σ n).toInner.Normal) :
    ∃ v w, (e.expr σ).eval = .ok v ∧ (f.expr σ).eval = .ok w ∧ v.toInner = w.toInner := by
  rw [Term.forAllTypes_iff] at h
  have := C123_values e f (Term.cutOff σ (max e.vars f.vars)) (Term.cutOff_all (P := fun a => a.toInner.Normal) trivial hn)
    (h _ fun n hn => Term.cutOff_shape σ hn)
  rwa [Term.cutOff_expr σ e (Nat.le_max_left _ _), Term.cutOff_expr σ f (Nat.le_max_right _ _)] at this

/-- C123. The same with members. -/
theorem C123_members_any (e f : Term) (h : Term.forAllTypes (fun κ => e.sameMembers κ f) (max e.vars f.vars) = true)
    (σ : Nat → Any T) (hn : ∀ n < max e.vars f.vars, (σ n).toInner.Normal) (hf : ∀ n < max e.vars f.vars, (σ n).Fresh) :
    ∃ v w, (e.expr σ).eval = .ok v ∧ (f.expr σ).eval = .ok w ∧ ∀ t, v.contains t = w.contains t := by
  rw [Term.forAllTypes_iff] at h
  have := C123_members e f (Term.cutOff σ (max e.vars f.vars)) (Term.cutOff_all (P := fun a => a.toInner.Normal) trivial hn)
    (Term.cutOff_all (P := Any.Fresh) trivial hf) (h _ fun n hn => Term.cutOff_shape σ hn)
  rwa [Term.cutOff_expr σ e (Nat.le_max_left _ _), Term.cutOff_expr σ f (Nat.le_max_right _ _)] at this

/-- C123. Passing the test for all types is having equal values for all normal values with integers as elements. -/
theorem C123_values_all (e f : Term) :
    Term.forAllTypes (fun κ => e.sameValues κ f) (max e.vars f.vars) = true ↔
      ∀ (σ : Nat → Any Int) (v w : Any Int), (∀ n, (σ n).toInner.Normal) → (e.expr σ).eval = .ok v →
        (f.expr σ).eval = .ok w → v.toInner = w.toInner := by
  constructor
  · intro h σ v w hn hv hw
    obtain ⟨v', w', h1, h2, h3⟩ := C123_values_any e f h σ fun n _ => hn n
    rw [hv] at h1
    rw [hw] at h2
    injection h1 with h1
    injection h2 with h2
    rw [h1, h2, h3]
  · intro h
    rw [Term.forAllTypes_iff]
    intro κ _
    by_contra hn
    obtain ⟨ι, hι, v, w, h1, h2, hne⟩ := C123_values_complete e f κ (by simpa using hn)
    exact hne (h (fun n => .inner (ι n)) v w (fun n => (hι n).2) h1 h2)

/-- C123. Passing the test for members for all types is having the same members for all normal values with integers as
elements. -/
theorem C123_members_all (e f : Term) :
    Term.forAllTypes (fun κ => e.sameMembers κ f) (max e.vars f.vars) = true ↔
      ∀ (σ : Nat → Any Int) (v w : Any Int), (∀ n, (σ n).toInner.Normal) → (∀ n, (σ n).Fresh) → (e.expr σ).eval = .ok v →
        (f.expr σ).eval = .ok w → ∀ t, v.contains t = w.contains t := by
  constructor
  · intro h σ v w hn hf hv hw
    obtain ⟨v', w', h1, h2, h3⟩ := C123_members_any e f h σ (fun n _ => hn n) fun n _ => hf n
    rw [hv] at h1
    rw [hw] at h2
    injection h1 with h1
    injection h2 with h2
    rw [h1, h2]
    exact h3
  · intro h
    rw [Term.forAllTypes_iff]
    intro κ _
    by_contra hn
    obtain ⟨ι, t, hι, v, w, h1, h2, hne⟩ := C123_members_complete e f κ (by simpa using hn)
    exact hne (h (fun n => .inner (ι n)) v w (fun n => (hι n).2) (fun _ => trivial) h1 h2 t)

/-! ### Inclusions -/

/-- The value of a union of expressions has the members of both. -/
theorem Term.contains_union (σ : Nat → Any T) (hf : ∀ n, (σ n).Fresh) (e f : Term) {v w u : Any T} (hv : (e.expr σ).eval = .ok v)
    (hw : (f.expr σ).eval = .ok w) (hu : ((union e f).expr σ).eval = .ok u) (t : T) :
    u.contains t = (v.contains t || w.contains t) := by
  obtain ⟨c, hc, h⟩ := C01_union_contains v w ((e.expr σ).eval_fresh (allLeaves σ hf e) hv)
    ((f.expr σ).eval_fresh (allLeaves σ hf f) hw)
  simp only [expr, Expr.eval, hv, hw, Res.ok_bind, hc] at hu
  injection hu with hu
  rw [← hu, h]

/-- C123. Inclusions are decided as well: if `e ∪ f` passes the test against `f`, then all members of the value of `e` are
members of the value of `f`.  With a variable of type `EmptyRange` for `f` this is emptiness. -/
theorem C123_subset (e f : Term) (σ : Nat → Any T) (hn : ∀ n, (σ n).toInner.Normal) (hf : ∀ n, (σ n).Fresh)
    (h : (Term.union e f).sameMembers (fun n => (σ n).toInner.shape) f = true) :
    ∃ v w, (e.expr σ).eval = .ok v ∧ (f.expr σ).eval = .ok w ∧ ∀ t, v.contains t = true → w.contains t = true := by
  obtain ⟨v, hv, -⟩ := Term.eval_drawn _ σ (fun _ => rfl) (fun n => (Inner.normal_iff _).mp (hn n)) e
  obtain ⟨u, w, hu, hw, huw⟩ := C123_members _ f σ hn hf h
  refine ⟨v, w, hv, hw, fun t ht => ?_⟩
  rw [← huw, Term.contains_union σ hf e f hv hw hu, ht]
  rfl

/-- C123. If it does not pass, there are normal values of these types with integers as elements and a member of the value
of `e` that is not in the value of `f`. -/
theorem C123_subset_complete (e f : Term) (κ : Nat → Option Shape) (h : (Term.union e f).sameMembers κ f = false) :
    ∃ (ι : Nat → Inner Int) (t : Int), (∀ n, (ι n).shape = κ n ∧ (ι n).Normal) ∧
      ∃ v w, (e.expr fun n => .inner (ι n)).eval = .ok v ∧ (f.expr fun n => .inner (ι n)).eval = .ok w ∧
        v.contains t = true ∧ w.contains t = false := by
  obtain ⟨ι, t, hι, u, w, hu, hw, hne⟩ := C123_members_complete _ f κ h
  obtain ⟨v, hv, -⟩ := Term.eval_drawn κ (fun n => .inner (ι n)) (fun n => (hι n).1)
    (fun n => (Inner.normal_iff _).mp (hι n).2) e
  have := Term.contains_union (fun n => .inner (ι n)) (fun _ => trivial) e f hv hw hu t
  refine ⟨ι, t, hι, v, w, hv, hw, ?_⟩
  revert hne this
  cases v.contains t <;> cases w.contains t <;> cases u.contains t <;> simp

/-! ### Some laws -/

/-- C123. Converting to sets before or after a union gives equal values, for normal values of all types. -/
theorem C123_union_toSet (a b : Any T) (ha : a.toInner.Normal) (hb : b.toInner.Normal) :
    ∃ v w, (Expr.union (.toSet (.leaf a)) (.toSet (.leaf b))).eval = .ok v ∧
      (Expr.toSet (.union (.leaf a) (.leaf b))).eval = .ok w ∧ v.toInner = w.toInner :=
  C123_values_any (.union (.toSet (.var 0)) (.toSet (.var 1))) (.toSet (.union (.var 0) (.var 1)))
    (by decide +kernel) (fun n => if n = 0 then a else b) fun n _ => by by_cases h : n = 0 <;> simp [h, ha, hb]

/-- C123. Absorption keeps the members for normal values of all types, even where the intersection drops some. -/
theorem C123_absorption (a b : Any T) (ha : a.toInner.Normal) (hb : b.toInner.Normal) (fa : a.Fresh) (fb : b.Fresh) :
    ∃ v w, (Expr.union (.leaf a) (.inter (.leaf a) (.leaf b))).eval = .ok v ∧
      (Expr.inter (.leaf a) (.union (.leaf a) (.leaf b))).eval = .ok w ∧
      ∀ t, v.contains t = a.contains t ∧ w.contains t = a.contains t := by
  have hn : ∀ n < 2, (if n = 0 then a else b).toInner.Normal := fun n _ => by by_cases h : n = 0 <;> simp [h, ha, hb]
  have hf : ∀ n < 2, (if n = 0 then a else b).Fresh := fun n _ => by by_cases h : n = 0 <;> simp [h, fa, fb]
  obtain ⟨v, a', h1, h2, h3⟩ := C123_members_any (.union (.var 0) (.inter (.var 0) (.var 1))) (.var 0) (by decide +kernel)
    (fun n => if n = 0 then a else b) hn hf
  obtain ⟨w, a'', g1, g2, g3⟩ := C123_members_any (.inter (.var 0) (.union (.var 0) (.var 1))) (.var 0) (by decide +kernel)
    (fun n => if n = 0 then a else b) hn hf
  injection h2 with h2
  injection g2 with g2
  subst h2 g2
  exact ⟨v, w, h1, g1, fun t => ⟨h3 t, g3 t⟩⟩

section Samples

private def a : Term := .var 0
private def b : Term := .var 1
private def br : Option Shape := some ⟨false, true, true⟩
private def lbr : Option Shape := some ⟨false, true, false⟩
private def lbs : Option Shape := some ⟨true, true, false⟩
private def types (j k : Option Shape) : Nat → Option Shape := fun n => if n = 0 then j else k

open Term

-- `to_set` before an intersection loses members for one pair of types only
example : forAllTypes (fun κ => (inter (toSet a) (toSet b)).sameMembers κ (inter a b) ==
    !(κ 0 == lbr && κ 1 == lbs)) 2 = true := by decide +kernel

-- the complement of the complement has the members one began with, but a `BoundedRange` becomes a `BoundedSet`
example : forAllTypes (fun κ => (complement (complement a)).sameMembers κ a) 1 = true := by decide +kernel
example : (complement (complement a)).sameValues (types br none) a = false := by decide +kernel

-- intersections that commute as values: all but those of two `LowerBoundedSet`s
example : forAllTypes (fun κ => (inter a b).sameValues κ (inter b a) == !(κ 0 == lbs && κ 1 == lbs)) 2 = true := by
  decide +kernel

-- values the theorems are about: a range with bounds out of order, and sets
example : (Any.inner (.br (Samples.co 5 2))).toInner.Normal ∧ (Any.inner Samples.lbs).toInner.Normal ∧
    (Any.rangeFrom ⟨(3 : Int)⟩).toInner.shape = lbr ∧ Samples.lbs.shape = lbs ∧
    (Any.inner (.br (Samples.co 5 2))).Fresh := by
  refine ⟨trivial, by decide, rfl, rfl, trivial⟩

end Samples

end Rangetools
