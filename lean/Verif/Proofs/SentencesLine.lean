import Verif.Proofs.Sentences
import Verif.Props.Terms
import Mathlib.Data.Finset.Sort

/-!
# Scanning drawings to the end
-/

namespace Rangetools
open Iv
open Formula (IsCut Around NearClosed SpotAgree nearClosed_gt nearClosed_lt before before_lt before_le)
variable {T : Type} [LinearOrder T]

namespace Core

/-! ### Paths -/

/-- Which drawings have differed at the first cuts. -/
def differs (ℓ : Nat → Line) (w : Nat → Nat → Germ) (q : Core × Core) : Nat → Bool
  | 0 => false
  | i + 1 => differs ℓ w q i || differ (run ℓ w i) (w i) q

theorem differs_iff {ℓ : Nat → Line} {w : Nat → Nat → Germ} {q : Core × Core} {L : Nat} :
    differs ℓ w q L = true ↔ ∃ i < L, q.1.atCut (run ℓ w i) (w i) ≠ q.2.atCut (run ℓ w i) (w i) := by
  induction L with
  | zero => simp [differs]
  | succ L ih =>
    rw [differs, Bool.or_eq_true, ih, differ, bne_iff_ne]
    constructor
    · rintro (⟨i, hi, h⟩ | h)
      · exact ⟨i, hi.trans (Nat.lt_succ_self L), h⟩
      · exact ⟨L, Nat.lt_succ_self L, h⟩
    · rintro ⟨i, hi, h⟩
      rcases Nat.lt_succ_iff_lt_or_eq.mp hi with hi | rfl
      · exact .inl ⟨i, hi, h⟩
      · exact .inr h

theorem differs_congr {ℓ : Nat → Line} {w w' : Nat → Nat → Germ} {q : Core × Core} {L : Nat} (h : ∀ i < L, w i = w' i) :
    differs ℓ w q L = differs ℓ w' q L := by
  induction L with
  | zero => rfl
  | succ L ih =>
    rw [differs, differs, ih fun i hi => h i (hi.trans (Nat.lt_succ_self _)),
      run_congr fun i hi => h i (hi.trans (Nat.lt_succ_self _)), h L (Nat.lt_succ_self _)]

theorem Chain.mono {ℓ : Nat → Line} {k L M : Nat} {w : Nat → Nat → Germ} (h : Chain ℓ k w L) (hM : M ≤ L) :
    Chain ℓ k w M := fun i hi => h i (hi.trans_le hM)

/-- The elements in the cells passed so far, if they are in these cells. -/
def passed (ℓ : Nat → Line) (w : Nat → Nat → Germ) (C : Nat → Nat) (L : Nat) (j : Nat) : Option Memory :=
  if C j < L then some (run ℓ w (C j)) else none

/-- Which elements were passed one after the other. -/
def later (C : Nat → Nat) (L : Nat) (q : Nat × Nat) : Bool := decide (C q.2 < C q.1 ∧ C q.2 < L)

theorem marked_passed (ℓ : Nat → Line) (w : Nat → Nat → Germ) (C : Nat → Nat) (L : Nat) :
    Marked (run ℓ w L) (passed ℓ w C L) (passed ℓ w C (L + 1)) := by
  intro j
  unfold passed
  by_cases h : C j < L
  · exact .inl (by rw [if_pos h, if_pos (h.trans (Nat.lt_succ_self L))])
  · by_cases h' : C j = L
    · exact .inr ⟨if_neg h, by rw [if_pos (by omega), h']⟩
    · exact .inl (by rw [if_neg h, if_neg (by omega)])

theorem above_passed (ℓ : Nat → Line) (w : Nat → Nat → Germ) (C : Nat → Nat) (L : Nat) :
    above (later C L) (passed ℓ w C (L + 1)) = later C (L + 1) := by
  funext q
  have h : ∀ j, (passed ℓ w C (L + 1) j).isSome = decide (C j < L + 1) := fun j => by
    unfold passed; split <;> simp_all
  have h' : ∀ j, (passed ℓ w C (L + 1) j).isNone = decide (¬ C j < L + 1) := fun j => by
    unfold passed; split <;> simp_all
  rw [above, h, h', later, later, Bool.eq_iff_iff]
  simp only [Bool.or_eq_true, Bool.and_eq_true, decide_eq_true_eq]
  omega

theorem seen_run {ℓ : Nat → Line} {k L : Nat} {w : Nat → Nat → Germ} (C : Nat → Nat) (h : Chain ℓ k w L) :
    Seen k ℓ (run ℓ w L) (fun q => differs ℓ w q L) (passed ℓ w C L) (later C L) := by
  induction L with
  | zero =>
    have h1 : passed ℓ w C 0 = fun _ => none := rfl
    have h2 : later C 0 = fun _ => false := by funext q; simp [later]
    rw [h1, h2]
    exact .start
  | succ L ih =>
    rw [← above_passed ℓ w]
    refine .step (ih (h.mono (Nat.le_succ L))) (fun n hn => ?_) (marked_passed ℓ w C L)
    rw [run_var]
    have := h L (Nat.lt_succ_self L) n hn
    cases L <;> exact this

theorem chain_append' {ℓ : Nat → Line} {k L : Nat} {w : Nat → Nat → Germ} (hw : Chain ℓ k w L) {v : Nat → Germ}
    (hv : ∀ n < k, v n ∈ (ℓ n).moves (run ℓ w L (var n)).1) :
    ∃ w', Chain ℓ k w' (L + 1) ∧ (∀ i < L, w' i = w i) ∧ w' L = v := by
  let w' : Nat → Nat → Germ := fun i => if i = L then v else w i
  have h0 : ∀ i < L, w' i = w i := fun i hi => if_neg hi.ne
  have h1 : w' L = v := if_pos rfl
  refine ⟨w', ?_, h0, h1⟩
  intro i hi n hn
  rcases Nat.lt_succ_iff_lt_or_eq.mp hi with hi | rfl
  · have := hw i hi n hn
    rw [h0 i hi]
    cases i with
    | zero => exact this
    | succ j => simp only at this ⊢; rwa [h0 j (Nat.lt_of_succ_lt hi)]
  · have := hv n hn
    rw [run_var] at this
    rw [h1]
    cases i with
    | zero => exact this
    | succ j => simp only at this ⊢; rwa [h0 j (Nat.lt_succ_self j)]

/-- One more cut, and elements in the cell above it. -/
theorem exists_passed {ℓ : Nat → Line} {w : Nat → Nat → Germ} {C : Nat → Nat} {L : Nat} {p : Nat → Option Memory}
    (hC : ∀ j, C j ≤ L) (h : Marked (run ℓ w L) (passed ℓ w C L) p) :
    ∃ C' : Nat → Nat, (∀ j, C' j ≤ L + 1) ∧ p = passed ℓ w C' (L + 1) ∧ later C L = later C' L := by
  have hC' : ∀ j, (if C j < L then C j else if (p j).isSome then L else L + 1) ≤ L + 1 := fun j => by
    have := hC j
    split
    · omega
    · split <;> omega
  refine ⟨fun j => if C j < L then C j else if (p j).isSome then L else L + 1, hC', ?_, ?_⟩
  · funext j
    have h := h j
    unfold passed at h ⊢
    by_cases h1 : C j < L
    · rw [if_pos h1] at h
      simp only [if_pos h1]
      rw [if_pos (h1.trans (Nat.lt_succ_self L))]
      exact h.resolve_right fun h => nomatch h.1
    · rw [if_neg h1] at h
      simp only [if_neg h1]
      rcases h with h | ⟨-, h⟩
      · simp [h]
      · simp [h]
  · funext q
    unfold later
    rw [decide_eq_decide]
    dsimp only
    have h1 := hC q.1
    have h2 := hC q.2
    split_ifs <;> omega

theorem passed_congr {ℓ : Nat → Line} {w w' : Nat → Nat → Germ} {C : Nat → Nat} {L : Nat} (h : ∀ i < L, w i = w' i) :
    passed ℓ w C (L + 1) = passed ℓ w' C (L + 1) := by
  funext j
  unfold passed
  split
  · rename_i hj
    rw [run_congr fun i hi => h i (by omega)]
  · rfl

theorem exists_seen {ℓ : Nat → Line} {k : Nat} {m : Memory} {d : Core × Core → Bool} {p : Nat → Option Memory}
    {r : Nat × Nat → Bool} (h : Seen k ℓ m d p r) :
    ∃ L w C, Chain ℓ k w L ∧ (∀ j, C j ≤ L) ∧ run ℓ w L = m ∧ (d = fun q => differs ℓ w q L) ∧ p = passed ℓ w C L ∧
      r = later C L := by
  induction h with
  | start =>
    refine ⟨0, fun _ _ => .nothing, fun _ => 0, fun i hi => absurd hi (Nat.not_lt_zero i), fun _ => le_rfl, rfl, rfl, rfl, ?_⟩
    funext q; simp [later]
  | @step m d p p' r v _ hv hp ih =>
    obtain ⟨L, w, C, hw, hC, rfl, rfl, rfl, rfl⟩ := ih
    obtain ⟨w', h1, h2, h3⟩ := chain_append' hw hv
    obtain ⟨C', g1, rfl, g3⟩ := exists_passed hC hp
    refine ⟨L + 1, w', C', h1, g1, by rw [run, run_congr h2, h3], ?_, (passed_congr h2).symm, by rw [g3, above_passed]⟩
    funext q
    rw [differs, differs_congr h2, run_congr h2, h3]

/-! ### A line with its cuts in order -/

/-- The cuts in order, with what is drawn around them. -/
structure Line (S : Nat → Set (Spot T)) (k : Nat) (up : Nat → Bool) (L : Nat) (b c a : Nat → Spot T) (w : Nat → Nat → Germ) :
    Prop where
  around : ∀ i ≤ L, Around (b i) (c i) (a i)
  desc : ∀ i < L, c (i + 1) < c i
  agree : ∀ i ≤ L, ∀ n < k, SpotAgree (S n) (b i) (c i) (a i) (w i n)
  const : ∀ n < k, ∀ p q, p ≤ q → (∀ i ≤ L, ¬ (p ≤ c i ∧ c i ≤ q)) → (p ∈ S n ↔ q ∈ S n)
  top : ∀ n < k, ∀ p, c 0 < p → (p ∈ S n ↔ up n = true)

/-- The places above the first cut, or between one and the next, or below the last. -/
def cell (L : Nat) (c : Nat → Spot T) : Nat → Set (Spot T)
  | 0 => {q | c 0 < q}
  | i + 1 => {q | q < c i ∧ (i < L → c (i + 1) < q)}

theorem exists_cell {L : Nat} {c : Nat → Spot T} {q : Spot T} (h : ∀ i ≤ L, q ≠ c i) : ∃ i ≤ L + 1, q ∈ cell L c i := by
  classical
  by_cases h0 : c 0 < q
  · exact ⟨0, Nat.zero_le _, h0⟩
  · have h0 : q < c 0 := lt_of_le_of_ne (not_lt.mp h0) (h 0 (Nat.zero_le _))
    have hP := Nat.findGreatest_spec (P := fun i => q < c i) (Nat.zero_le L) h0
    have hle := Nat.findGreatest_le (P := fun i => q < c i) L
    refine ⟨Nat.findGreatest (fun i => q < c i) L + 1, Nat.succ_le_succ hle, hP, fun hlt => ?_⟩
    have := Nat.findGreatest_is_greatest (P := fun i => q < c i) (Nat.lt_succ_self _) hlt
    exact lt_of_le_of_ne (not_lt.mp this) (h _ hlt).symm

theorem le_of_cell {L : Nat} {c : Nat → Spot T} (hc : ∀ i j, i ≤ j → c j ≤ c i) {q : Spot T} {i n : Nat}
    (hq : q ∈ cell L c i) (h : c n < q) : i ≤ n := by
  cases i with
  | zero => exact Nat.zero_le _
  | succ i =>
    by_contra hn
    exact absurd (h.trans hq.1) (not_lt.mpr (hc n i (by omega)))

theorem lt_of_cell {L : Nat} {c : Nat → Spot T} (hc : ∀ i j, i ≤ j → c j ≤ c i) {q : Spot T} {i n : Nat} (hn : n ≤ L)
    (hq : q ∈ cell L c i) (h : q < c n) : n < i := by
  cases i with
  | zero => exact absurd ((show c 0 < q from hq).trans h) (not_lt.mpr (hc 0 n (Nat.zero_le n)))
  | succ i =>
    by_contra hi
    exact absurd ((hq.2 (by omega)).trans h) (not_lt.mpr (hc (i + 1) n (by omega)))

namespace Line
variable {S : Nat → Set (Spot T)} {k L : Nat} {b c a : Nat → Spot T} {w : Nat → Nat → Germ} {ℓ : Nat → Rangetools.Line}

theorem anti (h : Line S k (fun n => (ℓ n).up) L b c a w) {i j : Nat} (hij : i < j) (hj : j ≤ L) : c j < c i := by
  induction j with
  | zero => exact absurd hij (Nat.not_lt_zero i)
  | succ j ih =>
    rcases Nat.lt_succ_iff_lt_or_eq.mp hij with h1 | rfl
    · exact (h.desc j hj).trans (ih h1 (Nat.le_of_succ_le hj))
    · exact h.desc i hj

theorem above_mem (h : Line S k (fun n => (ℓ n).up) L b c a w) {i : Nat} (hi : i ≤ L) : a i ∈ cell L c i := by
  cases i with
  | zero => exact (h.around 0 hi).gt
  | succ j =>
    refine ⟨((h.around (j + 1) hi).le_of_gt _ (h.desc j hi)).lt_of_ne fun he => ?_, fun _ => (h.around (j + 1) hi).gt⟩
    exact (h.around (j + 1) hi).after (he ▸ (h.around j (Nat.le_of_succ_le hi)).cut)

theorem below_mem (h : Line S k (fun n => (ℓ n).up) L b c a w) {i : Nat} (hi : i ≤ L) : b i ∈ cell L c (i + 1) := by
  refine ⟨(h.around i hi).lt, fun hL => ((h.around i hi).le_of_lt _ (h.desc i hL)).lt_of_ne fun he => ?_⟩
  exact (h.around i hi).before (he ▸ (h.around (i + 1) hL).cut)

/-- The drawings are the same everywhere between two cuts. -/
theorem cell_const (h : Line S k (fun n => (ℓ n).up) L b c a w) {n : Nat} (hn : n < k) {i : Nat} (hi : i ≤ L) {q : Spot T}
    (hq : q ∈ cell L c (i + 1)) : q ∈ S n ↔ b i ∈ S n := by
  refine h.const n hn q (b i) ((h.around i hi).le_of_lt q hq.1) ?_
  rintro j hj ⟨h1, h2⟩
  have h3 : c j < c i := h2.trans_lt (h.around i hi).lt
  have hij : i < j := by
    by_contra hij
    rcases (not_lt.mp hij).lt_or_eq with h4 | h4
    · exact absurd (h.anti h4 hi) (not_lt.mpr h3.le)
    · subst h4; exact lt_irrefl _ h3
  have h4 : c j ≤ c (i + 1) := by
    rcases (Nat.succ_le_of_lt hij).lt_or_eq with h5 | h5
    · exact (h.anti h5 hj).le
    · rw [← h5]
  exact absurd (hq.2 (hij.trans_le hj)) (not_lt.mpr (h1.trans h4))

theorem fits (h : Line S k (fun n => (ℓ n).up) L b c a w) {i : Nat} (hi : i ≤ L + 1) :
    ∀ q ∈ cell L c i, Fits S k (run ℓ w i) q := by
  induction i with
  | zero =>
    intro q hq
    exact fits_above (I := {q | c 0 < q}) (nearClosed_gt (h.around 0 (Nat.zero_le _)).cut)
      (fun p hp r hr => lt_of_lt_of_le hp hr) (fun n hn p hp => h.top n hn p hp) hq
  | succ i ih =>
    have hi : i ≤ L := Nat.le_of_succ_le_succ hi
    intro q hq
    refine fits_below (h.around i hi) (ih (hi.trans (Nat.le_succ L)) _ (h.above_mem hi)) (h.agree i hi) (I := cell L c (i + 1))
      ?_ (h.below_mem hi) (fun q hq => hq.1) ?_ (fun n hn q hq => h.cell_const hn hi hq) hq
    · intro q hq r hr
      exact ⟨nearClosed_lt (h.around i hi).cut q hq.1 r hr,
        fun hL => nearClosed_gt (h.around (i + 1) hL).cut q (hq.2 hL) r hr⟩
    · intro q hq r hqr hrc
      exact ⟨hrc, fun hL => (hq.2 hL).trans_le hqr⟩

/-- Drawings are equal if they do not differ at the cuts. -/
theorem spots_eq_iff (h : Line S k (fun n => (ℓ n).up) L b c a w) {q : Core × Core} (h1 : q.1.Below k) (h2 : q.2.Below k) :
    q.1.spots S = q.2.spots S ↔ differs ℓ w q (L + 1) = false := by
  have key : ∀ i ≤ L, ∀ e : Core, e.Below k → SpotAgree (e.spots S) (b i) (c i) (a i) (e.atCut (run ℓ w i) (w i)) :=
    fun i hi e he => atCut_agree (h.around i hi) (h.fits (hi.trans (Nat.le_succ L)) _ (h.above_mem hi)) (h.agree i hi) e he
  rw [← Bool.not_eq_true, differs_iff]
  push Not
  constructor
  · intro heq i hi
    have hi := Nat.le_of_lt_succ hi
    have a1 := key i hi _ h1
    have a2 := key i hi _ h2
    rw [heq] at a1
    refine Germ.ext' ?_ ?_ ?_
    · rw [Bool.eq_iff_iff, ← a1.1, ← a2.1]
    · rw [Bool.eq_iff_iff, ← a1.2.1, ← a2.2.1]
    · rw [Bool.eq_iff_iff, ← a1.2.2, ← a2.2.2]
  · intro hd
    ext p
    by_cases hp : ∃ i ≤ L, p = c i
    · obtain ⟨i, hi, rfl⟩ := hp
      rw [(key i hi _ h1).2.1, (key i hi _ h2).2.1, hd i (Nat.lt_succ_of_le hi)]
    · push Not at hp
      obtain ⟨i, hi, hc⟩ := exists_cell hp
      have f := h.fits hi p hc
      rw [(f _ h1).1, (f _ h2).1]
      cases i with
      | zero =>
        have g := h.fits (Nat.zero_le _) _ (h.above_mem (Nat.zero_le L))
        rw [← (g _ h1).1, ← (g _ h2).1, (key 0 (Nat.zero_le L) _ h1).2.2, (key 0 (Nat.zero_le L) _ h2).2.2,
          hd 0 (Nat.succ_pos L)]
      | succ i =>
        simp only [run, belowCut]
        rw [hd i hi]

/-- What is drawn at the cuts is a path, if it is allowed at each cut. -/
theorem chain (h : Line S k (fun n => (ℓ n).up) L b c a w)
    (hg : ∀ n < k, ∀ i ≤ L, w i n ∈ (ℓ n).moves (w i n).right) : Chain ℓ k w (L + 1) := by
  intro i hi n hn
  have hi := Nat.le_of_lt_succ hi
  have := hg n hn i hi
  cases i with
  | zero =>
    have e : (w 0 n).right = (ℓ n).up := by
      rw [Bool.eq_iff_iff, ← (h.agree 0 hi n hn).2.2]
      exact h.top n hn _ (h.around 0 hi).gt
    rwa [e] at this
  | succ j =>
    have e : (w (j + 1) n).right = (w j n).left := by
      rw [Bool.eq_iff_iff, ← (h.agree (j + 1) hi n hn).2.2, ← (h.agree j (Nat.le_of_succ_le hi) n hn).1]
      exact h.cell_const hn (Nat.le_of_succ_le hi) (h.above_mem hi)
    rwa [e] at this

end Line

end Core
end Rangetools
