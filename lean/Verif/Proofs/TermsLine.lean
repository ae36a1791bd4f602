import Verif.Proofs.Terms
import Verif.Proofs.ScanLine

/-!
# Scanning drawings from above to below
-/

namespace Rangetools
open Iv
open Formula (IsCut Around NearClosed SpotAgree tail_cut tail_before diff_iff lossy_left lossy_right near_refl
  near_of_not_cut exterior_iff nearClosed_gt nearClosed_lt exists_least)
variable {T : Type} [LinearOrder T]

namespace Core

/-- The spots of a drawing. -/
def spots (S : Nat → Set (Spot T)) : Core → Set (Spot T)
  | const b => {_p | b = true}
  | var n => S n
  | union e f => e.spots S ∪ f.spots S
  | inter e f => e.spots S ∩ f.spots S
  | lossy e f => (e.spots S ∩ f.spots S) \ (tail (e.spots S) \ tail (f.spots S))
  | complement e => exterior (e.spots S)

variable {ℓ : Nat → Line} {S : Nat → Set (Spot T)} {k : Nat}

/-- The memory is right at this place. -/
def Fits (S : Nat → Set (Spot T)) (k : Nat) (m : Memory) (p : Spot T) : Prop :=
  ∀ e : Core, e.Below k → (p ∈ e.spots S ↔ (m e).1 = true) ∧ (p ∈ tail (e.spots S) ↔ (m e).2 = true)

/-- Above all cuts. -/
theorem fits_above {I : Set (Spot T)} (hI : NearClosed I) (hu : ∀ p ∈ I, ∀ q, p ≤ q → q ∈ I)
    (hS : ∀ n < k, ∀ p ∈ I, p ∈ S n ↔ (ℓ n).up = true) {p : Spot T} (hp : p ∈ I) :
    Fits S k (aboveAll ℓ) p := by
  have ht : ∀ (e : Core) (b : Bool), (∀ p ∈ I, p ∈ e.spots S ↔ b = true) → ∀ p ∈ I, p ∈ tail (e.spots S) ↔ b = true :=
    fun e b h p hp => ⟨fun h' => (h p hp).mp (h' p le_rfl), fun h' q hq => (h q (hu p hp q hq)).mpr h'⟩
  have key : ∀ e : Core, e.Below k → ∀ p ∈ I, p ∈ e.spots S ↔ (e.truth fun n => (ℓ n).up) = true := by
    intro e
    induction e with
    | const b => exact fun _ p _ => Iff.rfl
    | var n => exact fun he p hp => hS n (below_var.mp he) p hp
    | union e f ihe ihf =>
      intro he p hp
      have he := below_union.mp he
      rw [spots, Set.mem_union, ihe he.1 p hp, ihf he.2 p hp, truth, Bool.or_eq_true]
    | inter e f ihe ihf =>
      intro he p hp
      have he := below_inter.mp he
      rw [spots, Set.mem_inter_iff, ihe he.1 p hp, ihf he.2 p hp, truth, Bool.and_eq_true]
    | lossy e f ihe ihf =>
      intro he p hp
      have he := below_lossy.mp he
      rw [spots, Set.mem_sdiff, Set.mem_sdiff, Set.mem_inter_iff, ht e _ (ihe he.1) p hp, ht f _ (ihf he.2) p hp,
        ihe he.1 p hp, ihf he.2 p hp, truth, Bool.and_eq_true]
      tauto
    | complement e ih =>
      intro he p hp
      rw [spots, exterior_iff hI (ih (below_complement.mp he)) hp, truth]
      cases e.truth fun n => (ℓ n).up <;> simp
  exact fun e he => ⟨key e he p hp, ht e _ (key e he) p hp⟩

/-- At a cut. -/
theorem atCut_agree {p c n : Spot T} (h : Around p c n) {m : Memory} (hm : Fits S k m n) {v : Nat → Germ}
    (hv : ∀ i < k, SpotAgree (S i) p c n (v i)) (e : Core) (he : e.Below k) :
    SpotAgree (e.spots S) p c n (e.atCut m v) := by
  induction e with
  | const b => cases b <;> simp [SpotAgree, spots, atCut, Germ.left, Germ.middle, Germ.right]
  | var i => exact hv i (below_var.mp he)
  | union e f ihe ihf =>
    have ihe := ihe (below_union.mp he).1
    have ihf := ihf (below_union.mp he).2
    refine ⟨?_, ?_, ?_⟩
    · rw [spots, Set.mem_union, ihe.1, ihf.1, atCut, Germ.left_union, Bool.or_eq_true]
    · rw [spots, Set.mem_union, ihe.2.1, ihf.2.1, atCut, Germ.middle_union, Bool.or_eq_true]
    · rw [spots, Set.mem_union, ihe.2.2, ihf.2.2, atCut, Germ.right_union, Bool.or_eq_true]
  | inter e f ihe ihf =>
    have ihe := ihe (below_inter.mp he).1
    have ihf := ihf (below_inter.mp he).2
    refine ⟨?_, ?_, ?_⟩
    · rw [spots, Set.mem_inter_iff, ihe.1, ihf.1, atCut, Germ.left_inter, Bool.and_eq_true]
    · rw [spots, Set.mem_inter_iff, ihe.2.1, ihf.2.1, atCut, Germ.middle_inter, Bool.and_eq_true]
    · rw [spots, Set.mem_inter_iff, ihe.2.2, ihf.2.2, atCut, Germ.right_inter, Bool.and_eq_true]
  | lossy e f ihe ihf =>
    have be := (below_lossy.mp he).1
    have bf := (below_lossy.mp he).2
    have ihe := ihe be
    have ihf := ihf bf
    rw [spots, atCut]
    have t1 := (hm e be).2
    have t2 := (hm f bf).2
    have c1 : c ∈ tail (e.spots S) ↔ ((m e).2 && (e.atCut m v).middle) = true := by
      rw [tail_cut h, t1, ihe.2.1, Bool.and_eq_true, and_comm]
    have c2 : c ∈ tail (f.spots S) ↔ ((m f).2 && (f.atCut m v).middle) = true := by
      rw [tail_cut h, t2, ihf.2.1, Bool.and_eq_true, and_comm]
    have p1 : p ∈ tail (e.spots S) ↔ ((m e).2 && (e.atCut m v).middle && (e.atCut m v).left) = true := by
      rw [tail_before h, c1, ihe.1, Bool.and_eq_true _ (Germ.left _), and_comm]
    have p2 : p ∈ tail (f.spots S) ↔ ((m f).2 && (f.atCut m v).middle && (f.atCut m v).left) = true := by
      rw [tail_before h, c2, ihf.1, Bool.and_eq_true _ (Germ.left _), and_comm]
    refine ⟨?_, ?_, ?_⟩
    · rw [lossy_left]
      exact diff_iff ihe.1 ihf.1 p1 p2
    · rw [Germ.middle_of]
      exact diff_iff ihe.2.1 ihf.2.1 c1 c2
    · rw [lossy_right]
      exact diff_iff ihe.2.2 ihf.2.2 t1 t2
  | complement e ih =>
    have ih := ih (below_complement.mp he)
    rw [spots, atCut]
    have h0 : ∀ q : Spot T, ¬ IsCut q → (q ∈ exterior (e.spots S) ↔ q ∉ e.spots S) := fun q hq =>
      ⟨fun h' => h' q (near_refl q), fun h' r hr => by rw [near_of_not_cut hq hr]; exact h'⟩
    refine ⟨?_, ?_, ?_⟩
    · rw [h0 p h.before, ih.1, Germ.left_complement]
      cases (e.atCut m v).left <;> simp
    · have : c ∈ exterior (e.spots S) ↔ p ∉ e.spots S ∧ c ∉ e.spots S ∧ n ∉ e.spots S := by
        constructor
        · exact fun h' => ⟨h' p ((h.near p).mpr (.inr (.inl rfl))), h' c (near_refl c), h' n ((h.near n).mpr (.inr (.inr rfl)))⟩
        · rintro ⟨h1, h2, h3⟩ q hq
          rcases (h.near q).mp hq with rfl | rfl | rfl <;> assumption
      rw [this, ih.1, ih.2.1, ih.2.2, Germ.middle_complement]
      generalize e.atCut m v = g
      cases g <;> decide
    · rw [h0 n h.after, ih.2.2, Germ.right_complement]
      cases (e.atCut m v).right <;> simp

/-- Below a cut, as far as no other comes. -/
theorem fits_below {p c n : Spot T} (h : Around p c n) {m : Memory} (hm : Fits S k m n) {v : Nat → Germ}
    (hv : ∀ i < k, SpotAgree (S i) p c n (v i)) {I : Set (Spot T)} (hI : NearClosed I) (hp : p ∈ I)
    (hc : ∀ q ∈ I, q < c) (hu : ∀ q ∈ I, ∀ r, q ≤ r → r < c → r ∈ I)
    (hS : ∀ i < k, ∀ q ∈ I, q ∈ S i ↔ p ∈ S i) {q : Spot T} (hq : q ∈ I) : Fits S k (belowCut m v) q := by
  have ht : ∀ A : Set (Spot T), (∀ q ∈ I, q ∈ A ↔ p ∈ A) → ∀ q ∈ I, q ∈ tail A ↔ p ∈ tail A := by
    intro A hA q hq
    constructor
    · exact fun h' r hr => h' r ((h.le_of_lt q (hc q hq)).trans hr)
    · intro h' r hr
      by_cases hrc : r < c
      · exact (hA r (hu q hq r hr hrc)).mpr (h' p le_rfl)
      · exact h' r (h.lt.le.trans (not_lt.mp hrc))
  have key : ∀ e : Core, e.Below k → ∀ q ∈ I, q ∈ e.spots S ↔ p ∈ e.spots S := by
    intro e
    induction e with
    | const b => exact fun _ _ _ => Iff.rfl
    | var i => exact fun he q hq => hS i (below_var.mp he) q hq
    | union e f ihe ihf =>
      intro he q hq
      have he := below_union.mp he
      rw [spots, Set.mem_union, Set.mem_union, ihe he.1 q hq, ihf he.2 q hq]
    | inter e f ihe ihf =>
      intro he q hq
      have he := below_inter.mp he
      rw [spots, Set.mem_inter_iff, Set.mem_inter_iff, ihe he.1 q hq, ihf he.2 q hq]
    | lossy e f ihe ihf =>
      intro he q hq
      have he := below_lossy.mp he
      have i1 := ihe he.1
      have i2 := ihf he.2
      rw [spots, Set.mem_sdiff, Set.mem_sdiff, Set.mem_sdiff, Set.mem_sdiff, Set.mem_inter_iff, Set.mem_inter_iff,
        i1 q hq, i2 q hq, ht _ i1 q hq, ht _ i2 q hq]
    | complement e ih =>
      intro he q hq
      have ih := ih (below_complement.mp he)
      rw [spots, exterior_iff hI ih hq, exterior_iff hI ih hp]
  intro e he
  have ha := atCut_agree h hm hv e he
  refine ⟨(key e he q hq).trans ha.1, (ht _ (key e he) q hq).trans ?_⟩
  rw [tail_before h, tail_cut h, ha.1, ha.2.1, (hm e he).2]
  simp only [belowCut, Bool.and_eq_true]
  tauto

/-! ### What a memory says of a cut below it -/

theorem right_atCut {m : Memory} (hm : Scanned k ℓ m) {v : Nat → Germ}
    (hv : ∀ n < k, (v n).right = (m (var n)).1) (e : Core) (he : e.Below k) : (e.atCut m v).right = (m e).1 := by
  cases hm with
  | start =>
    induction e with
    | const b => cases b <;> rfl
    | var n => exact hv n (below_var.mp he)
    | union e f ihe ihf => rw [atCut, Germ.right_union, ihe (below_union.mp he).1, ihf (below_union.mp he).2]; rfl
    | inter e f ihe ihf => rw [atCut, Germ.right_inter, ihe (below_inter.mp he).1, ihf (below_inter.mp he).2]; rfl
    | lossy e f ihe ihf =>
      rw [atCut, lossy_right, ihe (below_lossy.mp he).1, ihf (below_lossy.mp he).2]
      simp only [aboveAll, truth]
      cases e.truth fun n => (ℓ n).up <;> cases f.truth fun n => (ℓ n).up <;> rfl
    | complement e ih => rw [atCut, Germ.right_complement, ih (below_complement.mp he)]; rfl
  | step hm' hv' =>
    rename_i m' v'
    induction e with
    | const b => cases b <;> rfl
    | var n => exact hv n (below_var.mp he)
    | union e f ihe ihf =>
      rw [atCut, Germ.right_union, ihe (below_union.mp he).1, ihf (below_union.mp he).2]
      simp only [belowCut, atCut, Germ.left_union]
    | inter e f ihe ihf =>
      rw [atCut, Germ.right_inter, ihe (below_inter.mp he).1, ihf (below_inter.mp he).2]
      simp only [belowCut, atCut, Germ.left_inter]
    | lossy e f ihe ihf =>
      rw [atCut, lossy_right, ihe (below_lossy.mp he).1, ihf (below_lossy.mp he).2]
      simp only [belowCut]
      rw [atCut, lossy_left]
    | complement e ih =>
      rw [atCut, Germ.right_complement, ih (below_complement.mp he)]
      simp only [belowCut, atCut, Germ.left_complement]

theorem _root_.Rangetools.Line.right_of_mem {l : Line} {b : Bool} {g : Germ} (h : g ∈ l.moves b) (hb : l = .unused → b = false) :
    g.right = b := by
  cases l with
  | unused =>
    obtain rfl : b = false := hb rfl
    rw [Line.moves, List.mem_singleton] at h
    rw [h]; rfl
  | set d u => exact Formula.mem_follow.mp h
  | rising => cases b <;> cases g <;> first | rfl | simp [Line.moves] at h
  | falling => cases b <;> cases g <;> first | rfl | simp [Line.moves] at h

/-- What is unused stays uncovered. -/
theorem unused {m : Memory} (hm : Scanned k ℓ m) {n : Nat} (hn : n < k) (h : ℓ n = .unused) : (m (var n)).1 = false := by
  cases hm with
  | start => simp [aboveAll, truth, h, Line.up]
  | step _ hv =>
    have := hv n hn
    rw [h, Line.moves, List.mem_singleton] at this
    simp [belowCut, atCut, this, Germ.left]

theorem right_of_mem {m : Memory} (hm : Scanned k ℓ m) {v : Nat → Germ} (hv : ∀ n < k, v n ∈ (ℓ n).moves (m (var n)).1) :
    ∀ n < k, (v n).right = (m (var n)).1 := fun n hn => Line.right_of_mem (hv n hn) (unused hm hn)

/-! ### A line with finitely many cuts -/

/-- Everywhere but on a cut some memory found by the scan is right. -/
theorem exists_fits {K : List (Spot T)} (hK : ∀ c ∈ K, IsCut c)
    (hS : ∀ n < k, ∀ p q, p ≤ q → (∀ c ∈ K, ¬ (p ≤ c ∧ c ≤ q)) → (p ∈ S n ↔ q ∈ S n))
    (hu : ∀ n < k, ∀ p, (∀ c ∈ K, c < p) → (p ∈ S n ↔ (ℓ n).up = true))
    (ho : ∀ n < k, ∀ p c q, Around p c q → c ∈ S n → p ∈ S n ∧ q ∈ S n)
    (hg : ∀ n < k, ∀ p c q g, Around p c q → SpotAgree (S n) p c q g → g ∈ (ℓ n).moves g.right)
    (p : Spot T) (hp : p ∉ K) : ∃ m, Scanned k ℓ m ∧ Fits S k m p := by
  classical
  induction hn : (K.filter (p < ·)).length using Nat.strong_induction_on generalizing p with
  | _ N ih =>
    by_cases hex : ∃ c ∈ K, p < c
    · obtain ⟨c, ⟨hcK, hpc⟩, hmin⟩ := exists_least K (p < ·) hex
      obtain ⟨b, a, har⟩ := (hK c hcK).around
      have haK : a ∉ K := fun h => har.after (hK a h)
      have hlt : (K.filter (a < ·)).length < N := by
        rw [← hn]
        have e : K.filter (a < ·) = (K.filter (p < ·)).filter (a < ·) := by
          rw [List.filter_filter]
          refine List.filter_congr fun d _ => ?_
          rw [Bool.eq_iff_iff]
          simp only [decide_eq_true_eq, Bool.and_eq_true]
          exact ⟨fun h => ⟨h, (hpc.trans har.gt).trans h⟩, fun h => h.1⟩
        rw [e]
        refine List.length_filter_lt_length_iff_exists.mpr ⟨c, by simp [hcK, hpc], ?_⟩
        simpa using har.gt.le
      obtain ⟨m, hm, hf⟩ := ih _ hlt a haK rfl
      have hv : ∀ n, n < k → ∃ g, SpotAgree (S n) b c a g := fun n h =>
        Germ.exists_of (fun h' => (ho n h b c a har h').1) fun h' => (ho n h b c a har h').2
      have : Nonempty Germ := ⟨.nothing⟩
      choose! v hv using hv
      have hbK : b ∉ K := fun h => har.before (hK b h)
      refine ⟨belowCut m v, .step hm fun n h => ?_, fits_below har hf hv
        (I := {q | q < c ∧ ∀ d ∈ K, d < c → d < q}) ?_ ?_ (fun q h => h.1) ?_ ?_ ?_⟩
      · have h1 := hg n h b c a _ har (hv n h)
        have h2 : (v n).right = (m (var n)).1 := by
          rw [Bool.eq_iff_iff, ← (hv n h).2.2, ← (hf (var n) (below_var.mpr h)).1]; rfl
        rwa [h2] at h1
      · rintro q ⟨h1, h2⟩ r hr
        exact ⟨nearClosed_lt (hK c hcK) q h1 r hr, fun d hd hdc => nearClosed_gt (hK d hd) q (h2 d hd hdc) r hr⟩
      · refine ⟨har.lt, fun d hd hdc => (har.le_of_lt d hdc).lt_of_ne ?_⟩
        rintro rfl
        exact hbK hd
      · rintro q ⟨h1, h2⟩ r hqr hrc
        exact ⟨hrc, fun d hd hdc => (h2 d hd hdc).trans_le hqr⟩
      · rintro n h q ⟨h1, h2⟩
        refine hS n h q b (har.le_of_lt q h1) ?_
        rintro d hd ⟨h3, h4⟩
        exact absurd (h2 d hd (h4.trans_lt har.lt)) (not_lt.mpr h3)
      · refine ⟨hpc, fun d hd hdc => ?_⟩
        rcases lt_trichotomy d p with h | rfl | h
        · exact h
        · exact absurd hd hp
        · exact absurd (hmin d hd h) (not_le.mpr hdc)
    · refine ⟨_, .start, fits_above (I := {q | ∀ d ∈ K, d < q}) ?_ ?_ (fun n h q hq => hu n h q hq) ?_⟩
      · exact fun q h2 r hr d hd => nearClosed_gt (hK d hd) q (h2 d hd) r hr
      · exact fun q h2 r hqr d hd => (h2 d hd).trans_le hqr
      · intro d hd
        rcases lt_trichotomy d p with h | rfl | h
        · exact h
        · exact absurd hd hp
        · exact absurd ⟨d, hd, h⟩ hex

end Core
end Rangetools
