import Verif.Proofs.Scan
import Verif.Props.Identities
import Verif.Proofs.Region

/-!
# Scanning the line from above to below
-/

namespace Rangetools
open Iv
variable {T : Type} [LinearOrder T]

namespace Formula

/-- The spots a formula covers, lost ones left out. -/
def spots (down up : Nat → Bool) (S : Nat → Set (Spot T)) : Formula → Set (Spot T)
  | var n => S n
  | union e f => e.spots down up S ∪ f.spots down up S
  | inter e f =>
      if e.loses down up f then
        (e.spots down up S ∩ f.spots down up S) \ (tail (e.spots down up S) \ tail (f.spots down up S))
      else e.spots down up S ∩ f.spots down up S
  | complement e => exterior (e.spots down up S)

/-! ### Places on the line -/

/-- A cut. -/
def IsCut (p : Spot T) : Prop := (ofLex p).2 = 1 ∨ (ofLex p).2 = 3

/-- `c` is a cut, with its neighbours. -/
structure Around (p c n : Spot T) : Prop where
  cut : IsCut c
  lt : p < c
  gt : c < n
  le_of_lt : ∀ q, q < c → q ≤ p
  le_of_gt : ∀ q, c < q → n ≤ q
  before : ¬ IsCut p
  after : ¬ IsCut n
  near : ∀ q, Near c q ↔ q = c ∨ q = p ∨ q = n

omit [LinearOrder T] in
theorem near_refl (p : Spot T) : Near p p := .inl rfl

omit [LinearOrder T] in
theorem near_of_not_cut {p q : Spot T} (h : ¬ IsCut p) (hn : Near p q) : q = p := by
  rcases hn with h' | ⟨-, h' | h'⟩
  · exact h'.symm
  · exact absurd (.inl h'.1) h
  · exact absurd (.inr h'.1) h

omit [LinearOrder T] in
theorem not_isCut (a : T) {j : Fin 5} (h1 : j ≠ 1) (h3 : j ≠ 3) : ¬ IsCut (spot a j) := fun h => h.elim h1 h3

theorem exists_least {α : Type} [LinearOrder α] (l : List α) (P : α → Prop) (h : ∃ c ∈ l, P c) :
    ∃ c, (c ∈ l ∧ P c) ∧ ∀ d ∈ l, P d → c ≤ d := by
  induction l with
  | nil => obtain ⟨c, hc, -⟩ := h; cases hc
  | cons a l ih =>
    by_cases h' : ∃ c ∈ l, P c
    · obtain ⟨c, ⟨h1, h2⟩, h3⟩ := ih h'
      by_cases ha : P a ∧ a ≤ c
      · refine ⟨a, ⟨List.mem_cons_self .., ha.1⟩, fun d hd hP => ?_⟩
        rcases List.mem_cons.mp hd with rfl | hd
        · exact le_rfl
        · exact ha.2.trans (h3 d hd hP)
      · refine ⟨c, ⟨List.mem_cons_of_mem _ h1, h2⟩, fun d hd hP => ?_⟩
        rcases List.mem_cons.mp hd with rfl | hd
        · exact (le_total d c).elim (fun h => absurd ⟨hP, h⟩ ha) id
        · exact h3 d hd hP
    · obtain ⟨c, hc, hP⟩ := h
      rcases List.mem_cons.mp hc with rfl | hc
      · refine ⟨c, ⟨List.mem_cons_self .., hP⟩, fun d hd hd' => ?_⟩
        rcases List.mem_cons.mp hd with rfl | hd
        · exact le_rfl
        · exact absurd ⟨d, hd, hd'⟩ h'
      · exact absurd ⟨c, hc, hP⟩ h'

theorem around_one (a : T) : Around (spot a 0) (spot a 1) (spot a 2) where
  cut := .inl rfl
  lt := spot_lt.mpr (.inr ⟨rfl, by decide⟩)
  gt := spot_lt.mpr (.inr ⟨rfl, by decide⟩)
  le_of_lt := by
    rintro ⟨b, j⟩ h
    refine spot_le.mpr ((spot_lt.mp h).imp_right fun h => ⟨h.1, ?_⟩)
    have h := h.2; clear * - h; revert j; decide
  le_of_gt := by
    rintro ⟨b, j⟩ h
    refine spot_le.mpr ((spot_lt.mp h).imp_right fun h => ⟨h.1, ?_⟩)
    have h := h.2; clear * - h; revert j; decide
  before := not_isCut a (by decide) (by decide)
  after := not_isCut a (by decide) (by decide)
  near := by
    rintro ⟨b, j⟩
    constructor
    · rintro (h | ⟨h, h' | h'⟩)
      · exact .inl h.symm
      · rcases h'.2 with h' | h'
        · exact .inr (.inl (spot_inj.mpr ⟨h.symm, h'⟩))
        · exact .inr (.inr (spot_inj.mpr ⟨h.symm, h'⟩))
      · exact absurd h'.1 (by show (1 : Fin 5) ≠ 3; decide)
    · rintro (h | h | h)
      · exact .inl h.symm
      · rw [h]; exact .inr ⟨rfl, .inl ⟨rfl, .inl rfl⟩⟩
      · rw [h]; exact .inr ⟨rfl, .inl ⟨rfl, .inr rfl⟩⟩

theorem around_three (a : T) : Around (spot a 2) (spot a 3) (spot a 4) where
  cut := .inr rfl
  lt := spot_lt.mpr (.inr ⟨rfl, by decide⟩)
  gt := spot_lt.mpr (.inr ⟨rfl, by decide⟩)
  le_of_lt := by
    rintro ⟨b, j⟩ h
    refine spot_le.mpr ((spot_lt.mp h).imp_right fun h => ⟨h.1, ?_⟩)
    have h := h.2; clear * - h; revert j; decide
  le_of_gt := by
    rintro ⟨b, j⟩ h
    refine spot_le.mpr ((spot_lt.mp h).imp_right fun h => ⟨h.1, ?_⟩)
    have h := h.2; clear * - h; revert j; decide
  before := not_isCut a (by decide) (by decide)
  after := not_isCut a (by decide) (by decide)
  near := by
    rintro ⟨b, j⟩
    constructor
    · rintro (h | ⟨h, h' | h'⟩)
      · exact .inl h.symm
      · exact absurd h'.1 (by show (3 : Fin 5) ≠ 1; decide)
      · rcases h'.2 with h' | h'
        · exact .inr (.inl (spot_inj.mpr ⟨h.symm, h'⟩))
        · exact .inr (.inr (spot_inj.mpr ⟨h.symm, h'⟩))
    · rintro (h | h | h)
      · exact .inl h.symm
      · rw [h]; exact .inr ⟨rfl, .inr ⟨rfl, .inl rfl⟩⟩
      · rw [h]; exact .inr ⟨rfl, .inr ⟨rfl, .inr rfl⟩⟩

theorem IsCut.around {c : Spot T} (h : IsCut c) : ∃ p n, Around p c n := by
  obtain ⟨a, j⟩ := c
  rcases h with h | h
  · obtain rfl : j = 1 := h
    exact ⟨_, _, around_one a⟩
  · obtain rfl : j = 3 := h
    exact ⟨_, _, around_three a⟩

theorem tail_cut {p c n : Spot T} (h : Around p c n) (A : Set (Spot T)) : c ∈ tail A ↔ c ∈ A ∧ n ∈ tail A := by
  constructor
  · exact fun h' => ⟨h' c le_rfl, fun q hq => h' q (h.gt.le.trans hq)⟩
  · rintro ⟨h1, h2⟩ q hq
    rcases hq.eq_or_lt with rfl | hq
    · exact h1
    · exact h2 q (h.le_of_gt q hq)

theorem tail_before {p c n : Spot T} (h : Around p c n) (A : Set (Spot T)) : p ∈ tail A ↔ p ∈ A ∧ c ∈ tail A := by
  constructor
  · exact fun h' => ⟨h' p le_rfl, fun q hq => h' q (h.lt.le.trans hq)⟩
  · rintro ⟨h1, h2⟩ q hq
    rcases hq.eq_or_lt with rfl | hq
    · exact h1
    · refine h2 q (not_lt.mp fun h' => ?_)
      exact absurd (h.le_of_lt q h') (not_le.mpr hq)

/-! ### Memories that are right -/

variable {down up : Nat → Bool} {S : Nat → Set (Spot T)} {k : Nat}

/-- The memory is right at this place. -/
def Fits (down up : Nat → Bool) (S : Nat → Set (Spot T)) (k : Nat) (m : Memory) (p : Spot T) : Prop :=
  ∀ e : Formula, e.vars ≤ k → (p ∈ e.spots down up S ↔ (m e).1 = true) ∧ (p ∈ tail (e.spots down up S) ↔ (m e).2 = true)

/-- Nothing happens in `I` that the cuts in it could see. -/
def NearClosed (I : Set (Spot T)) : Prop := ∀ p ∈ I, ∀ q, Near p q → q ∈ I

theorem nearClosed_gt {c : Spot T} (hc : IsCut c) : NearClosed {q | c < q} := by
  intro q h r hr
  by_cases hq : IsCut q
  · obtain ⟨x, y, hxy⟩ := hq.around
    rcases (hxy.near r).mp hr with rfl | rfl | rfl
    · exact h
    · refine (hxy.le_of_lt c h).lt_of_ne ?_
      rintro rfl
      exact hxy.before hc
    · exact lt_trans h hxy.gt
  · rw [near_of_not_cut hq hr]; exact h

theorem nearClosed_lt {c : Spot T} (hc : IsCut c) : NearClosed {q | q < c} := by
  intro q h r hr
  by_cases hq : IsCut q
  · obtain ⟨x, y, hxy⟩ := hq.around
    rcases (hxy.near r).mp hr with rfl | rfl | rfl
    · exact h
    · exact lt_trans hxy.lt h
    · refine (hxy.le_of_gt c h).lt_of_ne ?_
      rintro rfl
      exact hxy.after hc
  · rw [near_of_not_cut hq hr]; exact h

omit [LinearOrder T] in
theorem exterior_iff {I : Set (Spot T)} (hI : NearClosed I) {A : Set (Spot T)} {b : Prop} (h : ∀ p ∈ I, p ∈ A ↔ b)
    {p : Spot T} (hp : p ∈ I) : p ∈ exterior A ↔ ¬ b :=
  ⟨fun h' => fun hb => h' p (near_refl p) ((h p hp).mpr hb), fun hb q hq hA => hb ((h q (hI p hp q hq)).mp hA)⟩

theorem vars_left {e f : Formula} (h : max e.vars f.vars ≤ k) : e.vars ≤ k := (Nat.le_max_left _ _).trans h
theorem vars_right {e f : Formula} (h : max e.vars f.vars ≤ k) : f.vars ≤ k := (Nat.le_max_right _ _).trans h

/-- Above all cuts. -/
theorem fits_above {I : Set (Spot T)} (hI : NearClosed I) (hu : ∀ p ∈ I, ∀ q, p ≤ q → q ∈ I)
    (hS : ∀ n < k, ∀ p ∈ I, p ∈ S n ↔ up n = true) {p : Spot T} (hp : p ∈ I) :
    Fits down up S k (aboveAll up) p := by
  have key : ∀ e : Formula, e.vars ≤ k → ∀ p ∈ I, p ∈ e.spots down up S ↔ e.truth up = true := by
    intro e
    induction e with
    | var n => exact fun he p hp => hS n he p hp
    | union e f ihe ihf =>
      intro he p hp
      rw [spots, Set.mem_union, ihe (vars_left he) p hp, ihf (vars_right he) p hp, truth, Bool.or_eq_true]
    | inter e f ihe ihf =>
      intro he p hp
      rw [truth, Bool.and_eq_true, ← ihe (vars_left he) p hp, ← ihf (vars_right he) p hp, spots]
      split
      · rename_i hl
        simp only [loses, Bool.and_eq_true] at hl
        constructor
        · exact fun h => h.1
        · exact fun h => ⟨h, fun h' => h'.2 fun q hq => (ihf (vars_right he) q (hu p hp q hq)).mpr hl.2⟩
      · rfl
    | complement e ih =>
      intro he p hp
      rw [spots, exterior_iff hI (ih he) hp, truth]
      cases e.truth up <;> simp
  refine fun e he => ⟨key e he p hp, ?_⟩
  show _ ↔ e.truth up = true
  exact ⟨fun h => (key e he p hp).mp (h p le_rfl), fun h q hq => (key e he q (hu p hp q hq)).mpr h⟩

theorem lossy_left (a b : Germ) (x y : Bool) :
    (Germ.of (a.left && b.left && (!(x && a.middle && a.left) || (y && b.middle && b.left)))
      (a.middle && b.middle && (!(x && a.middle) || (y && b.middle))) (a.right && b.right && (!x || y))).left =
    (a.left && b.left && (!(x && a.middle && a.left) || (y && b.middle && b.left))) := by
  cases a <;> cases b <;> cases x <;> cases y <;> rfl

theorem lossy_right (a b : Germ) (x y : Bool) :
    (Germ.of (a.left && b.left && (!(x && a.middle && a.left) || (y && b.middle && b.left)))
      (a.middle && b.middle && (!(x && a.middle) || (y && b.middle))) (a.right && b.right && (!x || y))).right =
    (a.right && b.right && (!x || y)) := by
  cases a <;> cases b <;> cases x <;> cases y <;> rfl

/-- The spots around a cut and one of the five values agree. -/
def SpotAgree (A : Set (Spot T)) (p c n : Spot T) (g : Germ) : Prop :=
  (p ∈ A ↔ g.left = true) ∧ (c ∈ A ↔ g.middle = true) ∧ (n ∈ A ↔ g.right = true)

theorem diff_iff {A B X Y : Prop} {a b x y : Bool} (hA : A ↔ a = true) (hB : B ↔ b = true) (hX : X ↔ x = true)
    (hY : Y ↔ y = true) : (A ∧ B) ∧ ¬ (X ∧ ¬ Y) ↔ (a && b && (!x || y)) = true := by
  rw [hA, hB, hX, hY]
  cases a <;> cases b <;> cases x <;> cases y <;> decide

/-- At a cut. -/
theorem atCut_agree {p c n : Spot T} (h : Around p c n) {m : Memory} (hm : Fits down up S k m n) {v : Nat → Germ}
    (hv : ∀ i < k, SpotAgree (S i) p c n (v i)) (e : Formula) (he : e.vars ≤ k) :
    SpotAgree (e.spots down up S) p c n (e.atCut down up m v) := by
  induction e with
  | var i => exact hv i he
  | union e f ihe ihf =>
    have ihe := ihe (vars_left he)
    have ihf := ihf (vars_right he)
    refine ⟨?_, ?_, ?_⟩
    · rw [spots, Set.mem_union, ihe.1, ihf.1, atCut, Germ.left_union, Bool.or_eq_true]
    · rw [spots, Set.mem_union, ihe.2.1, ihf.2.1, atCut, Germ.middle_union, Bool.or_eq_true]
    · rw [spots, Set.mem_union, ihe.2.2, ihf.2.2, atCut, Germ.right_union, Bool.or_eq_true]
  | inter e f ihe ihf =>
    have ihe := ihe (vars_left he)
    have ihf := ihf (vars_right he)
    rw [spots, atCut]
    split
    · have t1 := (hm e (vars_left he)).2
      have t2 := (hm f (vars_right he)).2
      have c1 : c ∈ tail (e.spots down up S) ↔ ((m e).2 && (e.atCut down up m v).middle) = true := by
        rw [tail_cut h, t1, ihe.2.1, Bool.and_eq_true, and_comm]
      have c2 : c ∈ tail (f.spots down up S) ↔ ((m f).2 && (f.atCut down up m v).middle) = true := by
        rw [tail_cut h, t2, ihf.2.1, Bool.and_eq_true, and_comm]
      have p1 : p ∈ tail (e.spots down up S) ↔
          ((m e).2 && (e.atCut down up m v).middle && (e.atCut down up m v).left) = true := by
        rw [tail_before h, c1, ihe.1, Bool.and_eq_true _ (Germ.left _), and_comm]
      have p2 : p ∈ tail (f.spots down up S) ↔
          ((m f).2 && (f.atCut down up m v).middle && (f.atCut down up m v).left) = true := by
        rw [tail_before h, c2, ihf.1, Bool.and_eq_true _ (Germ.left _), and_comm]
      refine ⟨?_, ?_, ?_⟩
      · rw [lossy_left]
        exact diff_iff ihe.1 ihf.1 p1 p2
      · rw [Germ.middle_of]
        exact diff_iff ihe.2.1 ihf.2.1 c1 c2
      · rw [lossy_right]
        exact diff_iff ihe.2.2 ihf.2.2 t1 t2
    · refine ⟨?_, ?_, ?_⟩
      · rw [Set.mem_inter_iff, ihe.1, ihf.1, Germ.left_inter, Bool.and_eq_true]
      · rw [Set.mem_inter_iff, ihe.2.1, ihf.2.1, Germ.middle_inter, Bool.and_eq_true]
      · rw [Set.mem_inter_iff, ihe.2.2, ihf.2.2, Germ.right_inter, Bool.and_eq_true]
  | complement e ih =>
    have ih := ih he
    rw [spots, atCut]
    have h0 : ∀ q : Spot T, ¬ IsCut q → (q ∈ exterior (e.spots down up S) ↔ q ∉ e.spots down up S) := fun q hq =>
      ⟨fun h' => h' q (near_refl q), fun h' r hr => by rw [near_of_not_cut hq hr]; exact h'⟩
    refine ⟨?_, ?_, ?_⟩
    · rw [h0 p h.before, ih.1, Germ.left_complement]
      cases (e.atCut down up m v).left <;> simp
    · have : c ∈ exterior (e.spots down up S) ↔ p ∉ e.spots down up S ∧ c ∉ e.spots down up S ∧ n ∉ e.spots down up S := by
        constructor
        · exact fun h' => ⟨h' p ((h.near p).mpr (.inr (.inl rfl))), h' c (near_refl c), h' n ((h.near n).mpr (.inr (.inr rfl)))⟩
        · rintro ⟨h1, h2, h3⟩ q hq
          rcases (h.near q).mp hq with rfl | rfl | rfl <;> assumption
      rw [this, ih.1, ih.2.1, ih.2.2, Germ.middle_complement]
      generalize e.atCut down up m v = g
      cases g <;> decide
    · rw [h0 n h.after, ih.2.2, Germ.right_complement]
      cases (e.atCut down up m v).right <;> simp

/-- Below a cut, as far as no other comes. -/
theorem fits_below {p c n : Spot T} (h : Around p c n) {m : Memory} (hm : Fits down up S k m n) {v : Nat → Germ}
    (hv : ∀ i < k, SpotAgree (S i) p c n (v i)) {I : Set (Spot T)} (hI : NearClosed I) (hp : p ∈ I)
    (hc : ∀ q ∈ I, q < c) (hu : ∀ q ∈ I, ∀ r, q ≤ r → r < c → r ∈ I)
    (hS : ∀ i < k, ∀ q ∈ I, q ∈ S i ↔ p ∈ S i) {q : Spot T} (hq : q ∈ I) :
    Fits down up S k (belowCut down up m v) q := by
  have ht : ∀ A : Set (Spot T), (∀ q ∈ I, q ∈ A ↔ p ∈ A) → ∀ q ∈ I, q ∈ tail A ↔ p ∈ tail A := by
    intro A hA q hq
    constructor
    · exact fun h' r hr => h' r ((h.le_of_lt q (hc q hq)).trans hr)
    · intro h' r hr
      by_cases hrc : r < c
      · exact (hA r (hu q hq r hr hrc)).mpr (h' p le_rfl)
      · exact h' r (h.lt.le.trans (not_lt.mp hrc))
  have key : ∀ e : Formula, e.vars ≤ k → ∀ q ∈ I, q ∈ e.spots down up S ↔ p ∈ e.spots down up S := by
    intro e
    induction e with
    | var i => exact fun he q hq => hS i he q hq
    | union e f ihe ihf =>
      intro he q hq
      rw [spots, Set.mem_union, Set.mem_union, ihe (vars_left he) q hq, ihf (vars_right he) q hq]
    | inter e f ihe ihf =>
      intro he q hq
      have i1 := ihe (vars_left he)
      have i2 := ihf (vars_right he)
      rw [spots]
      split
      · rw [Set.mem_sdiff, Set.mem_sdiff, Set.mem_sdiff, Set.mem_sdiff, Set.mem_inter_iff, Set.mem_inter_iff, i1 q hq, i2 q hq,
          ht _ i1 q hq, ht _ i2 q hq]
      · rw [Set.mem_inter_iff, Set.mem_inter_iff, i1 q hq, i2 q hq]
    | complement e ih =>
      intro he q hq
      rw [spots, exterior_iff hI (ih he) hq, exterior_iff hI (ih he) hp]
  intro e he
  have ha := atCut_agree h hm hv e he
  refine ⟨(key e he q hq).trans ha.1, (ht _ (key e he) q hq).trans ?_⟩
  rw [tail_before h, tail_cut h, ha.1, ha.2.1, (hm e he).2]
  simp only [belowCut, Bool.and_eq_true]
  tauto

/-! ### What a memory says of a cut below it -/

theorem right_atCut {m : Memory} (hm : Scanned k down up m) {v : Nat → Germ}
    (hv : ∀ n < k, (v n).right = (m (var n)).1) (e : Formula) (he : e.vars ≤ k) :
    (e.atCut down up m v).right = (m e).1 := by
  cases hm with
  | start =>
    induction e with
    | var n => exact hv n he
    | union e f ihe ihf => rw [atCut, Germ.right_union, ihe (vars_left he), ihf (vars_right he)]; rfl
    | inter e f ihe ihf =>
      rw [atCut]
      split
      · rename_i hl
        simp only [loses, Bool.and_eq_true] at hl
        rw [lossy_right, ihe (vars_left he), ihf (vars_right he)]
        simp [aboveAll, truth, hl.2]
      · rw [Germ.right_inter, ihe (vars_left he), ihf (vars_right he)]; rfl
    | complement e ih => rw [atCut, Germ.right_complement, ih he]; rfl
  | step hm' hv' =>
    rename_i m' v'
    induction e with
    | var n => exact hv n he
    | union e f ihe ihf =>
      rw [atCut, Germ.right_union, ihe (vars_left he), ihf (vars_right he)]
      simp only [belowCut, atCut, Germ.left_union]
    | inter e f ihe ihf =>
      rw [atCut]
      split
      · rename_i hl
        rw [lossy_right, ihe (vars_left he), ihf (vars_right he)]
        simp only [belowCut]
        rw [atCut, if_pos hl, lossy_left]
      · rename_i hl
        rw [Germ.right_inter, ihe (vars_left he), ihf (vars_right he)]
        simp only [belowCut]
        rw [atCut, if_neg hl, Germ.left_inter]
    | complement e ih =>
      rw [atCut, Germ.right_complement, ih he]
      simp only [belowCut, atCut, Germ.left_complement]

theorem left_atCut (m : Memory) {v : Nat → Germ} (hv : ∀ n < k, (v n).left = down n) (e : Formula) (he : e.vars ≤ k) :
    (e.atCut down up m v).left = e.truth down := by
  induction e with
  | var n => exact hv n he
  | union e f ihe ihf => rw [atCut, Germ.left_union, ihe (vars_left he), ihf (vars_right he), truth]
  | inter e f ihe ihf =>
    rw [atCut]
    split
    · rename_i hl
      simp only [loses, Bool.and_eq_true, Bool.not_eq_true'] at hl
      rw [lossy_left, ihe (vars_left he), hl.1.1.1, truth, hl.1.1.1]; rfl
    · rw [Germ.left_inter, ihe (vars_left he), ihf (vars_right he), truth]
  | complement e ih => rw [atCut, Germ.left_complement, ih he, truth]

/-! ### A line with finitely many cuts -/

/-- Everywhere but on a cut some memory found by the scan is right; and at every cut so is what it says of the cut. -/
theorem exists_fits {K : List (Spot T)} (hK : ∀ c ∈ K, IsCut c)
    (hS : ∀ n < k, ∀ p q, p ≤ q → (∀ c ∈ K, ¬ (p ≤ c ∧ c ≤ q)) → (p ∈ S n ↔ q ∈ S n))
    (hu : ∀ n < k, ∀ p, (∀ c ∈ K, c < p) → (p ∈ S n ↔ up n = true))
    (ho : ∀ n < k, ∀ p c q, Around p c q → c ∈ S n → p ∈ S n ∧ q ∈ S n) (p : Spot T) (hp : p ∉ K) :
    ∃ m, Scanned k down up m ∧ Fits down up S k m p := by
  classical
  induction hn : (K.filter (p < ·)).length using Nat.strong_induction_on generalizing p with
  | _ N ih =>
    by_cases hex : ∃ c ∈ K, p < c
    · obtain ⟨c, ⟨hcK, hpc⟩, hmin⟩ := exists_least K (p < ·) hex
      obtain ⟨b, a, har⟩ := (hK c hcK).around
      have haK : a ∉ K := fun h => har.after (hK a h)
      have hlt : (K.filter (a < ·)).length < N := by
        rw [← hn]
        have e : K.filter (a < ·) = (K.filter (p < ·)).filter (a < ·) := by
          rw [List.filter_filter]
          refine List.filter_congr fun d _ => ?_
          rw [Bool.eq_iff_iff]
          simp only [decide_eq_true_eq, Bool.and_eq_true]
          exact ⟨fun h => ⟨h, (hpc.trans har.gt).trans h⟩, fun h => h.1⟩
        rw [e]
        refine List.length_filter_lt_length_iff_exists.mpr ⟨c, by simp [hcK, hpc], ?_⟩
        simpa using har.gt.le
      obtain ⟨m, hm, hf⟩ := ih _ hlt a haK rfl
      have hv : ∀ n, n < k → ∃ g, SpotAgree (S n) b c a g := fun n h =>
        Germ.exists_of (fun h' => (ho n h b c a har h').1) fun h' => (ho n h b c a har h').2
      have : Nonempty Germ := ⟨.nothing⟩
      choose! v hv using hv
      have hbK : b ∉ K := fun h => har.before (hK b h)
      refine ⟨belowCut down up m v, .step hm fun n h => ?_, fits_below har hf hv
        (I := {q | q < c ∧ ∀ d ∈ K, d < c → d < q}) ?_ ?_ (fun q h => h.1) ?_ ?_ ?_⟩
      · rw [Bool.eq_iff_iff, ← (hv n h).2.2, ← (hf (var n) h).1]; rfl
      · rintro q ⟨h1, h2⟩ r hr
        exact ⟨nearClosed_lt (hK c hcK) q h1 r hr, fun d hd hdc => nearClosed_gt (hK d hd) q (h2 d hd hdc) r hr⟩
      · refine ⟨har.lt, fun d hd hdc => (har.le_of_lt d hdc).lt_of_ne ?_⟩
        rintro rfl
        exact hbK hd
      · rintro q ⟨h1, h2⟩ r hqr hrc
        exact ⟨hrc, fun d hd hdc => (h2 d hd hdc).trans_le hqr⟩
      · rintro n h q ⟨h1, h2⟩
        refine hS n h q b (har.le_of_lt q h1) ?_
        rintro d hd ⟨h3, h4⟩
        exact absurd (h2 d hd (h4.trans_lt har.lt)) (not_lt.mpr h3)
      · refine ⟨hpc, fun d hd hdc => ?_⟩
        rcases lt_trichotomy d p with h | rfl | h
        · exact h
        · exact absurd hd hp
        · exact absurd (hmin d hd h) (not_le.mpr hdc)
    · refine ⟨_, .start, fits_above (I := {q | ∀ d ∈ K, d < q}) ?_ ?_ (fun n h q hq => hu n h q hq) ?_⟩
      · exact fun q h2 r hr d hd => nearClosed_gt (hK d hd) q (h2 d hd) r hr
      · exact fun q h2 r hqr d hd => (h2 d hd).trans_le hqr
      · intro d hd
        rcases lt_trichotomy d p with h | rfl | h
        · exact h
        · exact absurd hd hp
        · exact absurd ⟨d, hd, h⟩ hex

end Formula
end Rangetools
